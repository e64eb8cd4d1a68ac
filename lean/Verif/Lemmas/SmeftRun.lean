import Verif.Model.SmeftRun
import Verif.Lemmas.Beta
import Mathlib.Topology.Algebra.Field
import Mathlib.Analysis.Complex.Basic
import Mathlib.Topology.Algebra.Monoid
import Mathlib.Tactic.FinCases

/-!
# Lemmas for the leading-log running: the loop, and continuity of tensor expressions
-/

set_option autoImplicit false

open Classical

namespace Verif.Tens

variable {κ : Type}

/-- expressions that only depend on the variables marked by `D` -/
def onlyVars (D : κ → Bool) : E κ → Bool
  | .s k => D k
  | .t k => D k
  | .num _ => true
  | .i => true
  | .eye => true
  | .add a b => onlyVars D a && onlyVars D b
  | .sub a b => onlyVars D a && onlyVars D b
  | .neg a => onlyVars D a
  | .mul a b => onlyVars D a && onlyVars D b
  | .div a b => onlyVars D a && onlyVars D b
  | .pow a _ => onlyVars D a
  | .mat a b => onlyVars D a && onlyVars D b
  | .conj a => onlyVars D a
  | .tr a => onlyVars D a
  | .trace a => onlyVars D a
  | .ein _ a _ b _ c => onlyVars D a && onlyVars D b && onlyVars D c

/-- every divisor only depends on the variables marked by `D` -/
def divOnly (D : κ → Bool) : E κ → Bool
  | .s _ => true
  | .t _ => true
  | .num _ => true
  | .i => true
  | .eye => true
  | .add a b => divOnly D a && divOnly D b
  | .sub a b => divOnly D a && divOnly D b
  | .neg a => divOnly D a
  | .mul a b => divOnly D a && divOnly D b
  | .div a b => divOnly D a && onlyVars D b
  | .pow a _ => divOnly D a
  | .mat a b => divOnly D a && divOnly D b
  | .conj a => divOnly D a
  | .tr a => divOnly D a
  | .trace a => divOnly D a
  | .ein _ a _ b _ c => divOnly D a && divOnly D b && divOnly D c

theorem onlyVars_sound (D : κ → Bool) (env env' : κ → Ten) (h : ∀ k, D k = true → env k = env' k)
    (e : E κ) (he : onlyVars D e = true) : eval env e = eval env' e := by
  induction e with
  | s k => simp only [eval]; rw [h k he]
  | t k => simp only [eval]; rw [h k he]
  | num | i | eye => rfl
  | add a b iha ihb | sub a b iha ihb | mul a b iha ihb | div a b iha ihb | mat a b iha ihb =>
    simp only [onlyVars, Bool.and_eq_true] at he
    simp only [eval]; rw [iha he.1, ihb he.2]
  | neg a ih | pow a _ ih | conj a ih | tr a ih | trace a ih =>
    simp only [onlyVars] at he
    simp only [eval]; rw [ih he]
  | ein _ a _ b _ c iha ihb ihc =>
    simp only [onlyVars, Bool.and_eq_true] at he
    simp only [eval]; rw [iha he.1.1, ihb he.1.2, ihc he.2]

/-- the value of an expression depends continuously on its variables -/
theorem continuous_eval (D : κ → Bool) (env : ℝ → κ → Ten)
    (hc : ∀ k ix, Continuous fun t => env t k ix) (hD : ∀ k, D k = true → ∀ t, env t k = env 0 k)
    (e : E κ) (he : divOnly D e = true) : ∀ ix, Continuous fun t => eval (env t) e ix := by
  induction e with
  | s k => intro ix; exact hc k []
  | t k => intro ix; exact hc k ix
  | num n => intro ix; exact continuous_const
  | i => intro ix; exact continuous_const
  | eye => intro ix; exact continuous_const
  | add a b iha ihb =>
    simp only [divOnly, Bool.and_eq_true] at he
    intro ix; exact (iha he.1 ix).add (ihb he.2 ix)
  | sub a b iha ihb =>
    simp only [divOnly, Bool.and_eq_true] at he
    intro ix; exact (iha he.1 ix).sub (ihb he.2 ix)
  | neg a ih => intro ix; exact (ih he ix).neg
  | mul a b iha ihb =>
    simp only [divOnly, Bool.and_eq_true] at he
    intro ix; exact (iha he.1 ix).mul (ihb he.2 ix)
  | div a b iha ihb =>
    simp only [divOnly, Bool.and_eq_true] at he
    intro ix
    have : ∀ t, eval (env t) b ix = eval (env 0) b ix := fun t =>
      congrFun (onlyVars_sound D _ _ (fun k hk => hD k hk t) b he.2) ix
    simp only [eval, this]
    exact (iha he.1 ix).div_const _
  | pow a n ih => intro ix; exact (ih he ix).pow n
  | mat a b iha ihb =>
    simp only [divOnly, Bool.and_eq_true] at he
    intro ix
    simp only [eval]
    match ix with
    | [i, j] =>
      simp only [matT]
      exact continuous_finsetSum _ fun k _ => (iha he.1 _).mul (ihb he.2 _)
    | [] => exact continuous_const
    | [_] => exact continuous_const
    | _ :: _ :: _ :: _ => exact continuous_const
  | conj a ih => intro ix; exact Complex.continuous_conj.comp (ih he ix)
  | tr a ih => intro ix; exact ih he ix.reverse
  | trace a ih =>
    intro ix
    simp only [eval, traceT]
    exact continuous_finsetSum _ fun k _ => ih he _
  | ein _ a _ b _ c iha ihb ihc =>
    simp only [divOnly, Bool.and_eq_true] at he
    intro ix
    exact continuous_finsetSum _ fun k _ =>
      ((iha he.1.1 _).mul (ihb he.1.2 _)).mul (ihc he.2 _)

end Verif.Tens

namespace Verif.SmeftRun

open Verif.Tens Verif.Beta

/-- the value of a parameter; absent means zero -/
noncomputable def val (C : Dict Key Ten) (k : Key) : Ten := (C.get? k).getD fun _ => 0

theorem get?_mapKV {κ α β : Type} [DecidableEq κ] (f : κ → α → β) (d : Dict κ α) (k : κ) :
    Dict.get? (d.map fun kv => (kv.1, f kv.1 kv.2)) k = (d.get? k).map (f k) := by
  induction d with
  | nil => rfl
  | cons kv d ih =>
    obtain ⟨k', v⟩ := kv
    rw [List.map_cons, Dict.get?_cons, Dict.get?_cons]
    split
    · rename_i h; subst h; rfl
    · exact ih

theorem llLoop_ok (b : Dict Key Ten) (s_in s_out L : ℝ) (hL : logRatio s_out s_in = .ok L)
    (d : Dict Key Ten) (h : ∀ k ∈ d.keys, k ∈ b.keys) :
    llLoop b s_in s_out d = .ok (d.map fun kv => (kv.1, (fun k C ix =>
      C ix + val b k ix / (16 * Real.pi ^ 2 : ℂ) * L : Key → Ten → Ten) kv.1 kv.2)) := by
  induction d with
  | nil => rfl
  | cons kv d ih =>
    obtain ⟨k, C⟩ := kv
    have hk : (b.get? k).isSome := (Dict.isSome_get?_iff b k).2 (h k (by simp [Dict.keys]))
    obtain ⟨B, hB⟩ := Option.isSome_iff_exists.1 hk
    unfold llLoop
    rw [hB, hL, ih fun k' hk' => h k' (by simp [Dict.keys] at hk' ⊢; exact Or.inr hk')]
    simp [val, hB, bind, Except.bind]

theorem logRatio_pos {a b : ℝ} (ha : 0 < a) (hb : 0 < b) : logRatio a b = .ok (Real.log (a / b)) := by
  unfold logRatio
  rw [if_neg hb.ne', if_neg (not_le.2 (div_pos ha hb))]

/-- divisions in the beta functions are by numbers and powers of `HIGHSCALE` only -/
theorem beta_divOnly : ∀ ke ∈ locProg ++ loc2Prog ++ (smProg ++ npProg),
    divOnly (fun k => decide (k = .HIGHSCALE)) ke.2 = true := by decide +kernel

theorem loc_ne_highscale : ∀ ke ∈ locProg ++ loc2Prog, ke.1 ≠ .HIGHSCALE := by decide +kernel

/-- the beta functions are continuous along continuous families of parameters -/
theorem continuous_beta (C : ℝ → Key → Ten) (hC : ∀ k ∈ keys, ∀ ix, Continuous fun t => C t k ix)
    (h : ℂ) (cKeys : List Key) (k : Key) (hk : k ∈ keys) :
    ∃ B : ℝ → Ten, (∀ t, (beta cKeys (C t) h true).get? k = some (B t)) ∧
      ∀ ix, Continuous fun t => B t ix := by
  have := beta_relN (ι := ℝ)
    (fun k A => (∀ ix, Continuous fun t => A t ix) ∧ (k = .HIGHSCALE → ∀ t, A t = A 0))
    (fun _ A => ∀ ix, Continuous fun t => A t ix) (fun _ => True) C h cKeys
    (by
      intro k
      by_cases h1 : k = .HIGHSCALE
      · simp only [input, if_pos h1]
        exact ⟨fun ix => continuous_const, fun _ _ => trivial⟩
      · simp only [input, if_neg h1]
        by_cases h2 : k ∈ keys
        · simp only [if_pos h2]
          exact ⟨hC k h2, fun h => absurd h h1⟩
        · simp only [if_neg h2]
          exact ⟨fun ix => continuous_const, fun _ _ => trivial⟩)
    (by
      intro ke hke env henv
      refine ⟨?_, fun h => absurd h (loc_ne_highscale ke hke)⟩
      exact continuous_eval _ _ (fun k => (henv k).1)
        (fun k hk t => (henv k).2 (of_decide_eq_true hk) t) _
        (beta_divOnly ke (List.mem_append_left _ hke)))
    (by
      intro ke hke _ env henv
      exact continuous_eval _ _ (fun k => (henv k).1)
        (fun k hk t => (henv k).2 (of_decide_eq_true hk) t) _
        (beta_divOnly ke (List.mem_append_right _ hke)))
    k hk trivial
  exact this

end Verif.SmeftRun
