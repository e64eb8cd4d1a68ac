import Verif.Spec.Match
import Verif.Lemmas.BetaSym
import Verif.Lemmas.BetaFlavour
import Verif.Lemmas.WetRun

/-!
# Lemmas: tree-level matching
-/

set_option autoImplicit false
set_option linter.unusedSimpArgs false

namespace Verif.Match
open Verif Verif.Spec Verif.Tens Verif.Beta Verif.Rotation Verif.Flavour Verif.NF Verif.BetaSym
open Verif.WetRun (ok_bind)

theorem prog_nodup : (treeProg.map Prod.fst).Nodup := by decide +kernel
theorem prog_keys : ∀ k ∈ WKey.all, k ∈ treeProg.map Prod.fst := by decide +kernel

theorem item_ok {κ α : Type} [DecidableEq κ] {d : Dict κ α} {k : κ} {v : α} (h : item d k = .ok v) :
    d.get? k = some v := by
  unfold item at h
  cases hd : d.get? k with
  | none => simp [hd] at h
  | some w => simp [hd] at h; rw [h]

theorem get?_prog {β : Type} (f : E MV → β) (k : WKey) (e : E MV) (h : (k, e) ∈ treeProg) :
    Dict.get? (treeProg.map fun ke => (ke.1, f ke.2)) k = some (f e) := by
  refine Dict.get?_of_mem ?_ (List.mem_map.2 ⟨_, h, rfl⟩)
  unfold Dict.NodupKeys Dict.keys
  rw [List.map_map]
  exact prog_nodup

theorem raw_ok {C : Dict Key Ten} {p : Dict String ℝ} {m : Dict WKey Ten}
    (h : matchRaw C p = .ok m) : ∃ s, scalars C p = .ok s ∧ (∀ k ∈ treeKeys, C.mem k = true) ∧
      m = treeProg.map fun ke => (ke.1, eval (env C s) ke.2) := by
  obtain ⟨s, hs, h⟩ := ok_bind h
  refine ⟨s, hs, ?_⟩
  by_cases hk : treeKeys.all C.mem = true
  · rw [if_pos hk] at h
    injection h with h
    exact ⟨fun k hm => List.all_eq_true.1 hk k hm, h.symm⟩
  · rw [if_neg hk] at h; cases h

/-- value of a matching condition, Standard Model part subtracted -/
noncomputable def diffE (C : Dict Key Ten) (s s0 : Scal) (e : E MV) : Ten := fun ix =>
  eval (env C s) e ix - eval (env (zeroed C) s0) e ix

theorem sub_loop (f g : E MV → Ten) (l : List (WKey × E MV)) (hl : ∀ ke ∈ l, ke ∈ treeProg) :
    (List.mapM (fun kv : WKey × Ten =>
        (item (treeProg.map fun ke => (ke.1, g ke.2) : Dict WKey Ten) kv.1).map fun B =>
          (kv.1, fun ix => kv.2 ix - B ix)) (l.map fun ke => (ke.1, f ke.2)) :
        Except Exc (List (WKey × Ten)))
      = .ok (l.map fun ke => (ke.1, fun ix => f ke.2 ix - g ke.2 ix)) := by
  induction l with
  | nil => rfl
  | cons ke l ih =>
    simp only [List.map_cons]
    rw [List.mapM_cons, ih fun x hx => hl x (by simp [hx])]
    have : item (treeProg.map fun ke => (ke.1, g ke.2) : Dict WKey Ten) ke.1 = .ok (g ke.2) := by
      unfold item
      rw [get?_prog g ke.1 ke.2 (hl ke (by simp))]
    rw [this]
    rfl

theorem tree_ok {C : Dict Key Ten} {p : Dict String ℝ} {D : Dict WKey Ten}
    (h : matchTree C p = .ok D) : ∃ s s0, scalars C p = .ok s ∧ scalars (zeroed C) p = .ok s0 ∧
      (∀ k ∈ treeKeys, C.mem k = true) ∧
      D = treeProg.map fun ke => (ke.1, diffE C s s0 ke.2) := by
  unfold matchTree at h
  obtain ⟨m, h1, h⟩ := ok_bind h
  obtain ⟨m0, h2, h⟩ := ok_bind h
  obtain ⟨s, hs, hk, rfl⟩ := raw_ok h1
  obtain ⟨s0, hs0, _, rfl⟩ := raw_ok h2
  refine ⟨s, s0, hs, hs0, hk, ?_⟩
  have := (sub_loop (fun e => eval (env C s) e) (fun e => eval (env (zeroed C) s0) e) treeProg
    (fun _ h => h)).symm.trans h
  exact (Except.ok.inj this).symm

theorem tree_of_scal {C : Dict Key Ten} {p : Dict String ℝ} {s s0 : Scal}
    (h1 : scalars C p = .ok s) (h2 : scalars (zeroed C) p = .ok s0)
    (hk : ∀ k ∈ treeKeys, C.mem k = true) :
    matchTree C p = .ok (treeProg.map fun ke => (ke.1, diffE C s s0 ke.2)) := by
  have hk0 : treeKeys.all (zeroed C).mem = true := by
    rw [List.all_eq_true]
    intro k hm
    rw [Dict.mem_iff, zeroed, Dict.keys_mapVal, ← Dict.mem_iff]
    exact hk k hm
  have hk1 : treeKeys.all C.mem = true := List.all_eq_true.2 hk
  unfold matchTree matchRaw
  rw [h1, h2]
  simp only [bind, Except.bind]
  rw [if_pos hk1, if_pos hk0]
  exact sub_loop (fun e => eval (env C s) e) (fun e => eval (env (zeroed C) s0) e) treeProg
    (fun _ h => h)

theorem tree_get {C : Dict Key Ten} {s s0 : Scal} {k : WKey} {B : Ten}
    (h : Dict.get? (treeProg.map fun ke => (ke.1, diffE C s s0 ke.2)) k = some B) :
    ∃ e, (k, e) ∈ treeProg ∧ B = diffE C s s0 e := by
  have := Dict.mem_of_get? h
  obtain ⟨ke, hm, he⟩ := List.mem_map.1 this
  injection he with h1 h2
  exact ⟨ke.2, h1 ▸ hm, h2.symm⟩

theorem val_zeroed (C : Dict Key Ten) (k : Key) (ix : Ix) : val (zeroed C) k ix = 0 := by
  unfold val zeroed
  rw [Dict.get?_mapVal]
  cases C.get? k <;> simp

/-! ### Expressions depend on the variables that occur -/

/-- only variables with `P` occur -/
def usesOnly {κ : Type} (P : κ → Bool) : E κ → Bool
  | .s k => P k
  | .t k => P k
  | .num _ => true
  | .i => true
  | .eye => true
  | .add a b => usesOnly P a && usesOnly P b
  | .sub a b => usesOnly P a && usesOnly P b
  | .neg a => usesOnly P a
  | .mul a b => usesOnly P a && usesOnly P b
  | .div a b => usesOnly P a && usesOnly P b
  | .pow a _ => usesOnly P a
  | .mat a b => usesOnly P a && usesOnly P b
  | .conj a => usesOnly P a
  | .tr a => usesOnly P a
  | .trace a => usesOnly P a
  | .ein _ a _ b _ c => usesOnly P a && usesOnly P b && usesOnly P c

theorem uses_sound {κ : Type} (P : κ → Bool) (en en' : κ → Ten) (hP : ∀ k, P k = true → en k = en' k)
    (e : E κ) (h : usesOnly P e = true) : eval en e = eval en' e := by
  induction e with
  | s k => funext ix; simp only [eval]; rw [hP k h]
  | t k => simp only [eval]; exact hP k h
  | num n => rfl
  | i => rfl
  | eye => rfl
  | add a b iha ihb =>
    simp only [usesOnly, Bool.and_eq_true] at h
    simp only [eval, iha h.1, ihb h.2]
  | sub a b iha ihb =>
    simp only [usesOnly, Bool.and_eq_true] at h
    simp only [eval, iha h.1, ihb h.2]
  | neg a ih => simp only [eval, ih h]
  | mul a b iha ihb =>
    simp only [usesOnly, Bool.and_eq_true] at h
    simp only [eval, iha h.1, ihb h.2]
  | div a b iha ihb =>
    simp only [usesOnly, Bool.and_eq_true] at h
    simp only [eval, iha h.1, ihb h.2]
  | pow a n ih => simp only [eval, ih h]
  | mat a b iha ihb =>
    simp only [usesOnly, Bool.and_eq_true] at h
    simp only [eval, iha h.1, ihb h.2]
  | conj a ih => simp only [eval, ih h]
  | tr a ih => simp only [eval, ih h]
  | trace a ih => simp only [eval, ih h]
  | ein s1 a s2 b s3 c iha ihb ihc =>
    simp only [usesOnly, Bool.and_eq_true] at h
    simp only [eval, iha h.1.1, ihb h.1.2, ihc h.2]

/-! ### Symmetry -/

/-- sort key of the variables -/
def rkM : MV → ℕ
  | .c k => k.ctorIdx + 5
  | .mW => 0 | .mZ => 1 | .vT => 2 | .g1bar => 3 | .sqrt2 => 4

/-- symmetry relations of the variables -/
def relM : MV → List Rl
  | .c k => relsC (clNoFierz k)
  | _ => [⟨[], true⟩]

/-- a real scalar: made of numbers and real scalar variables -/
def realS : E MV → Bool
  | .s v => decide (([] : List ℕ) ∈ (relM v).map Rl.p) && (relM v).all fun g => g.p.isEmpty && g.cc
  | .num _ => true
  | .add a b => realS a && realS b
  | .sub a b => realS a && realS b
  | .neg a => realS a
  | .mul a b => realS a && realS b
  | .div a b => realS a && realS b
  | .pow a _ => realS a
  | _ => false

theorem realS_sound (env : MV → Ten) (henv : ∀ v, ∀ g ∈ relM v, Obeys (env v) g) (e : E MV)
    (h : realS e = true) : ∃ x : ℝ, ∀ ix, eval env e ix = x := by
  induction e with
  | s v =>
    simp only [realS, Bool.and_eq_true, decide_eq_true_eq, List.mem_map, List.all_eq_true,
      List.isEmpty_iff] at h
    obtain ⟨⟨g, hg, hp⟩, hall⟩ := h
    have := henv v g hg [] [] (by rw [hp]; rfl) (by rw [hp]; rfl)
    rw [(hall g hg).2] at this
    simp only [cjIf, if_true] at this
    exact ⟨(env v []).re, fun ix => (Complex.conj_eq_iff_real.1 this.symm).elim fun r hr => by
      simp only [eval]; rw [hr]; simp⟩
  | num q => exact ⟨(q : ℝ), fun ix => by simp [eval]⟩
  | add a b iha ihb =>
    simp only [realS, Bool.and_eq_true] at h
    obtain ⟨x, hx⟩ := iha h.1
    obtain ⟨y, hy⟩ := ihb h.2
    exact ⟨x + y, fun ix => by simp [eval, hx, hy]⟩
  | sub a b iha ihb =>
    simp only [realS, Bool.and_eq_true] at h
    obtain ⟨x, hx⟩ := iha h.1
    obtain ⟨y, hy⟩ := ihb h.2
    exact ⟨x - y, fun ix => by simp [eval, hx, hy]⟩
  | neg a ih =>
    obtain ⟨x, hx⟩ := ih h
    exact ⟨-x, fun ix => by simp [eval, hx]⟩
  | mul a b iha ihb =>
    simp only [realS, Bool.and_eq_true] at h
    obtain ⟨x, hx⟩ := iha h.1
    obtain ⟨y, hy⟩ := ihb h.2
    exact ⟨x * y, fun ix => by simp [eval, hx, hy]⟩
  | div a b iha ihb =>
    simp only [realS, Bool.and_eq_true] at h
    obtain ⟨x, hx⟩ := iha h.1
    obtain ⟨y, hy⟩ := ihb h.2
    exact ⟨x / y, fun ix => by simp [eval, hx, hy]⟩
  | pow a n ih =>
    obtain ⟨x, hx⟩ := ih h
    exact ⟨x ^ n, fun ix => by simp [eval, hx]⟩
  | _ => simp [realS] at h

/-- `relCheck`, after splitting sums and dropping real scalar factors where possible -/
noncomputable def srel (g : Rl) : E MV → Bool
  | .add a b => (srel g b && srel g a) || relCheck rkM relM (.add a b) g
  | .sub a b => (srel g b && srel g a) || relCheck rkM relM (.sub a b) g
  | .neg a => srel g a
  | .mul a b => if realS a then srel g b else relCheck rkM relM (.mul a b) g
  | .div a b => if realS b then srel g a else relCheck rkM relM (.div a b) g
  | e => relCheck rkM relM e g

theorem cjIf_add (b : Bool) (x y : ℂ) : cjIf b (x + y) = cjIf b x + cjIf b y := by
  cases b <;> simp [cjIf]
theorem cjIf_sub (b : Bool) (x y : ℂ) : cjIf b (x - y) = cjIf b x - cjIf b y := by
  cases b <;> simp [cjIf]
theorem cjIf_neg (b : Bool) (x : ℂ) : cjIf b (-x) = -cjIf b x := by cases b <;> simp [cjIf]
theorem cjIf_mulr (b : Bool) (r : ℝ) (x : ℂ) : cjIf b (r * x) = r * cjIf b x := by
  cases b <;> simp [cjIf]
theorem cjIf_divr (b : Bool) (r : ℝ) (x : ℂ) : cjIf b (x / r) = cjIf b x / r := by
  cases b <;> simp [cjIf]

theorem srel_sound (env : MV → Ten) (henv : ∀ v, ∀ g ∈ relM v, Obeys (env v) g) (g : Rl) (e : E MV)
    (h : srel g e = true) : Obeys (eval env e) g := by
  induction e with
  | add a b iha ihb =>
    simp only [srel, Bool.or_eq_true, Bool.and_eq_true] at h
    rcases h with h | h
    · intro ix ix' hl hp
      simp only [eval]
      rw [iha h.2 ix ix' hl hp, ihb h.1 ix ix' hl hp, cjIf_add]
    · exact relCheck_sound rkM env relM henv _ _ h
  | sub a b iha ihb =>
    simp only [srel, Bool.or_eq_true, Bool.and_eq_true] at h
    rcases h with h | h
    · intro ix ix' hl hp
      simp only [eval]
      rw [iha h.2 ix ix' hl hp, ihb h.1 ix ix' hl hp, cjIf_sub]
    · exact relCheck_sound rkM env relM henv _ _ h
  | neg a ih =>
    intro ix ix' hl hp
    simp only [eval]
    rw [ih h ix ix' hl hp, cjIf_neg]
  | mul a b iha ihb =>
    simp only [srel] at h
    by_cases hr : realS a = true
    · rw [if_pos hr] at h
      obtain ⟨x, hx⟩ := realS_sound env henv a hr
      intro ix ix' hl hp
      simp only [eval, hx]
      rw [ihb h ix ix' hl hp, cjIf_mulr]
    · rw [if_neg hr] at h
      exact relCheck_sound rkM env relM henv _ _ h
  | div a b iha ihb =>
    simp only [srel] at h
    by_cases hr : realS b = true
    · rw [if_pos hr] at h
      obtain ⟨x, hx⟩ := realS_sound env henv b hr
      intro ix ix' hl hp
      simp only [eval, hx]
      rw [iha h ix ix' hl hp, cjIf_divr]
    · rw [if_neg hr] at h
      exact relCheck_sound rkM env relM henv _ _ h
  | _ => exact relCheck_sound rkM env relM henv _ _ h

/-- symmetry relations of the JMS coefficients -/
def gensW (k : WKey) : List Rl :=
  match wetClass k with
  | 4 => [⟨[2, 3, 0, 1], false⟩, ⟨[1, 0, 3, 2], true⟩]
  | 41 => [⟨[2, 3, 0, 1], false⟩]
  | 5 => [⟨[1, 0, 3, 2], true⟩]
  | 6 => [⟨[2, 3, 0, 1], false⟩, ⟨[1, 0, 3, 2], true⟩, ⟨[0, 3, 2, 1], false⟩]
  | 71 => []
  | _ => if wetTy k = [] then [⟨[], true⟩] else []

/-- the condition for a JMS coefficient has its symmetry; class 71 is zero -/
noncomputable def symOKW (ke : WKey × E MV) : Bool :=
  (gensW ke.1).all (fun g => srel g ke.2) &&
    (decide (wetClass ke.1 ≠ 71) || decide (ke.2 = .num 0))

theorem clNoFierz_simple (k : Key) : simple (clNoFierz k) = true := by cases k <;> rfl

theorem env_rel (C : Dict Key Ten) (s : Scal) (hs : s.g1bar.im = 0)
    (hC : ∀ k, Has (clNoFierz k) (val C k)) (v : MV) : ∀ g ∈ relM v, Obeys (env C s v) g := by
  cases v with
  | c k => exact (has_iff _ (clNoFierz_simple k) _).1 (hC k)
  | _ =>
    intro g hg
    simp only [relM, List.mem_singleton] at hg
    subst hg
    rw [obeys0]
    simp [env, hs]

theorem obeys_sub {A B : Ten} {g : Rl} (hA : Obeys A g) (hB : Obeys B g) :
    Obeys (fun ix => A ix - B ix) g := by
  intro ix ix' hl hp
  have h1 := hA ix ix' hl hp
  have h2 := hB ix ix' hl hp
  simp only
  rw [h1, h2]
  unfold cjIf
  split <;> simp

end Verif.Match
