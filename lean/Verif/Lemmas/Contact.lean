import Verif.Spec.Contact
import Verif.Lemmas.BetaFlavour
import Mathlib.Tactic.Ring
import Verif.Props.TreeExchange
import Verif.Props.Rotation
import Mathlib.Tactic.LinearCombination

/-!
# Lemmas: the QCD part of the SMEFT beta functions and the contact part of the matching (C95)
-/

set_option autoImplicit false
set_option linter.unusedSimpArgs false
set_option linter.unusedVariables false

namespace Verif.Contact
open Verif Verif.Tens Verif.Beta Verif.Flavour Verif.BetaSpec Verif.Rotation Verif.Exchange Verif.Match BigOperators

/-! ## Removing the parts of an expression that vanish -/

/-- the expression without the summands that contain a vanishing variable (`none`: zero) -/
def prune {κ : Type} (z : κ → Bool) : E κ → Option (E κ)
  | .s k => if z k then none else some (.s k)
  | .t k => if z k then none else some (.t k)
  | .num n => some (.num n)
  | .i => some .i
  | .eye => some .eye
  | .add a b => match prune z a, prune z b with
    | none, y => y
    | x, none => x
    | some x, some y => some (.add x y)
  | .sub a b => match prune z a, prune z b with
    | none, none => none
    | none, some y => some (.neg y)
    | some x, none => some x
    | some x, some y => some (.sub x y)
  | .neg a => (prune z a).map .neg
  | .mul a b => match prune z a, prune z b with
    | some x, some y => some (.mul x y)
    | _, _ => none
  | .div a b => (prune z a).map fun x => .div x b
  | .pow a n => match prune z a with
    | none => if n = 0 then some (.num 1) else none
    | some x => some (.pow x n)
  | .mat a b => match prune z a, prune z b with
    | some x, some y => some (.mat x y)
    | _, _ => none
  | .conj a => (prune z a).map .conj
  | .tr a => (prune z a).map .tr
  | .trace a => (prune z a).map .trace
  | .ein s1 a s2 b s3 c => match prune z a, prune z b, prune z c with
    | some x, some y, some w => some (.ein s1 x s2 y s3 w)
    | _, _, _ => none

/-- the value of a pruned expression -/
noncomputable def evalO {κ : Type} (env : κ → Ten) : Option (E κ) → Ten
  | none => fun _ => 0
  | some e => eval env e

theorem matT_zero_left (b : Ten) : matT (fun _ => 0) b = fun _ => 0 := by
  funext ix; unfold matT; split <;> simp
theorem matT_zero_right (a : Ten) : matT a (fun _ => 0) = fun _ => 0 := by
  funext ix; unfold matT; split <;> simp

theorem prune_sound {κ : Type} (z : κ → Bool) (env : κ → Ten) (hz : ∀ k, z k = true → env k = fun _ => 0)
    (e : E κ) : eval env e = evalO env (prune z e) := by
  induction e with
  | s k => by_cases h : z k = true <;> simp [prune, evalO, eval, h, hz]
  | t k => by_cases h : z k = true <;> simp [prune, evalO, eval, h, hz]
  | num n => rfl
  | i => rfl
  | eye => rfl
  | add a b ha hb =>
    simp only [prune, eval, ha, hb]
    cases prune z a <;> cases prune z b <;> simp [evalO, eval]
  | sub a b ha hb =>
    simp only [prune, eval, ha, hb]
    cases prune z a <;> cases prune z b <;> simp [evalO, eval]
  | neg a ha => simp only [prune, eval, ha]; cases prune z a <;> simp [evalO, eval]
  | mul a b ha hb =>
    simp only [prune, eval, ha, hb]
    cases prune z a <;> cases prune z b <;> simp [evalO, eval]
  | div a b ha hb => simp only [prune, eval, ha]; cases prune z a <;> simp [evalO, eval]
  | pow a n ha =>
    simp only [prune, eval, ha]
    cases prune z a
    · by_cases h : n = 0
      · subst h; simp [evalO, eval]
      · simp [evalO, h]
    · simp [evalO, eval]
  | mat a b ha hb =>
    simp only [prune, eval, ha, hb]
    cases prune z a <;> cases prune z b <;> simp [evalO, eval, matT_zero_left, matT_zero_right]
  | conj a ha => simp only [prune, eval, ha]; cases prune z a <;> simp [evalO, eval]
  | tr a ha => simp only [prune, eval, ha]; cases prune z a <;> simp [evalO, eval]
  | trace a ha =>
    simp only [prune, eval, ha]
    cases prune z a
    · funext ix; simp [evalO, traceT]
    · rfl
  | ein s1 a s2 b s3 c ha hb hc =>
    simp only [prune, eval, ha, hb, hc]
    cases prune z a <;> cases prune z b <;> cases prune z c <;> simp [evalO, eval] <;> funext ix <;> simp [einT]

/-- the variables that vanish if only the strong interaction acts on four-fermion operators -/
def zeros (k : Key) : Bool := match k with
  | .gs | .Lambda | .m2 | .HIGHSCALE | .ll | .qq1 | .qq3 | .lq1 | .lq3 | .ee | .uu | .dd | .eu | .ed | .ud1 | .ud8
  | .le | .lu | .ld | .qe | .qu1 | .qd1 | .qu8 | .qd8 | .ledq | .quqd1 | .quqd8 | .lequ1 | .lequ3 | .duql | .qque
  | .qqql | .duue => false
  | _ => true

theorem zeros_cases : ∀ k ∈ keys, zeros k = true → k ∈ [Key.g, .gp, .Gu, .Gd, .Ge] ∨ (k ∉ smKeys ∧ rank k ≠ 4) := by
  decide +kernel

theorem prune_loc : ∀ ke ∈ locProg ++ loc2Prog, zeros ke.1 = true ∧ prune zeros ke.2 = none := by decide +kernel

theorem OnlyStrong.zero {C : Key → Ten} (hC : OnlyStrong C) {k : Key} (hk : k ∈ keys) (hz : zeros k = true) (ix : Ix) :
    C k ix = 0 := by
  rcases zeros_cases k hk hz with h | ⟨h1, h2⟩
  · exact hC.couplings k h ix
  · exact hC.fourFermion k hk h1 h2 ix

theorem runLocals_zero (prog : List (Key × E Key)) (hp : ∀ ke ∈ prog, prune zeros ke.2 = none) (env : Key → Ten)
    (he : ∀ k, zeros k = true → env k = fun _ => 0) (k : Key) (hk : zeros k = true) :
    runLocals env prog k = fun _ => 0 := by
  induction prog generalizing env with
  | nil => exact he k hk
  | cons ke prog ih =>
    refine ih (fun x hx => hp x (List.mem_cons_of_mem _ hx)) (Function.update env ke.1 (eval env ke.2)) ?_
    intro k' hk'
    by_cases h : k' = ke.1
    · subst h
      rw [Function.update_self, prune_sound zeros env he, hp ke (by simp)]
      rfl
    · rw [Function.update_of_ne h]; exact he k' hk'

theorem env2_zero {C : Key → Ten} (hC : OnlyStrong C) (h : ℂ) (k : Key) (hk : zeros k = true) :
    env2 C h k = fun _ => 0 := by
  refine runLocals_zero _ (fun ke hke => (prune_loc ke (List.mem_append_right _ hke)).2) _ ?_ k hk
  refine runLocals_zero _ (fun ke hke => (prune_loc ke (List.mem_append_left _ hke)).2) _ ?_
  intro k hk
  unfold input
  rw [if_neg (by rintro rfl; cases hk)]
  split
  · next hm => exact funext (hC.zero hm hk)
  · rfl

/-! ## einsum with one contracted index -/

/-- the value of a label, with `w` contracted -/
def pickW (S : List Lbl) (ix : Ix) (w : Fin 3) (l : Lbl) : Fin 3 :=
  if l = .w then w else pick S ix l

theorem einT_w (s1 s2 s3 : List Lbl) (a b c : Ten) (ix : Ix) (h : ∀ l, l ≠ .w → (s1 ++ s2 ++ s3).count l ≤ 1)
    (hw : (s1 ++ s2 ++ s3).count .w = 2) :
    einT s1 a s2 b s3 c ix = ∑ w, a (s1.map (pickW (s1 ++ s2 ++ s3) ix w)) * b (s2.map (pickW (s1 ++ s2 ++ s3) ix w))
      * c (s3.map (pickW (s1 ++ s2 ++ s3) ix w)) := by
  unfold einT
  have e : Fintype.piFinset (einDom (s1 ++ s2 ++ s3) ix) =
      Finset.univ.image (pickW (s1 ++ s2 ++ s3) ix) := by
    ext σ
    simp only [Fintype.mem_piFinset, Finset.mem_image, Finset.mem_univ, true_and]
    constructor
    · intro hσ
      refine ⟨σ .w, funext fun l => ?_⟩
      unfold pickW
      split
      · next e => rw [e]
      · next e =>
        have := hσ l
        have hl := h l e
        unfold einDom at this
        unfold pick
        rw [if_neg (by omega)] at this
        split_ifs at this ⊢ <;> exact (Finset.mem_singleton.mp this).symm
    · rintro ⟨w, rfl⟩ l
      unfold pickW einDom
      by_cases e : l = .w
      · subst e; rw [if_pos (by omega)]; exact Finset.mem_univ _
      · have hl := h l e
        rw [if_neg (by omega), if_neg e]
        unfold pick
        split_ifs <;> simp
  rw [e, Finset.sum_image]
  intro w _ w' _ hww
  simpa [pickW] using congrFun hww .w

section
variable (a b c : Ten) (i j k l : Fin 3)
theorem ein_prst : einT [.p, .r, .s, .t] a [] b [] c [i, j, k, l] = a [i, j, k, l] * b [] * c [] := by
  rw [einT_free _ _ _ _ _ _ _ (by decide)]; rfl
theorem ein_swwr_pt : einT [.s, .w, .w, .r] a [.p, .t] b [] c [i, j, k, l] = ∑ w, a [k, w, w, j] * b [i, l] * c [] := by
  rw [einT_w _ _ _ _ _ _ _ (by decide) (by decide)]; rfl
theorem ein_pwwr_st : einT [.p, .w, .w, .r] a [.s, .t] b [] c [i, j, k, l] = ∑ w, a [i, w, w, j] * b [k, l] * c [] := by
  rw [einT_w _ _ _ _ _ _ _ (by decide) (by decide)]; rfl
theorem ein_srww_pt : einT [.s, .r, .w, .w] a [.p, .t] b [] c [i, j, k, l] = ∑ w, a [k, j, w, w] * b [i, l] * c [] := by
  rw [einT_w _ _ _ _ _ _ _ (by decide) (by decide)]; rfl
theorem ein_prww_st : einT [.p, .r, .w, .w] a [.s, .t] b [] c [i, j, k, l] = ∑ w, a [i, j, w, w] * b [k, l] * c [] := by
  rw [einT_w _ _ _ _ _ _ _ (by decide) (by decide)]; rfl
theorem ein_pwwt_sr : einT [.p, .w, .w, .t] a [.s, .r] b [] c [i, j, k, l] = ∑ w, a [i, w, w, l] * b [k, j] * c [] := by
  rw [einT_w _ _ _ _ _ _ _ (by decide) (by decide)]; rfl
theorem ein_pwwt_rs : einT [.p, .w, .w, .t] a [.r, .s] b [] c [i, j, k, l] = ∑ w, a [i, w, w, l] * b [j, k] * c [] := by
  rw [einT_w _ _ _ _ _ _ _ (by decide) (by decide)]; rfl
theorem ein_swwt_pr : einT [.s, .w, .w, .t] a [.p, .r] b [] c [i, j, k, l] = ∑ w, a [k, w, w, l] * b [i, j] * c [] := by
  rw [einT_w _ _ _ _ _ _ _ (by decide) (by decide)]; rfl
theorem ein_swwr_tp : einT [.s, .w, .w, .r] a [.t, .p] b [] c [i, j, k, l] = ∑ w, a [k, w, w, j] * b [l, i] * c [] := by
  rw [einT_w _ _ _ _ _ _ _ (by decide) (by decide)]; rfl
theorem ein_ptww_sr : einT [.p, .t, .w, .w] a [.s, .r] b [] c [i, j, k, l] = ∑ w, a [i, l, w, w] * b [k, j] * c [] := by
  rw [einT_w _ _ _ _ _ _ _ (by decide) (by decide)]; rfl
theorem ein_stww_pr : einT [.s, .t, .w, .w] a [.p, .r] b [] c [i, j, k, l] = ∑ w, a [k, l, w, w] * b [i, j] * c [] := by
  rw [einT_w _ _ _ _ _ _ _ (by decide) (by decide)]; rfl
theorem ein_wwst_pr : einT [.w, .w, .s, .t] a [.p, .r] b [] c [i, j, k, l] = ∑ w, a [w, w, k, l] * b [i, j] * c [] := by
  rw [einT_w _ _ _ _ _ _ _ (by decide) (by decide)]; rfl
theorem ein_wwsr_pt : einT [.w, .w, .s, .r] a [.p, .t] b [] c [i, j, k, l] = ∑ w, a [w, w, k, j] * b [i, l] * c [] := by
  rw [einT_w _ _ _ _ _ _ _ (by decide) (by decide)]; rfl
theorem ein_wwpr_st : einT [.w, .w, .p, .r] a [.s, .t] b [] c [i, j, k, l] = ∑ w, a [w, w, i, j] * b [k, l] * c [] := by
  rw [einT_w _ _ _ _ _ _ _ (by decide) (by decide)]; rfl
theorem ein_wwpt_sr : einT [.w, .w, .p, .t] a [.s, .r] b [] c [i, j, k, l] = ∑ w, a [w, w, i, l] * b [k, j] * c [] := by
  rw [einT_w _ _ _ _ _ _ _ (by decide) (by decide)]; rfl
theorem ein_ptsr : einT [.p, .t, .s, .r] a [] b [] c [i, j, k, l] = a [i, l, k, j] * b [] * c [] := by
  rw [einT_free _ _ _ _ _ _ _ (by decide)]; rfl
theorem ein_srpt : einT [.s, .r, .p, .t] a [] b [] c [i, j, k, l] = a [k, j, i, l] * b [] * c [] := by
  rw [einT_free _ _ _ _ _ _ _ (by decide)]; rfl
end

/-! ## The beta functions -/

/-- what remains of the beta functions of the four-fermion operators -/
def strong : Key → Option (E Key)
  | .qq1 => some
    (.add (.sub (.sub (.add (.sub (.add (.sub (.add (.sub (.mul (.mul (.div (.num 1) (.num 3)) (.pow (.s .gs) 2))
    (.add (.ein [.s, .w, .w, .r] (.t .qq1) [.p, .t] .eye [] (.num 1)) (.mul (.num 3) (.ein [.s, .w, .w, .r] (.t
    .qq3) [.p, .t] .eye [] (.num 1))))) (.mul (.mul (.div (.num 2) (.num 9)) (.pow (.s .gs) 2)) (.add (.ein [.p,
    .w, .w, .r] (.t .qq1) [.s, .t] .eye [] (.num 1)) (.mul (.num 3) (.ein [.p, .w, .w, .r] (.t .qq3) [.s, .t] .eye
    [] (.num 1)))))) (.mul (.mul (.div (.num 1) (.num 12)) (.pow (.s .gs) 2)) (.add (.ein [.s, .r, .w, .w] (.t
    .qu8) [.p, .t] .eye [] (.num 1)) (.ein [.s, .r, .w, .w] (.t .qd8) [.p, .t] .eye [] (.num 1))))) (.mul (.mul
    (.div (.num 1) (.num 18)) (.pow (.s .gs) 2)) (.add (.ein [.p, .r, .w, .w] (.t .qu8) [.s, .t] .eye [] (.num 1))
    (.ein [.p, .r, .w, .w] (.t .qd8) [.s, .t] .eye [] (.num 1))))) (.mul (.mul (.div (.num 1) (.num 3)) (.pow (.s
    .gs) 2)) (.add (.ein [.p, .w, .w, .t] (.t .qq1) [.s, .r] .eye [] (.num 1)) (.mul (.num 3) (.ein [.p, .w, .w,
    .t] (.t .qq3) [.s, .r] .eye [] (.num 1)))))) (.mul (.mul (.div (.num 2) (.num 9)) (.pow (.s .gs) 2)) (.add
    (.ein [.s, .w, .w, .t] (.t .qq1) [.p, .r] .eye [] (.num 1)) (.mul (.num 3) (.ein [.s, .w, .w, .t] (.t .qq3)
    [.p, .r] .eye [] (.num 1)))))) (.mul (.mul (.div (.num 1) (.num 12)) (.pow (.s .gs) 2)) (.add (.ein [.p, .t,
    .w, .w] (.t .qu8) [.s, .r] .eye [] (.num 1)) (.ein [.p, .t, .w, .w] (.t .qd8) [.s, .r] .eye [] (.num 1)))))
    (.mul (.mul (.div (.num 1) (.num 18)) (.pow (.s .gs) 2)) (.add (.ein [.s, .t, .w, .w] (.t .qu8) [.p, .r] .eye
    [] (.num 1)) (.ein [.s, .t, .w, .w] (.t .qd8) [.p, .r] .eye [] (.num 1))))) (.mul (.mul (.num 2) (.pow (.s .gs)
    2)) (.ein [.p, .r, .s, .t] (.t .qq1) [] (.num 1) [] (.num 1)))) (.mul (.mul (.num 3) (.pow (.s .gs) 2)) (.add
    (.ein [.p, .t, .s, .r] (.t .qq1) [] (.num 1) [] (.num 1)) (.mul (.num 3) (.ein [.p, .t, .s, .r] (.t .qq3) []
    (.num 1) [] (.num 1))))))
  | .qq3 => some
    (.sub (.add (.add (.add (.add (.mul (.mul (.div (.num 1) (.num 3)) (.pow (.s .gs) 2)) (.add (.ein [.s, .w, .w,
    .r] (.t .qq1) [.p, .t] .eye [] (.num 1)) (.mul (.num 3) (.ein [.s, .w, .w, .r] (.t .qq3) [.p, .t] .eye [] (.num
    1))))) (.mul (.mul (.div (.num 1) (.num 12)) (.pow (.s .gs) 2)) (.add (.ein [.s, .r, .w, .w] (.t .qu8) [.p, .t]
    .eye [] (.num 1)) (.ein [.s, .r, .w, .w] (.t .qd8) [.p, .t] .eye [] (.num 1))))) (.mul (.mul (.div (.num 1)
    (.num 3)) (.pow (.s .gs) 2)) (.add (.ein [.p, .w, .w, .t] (.t .qq1) [.s, .r] .eye [] (.num 1)) (.mul (.num 3)
    (.ein [.p, .w, .w, .t] (.t .qq3) [.s, .r] .eye [] (.num 1)))))) (.mul (.mul (.div (.num 1) (.num 12)) (.pow (.s
    .gs) 2)) (.add (.ein [.p, .t, .w, .w] (.t .qu8) [.s, .r] .eye [] (.num 1)) (.ein [.p, .t, .w, .w] (.t .qd8)
    [.s, .r] .eye [] (.num 1))))) (.mul (.mul (.num 3) (.pow (.s .gs) 2)) (.sub (.ein [.p, .t, .s, .r] (.t .qq1) []
    (.num 1) [] (.num 1)) (.ein [.p, .t, .s, .r] (.t .qq3) [] (.num 1) [] (.num 1))))) (.mul (.mul (.num 2) (.pow
    (.s .gs) 2)) (.ein [.p, .r, .s, .t] (.t .qq3) [] (.num 1) [] (.num 1))))
  | .uu => some
    (.add (.add (.sub (.sub (.add (.sub (.sub (.sub (.add (.neg (.mul (.mul (.div (.num 1) (.num 9)) (.pow (.s .gs)
    2)) (.sub (.ein [.w, .w, .s, .t] (.t .qu8) [.p, .r] .eye [] (.num 1)) (.mul (.num 3) (.ein [.w, .w, .s, .r] (.t
    .qu8) [.p, .t] .eye [] (.num 1)))))) (.mul (.mul (.div (.num 2) (.num 3)) (.pow (.s .gs) 2)) (.ein [.p, .w, .w,
    .t] (.t .uu) [.r, .s] .eye [] (.num 1)))) (.mul (.mul (.div (.num 2) (.num 9)) (.pow (.s .gs) 2)) (.ein [.s,
    .w, .w, .t] (.t .uu) [.p, .r] .eye [] (.num 1)))) (.mul (.mul (.div (.num 1) (.num 18)) (.pow (.s .gs) 2))
    (.sub (.ein [.s, .t, .w, .w] (.t .ud8) [.p, .r] .eye [] (.num 1)) (.mul (.num 3) (.ein [.s, .r, .w, .w] (.t
    .ud8) [.p, .t] .eye [] (.num 1)))))) (.mul (.mul (.div (.num 1) (.num 9)) (.pow (.s .gs) 2)) (.sub (.ein [.w,
    .w, .p, .r] (.t .qu8) [.s, .t] .eye [] (.num 1)) (.mul (.num 3) (.ein [.w, .w, .p, .t] (.t .qu8) [.s, .r] .eye
    [] (.num 1)))))) (.mul (.mul (.div (.num 2) (.num 3)) (.pow (.s .gs) 2)) (.ein [.s, .w, .w, .r] (.t .uu) [.t,
    .p] .eye [] (.num 1)))) (.mul (.mul (.div (.num 2) (.num 9)) (.pow (.s .gs) 2)) (.ein [.p, .w, .w, .r] (.t .uu)
    [.s, .t] .eye [] (.num 1)))) (.mul (.mul (.div (.num 1) (.num 18)) (.pow (.s .gs) 2)) (.sub (.ein [.p, .r, .w,
    .w] (.t .ud8) [.s, .t] .eye [] (.num 1)) (.mul (.num 3) (.ein [.p, .t, .w, .w] (.t .ud8) [.s, .r] .eye [] (.num
    1)))))) (.mul (.mul (.num 2) (.neg (.pow (.s .gs) 2))) (.ein [.p, .r, .s, .t] (.t .uu) [] (.num 1) [] (.num
    1)))) (.mul (.mul (.num 6) (.pow (.s .gs) 2)) (.ein [.p, .t, .s, .r] (.t .uu) [] (.num 1) [] (.num 1))))
  | .dd => some
    (.add (.add (.sub (.sub (.add (.sub (.sub (.sub (.add (.neg (.mul (.mul (.div (.num 1) (.num 9)) (.pow (.s .gs)
    2)) (.sub (.ein [.w, .w, .s, .t] (.t .qd8) [.p, .r] .eye [] (.num 1)) (.mul (.num 3) (.ein [.w, .w, .s, .r] (.t
    .qd8) [.p, .t] .eye [] (.num 1)))))) (.mul (.mul (.div (.num 2) (.num 3)) (.pow (.s .gs) 2)) (.ein [.p, .w, .w,
    .t] (.t .dd) [.r, .s] .eye [] (.num 1)))) (.mul (.mul (.div (.num 2) (.num 9)) (.pow (.s .gs) 2)) (.ein [.s,
    .w, .w, .t] (.t .dd) [.p, .r] .eye [] (.num 1)))) (.mul (.mul (.div (.num 1) (.num 18)) (.pow (.s .gs) 2))
    (.sub (.ein [.w, .w, .s, .t] (.t .ud8) [.p, .r] .eye [] (.num 1)) (.mul (.num 3) (.ein [.w, .w, .s, .r] (.t
    .ud8) [.p, .t] .eye [] (.num 1)))))) (.mul (.mul (.div (.num 1) (.num 9)) (.pow (.s .gs) 2)) (.sub (.ein [.w,
    .w, .p, .r] (.t .qd8) [.s, .t] .eye [] (.num 1)) (.mul (.num 3) (.ein [.w, .w, .p, .t] (.t .qd8) [.s, .r] .eye
    [] (.num 1)))))) (.mul (.mul (.div (.num 2) (.num 3)) (.pow (.s .gs) 2)) (.ein [.s, .w, .w, .r] (.t .dd) [.t,
    .p] .eye [] (.num 1)))) (.mul (.mul (.div (.num 2) (.num 9)) (.pow (.s .gs) 2)) (.ein [.p, .w, .w, .r] (.t .dd)
    [.s, .t] .eye [] (.num 1)))) (.mul (.mul (.div (.num 1) (.num 18)) (.pow (.s .gs) 2)) (.sub (.ein [.w, .w, .p,
    .r] (.t .ud8) [.s, .t] .eye [] (.num 1)) (.mul (.num 3) (.ein [.w, .w, .p, .t] (.t .ud8) [.s, .r] .eye [] (.num
    1)))))) (.mul (.mul (.num 2) (.neg (.pow (.s .gs) 2))) (.ein [.p, .r, .s, .t] (.t .dd) [] (.num 1) [] (.num
    1)))) (.mul (.mul (.num 6) (.pow (.s .gs) 2)) (.ein [.p, .t, .s, .r] (.t .dd) [] (.num 1) [] (.num 1))))
  | .ud1 => some
    (.neg (.mul (.div (.num 8) (.num 3)) (.neg (.mul (.pow (.s .gs) 2) (.ein [.p, .r, .s, .t] (.t .ud8) [] (.num 1)
    [] (.num 1))))))
  | .ud8 => some
    (.add (.sub (.add (.add (.add (.add (.add (.mul (.mul (.div (.num 8) (.num 3)) (.pow (.s .gs) 2)) (.ein [.p,
    .w, .w, .r] (.t .uu) [.s, .t] .eye [] (.num 1))) (.mul (.mul (.div (.num 8) (.num 3)) (.pow (.s .gs) 2)) (.ein
    [.s, .w, .w, .t] (.t .dd) [.p, .r] .eye [] (.num 1)))) (.mul (.mul (.div (.num 4) (.num 3)) (.pow (.s .gs) 2))
    (.ein [.w, .w, .p, .r] (.t .qu8) [.s, .t] .eye [] (.num 1)))) (.mul (.mul (.div (.num 4) (.num 3)) (.pow (.s
    .gs) 2)) (.ein [.w, .w, .s, .t] (.t .qd8) [.p, .r] .eye [] (.num 1)))) (.mul (.mul (.div (.num 2) (.num 3))
    (.pow (.s .gs) 2)) (.ein [.p, .r, .w, .w] (.t .ud8) [.s, .t] .eye [] (.num 1)))) (.mul (.mul (.div (.num 2)
    (.num 3)) (.pow (.s .gs) 2)) (.ein [.w, .w, .s, .t] (.t .ud8) [.p, .r] .eye [] (.num 1)))) (.mul (.mul (.num 4)
    (.pow (.s .gs) 2)) (.ein [.p, .r, .s, .t] (.t .ud8) [] (.num 1) [] (.num 1)))) (.mul (.mul (.num 12) (.pow (.s
    .gs) 2)) (.ein [.p, .r, .s, .t] (.t .ud1) [] (.num 1) [] (.num 1))))
  | .qu1 => some
    (.neg (.mul (.mul (.div (.num 8) (.num 3)) (.pow (.s .gs) 2)) (.ein [.p, .r, .s, .t] (.t .qu8) [] (.num 1) []
    (.num 1))))
  | .qd1 => some
    (.neg (.mul (.mul (.div (.num 8) (.num 3)) (.pow (.s .gs) 2)) (.ein [.p, .r, .s, .t] (.t .qd8) [] (.num 1) []
    (.num 1))))
  | .qu8 => some
    (.sub (.sub (.add (.add (.add (.add (.add (.mul (.mul (.div (.num 8) (.num 3)) (.pow (.s .gs) 2)) (.add (.ein
    [.p, .w, .w, .r] (.t .qq1) [.s, .t] .eye [] (.num 1)) (.mul (.num 3) (.ein [.p, .w, .w, .r] (.t .qq3) [.s, .t]
    .eye [] (.num 1))))) (.mul (.mul (.div (.num 2) (.num 3)) (.pow (.s .gs) 2)) (.ein [.p, .r, .w, .w] (.t .qu8)
    [.s, .t] .eye [] (.num 1)))) (.mul (.mul (.div (.num 2) (.num 3)) (.pow (.s .gs) 2)) (.ein [.p, .r, .w, .w] (.t
    .qd8) [.s, .t] .eye [] (.num 1)))) (.mul (.mul (.div (.num 4) (.num 3)) (.pow (.s .gs) 2)) (.ein [.w, .w, .s,
    .t] (.t .qu8) [.p, .r] .eye [] (.num 1)))) (.mul (.mul (.div (.num 2) (.num 3)) (.pow (.s .gs) 2)) (.ein [.s,
    .t, .w, .w] (.t .ud8) [.p, .r] .eye [] (.num 1)))) (.mul (.mul (.div (.num 8) (.num 3)) (.pow (.s .gs) 2))
    (.ein [.s, .w, .w, .t] (.t .uu) [.p, .r] .eye [] (.num 1)))) (.mul (.mul (.num 14) (.pow (.s .gs) 2)) (.ein
    [.p, .r, .s, .t] (.t .qu8) [] (.num 1) [] (.num 1)))) (.mul (.mul (.num 12) (.pow (.s .gs) 2)) (.ein [.p, .r,
    .s, .t] (.t .qu1) [] (.num 1) [] (.num 1))))
  | .qd8 => some
    (.sub (.sub (.add (.add (.add (.add (.add (.mul (.mul (.div (.num 8) (.num 3)) (.pow (.s .gs) 2)) (.add (.ein
    [.p, .w, .w, .r] (.t .qq1) [.s, .t] .eye [] (.num 1)) (.mul (.num 3) (.ein [.p, .w, .w, .r] (.t .qq3) [.s, .t]
    .eye [] (.num 1))))) (.mul (.mul (.div (.num 2) (.num 3)) (.pow (.s .gs) 2)) (.ein [.p, .r, .w, .w] (.t .qu8)
    [.s, .t] .eye [] (.num 1)))) (.mul (.mul (.div (.num 2) (.num 3)) (.pow (.s .gs) 2)) (.ein [.p, .r, .w, .w] (.t
    .qd8) [.s, .t] .eye [] (.num 1)))) (.mul (.mul (.div (.num 4) (.num 3)) (.pow (.s .gs) 2)) (.ein [.w, .w, .s,
    .t] (.t .qd8) [.p, .r] .eye [] (.num 1)))) (.mul (.mul (.div (.num 2) (.num 3)) (.pow (.s .gs) 2)) (.ein [.w,
    .w, .s, .t] (.t .ud8) [.p, .r] .eye [] (.num 1)))) (.mul (.mul (.div (.num 8) (.num 3)) (.pow (.s .gs) 2))
    (.ein [.s, .w, .w, .t] (.t .dd) [.p, .r] .eye [] (.num 1)))) (.mul (.mul (.num 14) (.pow (.s .gs) 2)) (.ein
    [.p, .r, .s, .t] (.t .qd8) [] (.num 1) [] (.num 1)))) (.mul (.mul (.num 12) (.pow (.s .gs) 2)) (.ein [.p, .r,
    .s, .t] (.t .qd1) [] (.num 1) [] (.num 1))))
  | .ledq => some
    (.mul (.neg (.mul (.num 8) (.pow (.s .gs) 2))) (.ein [.p, .r, .s, .t] (.t .ledq) [] (.num 1) [] (.num 1)))
  | .quqd1 => some
    (.add (.sub (.sub (.neg (.mul (.mul (.div (.num 1) (.num 2)) (.mul (.num 32) (.pow (.s .gs) 2))) (.ein [.p, .r,
    .s, .t] (.t .quqd1) [] (.num 1) [] (.num 1)))) (.mul (.mul (.div (.num 1) (.num 3)) (.mul (.div (.num 64) (.num
    3)) (.pow (.s .gs) 2))) (.ein [.s, .r, .p, .t] (.t .quqd1) [] (.num 1) [] (.num 1)))) (.mul (.mul (.div (.num
    4) (.num 9)) (.mul (.div (.num 28) (.num 3)) (.pow (.s .gs) 2))) (.ein [.s, .r, .p, .t] (.t .quqd8) [] (.num 1)
    [] (.num 1)))) (.mul (.mul (.div (.num 16) (.num 9)) (.pow (.s .gs) 2)) (.ein [.p, .r, .s, .t] (.t .quqd8) []
    (.num 1) [] (.num 1))))
  | .quqd8 => some
    (.sub (.add (.add (.mul (.mul (.num 8) (.pow (.s .gs) 2)) (.ein [.p, .r, .s, .t] (.t .quqd1) [] (.num 1) []
    (.num 1))) (.mul (.mul (.div (.num 16) (.num 3)) (.pow (.s .gs) 2)) (.ein [.s, .r, .p, .t] (.t .quqd1) [] (.num
    1) [] (.num 1)))) (.mul (.mul (.div (.num 16) (.num 3)) (.pow (.s .gs) 2)) (.ein [.p, .r, .s, .t] (.t .quqd8)
    [] (.num 1) [] (.num 1)))) (.mul (.mul (.div (.num 1) (.num 3)) (.mul (.div (.num 44) (.num 3)) (.pow (.s .gs)
    2))) (.ein [.s, .r, .p, .t] (.t .quqd8) [] (.num 1) [] (.num 1))))
  | .lequ1 => some
    (.mul (.neg (.mul (.num 8) (.pow (.s .gs) 2))) (.ein [.p, .r, .s, .t] (.t .lequ1) [] (.num 1) [] (.num 1)))
  | .lequ3 => some
    (.mul (.mul (.div (.num 8) (.num 3)) (.pow (.s .gs) 2)) (.ein [.p, .r, .s, .t] (.t .lequ3) [] (.num 1) [] (.num
    1)))
  | .duql => some
    (.mul (.neg (.mul (.num 4) (.pow (.s .gs) 2))) (.ein [.p, .r, .s, .t] (.t .duql) [] (.num 1) [] (.num 1)))
  | .qque => some
    (.mul (.neg (.mul (.num 4) (.pow (.s .gs) 2))) (.ein [.p, .r, .s, .t] (.t .qque) [] (.num 1) [] (.num 1)))
  | .qqql => some
    (.mul (.neg (.mul (.num 4) (.pow (.s .gs) 2))) (.ein [.p, .r, .s, .t] (.t .qqql) [] (.num 1) [] (.num 1)))
  | .duue => some
    (.mul (.neg (.mul (.num 4) (.pow (.s .gs) 2))) (.ein [.p, .r, .s, .t] (.t .duue) [] (.num 1) [] (.num 1)))
  | _ => none

/-- the four-fermion operators -/
def fours : List Key := [.qq1, .qq3, .uu, .dd, .ud1, .ud8, .qu1, .qd1, .qu8, .qd8, .ledq, .quqd1, .quqd8, .lequ1, .lequ3, .duql, .qque, .qqql, .duue, .ll, .lq1, .lq3, .ee, .eu, .ed, .le, .lu, .ld, .qe]

theorem fours_strong : ∀ k ∈ fours, ((lastExpr npProg k).map (prune zeros)) = some (strong k) := by decide +kernel
theorem fours_keys : ∀ k ∈ fours, k ∈ keys := by decide +kernel
theorem others_none : ∀ k ∈ treeKeys, k ∉ fours → ((lastExpr npProg k).map (prune zeros)) = some none := by
  decide +kernel

/-- the values of the beta functions -/
theorem beta_some {C : Key → Ten} (hC : OnlyStrong C) (cKeys : List Key) (h : ℂ) {k : Key} {x : Option (E Key)}
    (hk : (lastExpr npProg k).map (prune zeros) = some x) :
    (beta cKeys C h true).get? k = some (evalO (env2 C h) x) := by
  rw [get?_beta_true]
  cases e : lastExpr npProg k with
  | none => rw [e] at hk; cases hk
  | some e' =>
    rw [e] at hk
    rw [← Option.some.inj hk, Option.map_some, Option.some_or,
      prune_sound zeros _ (fun k hk => env2_zero hC h k hk)]

/-- closed quark lines: left-handed doublets, right-handed up- and down-type quarks -/
noncomputable def pq (C : Key → Ten) (a b : Fin 3) : ℂ :=
  ∑ w, (1 / 3 * (C .qq1 [a, w, w, b] + 3 * C .qq3 [a, w, w, b]) + 1 / 12 * (C .qu8 [a, b, w, w] + C .qd8 [a, b, w, w]))
noncomputable def pu (C : Key → Ten) (a b : Fin 3) : ℂ :=
  ∑ w, (2 / 3 * C .uu [a, w, w, b] + 1 / 3 * C .qu8 [w, w, a, b] + 1 / 6 * C .ud8 [a, b, w, w])
noncomputable def pd (C : Key → Ten) (a b : Fin 3) : ℂ :=
  ∑ w, (2 / 3 * C .dd [a, w, w, b] + 1 / 3 * C .qd8 [w, w, a, b] + 1 / 6 * C .ud8 [w, w, a, b])

theorem eyeT_delta (i j : Fin 3) : eyeT [i, j] = delta i j := rfl
theorem delta_comm (i j : Fin 3) : delta i j = delta j i := by unfold delta; simp only [eq_comm]

/-- the QCD part of the beta functions of the four-fermion operators -/
structure Runs (C B : Key → Ten) : Prop where
  qq1 : ∀ i j k l, B .qq1 [i, j, k, l] = C .gs [] ^ 2 * (-2 * C .qq1 [i, j, k, l] + 3 * C .qq1 [i, l, k, j] + 9 * C .qq3 [i, l, k, j] + pq C k j * delta i l + pq C i l * delta k j
        - 2 / 3 * (pq C i j * delta k l) - 2 / 3 * (pq C k l * delta i j))
  qq3 : ∀ i j k l, B .qq3 [i, j, k, l] = C .gs [] ^ 2 * (-2 * C .qq3 [i, j, k, l] + 3 * C .qq1 [i, l, k, j] - 3 * C .qq3 [i, l, k, j] + pq C k j * delta i l + pq C i l * delta k j)
  uu : ∀ i j k l, B .uu [i, j, k, l] = C .gs [] ^ 2 * (-2 * C .uu [i, j, k, l] + 6 * C .uu [i, l, k, j] + pu C k j * delta i l + pu C i l * delta k j
        - 1 / 3 * (pu C i j * delta k l) - 1 / 3 * (pu C k l * delta i j))
  dd : ∀ i j k l, B .dd [i, j, k, l] = C .gs [] ^ 2 * (-2 * C .dd [i, j, k, l] + 6 * C .dd [i, l, k, j] + pd C k j * delta i l + pd C i l * delta k j
        - 1 / 3 * (pd C i j * delta k l) - 1 / 3 * (pd C k l * delta i j))
  ud1 : ∀ i j k l, B .ud1 [i, j, k, l] = C .gs [] ^ 2 * (8 / 3 * C .ud8 [i, j, k, l])
  ud8 : ∀ i j k l, B .ud8 [i, j, k, l] = C .gs [] ^ 2 * (-4 * C .ud8 [i, j, k, l] + 12 * C .ud1 [i, j, k, l] + 4 * (pu C i j * delta k l) + 4 * (pd C k l * delta i j))
  qu1 : ∀ i j k l, B .qu1 [i, j, k, l] = C .gs [] ^ 2 * (-8 / 3 * C .qu8 [i, j, k, l])
  qd1 : ∀ i j k l, B .qd1 [i, j, k, l] = C .gs [] ^ 2 * (-8 / 3 * C .qd8 [i, j, k, l])
  qu8 : ∀ i j k l, B .qu8 [i, j, k, l] = C .gs [] ^ 2 * (-14 * C .qu8 [i, j, k, l] - 12 * C .qu1 [i, j, k, l] + 8 * (pq C i j * delta k l) + 4 * (pu C k l * delta i j))
  qd8 : ∀ i j k l, B .qd8 [i, j, k, l] = C .gs [] ^ 2 * (-14 * C .qd8 [i, j, k, l] - 12 * C .qd1 [i, j, k, l] + 8 * (pq C i j * delta k l) + 4 * (pd C k l * delta i j))
  ledq : ∀ i j k l, B .ledq [i, j, k, l] = C .gs [] ^ 2 * (-8 * C .ledq [i, j, k, l])
  quqd1 : ∀ i j k l, B .quqd1 [i, j, k, l] = C .gs [] ^ 2 * (-16 * C .quqd1 [i, j, k, l] - 64 / 9 * C .quqd1 [k, j, i, l] - 112 / 27 * C .quqd8 [k, j, i, l]
        + 16 / 9 * C .quqd8 [i, j, k, l])
  quqd8 : ∀ i j k l, B .quqd8 [i, j, k, l] = C .gs [] ^ 2 * (8 * C .quqd1 [i, j, k, l] + 16 / 3 * C .quqd1 [k, j, i, l] + 16 / 3 * C .quqd8 [i, j, k, l]
        - 44 / 9 * C .quqd8 [k, j, i, l])
  lequ1 : ∀ i j k l, B .lequ1 [i, j, k, l] = C .gs [] ^ 2 * (-8 * C .lequ1 [i, j, k, l])
  lequ3 : ∀ i j k l, B .lequ3 [i, j, k, l] = C .gs [] ^ 2 * (8 / 3 * C .lequ3 [i, j, k, l])
  duql : ∀ i j k l, B .duql [i, j, k, l] = C .gs [] ^ 2 * (-4 * C .duql [i, j, k, l])
  qque : ∀ i j k l, B .qque [i, j, k, l] = C .gs [] ^ 2 * (-4 * C .qque [i, j, k, l])
  qqql : ∀ i j k l, B .qqql [i, j, k, l] = C .gs [] ^ 2 * (-4 * C .qqql [i, j, k, l])
  duue : ∀ i j k l, B .duue [i, j, k, l] = C .gs [] ^ 2 * (-4 * C .duue [i, j, k, l])
  ll : ∀ i j k l, B .ll [i, j, k, l] = 0
  lq1 : ∀ i j k l, B .lq1 [i, j, k, l] = 0
  lq3 : ∀ i j k l, B .lq3 [i, j, k, l] = 0
  ee : ∀ i j k l, B .ee [i, j, k, l] = 0
  eu : ∀ i j k l, B .eu [i, j, k, l] = 0
  ed : ∀ i j k l, B .ed [i, j, k, l] = 0
  le : ∀ i j k l, B .le [i, j, k, l] = 0
  lu : ∀ i j k l, B .lu [i, j, k, l] = 0
  ld : ∀ i j k l, B .ld [i, j, k, l] = 0
  qe : ∀ i j k l, B .qe [i, j, k, l] = 0

section
variable (C : Key → Ten) (h : ℂ)
theorem e_gs : env2 C h .gs = C .gs := env2_key C h _ (by decide)
theorem e_qq1 : env2 C h .qq1 = C .qq1 := env2_key C h _ (by decide)
theorem e_qq3 : env2 C h .qq3 = C .qq3 := env2_key C h _ (by decide)
theorem e_uu : env2 C h .uu = C .uu := env2_key C h _ (by decide)
theorem e_dd : env2 C h .dd = C .dd := env2_key C h _ (by decide)
theorem e_ud1 : env2 C h .ud1 = C .ud1 := env2_key C h _ (by decide)
theorem e_ud8 : env2 C h .ud8 = C .ud8 := env2_key C h _ (by decide)
theorem e_qu1 : env2 C h .qu1 = C .qu1 := env2_key C h _ (by decide)
theorem e_qd1 : env2 C h .qd1 = C .qd1 := env2_key C h _ (by decide)
theorem e_qu8 : env2 C h .qu8 = C .qu8 := env2_key C h _ (by decide)
theorem e_qd8 : env2 C h .qd8 = C .qd8 := env2_key C h _ (by decide)
theorem e_ledq : env2 C h .ledq = C .ledq := env2_key C h _ (by decide)
theorem e_quqd1 : env2 C h .quqd1 = C .quqd1 := env2_key C h _ (by decide)
theorem e_quqd8 : env2 C h .quqd8 = C .quqd8 := env2_key C h _ (by decide)
theorem e_lequ1 : env2 C h .lequ1 = C .lequ1 := env2_key C h _ (by decide)
theorem e_lequ3 : env2 C h .lequ3 = C .lequ3 := env2_key C h _ (by decide)
theorem e_duql : env2 C h .duql = C .duql := env2_key C h _ (by decide)
theorem e_qque : env2 C h .qque = C .qque := env2_key C h _ (by decide)
theorem e_qqql : env2 C h .qqql = C .qqql := env2_key C h _ (by decide)
theorem e_duue : env2 C h .duue = C .duue := env2_key C h _ (by decide)
end

theorem runs_beta {C : Key → Ten} (hC : OnlyStrong C) (cKeys : List Key) (h : ℂ) :
    Runs C fun k => ((beta cKeys C h true).get? k).getD fun _ => 0 := by
  have e : ∀ k ∈ fours, ((beta cKeys C h true).get? k).getD (fun _ => 0) = evalO (env2 C h) (strong k) := by
    intro k hk
    rw [beta_some hC cKeys h (fours_strong k hk)]
    rfl
  constructor <;> intro i j k l <;> rw [e _ (by decide)] <;> first
    | rfl
    | (simp only [strong, evalO, eval, ein_prst, ein_swwr_pt, ein_pwwr_st, ein_srww_pt, ein_prww_st, ein_pwwt_sr, ein_pwwt_rs, ein_swwt_pr, ein_swwr_tp, ein_ptww_sr, ein_stww_pr, ein_wwst_pr, ein_wwsr_pt, ein_wwpr_st, ein_wwpt_sr, ein_ptsr, ein_srpt, eyeT_delta, pq, pu, pd,
         e_gs, e_qq1, e_qq3, e_uu, e_dd, e_ud1, e_ud8, e_qu1, e_qd1, e_qu8, e_qd8, e_ledq, e_quqd1, e_quqd8, e_lequ1, e_lequ3, e_duql, e_qque, e_qqql, e_duue, Fin.sum_univ_three, delta_comm j k, delta_comm l i]
       push_cast
       ring)

end Verif.Contact
