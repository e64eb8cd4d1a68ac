import Verif.Lemmas.Match
import Verif.Spec.TreeExchange
import Mathlib.Tactic.FieldSimp
import Mathlib.Tactic.LinearCombination

/-!
# Lemmas: the matching conditions compared with exchange of W and Z (C84)
-/

set_option autoImplicit false
set_option linter.unusedSimpArgs false
set_option linter.unusedSectionVars false

namespace Verif.Exchange
open Verif Verif.Tens Verif.Beta Verif.Rotation Verif.Match
open Verif.WetRun (ok_bind)

/-! ## einsum without contraction -/

/-- the value of a label that occurs once -/
def pick (S : List Lbl) (ix : Ix) (l : Lbl) : Fin 3 :=
  if S.count l = 1 then (ix[(outLabels S).idxOf l]?).getD 0 else 0

theorem einT_free (s1 s2 s3 : List Lbl) (a b c : Ten) (ix : Ix)
    (h : ∀ l, (s1 ++ s2 ++ s3).count l ≤ 1) :
    einT s1 a s2 b s3 c ix = a (s1.map (pick (s1 ++ s2 ++ s3) ix)) * b (s2.map (pick (s1 ++ s2 ++ s3) ix))
      * c (s3.map (pick (s1 ++ s2 ++ s3) ix)) := by
  have : Fintype.piFinset (einDom (s1 ++ s2 ++ s3) ix) = {pick (s1 ++ s2 ++ s3) ix} := by
    ext σ
    simp only [Fintype.mem_piFinset, Finset.mem_singleton]
    constructor
    · intro hσ
      funext l
      have := hσ l
      have hl := h l
      unfold einDom at this
      unfold pick
      rw [if_neg (by omega)] at this
      split_ifs at this ⊢ <;> simpa using this
    · rintro rfl l
      have hl := h l
      unfold einDom pick
      rw [if_neg (by omega)]
      split_ifs <;> simp
  unfold einT
  rw [this, Finset.sum_singleton]

section
variable (a b c : Ten) (i j k l : Fin 3)
theorem ein_pr_st : einT [.p, .r] a [.s, .t] b [] c [i, j, k, l] = a [i, j] * b [k, l] * c [] := by
  rw [einT_free _ _ _ _ _ _ _ (by decide)]; rfl
theorem ein_st_pr : einT [.s, .t] a [.p, .r] b [] c [i, j, k, l] = a [k, l] * b [i, j] * c [] := by
  rw [einT_free _ _ _ _ _ _ _ (by decide)]; rfl
theorem ein_pt_sr : einT [.p, .t] a [.s, .r] b [] c [i, j, k, l] = a [i, l] * b [k, j] * c [] := by
  rw [einT_free _ _ _ _ _ _ _ (by decide)]; rfl
theorem ein_sr_pt : einT [.s, .r] a [.p, .t] b [] c [i, j, k, l] = a [k, j] * b [i, l] * c [] := by
  rw [einT_free _ _ _ _ _ _ _ (by decide)]; rfl
theorem ein_ptsr : einT [.p, .t, .s, .r] a [] b [] c [i, j, k, l] = a [i, l, k, j] * b [] * c [] := by
  rw [einT_free _ _ _ _ _ _ _ (by decide)]; rfl
theorem ein_srpt : einT [.s, .r, .p, .t] a [] b [] c [i, j, k, l] = a [k, j, i, l] * b [] * c [] := by
  rw [einT_free _ _ _ _ _ _ _ (by decide)]; rfl
theorem ein_stpr : einT [.s, .t, .p, .r] a [] b [] c [i, j, k, l] = a [k, l, i, j] * b [] * c [] := by
  rw [einT_free _ _ _ _ _ _ _ (by decide)]; rfl
theorem ein_rpst : einT [.r, .p, .s, .t] a [] b [] c [i, j, k, l] = a [j, i, k, l] * b [] * c [] := by
  rw [einT_free _ _ _ _ _ _ _ (by decide)]; rfl
theorem ein_rspt : einT [.r, .s, .p, .t] a [] b [] c [i, j, k, l] = a [j, k, i, l] * b [] * c [] := by
  rw [einT_free _ _ _ _ _ _ _ (by decide)]; rfl
end

theorem eye_eq (i j : Fin 3) : eyeT [i, j] = delta i j := rfl

/-! ## The matching conditions -/

/-- the inputs of the specification from the variables of the program -/
noncomputable def inp (C : Dict Key Ten) (s : Scal) : Inp where
  mW := s.mW
  mZ := s.mZ
  v := s.vT
  g1 := s.g1bar
  C := fun k => (C.get? k).getD fun _ => 0

theorem lin_fst (a b : ℂ) : (lin a b).fst = a := by simp [lin]
theorem lin_snd (a b : ℂ) : (lin a b).snd = b := by simp [lin]
theorem mul_fst (x y : Lin) : (x * y).fst = x.fst * y.fst := by simp
theorem mul_snd (x y : Lin) : (x * y).snd = x.fst * y.snd + x.snd * y.fst := by
  simp [DualNumber.snd_mul]


/-- unfold expression and specification and compare -/
macro "compare" m:ident h:ident : tactic => `(tactic| (
  simp only [coefficient, vector, scalar, baryon, dipole, gluon, Option.some.injEq, Option.orElse_some, Option.orElse_none,
    Option.orElse_eq_orElse] at $h:ident
  subst $h:ident
  simp only [$m:ident, eval, env, ein_pr_st, ein_st_pr, ein_pt_sr, ein_sr_pt, ein_ptsr, ein_srpt, ein_stpr, ein_rpst,
    ein_rspt, eye_eq, total, TrivSqZeroExt.fst_add, TrivSqZeroExt.snd_add, TrivSqZeroExt.fst_sub,
    TrivSqZeroExt.snd_sub, TrivSqZeroExt.fst_neg, TrivSqZeroExt.snd_neg, TrivSqZeroExt.fst_zero, TrivSqZeroExt.snd_zero,
    mul_fst, mul_snd, lin_fst, lin_snd, ct, contact, zz, ww, zNu, zEL, zUL, zDL, zER, zUR, zDR, wL, wQ, wRdag, zed, gZ2,
    sin2, sym2, sym4, chargedQuarks, inp, Inp.c0, List.reverse_cons, List.reverse_nil, List.nil_append, List.cons_append]
  try push_cast
  try field_simp
  try ring))

section
variable (C : Dict Key Ten) (s : Scal) (hW : (s.mW : ℂ) ≠ 0) (hZ : (s.mZ : ℂ) ≠ 0) (hv : (s.vT : ℂ) ≠ 0)
  (h2 : ((Real.sqrt 2 : ℝ) : ℂ) ≠ 0) (p r i t : Fin 3) (x : Lin)
include hW hZ hv h2

theorem x_dgamma (hx : coefficient (inp C s) (Real.sqrt 2 : ℝ) .dgamma [p, r] = some x) :
    eval (env C s) m_dgamma [p, r] = total x := by compare m_dgamma hx
theorem x_dG (hx : coefficient (inp C s) (Real.sqrt 2 : ℝ) .dG [p, r] = some x) :
    eval (env C s) m_dG [p, r] = total x := by compare m_dG hx
theorem x_egamma (hx : coefficient (inp C s) (Real.sqrt 2 : ℝ) .egamma [p, r] = some x) :
    eval (env C s) m_egamma [p, r] = total x := by compare m_egamma hx
theorem x_ugamma (hx : coefficient (inp C s) (Real.sqrt 2 : ℝ) .ugamma [p, r] = some x) :
    eval (env C s) m_ugamma [p, r] = total x := by compare m_ugamma hx
theorem x_uG (hx : coefficient (inp C s) (Real.sqrt 2 : ℝ) .uG [p, r] = some x) :
    eval (env C s) m_uG [p, r] = total x := by compare m_uG hx
theorem x_Gtilde (hx : coefficient (inp C s) (Real.sqrt 2 : ℝ) .Gtilde [] = some x) :
    eval (env C s) m_Gtilde [] = total x := by compare m_Gtilde hx
theorem x_G (hx : coefficient (inp C s) (Real.sqrt 2 : ℝ) .G [] = some x) :
    eval (env C s) m_G [] = total x := by compare m_G hx
theorem x_SduuLL (hx : coefficient (inp C s) (Real.sqrt 2 : ℝ) .SduuLL [p, r, i, t] = some x) :
    eval (env C s) m_SduuLL [p, r, i, t] = total x := by compare m_SduuLL hx
theorem x_SuddLL (hx : coefficient (inp C s) (Real.sqrt 2 : ℝ) .SuddLL [p, r, i, t] = some x) :
    eval (env C s) m_SuddLL [p, r, i, t] = total x := by compare m_SuddLL hx
theorem x_SduuLR (hx : coefficient (inp C s) (Real.sqrt 2 : ℝ) .SduuLR [p, r, i, t] = some x) :
    eval (env C s) m_SduuLR [p, r, i, t] = total x := by compare m_SduuLR hx
theorem x_SuudLR (hx : coefficient (inp C s) (Real.sqrt 2 : ℝ) .SuudLR [p, r, i, t] = some x) :
    eval (env C s) m_SuudLR [p, r, i, t] = total x := by compare m_SuudLR hx
theorem x_SdduRL (hx : coefficient (inp C s) (Real.sqrt 2 : ℝ) .SdduRL [p, r, i, t] = some x) :
    eval (env C s) m_SdduRL [p, r, i, t] = total x := by compare m_SdduRL hx
theorem x_SdudRL (hx : coefficient (inp C s) (Real.sqrt 2 : ℝ) .SdudRL [p, r, i, t] = some x) :
    eval (env C s) m_SdudRL [p, r, i, t] = total x := by compare m_SdudRL hx
theorem x_SduuRL (hx : coefficient (inp C s) (Real.sqrt 2 : ℝ) .SduuRL [p, r, i, t] = some x) :
    eval (env C s) m_SduuRL [p, r, i, t] = total x := by compare m_SduuRL hx
theorem x_SuudRL (hx : coefficient (inp C s) (Real.sqrt 2 : ℝ) .SuudRL [p, r, i, t] = some x) :
    eval (env C s) m_SuudRL [p, r, i, t] = total x := by compare m_SuudRL hx
theorem x_SduuRR (hx : coefficient (inp C s) (Real.sqrt 2 : ℝ) .SduuRR [p, r, i, t] = some x) :
    eval (env C s) m_SduuRR [p, r, i, t] = total x := by compare m_SduuRR hx
theorem x_V1udLL (hx : coefficient (inp C s) (Real.sqrt 2 : ℝ) .V1udLL [p, r, i, t] = some x) :
    eval (env C s) m_V1udLL [p, r, i, t] = total x := by compare m_V1udLL hx
theorem x_V8udLL (hx : coefficient (inp C s) (Real.sqrt 2 : ℝ) .V8udLL [p, r, i, t] = some x) :
    eval (env C s) m_V8udLL [p, r, i, t] = total x := by compare m_V8udLL hx
theorem x_VddLL (hx : coefficient (inp C s) (Real.sqrt 2 : ℝ) .VddLL [p, r, i, t] = some x) :
    eval (env C s) m_VddLL [p, r, i, t] = total x := by compare m_VddLL hx
theorem x_VedLL (hx : coefficient (inp C s) (Real.sqrt 2 : ℝ) .VedLL [p, r, i, t] = some x) :
    eval (env C s) m_VedLL [p, r, i, t] = total x := by compare m_VedLL hx
theorem x_VeeLL (hx : coefficient (inp C s) (Real.sqrt 2 : ℝ) .VeeLL [p, r, i, t] = some x) :
    eval (env C s) m_VeeLL [p, r, i, t] = total x := by compare m_VeeLL hx
theorem x_VeuLL (hx : coefficient (inp C s) (Real.sqrt 2 : ℝ) .VeuLL [p, r, i, t] = some x) :
    eval (env C s) m_VeuLL [p, r, i, t] = total x := by compare m_VeuLL hx
theorem x_VnudLL (hx : coefficient (inp C s) (Real.sqrt 2 : ℝ) .VnudLL [p, r, i, t] = some x) :
    eval (env C s) m_VnudLL [p, r, i, t] = total x := by compare m_VnudLL hx
theorem x_VnueduLL (hx : coefficient (inp C s) (Real.sqrt 2 : ℝ) .VnueduLL [p, r, i, t] = some x) :
    eval (env C s) m_VnueduLL [p, r, i, t] = total x := by compare m_VnueduLL hx
theorem x_VnueLL (hx : coefficient (inp C s) (Real.sqrt 2 : ℝ) .VnueLL [p, r, i, t] = some x) :
    eval (env C s) m_VnueLL [p, r, i, t] = total x := by compare m_VnueLL hx
theorem x_VnunuLL (hx : coefficient (inp C s) (Real.sqrt 2 : ℝ) .VnunuLL [p, r, i, t] = some x) :
    eval (env C s) m_VnunuLL [p, r, i, t] = total x := by compare m_VnunuLL hx
theorem x_VnuuLL (hx : coefficient (inp C s) (Real.sqrt 2 : ℝ) .VnuuLL [p, r, i, t] = some x) :
    eval (env C s) m_VnuuLL [p, r, i, t] = total x := by compare m_VnuuLL hx
theorem x_VuuLL (hx : coefficient (inp C s) (Real.sqrt 2 : ℝ) .VuuLL [p, r, i, t] = some x) :
    eval (env C s) m_VuuLL [p, r, i, t] = total x := by compare m_VuuLL hx
theorem x_V1ddLR (hx : coefficient (inp C s) (Real.sqrt 2 : ℝ) .V1ddLR [p, r, i, t] = some x) :
    eval (env C s) m_V1ddLR [p, r, i, t] = total x := by compare m_V1ddLR hx
theorem x_V1duLR (hx : coefficient (inp C s) (Real.sqrt 2 : ℝ) .V1duLR [p, r, i, t] = some x) :
    eval (env C s) m_V1duLR [p, r, i, t] = total x := by compare m_V1duLR hx
theorem x_V1udduLR (hx : coefficient (inp C s) (Real.sqrt 2 : ℝ) .V1udduLR [p, r, i, t] = some x) :
    eval (env C s) m_V1udduLR [p, r, i, t] = total x := by compare m_V1udduLR hx
theorem x_V1udLR (hx : coefficient (inp C s) (Real.sqrt 2 : ℝ) .V1udLR [p, r, i, t] = some x) :
    eval (env C s) m_V1udLR [p, r, i, t] = total x := by compare m_V1udLR hx
theorem x_V1uuLR (hx : coefficient (inp C s) (Real.sqrt 2 : ℝ) .V1uuLR [p, r, i, t] = some x) :
    eval (env C s) m_V1uuLR [p, r, i, t] = total x := by compare m_V1uuLR hx
theorem x_V8ddLR (hx : coefficient (inp C s) (Real.sqrt 2 : ℝ) .V8ddLR [p, r, i, t] = some x) :
    eval (env C s) m_V8ddLR [p, r, i, t] = total x := by compare m_V8ddLR hx
theorem x_V8duLR (hx : coefficient (inp C s) (Real.sqrt 2 : ℝ) .V8duLR [p, r, i, t] = some x) :
    eval (env C s) m_V8duLR [p, r, i, t] = total x := by compare m_V8duLR hx
theorem x_V8udduLR (hx : coefficient (inp C s) (Real.sqrt 2 : ℝ) .V8udduLR [p, r, i, t] = some x) :
    eval (env C s) m_V8udduLR [p, r, i, t] = total x := by compare m_V8udduLR hx
theorem x_V8udLR (hx : coefficient (inp C s) (Real.sqrt 2 : ℝ) .V8udLR [p, r, i, t] = some x) :
    eval (env C s) m_V8udLR [p, r, i, t] = total x := by compare m_V8udLR hx
theorem x_V8uuLR (hx : coefficient (inp C s) (Real.sqrt 2 : ℝ) .V8uuLR [p, r, i, t] = some x) :
    eval (env C s) m_V8uuLR [p, r, i, t] = total x := by compare m_V8uuLR hx
theorem x_VdeLR (hx : coefficient (inp C s) (Real.sqrt 2 : ℝ) .VdeLR [p, r, i, t] = some x) :
    eval (env C s) m_VdeLR [p, r, i, t] = total x := by compare m_VdeLR hx
theorem x_VedLR (hx : coefficient (inp C s) (Real.sqrt 2 : ℝ) .VedLR [p, r, i, t] = some x) :
    eval (env C s) m_VedLR [p, r, i, t] = total x := by compare m_VedLR hx
theorem x_VeeLR (hx : coefficient (inp C s) (Real.sqrt 2 : ℝ) .VeeLR [p, r, i, t] = some x) :
    eval (env C s) m_VeeLR [p, r, i, t] = total x := by compare m_VeeLR hx
theorem x_VeuLR (hx : coefficient (inp C s) (Real.sqrt 2 : ℝ) .VeuLR [p, r, i, t] = some x) :
    eval (env C s) m_VeuLR [p, r, i, t] = total x := by compare m_VeuLR hx
theorem x_VnudLR (hx : coefficient (inp C s) (Real.sqrt 2 : ℝ) .VnudLR [p, r, i, t] = some x) :
    eval (env C s) m_VnudLR [p, r, i, t] = total x := by compare m_VnudLR hx
theorem x_VnueduLR (hx : coefficient (inp C s) (Real.sqrt 2 : ℝ) .VnueduLR [p, r, i, t] = some x) :
    eval (env C s) m_VnueduLR [p, r, i, t] = total x := by compare m_VnueduLR hx
theorem x_VnueLR (hx : coefficient (inp C s) (Real.sqrt 2 : ℝ) .VnueLR [p, r, i, t] = some x) :
    eval (env C s) m_VnueLR [p, r, i, t] = total x := by compare m_VnueLR hx
theorem x_VnuuLR (hx : coefficient (inp C s) (Real.sqrt 2 : ℝ) .VnuuLR [p, r, i, t] = some x) :
    eval (env C s) m_VnuuLR [p, r, i, t] = total x := by compare m_VnuuLR hx
theorem x_VueLR (hx : coefficient (inp C s) (Real.sqrt 2 : ℝ) .VueLR [p, r, i, t] = some x) :
    eval (env C s) m_VueLR [p, r, i, t] = total x := by compare m_VueLR hx
theorem x_S1ddRR (hx : coefficient (inp C s) (Real.sqrt 2 : ℝ) .S1ddRR [p, r, i, t] = some x) :
    eval (env C s) m_S1ddRR [p, r, i, t] = total x := by compare m_S1ddRR hx
theorem x_S1udduRR (hx : coefficient (inp C s) (Real.sqrt 2 : ℝ) .S1udduRR [p, r, i, t] = some x) :
    eval (env C s) m_S1udduRR [p, r, i, t] = total x := by compare m_S1udduRR hx
theorem x_S1udRR (hx : coefficient (inp C s) (Real.sqrt 2 : ℝ) .S1udRR [p, r, i, t] = some x) :
    eval (env C s) m_S1udRR [p, r, i, t] = total x := by compare m_S1udRR hx
theorem x_S1uuRR (hx : coefficient (inp C s) (Real.sqrt 2 : ℝ) .S1uuRR [p, r, i, t] = some x) :
    eval (env C s) m_S1uuRR [p, r, i, t] = total x := by compare m_S1uuRR hx
theorem x_S8ddRR (hx : coefficient (inp C s) (Real.sqrt 2 : ℝ) .S8ddRR [p, r, i, t] = some x) :
    eval (env C s) m_S8ddRR [p, r, i, t] = total x := by compare m_S8ddRR hx
theorem x_S8udduRR (hx : coefficient (inp C s) (Real.sqrt 2 : ℝ) .S8udduRR [p, r, i, t] = some x) :
    eval (env C s) m_S8udduRR [p, r, i, t] = total x := by compare m_S8udduRR hx
theorem x_S8udRR (hx : coefficient (inp C s) (Real.sqrt 2 : ℝ) .S8udRR [p, r, i, t] = some x) :
    eval (env C s) m_S8udRR [p, r, i, t] = total x := by compare m_S8udRR hx
theorem x_S8uuRR (hx : coefficient (inp C s) (Real.sqrt 2 : ℝ) .S8uuRR [p, r, i, t] = some x) :
    eval (env C s) m_S8uuRR [p, r, i, t] = total x := by compare m_S8uuRR hx
theorem x_SedRR (hx : coefficient (inp C s) (Real.sqrt 2 : ℝ) .SedRR [p, r, i, t] = some x) :
    eval (env C s) m_SedRR [p, r, i, t] = total x := by compare m_SedRR hx
theorem x_SeeRR (hx : coefficient (inp C s) (Real.sqrt 2 : ℝ) .SeeRR [p, r, i, t] = some x) :
    eval (env C s) m_SeeRR [p, r, i, t] = total x := by compare m_SeeRR hx
theorem x_SeuRR (hx : coefficient (inp C s) (Real.sqrt 2 : ℝ) .SeuRR [p, r, i, t] = some x) :
    eval (env C s) m_SeuRR [p, r, i, t] = total x := by compare m_SeuRR hx
theorem x_SnueduRR (hx : coefficient (inp C s) (Real.sqrt 2 : ℝ) .SnueduRR [p, r, i, t] = some x) :
    eval (env C s) m_SnueduRR [p, r, i, t] = total x := by compare m_SnueduRR hx
theorem x_TedRR (hx : coefficient (inp C s) (Real.sqrt 2 : ℝ) .TedRR [p, r, i, t] = some x) :
    eval (env C s) m_TedRR [p, r, i, t] = total x := by compare m_TedRR hx
theorem x_TeuRR (hx : coefficient (inp C s) (Real.sqrt 2 : ℝ) .TeuRR [p, r, i, t] = some x) :
    eval (env C s) m_TeuRR [p, r, i, t] = total x := by compare m_TeuRR hx
theorem x_TnueduRR (hx : coefficient (inp C s) (Real.sqrt 2 : ℝ) .TnueduRR [p, r, i, t] = some x) :
    eval (env C s) m_TnueduRR [p, r, i, t] = total x := by compare m_TnueduRR hx
theorem x_SedRL (hx : coefficient (inp C s) (Real.sqrt 2 : ℝ) .SedRL [p, r, i, t] = some x) :
    eval (env C s) m_SedRL [p, r, i, t] = total x := by compare m_SedRL hx
theorem x_SeuRL (hx : coefficient (inp C s) (Real.sqrt 2 : ℝ) .SeuRL [p, r, i, t] = some x) :
    eval (env C s) m_SeuRL [p, r, i, t] = total x := by compare m_SeuRL hx
theorem x_SnueduRL (hx : coefficient (inp C s) (Real.sqrt 2 : ℝ) .SnueduRL [p, r, i, t] = some x) :
    eval (env C s) m_SnueduRL [p, r, i, t] = total x := by compare m_SnueduRL hx
theorem x_V1udRR (hx : coefficient (inp C s) (Real.sqrt 2 : ℝ) .V1udRR [p, r, i, t] = some x) :
    eval (env C s) m_V1udRR [p, r, i, t] = total x := by compare m_V1udRR hx
theorem x_V8udRR (hx : coefficient (inp C s) (Real.sqrt 2 : ℝ) .V8udRR [p, r, i, t] = some x) :
    eval (env C s) m_V8udRR [p, r, i, t] = total x := by compare m_V8udRR hx
theorem x_VddRR (hx : coefficient (inp C s) (Real.sqrt 2 : ℝ) .VddRR [p, r, i, t] = some x) :
    eval (env C s) m_VddRR [p, r, i, t] = total x := by compare m_VddRR hx
theorem x_VedRR (hx : coefficient (inp C s) (Real.sqrt 2 : ℝ) .VedRR [p, r, i, t] = some x) :
    eval (env C s) m_VedRR [p, r, i, t] = total x := by compare m_VedRR hx
theorem x_VeeRR (hx : coefficient (inp C s) (Real.sqrt 2 : ℝ) .VeeRR [p, r, i, t] = some x) :
    eval (env C s) m_VeeRR [p, r, i, t] = total x := by compare m_VeeRR hx
theorem x_VeuRR (hx : coefficient (inp C s) (Real.sqrt 2 : ℝ) .VeuRR [p, r, i, t] = some x) :
    eval (env C s) m_VeuRR [p, r, i, t] = total x := by compare m_VeuRR hx
theorem x_VuuRR (hx : coefficient (inp C s) (Real.sqrt 2 : ℝ) .VuuRR [p, r, i, t] = some x) :
    eval (env C s) m_VuuRR [p, r, i, t] = total x := by compare m_VuuRR hx

end

/-- every entry of the program has the value of the specification -/
theorem prog_spec (C : Dict Key Ten) (s : Scal) (hW : s.mW ≠ 0) (hZ : s.mZ ≠ 0) (hv : s.vT ≠ 0)
    (K : WKey) (e : E MV) (hK : (K, e) ∈ treeProg) (ix : Ix) (x : Lin)
    (hx : coefficient (inp C s) (Real.sqrt 2 : ℝ) K ix = some x) : eval (env C s) e ix = total x := by
  have hW : (s.mW : ℂ) ≠ 0 := by exact_mod_cast hW
  have hZ : (s.mZ : ℂ) ≠ 0 := by exact_mod_cast hZ
  have hv : (s.vT : ℂ) ≠ 0 := by exact_mod_cast hv
  have h2 : ((Real.sqrt 2 : ℝ) : ℂ) ≠ 0 := by
    have : Real.sqrt 2 ≠ 0 := by positivity
    exact_mod_cast this
  match ix, hx with
  | [], hx =>
    cases K <;> first
      | (exfalso; simp [coefficient, gluon] at hx; done)
      | skip
    · obtain rfl : e = m_G := by simpa [treeProg] using hK
      exact x_G C s hW hZ hv h2 x hx
    · obtain rfl : e = m_Gtilde := by simpa [treeProg] using hK
      exact x_Gtilde C s hW hZ hv h2 x hx
  | [p, r], hx =>
    cases K <;> first
      | (exfalso; simp [coefficient, dipole] at hx; done)
      | skip
    · obtain rfl : e = m_egamma := by simpa [treeProg] using hK
      exact x_egamma C s hW hZ hv h2 p r x hx
    · obtain rfl : e = m_uG := by simpa [treeProg] using hK
      exact x_uG C s hW hZ hv h2 p r x hx
    · obtain rfl : e = m_dG := by simpa [treeProg] using hK
      exact x_dG C s hW hZ hv h2 p r x hx
    · obtain rfl : e = m_ugamma := by simpa [treeProg] using hK
      exact x_ugamma C s hW hZ hv h2 p r x hx
    · obtain rfl : e = m_dgamma := by simpa [treeProg] using hK
      exact x_dgamma C s hW hZ hv h2 p r x hx
  | [p, r, i, t], hx =>
    cases K <;> first
      | (exfalso; simp [coefficient, vector, scalar, baryon] at hx; done)
      | skip
    · obtain rfl : e = m_S1udRR := by simpa [treeProg] using hK
      exact x_S1udRR C s hW hZ hv h2 p r i t x hx
    · obtain rfl : e = m_S1udduRR := by simpa [treeProg] using hK
      exact x_S1udduRR C s hW hZ hv h2 p r i t x hx
    · obtain rfl : e = m_S8udRR := by simpa [treeProg] using hK
      exact x_S8udRR C s hW hZ hv h2 p r i t x hx
    · obtain rfl : e = m_S8udduRR := by simpa [treeProg] using hK
      exact x_S8udduRR C s hW hZ hv h2 p r i t x hx
    · obtain rfl : e = m_SedRL := by simpa [treeProg] using hK
      exact x_SedRL C s hW hZ hv h2 p r i t x hx
    · obtain rfl : e = m_SedRR := by simpa [treeProg] using hK
      exact x_SedRR C s hW hZ hv h2 p r i t x hx
    · obtain rfl : e = m_SeuRL := by simpa [treeProg] using hK
      exact x_SeuRL C s hW hZ hv h2 p r i t x hx
    · obtain rfl : e = m_SeuRR := by simpa [treeProg] using hK
      exact x_SeuRR C s hW hZ hv h2 p r i t x hx
    · obtain rfl : e = m_SnueduRL := by simpa [treeProg] using hK
      exact x_SnueduRL C s hW hZ hv h2 p r i t x hx
    · obtain rfl : e = m_SnueduRR := by simpa [treeProg] using hK
      exact x_SnueduRR C s hW hZ hv h2 p r i t x hx
    · obtain rfl : e = m_TedRR := by simpa [treeProg] using hK
      exact x_TedRR C s hW hZ hv h2 p r i t x hx
    · obtain rfl : e = m_TeuRR := by simpa [treeProg] using hK
      exact x_TeuRR C s hW hZ hv h2 p r i t x hx
    · obtain rfl : e = m_TnueduRR := by simpa [treeProg] using hK
      exact x_TnueduRR C s hW hZ hv h2 p r i t x hx
    · obtain rfl : e = m_V1udduLR := by simpa [treeProg] using hK
      exact x_V1udduLR C s hW hZ hv h2 p r i t x hx
    · obtain rfl : e = m_V8udduLR := by simpa [treeProg] using hK
      exact x_V8udduLR C s hW hZ hv h2 p r i t x hx
    · obtain rfl : e = m_VnueduLL := by simpa [treeProg] using hK
      exact x_VnueduLL C s hW hZ hv h2 p r i t x hx
    · obtain rfl : e = m_VnueduLR := by simpa [treeProg] using hK
      exact x_VnueduLR C s hW hZ hv h2 p r i t x hx
    · obtain rfl : e = m_SuddLL := by simpa [treeProg] using hK
      exact x_SuddLL C s hW hZ hv h2 p r i t x hx
    · obtain rfl : e = m_SduuLL := by simpa [treeProg] using hK
      exact x_SduuLL C s hW hZ hv h2 p r i t x hx
    · obtain rfl : e = m_SduuLR := by simpa [treeProg] using hK
      exact x_SduuLR C s hW hZ hv h2 p r i t x hx
    · obtain rfl : e = m_SduuRL := by simpa [treeProg] using hK
      exact x_SduuRL C s hW hZ hv h2 p r i t x hx
    · obtain rfl : e = m_SdudRL := by simpa [treeProg] using hK
      exact x_SdudRL C s hW hZ hv h2 p r i t x hx
    · obtain rfl : e = m_SduuRR := by simpa [treeProg] using hK
      exact x_SduuRR C s hW hZ hv h2 p r i t x hx
    · obtain rfl : e = m_VuuRR := by simpa [treeProg] using hK
      exact x_VuuRR C s hW hZ hv h2 p r i t x hx
    · obtain rfl : e = m_VddRR := by simpa [treeProg] using hK
      exact x_VddRR C s hW hZ hv h2 p r i t x hx
    · obtain rfl : e = m_VuuLL := by simpa [treeProg] using hK
      exact x_VuuLL C s hW hZ hv h2 p r i t x hx
    · obtain rfl : e = m_VddLL := by simpa [treeProg] using hK
      exact x_VddLL C s hW hZ hv h2 p r i t x hx
    · obtain rfl : e = m_S1ddRR := by simpa [treeProg] using hK
      exact x_S1ddRR C s hW hZ hv h2 p r i t x hx
    · obtain rfl : e = m_S1uuRR := by simpa [treeProg] using hK
      exact x_S1uuRR C s hW hZ hv h2 p r i t x hx
    · obtain rfl : e = m_S8uuRR := by simpa [treeProg] using hK
      exact x_S8uuRR C s hW hZ hv h2 p r i t x hx
    · obtain rfl : e = m_SeeRR := by simpa [treeProg] using hK
      exact x_SeeRR C s hW hZ hv h2 p r i t x hx
    · obtain rfl : e = m_S8ddRR := by simpa [treeProg] using hK
      exact x_S8ddRR C s hW hZ hv h2 p r i t x hx
    · obtain rfl : e = m_VnueLL := by simpa [treeProg] using hK
      exact x_VnueLL C s hW hZ hv h2 p r i t x hx
    · obtain rfl : e = m_VnuuLL := by simpa [treeProg] using hK
      exact x_VnuuLL C s hW hZ hv h2 p r i t x hx
    · obtain rfl : e = m_VnudLL := by simpa [treeProg] using hK
      exact x_VnudLL C s hW hZ hv h2 p r i t x hx
    · obtain rfl : e = m_VeuLL := by simpa [treeProg] using hK
      exact x_VeuLL C s hW hZ hv h2 p r i t x hx
    · obtain rfl : e = m_VedLL := by simpa [treeProg] using hK
      exact x_VedLL C s hW hZ hv h2 p r i t x hx
    · obtain rfl : e = m_V1udLL := by simpa [treeProg] using hK
      exact x_V1udLL C s hW hZ hv h2 p r i t x hx
    · obtain rfl : e = m_V8udLL := by simpa [treeProg] using hK
      exact x_V8udLL C s hW hZ hv h2 p r i t x hx
    · obtain rfl : e = m_VeuRR := by simpa [treeProg] using hK
      exact x_VeuRR C s hW hZ hv h2 p r i t x hx
    · obtain rfl : e = m_VedRR := by simpa [treeProg] using hK
      exact x_VedRR C s hW hZ hv h2 p r i t x hx
    · obtain rfl : e = m_V1udRR := by simpa [treeProg] using hK
      exact x_V1udRR C s hW hZ hv h2 p r i t x hx
    · obtain rfl : e = m_V8udRR := by simpa [treeProg] using hK
      exact x_V8udRR C s hW hZ hv h2 p r i t x hx
    · obtain rfl : e = m_VnueLR := by simpa [treeProg] using hK
      exact x_VnueLR C s hW hZ hv h2 p r i t x hx
    · obtain rfl : e = m_VeeLR := by simpa [treeProg] using hK
      exact x_VeeLR C s hW hZ hv h2 p r i t x hx
    · obtain rfl : e = m_VnuuLR := by simpa [treeProg] using hK
      exact x_VnuuLR C s hW hZ hv h2 p r i t x hx
    · obtain rfl : e = m_VnudLR := by simpa [treeProg] using hK
      exact x_VnudLR C s hW hZ hv h2 p r i t x hx
    · obtain rfl : e = m_VeuLR := by simpa [treeProg] using hK
      exact x_VeuLR C s hW hZ hv h2 p r i t x hx
    · obtain rfl : e = m_VedLR := by simpa [treeProg] using hK
      exact x_VedLR C s hW hZ hv h2 p r i t x hx
    · obtain rfl : e = m_VueLR := by simpa [treeProg] using hK
      exact x_VueLR C s hW hZ hv h2 p r i t x hx
    · obtain rfl : e = m_VdeLR := by simpa [treeProg] using hK
      exact x_VdeLR C s hW hZ hv h2 p r i t x hx
    · obtain rfl : e = m_V1uuLR := by simpa [treeProg] using hK
      exact x_V1uuLR C s hW hZ hv h2 p r i t x hx
    · obtain rfl : e = m_V8uuLR := by simpa [treeProg] using hK
      exact x_V8uuLR C s hW hZ hv h2 p r i t x hx
    · obtain rfl : e = m_V1udLR := by simpa [treeProg] using hK
      exact x_V1udLR C s hW hZ hv h2 p r i t x hx
    · obtain rfl : e = m_V8udLR := by simpa [treeProg] using hK
      exact x_V8udLR C s hW hZ hv h2 p r i t x hx
    · obtain rfl : e = m_V1duLR := by simpa [treeProg] using hK
      exact x_V1duLR C s hW hZ hv h2 p r i t x hx
    · obtain rfl : e = m_V8duLR := by simpa [treeProg] using hK
      exact x_V8duLR C s hW hZ hv h2 p r i t x hx
    · obtain rfl : e = m_V1ddLR := by simpa [treeProg] using hK
      exact x_V1ddLR C s hW hZ hv h2 p r i t x hx
    · obtain rfl : e = m_V8ddLR := by simpa [treeProg] using hK
      exact x_V8ddLR C s hW hZ hv h2 p r i t x hx
    · obtain rfl : e = m_VeeLL := by simpa [treeProg] using hK
      exact x_VeeLL C s hW hZ hv h2 p r i t x hx
    · obtain rfl : e = m_VeeRR := by simpa [treeProg] using hK
      exact x_VeeRR C s hW hZ hv h2 p r i t x hx
    · obtain rfl : e = m_VnunuLL := by simpa [treeProg] using hK
      exact x_VnunuLL C s hW hZ hv h2 p r i t x hx
    · obtain rfl : e = m_SuudLR := by simpa [treeProg] using hK
      exact x_SuudLR C s hW hZ hv h2 p r i t x hx
    · obtain rfl : e = m_SuudRL := by simpa [treeProg] using hK
      exact x_SuudRL C s hW hZ hv h2 p r i t x hx
    · obtain rfl : e = m_SdduRL := by simpa [treeProg] using hK
      exact x_SdduRL C s hW hZ hv h2 p r i t x hx
  | [_], hx => simp [coefficient] at hx
  | [_, _, _], hx => simp [coefficient] at hx
  | _ :: _ :: _ :: _ :: _ :: _, hx => simp [coefficient] at hx

/-- masses and vacuum expectation value are not zero when the function gets past line 33 -/
theorem scalars_ne {C : Dict Key Ten} {p : Dict String ℝ} {s : Scal} (h : scalars C p = .ok s) :
    s.mW ≠ 0 ∧ s.mZ ≠ 0 ∧ s.vT ≠ 0 := by
  unfold scalars at h
  obtain ⟨mW, _, h⟩ := ok_bind h
  obtain ⟨GF, _, h⟩ := ok_bind h
  obtain ⟨ll, _, h⟩ := ok_bind h
  obtain ⟨phil3, _, h⟩ := ok_bind h
  obtain ⟨phiWB, _, h⟩ := ok_bind h
  obtain ⟨al, _, h⟩ := ok_bind h
  obtain ⟨eb, heb, h⟩ := ok_bind h
  by_cases hG : GFx GF ll phil3 = 0
  · rw [if_pos hG] at h; split_ifs at h
  rw [if_neg hG] at h
  obtain ⟨phiD, _, h⟩ := ok_bind h
  have hv : Real.sqrt (1 / Real.sqrt 2 / ‖GFx GF ll phil3‖) ≠ 0 := by
    have : 0 < ‖GFx GF ll phil3‖ := norm_pos_iff.2 hG
    positivity
  generalize Real.sqrt (1 / Real.sqrt 2 / ‖GFx GF ll phil3‖) = vT at h hv
  unfold scalars2 at h
  simp only at h
  split_ifs at h with h1 h2 h3 h4
  injection h with h
  subst h
  refine ⟨?_, ?_, hv⟩
  · rintro rfl
    apply h2
    have : eb ^ 2 = 0 := by
      have h0 := sq_nonneg eb
      simp at h1
      nlinarith
    rw [this]; simp
  · exact (Real.sqrt_pos.2 (lt_of_le_of_ne (not_lt.1 h3) (Ne.symm h4))).ne'

end Verif.Exchange
