import Verif.Lemmas.WetEos
import Mathlib.Tactic.NormNum
import Mathlib.Tactic.LinearCombination

/-!
# The export to EOS (C40, C83)

C40, full statement: the numbers exported under `…::Re{x}` and `…::Im{x}` are real and are the real and the
imaginary part of the coefficient in the EOS normalisation (`IsEos`).  This is violated whenever the prefactor
is not real; what always holds is that the first number plus i times the second one is the coefficient.

C83, full statement: coefficients of the operators that EOS and flavio have in common are the same in both
exports.  This holds except for the chromomagnetic coefficients, of which the export to EOS keeps a part only.
-/

set_option autoImplicit false
set_option linter.unusedSimpArgs false

namespace Verif.WetEos
open Verif Verif.Py Verif.WetApply

/-- The two numbers together are the coefficient; they are its real and imaginary part if the prefactor is
real (missing: complex prefactors). -/
theorem C40_parts_partial (P : WetApply.Params) (hP : Physical P) (C : Dict String ℂ) (pre x : String) (z : ℂ)
    (h : IsEos P C pre x z) : ∃ D a b, runEos P C = .ok D ∧
      D.get? (pre ++ "::Re{" ++ x ++ "}") = some (.number a) ∧
      D.get? (pre ++ "::Im{" ++ x ++ "}") = some (.number b) ∧ a + b * Complex.I = z ∧
      ((unit P).im = 0 → a = (z.re : ℂ) ∧ b = (z.im : ℂ)) := by
  obtain ⟨w, rfl, h1, h2⟩ := stored hP h
  refine ⟨_, _, _, run_eos P C, h1, h2, ?_, fun hu => ?_⟩
  · rw [mul_assoc, ← mul_add, Complex.re_add_im]
  · have e : unit P = ((unit P).re : ℂ) := Complex.ext (by simp) (by simp [hu])
    rw [Complex.mul_re, Complex.mul_im, hu]
    constructor
    · rw [e]; simp
    · rw [e]; simp

/-- Violation: with a complex prefactor no non-zero coefficient is exported as its real and imaginary part; one
of the two numbers is not real. -/
theorem C40_complex_prefactor_violation (P : WetApply.Params) (hP : Physical P) (C : Dict String ℂ) (pre x : String)
    (z : ℂ) (h : IsEos P C pre x z) (hu : (unit P).im ≠ 0) (hz : z ≠ 0) : ∃ D a b, runEos P C = .ok D ∧
      D.get? (pre ++ "::Re{" ++ x ++ "}") = some (.number a) ∧
      D.get? (pre ++ "::Im{" ++ x ++ "}") = some (.number b) ∧ ¬ (a.im = 0 ∧ b.im = 0) := by
  obtain ⟨w, rfl, h1, h2⟩ := stored hP h
  refine ⟨_, _, _, run_eos P C, h1, h2, fun ⟨ha, hb⟩ => hz ?_⟩
  rw [Complex.mul_im, Complex.ofReal_re, Complex.ofReal_im, mul_zero, zero_add] at ha hb
  have h3 := (mul_eq_zero.1 ha).resolve_left hu
  have h4 := (mul_eq_zero.1 hb).resolve_left hu
  have : w = 0 := Complex.ext h3 h4
  rw [this, mul_zero]

/-- parameters with a phase in the CKM matrix -/
noncomputable def phaseExample : WetApply.Params where
  par k := if k = "GF" then 1.1663787e-5 else if k = "alpha_e" then 0.00781616 else if k = "alpha_s" then 0.2
    else if k = "m_b" then 4.2 else 0.1
  ckm i j := if i = j then 1 else if i = 2 then 0.04 + 0.001 * Complex.I else 0.2

theorem phaseExample_physical : Physical phaseExample where
  pos := by
    intro k _
    dsimp only [phaseExample]
    split_ifs <;> norm_num
  ckm := by
    intro i j _ _
    dsimp only [phaseExample]
    split_ifs
    · exact one_ne_zero
    · intro h
      have := congrArg Complex.re h
      norm_num at this
    · norm_num

/-- a non-trivial case of the hypotheses of both theorems -/
theorem C40_example : Physical phaseExample ∧ (unit phaseExample).im ≠ 0 ∧
    ∃ z ≠ 0, IsEos phaseExample [("VedLL_1123", 1)] ("b->s" ++ "ee") "c9" z := by
  have hu : (unit phaseExample).im ≠ 0 := by
    intro h
    have hd : (unit phaseExample)⁻¹.im = 0 := by rw [Complex.inv_im, h]; simp
    simp only [unit, phaseExample, inv_div, if_true, if_false, Nat.reduceEqDiff, mul_one] at hd
    rw [div_eq_mul_inv, ← Complex.ofReal_inv, Complex.im_mul_ofReal] at hd
    rcases mul_eq_zero.1 hd with hd | hd
    · have hr : (4 : ℂ) * (((1.1663787e-5 : ℝ)) : ℂ) = ((4 * 1.1663787e-5 : ℝ) : ℂ) := by push_cast; ring
      rw [hr, Complex.im_ofReal_mul] at hd
      norm_num at hd
    · have : Real.sqrt 2 ≠ 0 := by simp
      exact inv_ne_zero this hd
  refine ⟨phaseExample_physical, hu, _, ?_, .semileptonic "ee" "11" (by simp) "c9" _ (List.mem_cons_self ..)⟩
  have h1 : unit phaseExample ≠ 0 := fun h => hu (by rw [h]; rfl)
  refine mul_ne_zero h1 (mul_ne_zero ?_ ?_)
  · rw [Complex.ofReal_ne_zero, perCharge2]
    have := Real.pi_pos.ne'
    simp [phaseExample, this]
    norm_num
  · simp [total, Dict.getD, Dict.get?]

/-! ## EOS and flavio -/

/-- b → u l ν and b → c l ν: the same numbers -/
theorem C83_charged_current (P : WetApply.Params) (hP : Physical P) (C : Dict String ℂ) : ∃ D F,
    runEos P C = .ok D ∧ run "JMS_to_flavio" P C = .ok F ∧ ∀ x y, (x, y) ∈ chargedCurrent →
      ∃ z, D.get? x = some (.number z) ∧ F.get? y = some z :=
  ⟨_, _, run_eos P C, run_flavio P C, fun _ _ h => agreeOK_sound hP C (List.all_eq_true.1 check_charged _ h)⟩

/-- b → s l l, vector operators: flavio's coefficient is the first number plus i times the second one -/
theorem C83_vector (P : WetApply.Params) (hP : Physical P) (C : Dict String ℂ) : ∃ D F,
    runEos P C = .ok D ∧ run "JMS_to_flavio" P C = .ok F ∧ ∀ l ∈ ["ee", "mumu"], ∀ x y, (x, y) ∈ vectorNames →
      ∃ a b, D.get? ("b->s" ++ l ++ "::Re{" ++ x ++ "}") = some (.number a) ∧
        D.get? ("b->s" ++ l ++ "::Im{" ++ x ++ "}") = some (.number b) ∧
        F.get? (y ++ "_bs" ++ l) = some (a + b * Complex.I) := by
  refine ⟨_, _, run_eos P C, run_flavio P C, fun l hl x y hy => ?_⟩
  have key : ∀ ll, (l, ll) ∈ [("ee", "11"), ("mumu", "22")] → (∃ ps, (x, ps) ∈ semileptonic ll) →
      ∃ a b, (dict P C).get? ("b->s" ++ l ++ "::Re{" ++ x ++ "}") = some (.number a) ∧
        (dict P C).get? ("b->s" ++ l ++ "::Im{" ++ x ++ "}") = some (.number b) ∧
        (flavioDict P C).get? (y ++ "_bs" ++ l) = some (a + b * Complex.I) := by
    rintro ll hll ⟨ps, hps⟩
    obtain ⟨w, hw, h1, h2⟩ := stored hP (.semileptonic (C := C) l ll hll x ps hps)
    refine ⟨_, _, h1, h2, ?_⟩
    rw [flavioOK_sound hP C (eval_perCharge2 hP C) (check_flavio l ll hll x y ps hy hps), hw, mul_assoc, ← mul_add,
      Complex.re_add_im]
  have hm : ∀ ll, ∃ ps, (x, ps) ∈ semileptonic ll := by
    intro ll
    simp only [vectorNames, List.mem_cons, List.not_mem_nil, or_false, Prod.mk.injEq] at hy
    rcases hy with ⟨rfl, -⟩ | ⟨rfl, -⟩ | ⟨rfl, -⟩ | ⟨rfl, -⟩ <;> simp [semileptonic]
  simp only [List.mem_cons, List.not_mem_nil, or_false] at hl
  rcases hl with rfl | rfl
  · exact key "11" (by simp) (hm _)
  · exact key "22" (by simp) (hm _)

/-- b → s l l, scalar operators: flavio's coefficients are those of EOS divided by the mass of the b quark -/
theorem C83_scalar (P : WetApply.Params) (hP : Physical P) (C : Dict String ℂ) : ∃ D F,
    runEos P C = .ok D ∧ run "JMS_to_flavio" P C = .ok F ∧ ∀ l ∈ ["ee", "mumu"], ∀ x y, (x, y) ∈ scalarNames →
      ∃ a b, D.get? ("b->s" ++ l ++ "::Re{" ++ x ++ "}") = some (.number a) ∧
        D.get? ("b->s" ++ l ++ "::Im{" ++ x ++ "}") = some (.number b) ∧
        F.get? (y ++ "_bs" ++ l) = some ((a + b * Complex.I) / (P.par "m_b" : ℂ)) := by
  refine ⟨_, _, run_eos P C, run_flavio P C, fun l hl x y hy => ?_⟩
  have key : ∀ ll, (l, ll) ∈ [("ee", "11"), ("mumu", "22")] → (∃ ps, (x, ps) ∈ semileptonic ll) →
      ∃ a b, (dict P C).get? ("b->s" ++ l ++ "::Re{" ++ x ++ "}") = some (.number a) ∧
        (dict P C).get? ("b->s" ++ l ++ "::Im{" ++ x ++ "}") = some (.number b) ∧
        (flavioDict P C).get? (y ++ "_bs" ++ l) = some ((a + b * Complex.I) / (P.par "m_b" : ℂ)) := by
    rintro ll hll ⟨ps, hps⟩
    obtain ⟨w, hw, h1, h2⟩ := stored hP (.semileptonic (C := C) l ll hll x ps hps)
    refine ⟨_, _, h1, h2, ?_⟩
    rw [flavioOK_sound hP C (eval_scalar hP C) (check_scalar l ll hll x y ps hy hps), mul_assoc, ← mul_add,
      Complex.re_add_im, ← hw]
    congr 1
    ring
  have hm : ∀ ll, ∃ ps, (x, ps) ∈ semileptonic ll := by
    intro ll
    simp only [scalarNames, List.mem_cons, List.not_mem_nil, or_false, Prod.mk.injEq] at hy
    rcases hy with ⟨rfl, -⟩ | ⟨rfl, -⟩ | ⟨rfl, -⟩ | ⟨rfl, -⟩ <;> simp [semileptonic]
  simp only [List.mem_cons, List.not_mem_nil, or_false] at hl
  rcases hl with rfl | rfl
  · exact key "11" (by simp) (hm _)
  · exact key "22" (by simp) (hm _)

/-- b → s γ -/
theorem C83_radiative (P : WetApply.Params) (hP : Physical P) (C : Dict String ℂ) : ∃ D F,
    runEos P C = .ok D ∧ run "JMS_to_flavio" P C = .ok F ∧ ∀ x y, (x, y) ∈ [("c7", "C7_bs"), ("c7'", "C7p_bs")] →
      ∃ a b, D.get? ("b->s" ++ "::Re{" ++ x ++ "}") = some (.number a) ∧
        D.get? ("b->s" ++ "::Im{" ++ x ++ "}") = some (.number b) ∧ F.get? y = some (a + b * Complex.I) := by
  refine ⟨_, _, run_eos P C, run_flavio P C, fun x y hy => ?_⟩
  simp only [List.mem_cons, List.not_mem_nil, or_false, Prod.mk.injEq] at hy
  rcases hy with ⟨rfl, rfl⟩ | ⟨rfl, rfl⟩
  · obtain ⟨w, hw, h1, h2⟩ := stored hP (.radiative (C := C) "c7" _ (List.mem_cons_self ..))
    refine ⟨_, _, h1, h2, ?_⟩
    rw [flavioOK_sound hP C (eval_perCharge P C) check_c7, hw, mul_assoc, ← mul_add, Complex.re_add_im]
  · obtain ⟨w, hw, h1, h2⟩ := stored hP (.radiative (C := C) "c7'" _ (List.mem_cons_of_mem _ (List.mem_cons_self ..)))
    refine ⟨_, _, h1, h2, ?_⟩
    rw [flavioOK_sound hP C (eval_perCharge P C) check_c7p, hw, mul_assoc, ← mul_add, Complex.re_add_im]

/-- Violation: an imaginary chromomagnetic coefficient is exported to EOS as zero. -/
theorem C83_chromomagnetic_violation (P : WetApply.Params) (hP : Physical P) : ∃ D F z,
    runEos P [("dG_23", Complex.I)] = .ok D ∧ run "JMS_to_flavio" P [("dG_23", Complex.I)] = .ok F ∧
      D.get? "b->s::c8" = some (.number 0) ∧ F.get? "C8_bs" = some z ∧ z ≠ 0 := by
  refine ⟨_, _, _, run_eos P _, run_flavio P _, ?_, flavioOK_sound hP _ (eval_perStrong P _) check_c8, ?_⟩
  · rw [eos_c8 hP]
    simp [Dict.getD, Dict.get?]
  · have hs := hP.pos "alpha_s" (by simp)
    have hb := hP.pos "m_b" (by simp)
    have hg := hP.pos "GF" (by simp)
    have hpi := Real.pi_pos
    refine mul_ne_zero ?_ (mul_ne_zero ?_ ?_)
    · unfold unit
      refine div_ne_zero (by simp) (mul_ne_zero (mul_ne_zero (mul_ne_zero (by norm_num) ?_) ?_) ?_)
      · exact Complex.ofReal_ne_zero.2 hg.ne'
      · exact hP.ckm 2 2 (by norm_num) (by norm_num)
      · exact star_ne_zero.2 (hP.ckm 2 1 (by norm_num) (by norm_num))
    · rw [Complex.ofReal_ne_zero, perStrong]
      have : 0 < Real.sqrt (4 * Real.pi * P.par "alpha_s") := Real.sqrt_pos.2 (by positivity)
      positivity
    · simp [total, Dict.getD, Dict.get?]

/-- Violation: one of the coefficients is exported as an array with one entry. -/
theorem C83_array_violation (P : WetApply.Params) (C : Dict String ℂ) :
    ∃ D z, runEos P C = .ok D ∧ D.get? "b->s::c5" = some (.array [z]) := by
  obtain ⟨z, h⟩ := eos_c5 P C
  exact ⟨_, z, run_eos P C, h⟩

/-- names and coefficients to which the theorems apply -/
theorem C83_example : ("cbenue::cVL", "CVL_bcenue") ∈ chargedCurrent ∧ Physical phaseExample := by
  refine ⟨?_, phaseExample_physical⟩
  unfold chargedCurrent
  simp only [List.mem_flatMap, List.mem_map]
  exact ⟨"c", by simp, "e", by simp, "VL", by simp, by decide⟩

end Verif.WetEos
