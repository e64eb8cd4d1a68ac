import Verif.Lemmas.FormFlavor
import Mathlib.Tactic.NormNum
import Mathlib.Tactic.LinearCombination
import Mathlib.Tactic.Positivity

/-!
# The export to FormFlavor (C41)

Full statement: the coefficients of each process depend on the JMS coefficients of that process only and on
all of them; the coefficients of D mixing are all conjugated or none of them; the dipole operators are
normalised by the electric or strong charge.  The first part holds for all processes but `sdnn`, the other
parts are violated.
-/

set_option autoImplicit false

namespace Verif.FormFlavor
open Verif Verif.Py Verif.WetNames Verif.WetApply Verif.Gen.WetOut

/-- The coefficients of a process depend on the JMS coefficients of that process only; missing: `sdnn`. -/
theorem C41_own_process_only_partial (P : WetApply.Params) (C C' : Dict String ℂ) (q : String) (xs : List String)
    (hq : (q, xs) ∈ formFlavorProcesses) (hC : ∀ x ∈ xs, C.getD x 0 = C'.getD x 0) :
    ∃ D D', run "JMS_to_FormFlavor" P C = .ok D ∧ run "JMS_to_FormFlavor" P C' = .ok D' ∧
      ∀ lab ∈ labels, D.get? (lab ++ "_" ++ q) = D'.get? (lab ++ "_" ++ q) :=
  ⟨_, _, run_FF P C, run_FF P C', fun _ hl => depends_only P C C' hq hC hl⟩

/-- They determine the JMS coefficients of the process; missing: `sdnn`. -/
theorem C41_whole_process_partial (P : WetApply.Params) (hP : Physical P) (C C' D D' : Dict String ℂ)
    (hD : run "JMS_to_FormFlavor" P C = .ok D) (hD' : run "JMS_to_FormFlavor" P C' = .ok D') (q : String)
    (xs : List String) (hq : (q, xs) ∈ formFlavorProcesses)
    (h : ∀ lab ∈ labels, D.get? (lab ++ "_" ++ q) = D'.get? (lab ++ "_" ++ q)) :
    ∀ x ∈ xs, C.getD x 0 = C'.getD x 0 := by
  rw [run_FF] at hD hD'
  obtain rfl := Except.ok.inj hD
  obtain rfl := Except.ok.inj hD'
  exact determines_all hP C C' hq h

/-- There are no other coefficients. -/
theorem C41_names (P : WetApply.Params) (C : Dict String ℂ) : ∃ D, run "JMS_to_FormFlavor" P C = .ok D ∧
    ∀ x ∈ D.keys, x ∈ ["CVLL_sdnn", "CVRL_sdnn"] ∨
      ∃ q xs, (q, xs) ∈ formFlavorProcesses ∧ ∃ lab ∈ labels, x = lab ++ "_" ++ q := by
  refine ⟨_, run_FF P C, fun x hx => ?_⟩
  rcases List.mem_append.1 (mem_names P C hx) with h | h
  · exact .inl h
  · obtain ⟨⟨q, xs⟩, hq, h⟩ := List.mem_flatMap.1 h
    obtain ⟨lab, hl, z, hz, rfl⟩ := mem_cat.1 h
    rw [List.mem_singleton] at hz
    exact .inr ⟨q, xs, hq, lab, hl, by rw [hz, String.append_assoc]⟩

/-- The lists of coefficients of meson mixing are complete: they contain all coefficients of the JMS sector. -/
theorem C41_mixing_complete (q s : String) (xs : List String) (hq : (q, xs) ∈ formFlavorProcesses)
    (hs : (q, s) ∈ [("bsbs", "sbsb"), ("bdbd", "dbdb"), ("sdsd", "sdsd"), ("cucu", "cucu")]) (x : String)
    (hx : IsCoef s x) : x ∈ xs := by
  simp only [formFlavorProcesses, List.mem_cons, List.not_mem_nil, or_false, Prod.mk.injEq] at hq hs
  rcases hs with ⟨rfl, rfl⟩ | ⟨rfl, rfl⟩ | ⟨rfl, rfl⟩ | ⟨rfl, rfl⟩ <;>
    simp only [String.reduceEq, false_and, or_false, false_or, true_and] at hq <;> subst hq <;>
    exact sector_complete (by decide +kernel) (by decide +kernel) hx

/-- The dipole coefficients with the photon are divided by the electric charge, except for three of the lepton
flavour violating ones. -/
theorem C41_dipoles_partial (P : WetApply.Params) (C : Dict String ℂ) : ∃ D, run "JMS_to_FormFlavor" P C = .ok D ∧
    (∀ x c, (x, c) ∈ [("CAR_sb", "dgamma_23"), ("CAR_db", "dgamma_13"), ("CAR_dd", "dgamma_11"),
        ("CAR_uu", "ugamma_11"), ("CAR_em", "egamma_12"), ("CAR_et", "egamma_13"), ("CAR_mt", "egamma_23")] →
      D.get? x = some (C.getD c 0 / (Real.sqrt (4 * Real.pi * P.par "alpha_e") : ℂ))) ∧
    (∀ x c, (x, c) ∈ [("CAL_sb", "dgamma_32"), ("CAL_db", "dgamma_31"), ("CAL_dd", "dgamma_11"),
        ("CAL_uu", "ugamma_11")] →
      D.get? x = some (star (C.getD c 0) / (Real.sqrt (4 * Real.pi * P.par "alpha_e") : ℂ))) := by
  refine ⟨_, run_FF P C, fun x c h => ?_, fun x c h => ?_⟩
  · exact dipole_R P C h
  · exact dipole_L P C h

/-- Three dipole coefficients of the leptons are divided by the strong instead of the electric charge. -/
theorem C41_lepton_dipoles_violation (P : WetApply.Params) (hP : Physical P) (hne : P.par "alpha_e" ≠ P.par "alpha_s")
    (C : Dict String ℂ) (x c : String)
    (hx : (x, c) ∈ [("CAL_em", "egamma_21"), ("CAL_et", "egamma_31"), ("CAL_mt", "egamma_32")])
    (hc : C.getD c 0 ≠ 0) : ∃ D, run "JMS_to_FormFlavor" P C = .ok D ∧
      D.get? x = some (star (C.getD c 0) / (Real.sqrt (4 * Real.pi * P.par "alpha_s") : ℂ)) ∧
      D.get? x ≠ some (star (C.getD c 0) / (Real.sqrt (4 * Real.pi * P.par "alpha_e") : ℂ)) := by
  have h := dipole_lepton P C hx
  refine ⟨_, run_FF P C, h, ?_⟩
  rw [h]
  intro e
  have he : 0 < 4 * Real.pi * P.par "alpha_e" := by
    have := hP.pos "alpha_e" (by simp)
    have := Real.pi_pos
    positivity
  have hg : 0 < 4 * Real.pi * P.par "alpha_s" := by
    have := hP.pos "alpha_s" (by simp)
    have := Real.pi_pos
    positivity
  have e := Option.some.inj e
  rw [div_eq_mul_inv, div_eq_mul_inv] at e
  have e := mul_left_cancel₀ (star_ne_zero.2 hc) e
  have e := Complex.ofReal_injective (inv_injective e)
  rw [Real.sqrt_inj hg.le he.le] at e
  have h4 : (4 * Real.pi) ≠ 0 := by positivity
  exact hne (mul_left_cancel₀ h4 e).symm

/-- The coefficients for s → d νν are computed from those for b → d νν. -/
theorem C41_sdnn_violation (P : WetApply.Params) (C : Dict String ℂ) : ∃ D, run "JMS_to_FormFlavor" P C = .ok D ∧
    D.get? "CVLL_sdnn" = some (1 / 3 * star (C.getD "VnudLL_1113" 0) + 1 / 3 * star (C.getD "VnudLL_2213" 0) +
      1 / 3 * star (C.getD "VnudLL_3313" 0)) ∧
    D.get? "CVRL_sdnn" = some (1 / 3 * star (C.getD "VnudLR_1113" 0) + 1 / 3 * star (C.getD "VnudLR_2213" 0) +
      1 / 3 * star (C.getD "VnudLR_3313" 0)) :=
  ⟨_, run_FF P C, sdnn_LL P C, sdnn_LR P C⟩

/-- With a single non-zero coefficient for s → d νν the coefficients `sdnn` vanish. -/
theorem C41_sdnn_example (P : WetApply.Params) : ∃ D, run "JMS_to_FormFlavor" P [("VnudLL_1112", 1)] = .ok D ∧
    D.get? "CVLL_sdnn" = some 0 ∧ D.get? "CVRL_sdnn" = some 0 := by
  obtain ⟨D, h1, h2, h3⟩ := C41_sdnn_violation P [("VnudLL_1112", 1)]
  refine ⟨D, h1, ?_, ?_⟩
  · rw [h2]; simp [Dict.getD, Dict.get?]
  · rw [h3]; simp [Dict.getD, Dict.get?]

/-- The coefficients of D mixing are conjugated in part: one JMS coefficient contributes to two FormFlavor
coefficients with and without conjugation, another one in both ways to the same coefficient. -/
theorem C41_D_mixing_violation (P : WetApply.Params) (z : ℂ) :
    (∃ D, run "JMS_to_FormFlavor" P [("S8uuRR_2121", z)] = .ok D ∧ D.get? "CTRR_cucu" = some (-z / 16) ∧
      D.get? "CSRR_cucu" = some (star z / 12)) ∧
    ∃ D, run "JMS_to_FormFlavor" P [("S8uuRR_1212", z)] = .ok D ∧
      D.get? "CSLL_cucu" = some (z / 4 - star z / 6) := by
  refine ⟨⟨_, run_FF _ _, ?_, ?_⟩, _, run_FF _ _, ?_⟩
  · rw [mix_TRR]
    simp only [Dict.getD, Dict.get?, String.reduceEq, if_true, if_false, Option.getD_some, Option.getD_none]
    congr 1
    ring
  · rw [mix_SRR]
    simp only [Dict.getD, Dict.get?, String.reduceEq, if_true, if_false, Option.getD_some, Option.getD_none, star_zero]
    congr 1
    ring
  · rw [mix_SLL]
    simp only [Dict.getD, Dict.get?, String.reduceEq, if_true, if_false, Option.getD_some, Option.getD_none, star_zero]
    congr 1
    ring

/-- a non-trivial case of the hypotheses of the first theorem: the coefficients differ, but not for this process -/
theorem C41_example : ∃ (q : String) (xs : List String) (C C' : Dict String ℂ), (q, xs) ∈ formFlavorProcesses ∧
    (∀ x ∈ xs, C.getD x 0 = C'.getD x 0) ∧ C.getD "dG_13" 0 ≠ C'.getD "dG_13" 0 ∧ C.getD "dG_23" 0 ≠ 0 := by
  refine ⟨"sb", ["dgamma_23", "dG_23", "dgamma_32", "dG_32"], [("dG_23", 1), ("dG_13", 2)], [("dG_23", 1)], ?_, ?_, ?_, ?_⟩
  · simp [formFlavorProcesses]
  · intro x hx
    simp only [List.mem_cons, List.not_mem_nil, or_false] at hx
    rcases hx with rfl | rfl | rfl | rfl <;> simp [Dict.getD, Dict.get?]
  · simp [Dict.getD, Dict.get?]
  · simp [Dict.getD, Dict.get?]

end Verif.FormFlavor
