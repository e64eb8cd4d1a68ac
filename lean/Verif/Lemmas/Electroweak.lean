import Verif.Spec.Electroweak
import Mathlib.Tactic.FieldSimp
import Mathlib.Tactic.LinearCombination
import Mathlib.Tactic.Linarith
import Mathlib.Tactic.Positivity
import Mathlib.Analysis.Real.Sqrt
import Mathlib.Analysis.Complex.Norm
import Mathlib.Analysis.Asymptotics.Lemmas
import Mathlib.Topology.Algebra.Order.LiminfLimsup
import Mathlib.Analysis.Normed.Group.Bounded

/-!
# Lemmas: photon and Z
-/

set_option autoImplicit false

namespace Verif.Ew
open Matrix

variable {v ρ ε g1 g2 : ℝ}

/-- `g₁² + g₂² + 2 ε g₁ g₂` -/
def nrm (ε g1 g2 : ℝ) : ℝ := g1 ^ 2 + g2 ^ 2 + 2 * ε * g1 * g2

theorem nrm_pos (hε : ε ^ 2 < 1) (h2 : g2 ≠ 0) : 0 < nrm ε g1 g2 := by
  unfold nrm
  have : 0 < g2 ^ 2 := by positivity
  nlinarith [sq_nonneg (g1 + ε * g2)]

theorem state_iff (m2 : ℝ) (f : Fin 2 → ℝ) : IsMassState (kin ε) (mass v ρ g1 g2) m2 f ↔
    (v ^ 2 * ρ / 4 * (g2 * (g2 * f 0 - g1 * f 1)) = m2 * (f 0 + ε * f 1) ∧
      v ^ 2 * ρ / 4 * (-g1 * (g2 * f 0 - g1 * f 1)) = m2 * (ε * f 0 + f 1)) ∧
      f 0 * (f 0 + ε * f 1) + f 1 * (ε * f 0 + f 1) = 1 := by
  constructor
  · rintro ⟨h1, h2⟩
    refine ⟨⟨?_, ?_⟩, ?_⟩
    · have := congrFun h1 0
      simp [mass, kin, Matrix.mulVec, dotProduct, Fin.sum_univ_two] at this
      linear_combination this
    · have := congrFun h1 1
      simp [mass, kin, Matrix.mulVec, dotProduct, Fin.sum_univ_two] at this
      linear_combination this
    · simp [kin, Matrix.mulVec, dotProduct, Fin.sum_univ_two] at h2
      linear_combination h2
  · rintro ⟨⟨h1, h2⟩, h3⟩
    refine ⟨?_, ?_⟩
    · funext i
      fin_cases i
      · simp [mass, kin, Matrix.mulVec, dotProduct, Fin.sum_univ_two]
        linear_combination h1
      · simp [mass, kin, Matrix.mulVec, dotProduct, Fin.sum_univ_two]
        linear_combination h2
    · simp [kin, Matrix.mulVec, dotProduct, Fin.sum_univ_two]
      linear_combination h3

theorem charge_sq (hv : v ≠ 0) (hρ : ρ ≠ 0) (hε : ε ^ 2 < 1) (h2 : g2 ≠ 0) {e : ℝ}
    (h : ElectricCharge v ρ ε g1 g2 e) : e ^ 2 = g1 ^ 2 * g2 ^ 2 / nrm ε g1 g2 := by
  obtain ⟨f, hf, hc⟩ := h
  obtain ⟨⟨ha, -⟩, hn⟩ := (state_iff 0 f).1 hf
  have hN := nrm_pos (g1 := g1) hε h2
  have h0 : g2 * f 0 - g1 * f 1 = 0 := by
    have : v ^ 2 * ρ / 4 * g2 * (g2 * f 0 - g1 * f 1) = 0 := by linear_combination ha
    have h' : v ^ 2 * ρ / 4 * g2 ≠ 0 := by positivity
    exact (mul_eq_zero.1 this).resolve_left h'
  have hQ := hc 0 1
  simp only [coupling] at hQ
  have he : e = g1 * f 1 := by linear_combination -hQ
  rw [eq_div_iff hN.ne', he]
  unfold nrm
  -- f 0 = g1/g2 f 1
  have : g2 ^ 2 * (f 0 * (f 0 + ε * f 1) + f 1 * (ε * f 0 + f 1)) = f 1 ^ 2 * (g1 ^ 2 + g2 ^ 2 + 2 * ε * g1 * g2) := by
    linear_combination (g2 * f 0 + g1 * f 1 + 2 * ε * f 1 * g2) * h0
  rw [hn] at this
  linear_combination -g1 ^ 2 * this

theorem charge_exists (v ρ : ℝ) (hε : ε ^ 2 < 1) (h2 : g2 ≠ 0) :
    ElectricCharge v ρ ε g1 g2 (g1 * g2 / Real.sqrt (nrm ε g1 g2)) := by
  have hN := nrm_pos (g1 := g1) hε h2
  have hs : Real.sqrt (nrm ε g1 g2) ^ 2 = nrm ε g1 g2 := Real.sq_sqrt hN.le
  have hp : Real.sqrt (nrm ε g1 g2) ≠ 0 := (Real.sqrt_pos.2 hN).ne'
  generalize Real.sqrt (nrm ε g1 g2) = N at hs hp
  refine ⟨![g1 / N, g2 / N], (state_iff 0 _).2 ⟨⟨?_, ?_⟩, ?_⟩, fun T3 Q => ?_⟩
  · simp; right; right; ring
  · simp; right; right; ring
  · simp only [Matrix.cons_val_zero, Matrix.cons_val_one]
    field_simp
    rw [hs]; unfold nrm; ring
  · simp only [coupling, Matrix.cons_val_zero, Matrix.cons_val_one]
    field_simp
    ring

theorem z_facts (hv : v ≠ 0) (hρ : ρ ≠ 0) (hε : ε ^ 2 < 1) (h2 : g2 ≠ 0) {m2 gZ2 s2 : ℝ}
    (h : ZBoson v ρ ε g1 g2 m2 gZ2 s2) : m2 = v ^ 2 * ρ / 4 * (nrm ε g1 g2 / (1 - ε ^ 2)) ∧
      gZ2 = nrm ε g1 g2 / (1 - ε ^ 2) ∧ s2 = g1 * (g1 + ε * g2) / nrm ε g1 g2 := by
  obtain ⟨hm, f, gZ, hf, rfl, hc⟩ := h
  obtain ⟨⟨ha, hb⟩, hn⟩ := (state_iff m2 f).1 hf
  have hN := nrm_pos (g1 := g1) hε h2
  have hE : 1 - ε ^ 2 ≠ 0 := by nlinarith
  have hT := hc 1 0
  have hQ := hc 0 1
  simp only [coupling] at hT hQ
  have hT : g2 * f 0 - g1 * f 1 = gZ := by linear_combination hT
  have hQ : g1 * f 1 = -(gZ * s2) := by linear_combination hQ
  rw [hT] at ha hb
  -- f is proportional to K⁻¹ u
  have hx : m2 * (1 - ε ^ 2) * f 0 = v ^ 2 * ρ / 4 * gZ * (g2 + ε * g1) := by
    linear_combination -ha + ε * hb
  have hy : m2 * (1 - ε ^ 2) * f 1 = -(v ^ 2 * ρ / 4 * gZ * (g1 + ε * g2)) := by
    linear_combination -hb + ε * ha
  have hg0 : gZ ≠ 0 := by
    rintro rfl
    have h0 : f 0 = 0 := by
      have : m2 * (1 - ε ^ 2) * f 0 = 0 := by linear_combination hx
      exact (mul_eq_zero.1 this).resolve_left (mul_ne_zero hm hE)
    have h1 : f 1 = 0 := by
      have : m2 * (1 - ε ^ 2) * f 1 = 0 := by linear_combination hy
      exact (mul_eq_zero.1 this).resolve_left (mul_ne_zero hm hE)
    rw [h0, h1] at hn
    norm_num at hn
  have hm2 : m2 * (1 - ε ^ 2) = v ^ 2 * ρ / 4 * nrm ε g1 g2 := by
    have : m2 * (1 - ε ^ 2) * gZ = v ^ 2 * ρ / 4 * nrm ε g1 g2 * gZ := by
      unfold nrm
      linear_combination (-(m2 * (1 - ε ^ 2))) * hT + g2 * hx - g1 * hy
    exact mul_right_cancel₀ hg0 this
  have hgz : gZ ^ 2 * (v ^ 2 * ρ / 4) = m2 := by
    linear_combination (-(v ^ 2 * ρ / 4) * gZ) * hT + f 0 * ha + f 1 * hb + m2 * hn
  have hc0 : v ^ 2 * ρ / 4 ≠ 0 := by positivity
  have hmm : m2 = v ^ 2 * ρ / 4 * (nrm ε g1 g2 / (1 - ε ^ 2)) := by
    field_simp
    field_simp at hm2
    linear_combination hm2
  refine ⟨hmm, ?_, ?_⟩
  · apply mul_right_cancel₀ hc0
    rw [hgz, hmm]; ring
  · rw [eq_div_iff hN.ne']
    have : (v ^ 2 * ρ / 4 * gZ) * (s2 * nrm ε g1 g2) = (v ^ 2 * ρ / 4 * gZ) * (g1 * (g1 + ε * g2)) := by
      linear_combination (-s2 * gZ) * hm2 + (m2 * (1 - ε ^ 2)) * hQ - g1 * hy
    exact mul_left_cancel₀ (mul_ne_zero hc0 hg0) this

theorem z_exists (hv : v ≠ 0) (hρ : 0 < ρ) (hε : ε ^ 2 < 1) (h2 : g2 ≠ 0) :
    ∃ m2 gZ2 s2, ZBoson v ρ ε g1 g2 m2 gZ2 s2 := by
  have hN := nrm_pos (g1 := g1) hε h2
  have hE : 0 < 1 - ε ^ 2 := by linarith
  have hq : 0 < nrm ε g1 g2 * (1 - ε ^ 2) := by positivity
  have hs : Real.sqrt (nrm ε g1 g2 * (1 - ε ^ 2)) ^ 2 = nrm ε g1 g2 * (1 - ε ^ 2) := Real.sq_sqrt hq.le
  have hp : Real.sqrt (nrm ε g1 g2 * (1 - ε ^ 2)) ≠ 0 := (Real.sqrt_pos.2 hq).ne'
  generalize Real.sqrt (nrm ε g1 g2 * (1 - ε ^ 2)) = N at hs hp
  have hE' := hE.ne'
  refine ⟨v ^ 2 * ρ / 4 * (nrm ε g1 g2 / (1 - ε ^ 2)), (nrm ε g1 g2 / N) ^ 2,
    g1 * (g1 + ε * g2) / nrm ε g1 g2, by positivity, ![(g2 + ε * g1) / N, -(g1 + ε * g2) / N], nrm ε g1 g2 / N,
    (state_iff _ _).2 ⟨⟨?_, ?_⟩, ?_⟩, rfl, fun T3 Q => ?_⟩
  · simp only [Matrix.cons_val_zero, Matrix.cons_val_one]
    field_simp
    unfold nrm; ring
  · simp only [Matrix.cons_val_zero, Matrix.cons_val_one]
    field_simp
    unfold nrm; ring
  · simp only [Matrix.cons_val_zero, Matrix.cons_val_one]
    field_simp
    rw [hs]; unfold nrm; ring
  · simp only [coupling, Matrix.cons_val_zero, Matrix.cons_val_one]
    have := hN.ne'
    field_simp
    unfold nrm; ring

/-! ### Second order -/

open Filter Topology Asymptotics

/-- `λ² R(λ)` with `R` continuous at 0 is of second order -/
theorem second_order {f : ℝ → ℂ} {R : ℝ → ℝ} (hR : ContinuousAt R 0)
    (h : ∀ᶠ l in 𝓝 0, f l = ((l ^ 2 * R l : ℝ) : ℂ)) : f =O[𝓝 0] fun l => l ^ 2 := by
  have h1 : (fun l : ℝ => l ^ 2 * R l) =O[𝓝 0] fun l => l ^ 2 * (1 : ℝ) :=
    (isBigO_refl _ _).mul (hR.isBigO_one ℝ)
  have h2 : (fun l : ℝ => ((l ^ 2 * R l : ℝ) : ℂ)) =O[𝓝 0] fun l => l ^ 2 * (1 : ℝ) := by
    refine IsBigO.of_norm_left (IsBigO.congr_left h1.norm_left fun l => ?_)
    rw [Complex.norm_real]
  exact h2.congr' (EventuallyEq.symm h) (Eventually.of_forall fun l => by ring)

end Verif.Ew
