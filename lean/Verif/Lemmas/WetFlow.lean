import Verif.Lemmas.WetRun
import Verif.Spec.WetRun
import Mathlib.LinearAlgebra.Lagrange
import Mathlib.Algebra.Polynomial.AlgebraMap

/-!
# The evolution matrices as polynomials in the anomalous dimension matrices

With correct eigendecompositions, `Us` and `Ue` are combinations of products of the anomalous
dimension matrices, with real coefficients that are common to all matrices whose eigenvalues are in
a given finite set.
-/

open Classical

set_option autoImplicit false

namespace Verif.WetRun

open Polynomial Matrix

/-! ## Interpolation -/

theorem lag_eval {S : Finset ℂ} {z w : ℂ} (hz : z ∈ S) (hw : w ∈ S) :
    (Lagrange.basis S id z).eval w = if w = z then 1 else 0 := by
  split_ifs with h
  · subst h
    exact Lagrange.eval_basis_self (v := id) (Set.injOn_id _) hz
  · exact Lagrange.eval_basis_of_ne (v := id) (i := z) (j := w) (fun e => h e.symm) hw

theorem lag_conj {S : Finset ℂ} (hS : ∀ z ∈ S, (starRingEnd ℂ) z ∈ S) {z : ℂ} :
    Lagrange.basis S id ((starRingEnd ℂ) z) = (Lagrange.basis S id z).map (starRingEnd ℂ) := by
  unfold Lagrange.basis
  rw [Polynomial.map_prod]
  refine Finset.prod_nbij' (starRingEnd ℂ) (starRingEnd ℂ) ?_ ?_ ?_ ?_ ?_
  · intro x hx
    rw [Finset.mem_erase] at hx ⊢
    exact ⟨fun e => hx.1 (by rw [← e, Complex.conj_conj]), hS x hx.2⟩
  · intro x hx
    rw [Finset.mem_erase] at hx ⊢
    exact ⟨fun e => hx.1 ((starRingEnd ℂ).injective e), hS x hx.2⟩
  · intro x _; exact Complex.conj_conj x
  · intro x _; exact Complex.conj_conj x
  · intro x _
    simp [Lagrange.basisDivisor]

theorem lag_coeff_conj {S : Finset ℂ} (hS : ∀ z ∈ S, (starRingEnd ℂ) z ∈ S) (z : ℂ) (k : ℕ) :
    (Lagrange.basis S id ((starRingEnd ℂ) z)).coeff k = (starRingEnd ℂ) ((Lagrange.basis S id z).coeff k) := by
  rw [lag_conj hS, Polynomial.coeff_map]

theorem aeval_diag {n : ℕ} {M v : Matrix (Fin n) (Fin n) ℂ} {w : Fin n → ℂ} (h : Diagonalises M (w, v)) (P : ℂ[X]) :
    aeval M P = v * diagonal (fun i => P.eval (w i)) * v⁻¹ := by
  obtain ⟨hu, he⟩ := h
  have hdet := (Matrix.isUnit_iff_isUnit_det _).1 hu
  have key : aeval M P * v = v * diagonal (fun i => P.eval (w i)) := by
    induction P using Polynomial.induction_on' with
    | add p q hp hq =>
      rw [map_add, add_mul, hp, hq, ← mul_add, Matrix.diagonal_add]
      simp
    | monomial k a =>
      rw [Polynomial.aeval_monomial]
      have hk : ∀ k : ℕ, M ^ k * v = v * diagonal (fun i => w i ^ k) := by
        intro k
        induction k with
        | zero => simp
        | succ k ih =>
          rw [pow_succ, mul_assoc, show M * v = v * diagonal w from he, ← mul_assoc, ih, mul_assoc, Matrix.diagonal_mul_diagonal]
          simp [pow_succ]
      rw [mul_assoc, hk]
      ext i j
      simp [Algebra.algebraMap_eq_smul_one]
      ring
  rw [← key, mul_assoc, Matrix.mul_nonsing_inv _ hdet, mul_one]

/-- a real number, if it is its own conjugate -/
theorem re_of_conj {z : ℂ} (h : (starRingEnd ℂ) z = z) : ((z.re : ℝ) : ℂ) = z := Complex.conj_eq_iff_re.1 h

/-! ## The two functions of the eigenvalues -/

/-- rge.py:57: the eigenvalue of `Us` -/
noncomputable def usFun (eta : ℝ) (f : ℕ) (z : ℂ) : ℂ := (eta : ℂ) ^ (z / (2 * b0s f))

/-- rge.py:72-76: the factor of an entry of `K` -/
noncomputable def ueFun (eta : ℝ) (f : ℕ) (z y : ℂ) : ℂ :=
  if z / (2 * b0s f) - y / (2 * b0s f) ≠ 1 then
    ((eta : ℂ) ^ (y / (2 * b0s f) + 1) - (eta : ℂ) ^ (z / (2 * b0s f))) / (z / (2 * b0s f) - y / (2 * b0s f) - 1)
  else (eta : ℂ) ^ (z / (2 * b0s f)) * (Real.log (1 / eta) : ℂ)

theorem conj_b0s (f : ℕ) : (starRingEnd ℂ) (2 * b0s f) = 2 * b0s f := by simp [b0s, map_ofNat]

theorem conj_cpow {eta : ℝ} (h : 0 < eta) (z : ℂ) :
    (starRingEnd ℂ) ((eta : ℂ) ^ z) = (eta : ℂ) ^ ((starRingEnd ℂ) z) := by
  have := Complex.cpow_conj (eta : ℂ) z (by rw [Complex.arg_ofReal_of_nonneg h.le]; exact Real.pi_ne_zero.symm)
  rw [this, Complex.conj_ofReal]

theorem usFun_conj {eta : ℝ} (h : 0 < eta) (f : ℕ) (z : ℂ) :
    (starRingEnd ℂ) (usFun eta f z) = usFun eta f ((starRingEnd ℂ) z) := by
  unfold usFun
  rw [conj_cpow h, map_div₀, conj_b0s]

theorem ueFun_conj {eta : ℝ} (h : 0 < eta) (f : ℕ) (z y : ℂ) :
    (starRingEnd ℂ) (ueFun eta f z y) = ueFun eta f ((starRingEnd ℂ) z) ((starRingEnd ℂ) y) := by
  have e : ∀ z : ℂ, (starRingEnd ℂ) z / (2 * b0s f) = (starRingEnd ℂ) (z / (2 * b0s f)) := by
    intro z; rw [map_div₀, conj_b0s]
  unfold ueFun
  rw [e, e]
  by_cases hc : z / (2 * b0s f) - y / (2 * b0s f) = 1
  · rw [if_neg (not_not.2 hc), if_neg (by rw [not_not, ← map_sub, hc, map_one]), map_mul, conj_cpow h, Complex.conj_ofReal]
  · have hc' : (starRingEnd ℂ) (z / (2 * b0s f)) - (starRingEnd ℂ) (y / (2 * b0s f)) ≠ 1 := by
      rw [← map_sub]
      intro h1
      exact hc ((starRingEnd ℂ).injective (by rw [h1, map_one]))
    rw [if_pos hc, if_pos hc', map_div₀, map_sub, map_sub, map_sub, conj_cpow h, conj_cpow h, map_add, map_one]

/-! ## The common coefficients -/

/-- coefficient of the `k`-th power in `Us` -/
noncomputable def usCoeff (S : Finset ℂ) (eta : ℝ) (f k : ℕ) : ℂ :=
  ∑ z ∈ S, usFun eta f z * (Lagrange.basis S id z).coeff k

/-- coefficient of `γ_sᵏ γ_e γ_sˡ` in `Ue`, without the couplings -/
noncomputable def ueCoeff (S : Finset ℂ) (eta : ℝ) (f k l : ℕ) : ℂ :=
  ∑ z ∈ S, ∑ y ∈ S, ueFun eta f z y * ((Lagrange.basis S id z).coeff k * (Lagrange.basis S id y).coeff l)

variable {S : Finset ℂ} (hS : ∀ z ∈ S, (starRingEnd ℂ) z ∈ S) {eta : ℝ} (h : 0 < eta) (f : ℕ)
include hS

theorem sum_conj (g : ℂ → ℂ) : ∑ z ∈ S, g ((starRingEnd ℂ) z) = ∑ z ∈ S, g z :=
  Finset.sum_nbij' (starRingEnd ℂ) (starRingEnd ℂ) (fun z hz => hS z hz) (fun z hz => hS z hz)
    (fun z _ => Complex.conj_conj z) (fun z _ => Complex.conj_conj z) (fun _ _ => rfl)

include h

theorem usCoeff_real (k : ℕ) : ((usCoeff S eta f k).re : ℂ) = usCoeff S eta f k := by
  apply re_of_conj
  unfold usCoeff
  rw [map_sum, ← sum_conj hS]
  refine Finset.sum_congr rfl fun z _ => ?_
  rw [map_mul, usFun_conj h, lag_coeff_conj hS, Complex.conj_conj]
  simp

theorem ueCoeff_real (k l : ℕ) : ((ueCoeff S eta f k l).re : ℂ) = ueCoeff S eta f k l := by
  apply re_of_conj
  unfold ueCoeff
  rw [map_sum, ← sum_conj hS]
  refine Finset.sum_congr rfl fun z _ => ?_
  rw [map_sum, ← sum_conj hS]
  refine Finset.sum_congr rfl fun y _ => ?_
  rw [map_mul, map_mul, ueFun_conj h, lag_coeff_conj hS, lag_coeff_conj hS]
  simp

omit hS h

theorem lag_sum {n : ℕ} (M : Matrix (Fin n) (Fin n) ℂ) (S : Finset ℂ) {z : ℂ} (hz : z ∈ S) :
    aeval M (Lagrange.basis S id z) = ∑ k ∈ Finset.range S.card, (Lagrange.basis S id z).coeff k • M ^ k := by
  rw [Polynomial.aeval_eq_sum_range' ]
  rw [Lagrange.natDegree_basis (Set.injOn_id _) hz]
  have := Finset.card_pos.2 ⟨z, hz⟩
  omega

theorem us_poly {n : ℕ} {M v : Matrix (Fin n) (Fin n) ℂ} {w : Fin n → ℂ} (hD : Diagonalises M (w, v))
    (hw : ∀ i, w i ∈ S) (eta : ℝ) :
    usMatrix w v eta f = ∑ k ∈ Finset.range S.card, usCoeff S eta f k • M ^ k := by
  have h1 : usMatrix w v eta f = ∑ z ∈ S, usFun eta f z • aeval M (Lagrange.basis S id z) := by
    unfold usMatrix
    have : (diagonal fun i => (eta : ℂ) ^ (w i / (2 * b0s f)))
        = ∑ z ∈ S, usFun eta f z • diagonal (fun i => (Lagrange.basis S id z).eval (w i)) := by
      ext i j
      rw [Matrix.sum_apply]
      simp only [Matrix.smul_apply, smul_eq_mul]
      by_cases hij : i = j
      · subst hij
        simp only [Matrix.diagonal_apply_eq]
        rw [Finset.sum_eq_single (w i)]
        · rw [lag_eval (hw i) (hw i), if_pos rfl, mul_one]; rfl
        · intro z hz hne
          rw [lag_eval hz (hw i), if_neg (Ne.symm hne), mul_zero]
        · intro hn; exact absurd (hw i) hn
      · simp [Matrix.diagonal_apply_ne _ hij]
    rw [this, Finset.mul_sum, Finset.sum_mul]
    refine Finset.sum_congr rfl fun z _ => ?_
    rw [aeval_diag hD, Matrix.mul_smul, Matrix.smul_mul]
  rw [h1]
  rw [Finset.sum_congr rfl fun z hz => by rw [lag_sum M S hz, Finset.smul_sum]]
  rw [Finset.sum_comm]
  refine Finset.sum_congr rfl fun k _ => ?_
  unfold usCoeff
  rw [Finset.sum_smul]
  refine Finset.sum_congr rfl fun z _ => ?_
  rw [smul_smul]

theorem ue_poly {n : ℕ} {M v A : Matrix (Fin n) (Fin n) ℂ} {w : Fin n → ℂ} (hD : Diagonalises M (w, v))
    (hw : ∀ i, w i ∈ S) (eta : ℝ) (p : Par) :
    ueMatrix w v A eta f p = (-(p.alpha_e : ℂ) / (2 * b0s f * p.alpha_s)) •
      ∑ k ∈ Finset.range S.card, ∑ l ∈ Finset.range S.card, ueCoeff S eta f k l • (M ^ k * A.transpose * M ^ l) := by
  have h1 : ∀ K : Matrix (Fin n) (Fin n) ℂ,
      K = (fun i j => (v⁻¹ * A.transpose * v) i j * ueFun eta f (w i) (w j)) →
      v * K * v⁻¹ = ∑ z ∈ S, ∑ y ∈ S, ueFun eta f z y •
        (aeval M (Lagrange.basis S id z) * A.transpose * aeval M (Lagrange.basis S id y)) := by
    rintro K rfl
    have : (fun i j => (v⁻¹ * A.transpose * v) i j * ueFun eta f (w i) (w j) : Matrix (Fin n) (Fin n) ℂ)
        = ∑ z ∈ S, ∑ y ∈ S, ueFun eta f z y • (diagonal (fun i => (Lagrange.basis S id z).eval (w i)) *
            (v⁻¹ * A.transpose * v) * diagonal (fun i => (Lagrange.basis S id y).eval (w i))) := by
      ext i j
      simp only [Matrix.sum_apply, Matrix.smul_apply, smul_eq_mul, Matrix.mul_diagonal, Matrix.diagonal_mul]
      rw [Finset.sum_eq_single (w i)]
      · rw [Finset.sum_eq_single (w j)]
        · rw [lag_eval (hw i) (hw i), lag_eval (hw j) (hw j), if_pos rfl, if_pos rfl]; ring
        · intro z hz hne
          rw [lag_eval hz (hw j), if_neg (Ne.symm hne)]; ring
        · intro hn; exact absurd (hw j) hn
      · intro z hz hne
        refine Finset.sum_eq_zero fun y _ => ?_
        rw [lag_eval hz (hw i), if_neg (Ne.symm hne)]; ring
      · intro hn; exact absurd (hw i) hn
    rw [this, Finset.mul_sum, Finset.sum_mul]
    refine Finset.sum_congr rfl fun z _ => ?_
    rw [Finset.mul_sum, Finset.sum_mul]
    refine Finset.sum_congr rfl fun y _ => ?_
    rw [aeval_diag hD, aeval_diag hD, Matrix.mul_smul, Matrix.smul_mul]
    congr 1
    simp only [Matrix.mul_assoc]
  refine congrArg (fun X => (-(p.alpha_e : ℂ) / (2 * b0s f * p.alpha_s)) • X) ((h1 _ ?_).trans ?_)
  · funext i j
    dsimp only
    unfold ueFun
    split_ifs with hc <;> rfl
  have h2 : ∀ z ∈ S, ∀ y ∈ S, aeval M (Lagrange.basis S id z) * A.transpose * aeval M (Lagrange.basis S id y)
      = ∑ k ∈ Finset.range S.card, ∑ l ∈ Finset.range S.card,
        ((Lagrange.basis S id z).coeff k * (Lagrange.basis S id y).coeff l) • (M ^ k * A.transpose * M ^ l) := by
    intro z hz y hy
    rw [lag_sum M S hz, lag_sum M S hy, Finset.sum_mul, Finset.sum_mul]
    refine Finset.sum_congr rfl fun k _ => ?_
    rw [Finset.mul_sum]
    refine Finset.sum_congr rfl fun l _ => ?_
    rw [Matrix.smul_mul, Matrix.smul_mul, Matrix.mul_smul, smul_smul]
  rw [Finset.sum_congr rfl fun z hz => Finset.sum_congr rfl fun y hy => by rw [h2 z hz y hy, Finset.smul_sum]]
  have h3 : ∀ z : ℂ, (∑ y ∈ S, ∑ k ∈ Finset.range S.card, ueFun eta f z y • ∑ l ∈ Finset.range S.card,
        ((Lagrange.basis S id z).coeff k * (Lagrange.basis S id y).coeff l) • (M ^ k * A.transpose * M ^ l))
      = ∑ k ∈ Finset.range S.card, ∑ y ∈ S, ueFun eta f z y • ∑ l ∈ Finset.range S.card,
        ((Lagrange.basis S id z).coeff k * (Lagrange.basis S id y).coeff l) • (M ^ k * A.transpose * M ^ l) :=
    fun z => Finset.sum_comm
  rw [Finset.sum_congr rfl fun z _ => h3 z, Finset.sum_comm]
  refine Finset.sum_congr rfl fun k _ => ?_
  unfold ueCoeff
  simp only [Finset.smul_sum, Finset.sum_smul, smul_smul]
  rw [Finset.sum_congr rfl fun z _ => Finset.sum_comm, Finset.sum_comm]

end Verif.WetRun
