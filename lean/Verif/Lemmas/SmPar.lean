import Mathlib.Analysis.Complex.Norm
import Mathlib.Tactic.Linarith
import Verif.Spec.SmPar
import Mathlib.LinearAlgebra.Matrix.Charpoly.Basic
import Mathlib.Algebra.Polynomial.Roots
import Mathlib.Tactic.FieldSimp
import Mathlib.Tactic.LinearCombination
import Mathlib.Tactic.FinCases

/-!
# Lemmas on singular values and phases
-/

open Matrix

set_option autoImplicit false

namespace Verif.SmPar

theorem unitary_mul_conj {U : M3} (h : IsUnitary U) : U * U.conjTranspose = 1 :=
  mem_unitaryGroup_iff.1 h

theorem unitary_conj_mul {U : M3} (h : IsUnitary U) : U.conjTranspose * U = 1 :=
  mem_unitaryGroup_iff'.1 h

theorem unitary_conj {U : M3} (h : IsUnitary U) : IsUnitary U.conjTranspose := by
  unfold IsUnitary
  rw [mem_unitaryGroup_iff, star_eq_conjTranspose, conjTranspose_conjTranspose]
  exact unitary_conj_mul h

theorem unitary_mul {U V : M3} (h : IsUnitary U) (h' : IsUnitary V) : IsUnitary (U * V) :=
  mul_mem h h'

/-- similar diagonal matrices have the same entries up to order -/
theorem diag_perm (V : M3) (hV : IsUnitary V) (a b : Fin 3 → ℂ)
    (h : V.conjTranspose * diagonal a * V = diagonal b) :
    Multiset.map a Finset.univ.val = Multiset.map b Finset.univ.val := by
  have hc : (diagonal b).charpoly = (diagonal a).charpoly := by
    rw [← h]
    rw [Matrix.charpoly_mul_comm, ← Matrix.mul_assoc, unitary_mul_conj hV, Matrix.one_mul]
  rw [Matrix.charpoly_diagonal, Matrix.charpoly_diagonal] at hc
  have e : ∀ c : Fin 3 → ℂ, (∏ i, (Polynomial.X - Polynomial.C (c i))).roots
      = Multiset.map c Finset.univ.val := by
    intro c
    have := Polynomial.roots_multiset_prod_X_sub_C (Multiset.map c Finset.univ.val)
    rw [Multiset.map_map] at this
    exact this
  rw [← e a, ← e b, hc]

/-- ascending triples with the same entries are equal -/
theorem sorted_unique {a b : Fin 3 → ℝ} (ha : a 0 ≤ a 1 ∧ a 1 ≤ a 2) (hb : b 0 ≤ b 1 ∧ b 1 ≤ b 2)
    (h : Multiset.map a Finset.univ.val = Multiset.map b Finset.univ.val) : a = b := by
  have h1 : ∀ c : Fin 3 → ℝ, Multiset.map c Finset.univ.val = (↑[c 0, c 1, c 2] : Multiset ℝ) := by
    intro c; rfl
  rw [h1, h1] at h
  have hp : [a 0, a 1, a 2].Perm [b 0, b 1, b 2] := Multiset.coe_eq_coe.1 h
  have hs : ∀ c : Fin 3 → ℝ, c 0 ≤ c 1 ∧ c 1 ≤ c 2 → [c 0, c 1, c 2].Pairwise (· ≤ ·) := by
    intro c hc
    simp only [List.pairwise_cons, List.mem_cons, List.not_mem_nil, or_false, forall_eq_or_imp,
      forall_eq]
    refine ⟨⟨hc.1, hc.1.trans hc.2⟩, hc.2, ?_, List.Pairwise.nil⟩
    simp
  have he := List.Perm.eq_of_pairwise (fun x y _ _ hxy hyx => le_antisymm hxy hyx) (hs a ha) (hs b hb) hp
  simp only [List.cons.injEq, and_true] at he
  funext i
  fin_cases i
  · exact he.1
  · exact he.2.1
  · exact he.2.2

/-- the singular values of `A * diagonal d * B` with unitary `A`, `B` are `d` -/
theorem svd_unique {X : Ext} (A B : M3) (hA : IsUnitary A) (hB : IsUnitary B)
    (d : Fin 3 → ℝ) (hX : SvdAt X (A * diagonal (fun i => (d i : ℂ)) * B))
    (hd : 0 ≤ d 0 ∧ d 0 ≤ d 1 ∧ d 1 ≤ d 2) :
    (X.msvd (A * diagonal (fun i => (d i : ℂ)) * B)).2.1 = d := by
  set M := A * diagonal (fun i => (d i : ℂ)) * B with hM
  obtain ⟨hU, hV, h, h0, h1, h2⟩ := hX
  set U := (X.msvd M).1
  set s := (X.msvd M).2.1
  set V := (X.msvd M).2.2
  have hsq : ∀ c : Fin 3 → ℝ, (diagonal (fun i => (c i : ℂ))).conjTranspose
      * diagonal (fun i => (c i : ℂ)) = diagonal (fun i => (((c i) ^ 2 : ℝ) : ℂ)) := by
    intro c
    rw [diagonal_conjTranspose, diagonal_mul_diagonal]
    congr 1
    funext i
    simp [sq]
  have hMM : V.conjTranspose * (M.conjTranspose * M) * V
      = diagonal (fun i => (((s i) ^ 2 : ℝ) : ℂ)) := by
    rw [← hsq s, ← h]
    simp only [conjTranspose_mul, conjTranspose_conjTranspose, Matrix.mul_assoc]
    rw [← Matrix.mul_assoc U U.conjTranspose, unitary_mul_conj hU, Matrix.one_mul]
  have hMM' : M.conjTranspose * M
      = B.conjTranspose * diagonal (fun i => (((d i) ^ 2 : ℝ) : ℂ)) * B := by
    rw [← hsq d, hM]
    simp only [conjTranspose_mul, Matrix.mul_assoc]
    rw [← Matrix.mul_assoc A.conjTranspose A, unitary_conj_mul hA, Matrix.one_mul]
  have hperm := diag_perm (B * V) (unitary_mul hB hV) (fun i => (((d i) ^ 2 : ℝ) : ℂ))
    (fun i => (((s i) ^ 2 : ℝ) : ℂ)) (by
      rw [← hMM, hMM']
      simp only [conjTranspose_mul, Matrix.mul_assoc])
  have hreal : Multiset.map (fun i => (d i) ^ 2) (Finset.univ : Finset (Fin 3)).val
      = Multiset.map (fun i => (s i) ^ 2) Finset.univ.val := by
    have := congrArg (Multiset.map Complex.re) hperm
    rw [Multiset.map_map, Multiset.map_map] at this
    simp only [Function.comp_def, Complex.ofReal_re] at this
    exact this
  have hsq' := sorted_unique (a := fun i => (d i) ^ 2) (b := fun i => (s i) ^ 2)
    ⟨pow_le_pow_left₀ hd.1 hd.2.1 2, pow_le_pow_left₀ (hd.1.trans hd.2.1) hd.2.2 2⟩
    ⟨pow_le_pow_left₀ h0 h1 2, pow_le_pow_left₀ (h0.trans h1) h2 2⟩ hreal
  funext i
  have hi : d i ^ 2 = s i ^ 2 := congrFun hsq' i
  have hdi : 0 ≤ d i := by
    fin_cases i
    · exact hd.1
    · exact hd.1.trans hd.2.1
    · exact hd.1.trans (hd.2.1.trans hd.2.2)
  have hsi : 0 ≤ s i := by
    fin_cases i
    · exact h0
    · exact h0.trans h1
    · exact h0.trans (h1.trans h2)
  exact (pow_left_injective₀' hsi hdi hi)
where
  pow_left_injective₀' {x y : ℝ} (hx : 0 ≤ x) (hy : 0 ≤ y) (h : y ^ 2 = x ^ 2) : x = y := by
    have := (sq_eq_sq₀ hy hx).1 h
    exact this.symm

/-- with distinct singular values the left unitary matrix is determined up to phases -/
theorem svd_left {X : Ext} (A B : M3) (hA : IsUnitary A) (hB : IsUnitary B)
    (d : Fin 3 → ℝ) (hX : SvdAt X (A * diagonal (fun i => (d i : ℂ)) * B)) (hd : 0 ≤ d 0 ∧ d 0 < d 1 ∧ d 1 < d 2) :
    ∃ ph : Fin 3 → ℂ, (∀ i, ph i * star (ph i) = 1) ∧
      (X.msvd (A * diagonal (fun i => (d i : ℂ)) * B)).1 = A * diagonal ph := by
  have hs := svd_unique A B hA hB d hX ⟨hd.1, hd.2.1.le, hd.2.2.le⟩
  set M := A * diagonal (fun i => (d i : ℂ)) * B with hM
  obtain ⟨hU, hV, h, -, -, -⟩ := hX
  rw [hs] at h
  set U := (X.msvd M).1
  set V := (X.msvd M).2.2
  -- `W = A† U` commutes with the squared singular values
  obtain ⟨W, hW⟩ : ∃ W, W = A.conjTranspose * U := ⟨_, rfl⟩
  have hWu : IsUnitary W := by rw [hW]; exact unitary_mul (unitary_conj hA) hU
  have hsq : ∀ c : Fin 3 → ℝ, diagonal (fun i => (c i : ℂ)) *
      (diagonal (fun i => (c i : ℂ))).conjTranspose = diagonal (fun i => (((c i) ^ 2 : ℝ) : ℂ)) := by
    intro c
    rw [diagonal_conjTranspose, diagonal_mul_diagonal]
    congr 1
    funext i
    simp [sq]
  have h1 : M * M.conjTranspose
      = A * diagonal (fun i => (((d i) ^ 2 : ℝ) : ℂ)) * A.conjTranspose := by
    rw [← hsq d, hM]
    simp only [conjTranspose_mul, Matrix.mul_assoc]
    rw [← Matrix.mul_assoc B B.conjTranspose, unitary_mul_conj hB, Matrix.one_mul]
  have h2 : U.conjTranspose * (M * M.conjTranspose) * U
      = diagonal (fun i => (((d i) ^ 2 : ℝ) : ℂ)) := by
    rw [← hsq d, ← h]
    simp only [conjTranspose_mul, conjTranspose_conjTranspose, Matrix.mul_assoc]
    rw [← Matrix.mul_assoc V V.conjTranspose, unitary_mul_conj hV, Matrix.one_mul]
  have h3 : diagonal (fun i => (((d i) ^ 2 : ℝ) : ℂ)) * W
      = W * diagonal (fun i => (((d i) ^ 2 : ℝ) : ℂ)) := by
    have h4 : W.conjTranspose * diagonal (fun i => (((d i) ^ 2 : ℝ) : ℂ)) * W
        = diagonal (fun i => (((d i) ^ 2 : ℝ) : ℂ)) := by
      rw [hW]
      conv_rhs => rw [← h2, h1]
      simp only [conjTranspose_mul, conjTranspose_conjTranspose, Matrix.mul_assoc]
    calc diagonal (fun i => (((d i) ^ 2 : ℝ) : ℂ)) * W
        = W * (W.conjTranspose * diagonal (fun i => (((d i) ^ 2 : ℝ) : ℂ)) * W) := by
          rw [Matrix.mul_assoc W.conjTranspose, ← Matrix.mul_assoc W, unitary_mul_conj hWu,
            Matrix.one_mul]
      _ = _ := by rw [h4]
  have hne : ∀ i j : Fin 3, i ≠ j → d i ^ 2 ≠ d j ^ 2 := by
    intro i j hij he
    have hnn : ∀ i, 0 ≤ d i := by
      intro i
      fin_cases i
      · exact hd.1
      · exact hd.1.trans hd.2.1.le
      · exact hd.1.trans (hd.2.1.le.trans hd.2.2.le)
    have := (sq_eq_sq₀ (hnn i) (hnn j)).1 he
    fin_cases i <;> fin_cases j <;> simp at hij this <;> linarith [hd.2.1, hd.2.2]
  have hoff : ∀ i j : Fin 3, i ≠ j → W i j = 0 := by
    intro i j hij
    have := congrFun (congrFun h3 i) j
    rw [diagonal_mul, mul_diagonal] at this
    have h5 : (((d i ^ 2 : ℝ) : ℂ) - ((d j ^ 2 : ℝ) : ℂ)) * W i j = 0 := by
      linear_combination this
    rcases mul_eq_zero.1 h5 with h6 | h6
    · exfalso
      apply hne i j hij
      exact_mod_cast sub_eq_zero.1 h6
    · exact h6
  have hWd : W = diagonal (fun i => W i i) := by
    funext i j
    by_cases hij : i = j
    · subst hij; simp
    · rw [hoff i j hij, diagonal_apply_ne _ hij]
  refine ⟨fun i => W i i, ?_, ?_⟩
  · intro i
    have := congrFun (congrFun (unitary_mul_conj hWu) i) i
    rw [hWd, diagonal_conjTranspose, diagonal_mul_diagonal, diagonal_apply_eq, one_apply_eq] at this
    exact this
  · rw [← hWd, hW, ← Matrix.mul_assoc, unitary_mul_conj hA, Matrix.one_mul]

theorem norm_one_of {z : ℂ} (h : z * star z = 1) : ‖z‖ = 1 := by
  have : (‖z‖ ^ 2 : ℝ) = 1 := by
    have h2 := Complex.mul_conj z
    rw [Complex.normSq_eq_norm_sq] at h2
    have h3 : ((‖z‖ ^ 2 : ℝ) : ℂ) = 1 := by rw [← h2]; exact h
    exact_mod_cast h3
  nlinarith [norm_nonneg z]

end Verif.SmPar
