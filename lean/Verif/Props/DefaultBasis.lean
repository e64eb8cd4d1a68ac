import Verif.Model.DefaultBasis
import Verif.Props.Rotation
import Mathlib.LinearAlgebra.Matrix.NonsingularInverse

/-!
# C98: the basis of the results of the SMEFT running
-/

set_option autoImplicit false
set_option linter.constructorNameAsVariable false

namespace Verif.DefaultBasisProps
open Verif Verif.Tens Verif.Beta Verif.Flavour Verif.Rotation Verif.RotationProps Verif.DefaultBasis
  Matrix BigOperators

/-! ## Specification -/

/-- the matrix a dictionary holds for a coefficient with two flavour indices -/
noncomputable def entry (C : Dict Key Ten) (k : Key) : Mat := fun i j =>
  ((C.get? k).getD fun _ => 0) [i, j]

/-- the running mass matrix of the fermions with Yukawa matrix `G`, which includes the contribution
of the dimension-six operator `c`, for the vacuum expectation value 246.22 GeV -/
noncomputable def mass (C : Dict Key Ten) (G c : Key) : Mat :=
  ((246.22 / Real.sqrt 2 : ℝ) : ℂ) • (entry C G - (((246.22 : ℝ) : ℂ) ^ 2 / 2) • entry C c)

/-- diagonal matrix with real entries -/
noncomputable def dg (S : Fin 3 → ℝ) : Mat := diagonal fun i => (S i : ℂ)

/-- what `ckmutil.diag.msvd` promises: `U† M V` is diagonal, with the non-negative singular values
in ascending order -/
structure IsSvd (M : Mat) (r : Mat × (Fin 3 → ℝ) × Mat) : Prop where
  left : r.1 ∈ unitaryGroup (Fin 3) ℂ
  right : r.2.2 ∈ unitaryGroup (Fin 3) ℂ
  nonneg : ∀ i, 0 ≤ r.2.1 i
  mono : Monotone r.2.1
  eq : r.1ᴴ * M * r.2.2 = dg r.2.1

/-- three phase factors -/
def IsPhases (p : Fin 3 → ℂ) : Prop := ∀ i, ‖p i‖ = 1

/-- the CKM matrix in the standard parametrisation, with the cosines and sines of the three mixing
angles and `z = exp(iδ)` -/
noncomputable def ckmStandard (c12 s12 c13 s13 c23 s23 : ℝ) (z : ℂ) : Mat :=
  !![(c12 * c13 : ℂ), s12 * c13, s13 * star z;
     -s12 * c23 - c12 * s23 * s13 * z, c12 * c23 - s12 * s23 * s13 * z, s23 * c13;
     s12 * s23 - c12 * c23 * s13 * z, -c12 * s23 - s12 * c23 * s13 * z, c23 * c13]

/-- the matrix has the phase convention of the standard parametrisation, with mixing angles in the
first quadrant -/
def IsStandard (V : Mat) : Prop :=
  ∃ (c12 s12 c13 s13 c23 s23 : ℝ) (z : ℂ), 0 ≤ c12 ∧ 0 ≤ s12 ∧ 0 ≤ c13 ∧ 0 ≤ s13 ∧ 0 ≤ c23 ∧ 0 ≤ s23 ∧
    c12 ^ 2 + s12 ^ 2 = 1 ∧ c13 ^ 2 + s13 ^ 2 = 1 ∧ c23 ^ 2 + s23 ^ 2 = 1 ∧ ‖z‖ = 1 ∧
    V = ckmStandard c12 s12 c13 s13 c23 s23 z

/-- what `ckmutil.phases.rephase_standard` promises: the columns of the matrices are multiplied by
phases, the same for left and right, and the CKM matrix gets the standard phase convention -/
structure IsRephased (UuL UdL UuR UdR : Mat) (r : Mat × Mat × Mat × Mat) : Prop where
  phases : ∃ p p' : Fin 3 → ℂ, IsPhases p ∧ IsPhases p' ∧ r.1 = UuL * diagonal p ∧
    r.2.1 = UdL * diagonal p' ∧ r.2.2.1 = UuR * diagonal p ∧ r.2.2.2 = UdR * diagonal p'
  standard : IsStandard (r.1ᴴ * r.2.1)

/-- what `ckmutil.phases.rephase_pmns_standard` promises for the charged leptons -/
def IsRephasedPmns (UeL UeR : Mat) (s : Mat × Mat × Mat) : Prop :=
  ∃ p : Fin 3 → ℂ, IsPhases p ∧ s.2.1 = UeL * diagonal p ∧ s.2.2 = UeR * diagonal p

/-- the functions of `ckmutil` do what they promise for the mass matrices of `C` -/
structure Works (K : Ckmutil) (C : Dict Key Ten) : Prop where
  up : IsSvd (mass C .Gu .uphi) (K.msvd (mass C .Gu .uphi))
  down : IsSvd (mass C .Gd .dphi) (K.msvd (mass C .Gd .dphi))
  lepton : IsSvd (mass C .Ge .ephi) (K.msvd (mass C .Ge .ephi))
  quarks : IsRephased (K.msvd (mass C .Gu .uphi)).1 (K.msvd (mass C .Gd .dphi)).1
    (K.msvd (mass C .Gu .uphi)).2.2 (K.msvd (mass C .Gd .dphi)).2.2
    (K.rephase (K.msvd (mass C .Gu .uphi)).1 (K.msvd (mass C .Gd .dphi)).1
      (K.msvd (mass C .Gu .uphi)).2.2 (K.msvd (mass C .Gd .dphi)).2.2)
  leptons : ∀ Unu, IsRephasedPmns (K.msvd (mass C .Ge .ephi)).1 (K.msvd (mass C .Ge .ephi)).2.2
    (K.rephasePmns Unu (K.msvd (mass C .Ge .ephi)).1 (K.msvd (mass C .Ge .ephi)).2.2)

/-- the default basis: the mass matrices of down-type quarks and charged leptons are diagonal, the
one of the up-type quarks is `V† S`, with the quark masses in ascending order and the CKM matrix `V`
in the standard phase convention -/
def InDefaultBasis (D : Dict Key Ten) (V : Mat) : Prop :=
  ∃ md mu me : Fin 3 → ℝ, (∀ i, 0 ≤ md i ∧ 0 ≤ mu i ∧ 0 ≤ me i) ∧ Monotone md ∧ Monotone mu ∧ Monotone me ∧
    V ∈ unitaryGroup (Fin 3) ℂ ∧ IsStandard V ∧
    mass D .Gd .dphi = dg md ∧ mass D .Ge .ephi = dg me ∧ mass D .Gu .uphi = Vᴴ * dg mu

/-- all parameters and coefficients are given -/
def Complete (C : Dict Key Ten) : Prop := ∀ k ∈ keys, k ∈ C.keys

/-- two parameter points in different weak bases -/
def WeakBasisChange (W : Fl → Mat) (C C' : Dict Key Ten) : Prop :=
  (∀ f, W f ∈ unitaryGroup (Fin 3) ℂ) ∧ RotatedBy W (fun _ => True) C C'

/-! ## Lemmas -/

theorem item2_entry {C : Dict Key Ten} {k : Key} (h : k ∈ C.keys) : item2 C k = .ok (entry C k) := by
  unfold item2 entry
  cases e : C.get? k with
  | none => exact absurd h ((Dict.get?_eq_none_iff _ _).1 e)
  | some A => rfl

theorem massOf_eq (C : Dict Key Ten) (G c : Key) : massOf (entry C G) (entry C c) = mass C G c := by
  funext i j
  simp only [massOf, mass, vev, Matrix.smul_apply, Matrix.sub_apply, smul_eq_mul]
  ring

/-- the matrices of the rotation -/
noncomputable def quarkRot (K : Ckmutil) (C : Dict Key Ten) : Mat × Mat × Mat × Mat :=
  K.rephase (K.msvd (mass C .Gu .uphi)).1 (K.msvd (mass C .Gd .dphi)).1
      (K.msvd (mass C .Gu .uphi)).2.2 (K.msvd (mass C .Gd .dphi)).2.2

noncomputable def leptonRot (K : Ckmutil) (C : Dict Key Ten) : Mat × Mat × Mat :=
  K.rephasePmns (K.mtakfac fun i j => -(vev : ℂ) ^ 2 * entry C .llphiphi i j).1
    (K.msvd (mass C .Ge .ephi)).1 (K.msvd (mass C .Ge .ephi)).2.2

noncomputable def rotOf (K : Ckmutil) (C : Dict Key Ten) : Fl → Mat
  | .q => (quarkRot K C).2.1
  | .u => (quarkRot K C).2.2.1
  | .d => (quarkRot K C).2.2.2
  | .l => (leptonRot K C).2.1
  | .e => (leptonRot K C).2.2

theorem ok_bind {α β : Type} (a : α) (f : α → Except Exc β) : (Except.ok a >>= f) = f a := rfl

theorem rotateDefault_eq (K : Ckmutil) {C : Dict Key Ten} (hC : Complete C) :
    rotateDefault K C = smeftFlavorRotation C (rotOf K C .q) (rotOf K C .u) (rotOf K C .d)
      (rotOf K C .l) (rotOf K C .e) := by
  unfold rotateDefault
  rw [item2_entry (hC .Ge (by decide)), item2_entry (hC .ephi (by decide)),
    item2_entry (hC .Gu (by decide)), item2_entry (hC .uphi (by decide)),
    item2_entry (hC .Gd (by decide)), item2_entry (hC .dphi (by decide)),
    item2_entry (hC .llphiphi (by decide))]
  simp only [ok_bind, massOf_eq]
  rfl

theorem dg_unitary {p : Fin 3 → ℂ} (hp : IsPhases p) : diagonal p ∈ unitaryGroup (Fin 3) ℂ := by
  rw [mem_unitaryGroup_iff', star_eq_conjTranspose, diagonal_conjTranspose, diagonal_mul_diagonal,
    ← diagonal_one]
  congr 1
  funext i
  have h := hp i
  have : star (p i) * p i = ((‖p i‖ ^ 2 : ℝ) : ℂ) := by
    rw [Complex.star_def, Complex.conj_mul']; push_cast; rfl
  simp only [Pi.star_apply]
  rw [this, h]; norm_num

theorem mul_unitary {A B : Mat} (hA : A ∈ unitaryGroup (Fin 3) ℂ) (hB : B ∈ unitaryGroup (Fin 3) ℂ) :
    A * B ∈ unitaryGroup (Fin 3) ℂ := mul_mem hA hB

theorem star_unitary {A : Mat} (hA : A ∈ unitaryGroup (Fin 3) ℂ) : Aᴴ ∈ unitaryGroup (Fin 3) ℂ :=
  Unitary.star_mem hA

theorem left_inv {A : Mat} (hA : A ∈ unitaryGroup (Fin 3) ℂ) : Aᴴ * A = 1 := mem_unitaryGroup_iff'.1 hA
theorem right_inv {A : Mat} (hA : A ∈ unitaryGroup (Fin 3) ℂ) : A * Aᴴ = 1 := mem_unitaryGroup_iff.1 hA

theorem rotOf_unitary {K : Ckmutil} {C : Dict Key Ten} (h : Works K C) (f : Fl) :
    rotOf K C f ∈ unitaryGroup (Fin 3) ℂ := by
  obtain ⟨p, p', hp, hp', h1, h2, h3, h4⟩ := h.quarks.phases
  obtain ⟨r, hr, h5, h6⟩ := h.leptons (K.mtakfac fun i j => -(vev : ℂ) ^ 2 * entry C .llphiphi i j).1
  cases f
  · show (quarkRot K C).2.1 ∈ _
    unfold quarkRot; rw [h2]; exact mul_unitary h.down.left (dg_unitary hp')
  · show (quarkRot K C).2.2.1 ∈ _
    unfold quarkRot; rw [h3]; exact mul_unitary h.up.right (dg_unitary hp)
  · show (quarkRot K C).2.2.2 ∈ _
    unfold quarkRot; rw [h4]; exact mul_unitary h.down.right (dg_unitary hp')
  · show (leptonRot K C).2.1 ∈ _
    unfold leptonRot; rw [h5]; exact mul_unitary h.lepton.left (dg_unitary hr)
  · show (leptonRot K C).2.2 ∈ _
    unfold leptonRot; rw [h6]; exact mul_unitary h.lepton.right (dg_unitary hr)

/-- the mass matrices in another weak basis -/
theorem mass_rot {U : Fl → Mat} {C D : Dict Key Ten} (hC : Complete C)
    (h : RotatedBy U (fun _ => True) C D) {G c : Key} {f g : Fl}
    (hG : smeftTy G = some [⟨f, true⟩, ⟨g, false⟩]) (hc : smeftTy c = some [⟨f, true⟩, ⟨g, false⟩]) :
    mass D G c = (U f)ᴴ * mass C G c * U g := by
  have key : ∀ k, smeftTy k = some [⟨f, true⟩, ⟨g, false⟩] → entry D k = (U f)ᴴ * entry C k * U g := by
    intro k hk
    cases e : C.get? k with
    | none => exact absurd (hC k (mem_keys hk)) ((Dict.get?_eq_none_iff _ _).1 e)
    | some A =>
      obtain ⟨B, hB, hr⟩ := (h k _ trivial hk).1 A e
      funext i j
      simp only [entry, hB, Option.getD_some]
      rw [hr [i, j] rfl]
      simp only [rot, fac, mul_apply, conjTranspose_apply, Fin.sum_univ_three, entry, e, Option.getD_some]
      simp
      ring
  unfold mass
  rw [key G hG, key c hc]
  simp only [Matrix.mul_smul, Matrix.smul_mul, Matrix.mul_sub, Matrix.sub_mul]

theorem diag_phases {p : Fin 3 → ℂ} (hp : IsPhases p) (S : Fin 3 → ℝ) :
    (diagonal p)ᴴ * dg S * diagonal p = dg S := by
  have e : dg S * diagonal p = diagonal p * dg S := by
    unfold dg; rw [diagonal_mul_diagonal, diagonal_mul_diagonal]; congr 1; funext i; ring
  rw [Matrix.mul_assoc, e, ← Matrix.mul_assoc, left_inv (dg_unitary hp), Matrix.one_mul]

/-! ## The basis -/

theorem default_of {K : Ckmutil} {C D : Dict Key Ten} (hC : Complete C) (hK : Works K C)
    (hD : rotateDefault K C = .ok D) : RotatedBy (rotOf K C) (fun _ => True) C D ∧
      InDefaultBasis D ((quarkRot K C).1ᴴ * (quarkRot K C).2.1) := by
  obtain ⟨D', h1, h2, h3, -⟩ := C27_method (rotOf K C) C true (fun k hk _ => hC k hk)
  rw [← rotateDefault_eq K hC, hD] at h1
  obtain rfl : D = D' := by simpa using h1
  have h3' : RotatedBy (rotOf K C) (fun _ => True) C D := fun k τ _ hτ => h3 k τ (fun _ => rfl) hτ
  refine ⟨h3', ?_⟩
  obtain ⟨p, p', hp, hp', e1, e2, e3, e4⟩ := hK.quarks.phases
  obtain ⟨r, hr, e5, e6⟩ := hK.leptons (K.mtakfac fun i j => -(vev : ℂ) ^ 2 * entry C .llphiphi i j).1
  have hUL : (quarkRot K C).1 ∈ unitaryGroup (Fin 3) ℂ := by
    unfold quarkRot; rw [e1]; exact mul_unitary hK.up.left (dg_unitary hp)
  refine ⟨_, _, _, fun i => ⟨hK.down.nonneg i, hK.up.nonneg i, hK.lepton.nonneg i⟩, hK.down.mono,
    hK.up.mono, hK.lepton.mono, mul_unitary (star_unitary hUL) (rotOf_unitary hK .q),
    hK.quarks.standard, ?_, ?_, ?_⟩
  · rw [mass_rot hC h3' (f := .q) (g := .d) rfl rfl]
    simp only [rotOf, quarkRot]
    rw [e2, e4, conjTranspose_mul, ← diag_phases hp' (K.msvd (mass C .Gd .dphi)).2.1, ← hK.down.eq]
    simp only [Matrix.mul_assoc]
  · rw [mass_rot hC h3' (f := .l) (g := .e) rfl rfl]
    simp only [rotOf, leptonRot]
    rw [e5, e6, conjTranspose_mul, ← diag_phases hr (K.msvd (mass C .Ge .ephi)).2.1, ← hK.lepton.eq]
    simp only [Matrix.mul_assoc]
  · rw [mass_rot hC h3' (f := .q) (g := .u) rfl rfl, conjTranspose_mul, conjTranspose_conjTranspose,
      ← diag_phases hp (K.msvd (mass C .Gu .uphi)).2.1, ← hK.up.eq]
    have e7 : (quarkRot K C).1 = (K.msvd (mass C .Gu .uphi)).1 * diagonal p := e1
    have e8 : (quarkRot K C).1 * ((diagonal p)ᴴ * (K.msvd (mass C .Gu .uphi)).1ᴴ) = 1 := by
      rw [e7, ← conjTranspose_mul, ← e7]; exact right_inv hUL
    simp only [rotOf]
    have e9 : (quarkRot K C).2.2.1 = (K.msvd (mass C .Gu .uphi)).2.2 * diagonal p := e3
    rw [e9]
    calc _ = (quarkRot K C).2.1ᴴ * 1 * mass C .Gu .uphi * ((K.msvd (mass C .Gu .uphi)).2.2 * diagonal p) := by
          rw [Matrix.mul_one]
      _ = _ := by rw [← e8]; simp only [Matrix.mul_assoc]

/-- **C98 (the default basis).** For every complete set of parameters and coefficients, the
coefficients are rotated by unitary matrices, one for each fermion multiplet, to the basis where the
running mass matrices of down-type quarks and charged leptons are diagonal with non-negative entries
and the one of the up-type quarks is `V† S`, with the CKM matrix `V` in the standard convention. -/
theorem C98_default_basis (K : Ckmutil) (C : Dict Key Ten) (hC : Complete C) (hK : Works K C) :
    ∃ (D : Dict Key Ten) (U : Fl → Mat) (V : Mat), rotateDefault K C = .ok D ∧ D.NodupKeys ∧
      (∀ f, U f ∈ unitaryGroup (Fin 3) ℂ) ∧ RotatedBy U (fun _ => True) C D ∧ InDefaultBasis D V := by
  obtain ⟨D, h1, h2, -, -⟩ := C27_method (rotOf K C) C true (fun k hk _ => hC k hk)
  rw [← rotateDefault_eq K hC] at h1
  exact ⟨D, _, _, h1, h2, rotOf_unitary hK, default_of hC hK h1⟩

/-! ## Uniqueness -/

theorem svd_unique {M : Mat} {r r' : Mat × (Fin 3 → ℝ) × Mat} (h : IsSvd M r) (h' : IsSvd M r')
    (hs : StrictMono r.2.1) (h0 : 0 < r.2.1 0) :
    ∃ p, IsPhases p ∧ r'.1 = r.1 * diagonal p ∧ r'.2.2 = r.2.2 * diagonal p := by
  obtain ⟨U, S, V⟩ := r
  obtain ⟨U', S', V'⟩ := r'
  obtain ⟨hU, hV, hS, -, e⟩ := h
  obtain ⟨hU', hV', hS', hm, e'⟩ := h'
  simp only at *
  obtain ⟨A, hA⟩ : ∃ A, A = Uᴴ * U' := ⟨_, rfl⟩
  obtain ⟨B, hB⟩ : ∃ B, B = Vᴴ * V' := ⟨_, rfl⟩
  have hAu : A ∈ unitaryGroup (Fin 3) ℂ := hA ▸ mul_unitary (star_unitary hU) hU'
  have hBu : B ∈ unitaryGroup (Fin 3) ℂ := hB ▸ mul_unitary (star_unitary hV) hV'
  have hUA : U' = U * A := by rw [hA, ← Matrix.mul_assoc, right_inv hU, Matrix.one_mul]
  have hVB : V' = V * B := by rw [hB, ← Matrix.mul_assoc, right_inv hV, Matrix.one_mul]
  have e2 : Aᴴ * dg S * B = dg S' := by
    rw [← e', ← e]
    rw [hUA, hVB, conjTranspose_mul]; simp only [Matrix.mul_assoc]
  have e3 : A * dg S' = dg S * B := by
    rw [← e2, Matrix.mul_assoc Aᴴ, ← Matrix.mul_assoc, right_inv hAu, Matrix.one_mul]
  have hdg : ∀ T : Fin 3 → ℝ, (dg T)ᴴ = dg T := by
    intro T; unfold dg; rw [diagonal_conjTranspose]; congr 1; funext i; simp
  have e4 : Bᴴ * dg S * A = dg S' := by
    have := congrArg conjTranspose e2
    rw [conjTranspose_mul, conjTranspose_mul, conjTranspose_conjTranspose, hdg, hdg] at this
    rw [Matrix.mul_assoc, this]
  have e5 : B * dg S' = dg S * A := by
    rw [← e4, Matrix.mul_assoc Bᴴ, ← Matrix.mul_assoc, right_inv hBu, Matrix.one_mul]
  have f3 : ∀ i j, A i j * (S' j : ℂ) = S i * B i j := by
    intro i j; have := congrFun (congrFun e3 i) j
    simpa [dg, mul_diagonal, diagonal_mul] using this
  have f5 : ∀ i j, B i j * (S' j : ℂ) = S i * A i j := by
    intro i j; have := congrFun (congrFun e5 i) j
    simpa [dg, mul_diagonal, diagonal_mul] using this
  have f6 : ∀ i j, A i j ≠ 0 → S' j = S i := by
    intro i j hne
    have : A i j * ((S' j : ℂ) ^ 2 - (S i : ℂ) ^ 2) = 0 := by
      linear_combination (S' j : ℂ) * f3 i j + (S i : ℂ) * f5 i j
    have h2 := (mul_eq_zero.1 this).resolve_left hne
    have h3 : S' j ^ 2 = S i ^ 2 := by
      have : ((S' j ^ 2 : ℝ) : ℂ) = ((S i ^ 2 : ℝ) : ℂ) := by push_cast; linear_combination h2
      exact_mod_cast this
    exact (pow_left_inj₀ (hS' j) (hS i) two_ne_zero).1 h3
  obtain ⟨σ, hσ⟩ : ∃ σ : Equiv.Perm (Fin 3), ∀ i, A (σ i) i ≠ 0 := by
    by_contra hcon
    push Not at hcon
    have hd : A.det = 0 := by
      rw [det_apply]
      refine Finset.sum_eq_zero fun σ _ => ?_
      obtain ⟨i, hi⟩ := hcon σ
      rw [Finset.prod_eq_zero (f := fun i => A (σ i) i) (Finset.mem_univ i) hi, smul_zero]
    have h1 := congrArg det (left_inv hAu)
    rw [det_mul, hd, mul_zero, det_one] at h1
    exact zero_ne_one h1
  have hσm : ∀ i j, i ≤ j → σ i ≤ σ j := by
    intro i j hij
    have := hm hij
    rw [f6 _ _ (hσ i), f6 _ _ (hσ j)] at this
    exact hs.le_iff_le.1 this
  have hσ1 : σ = 1 := by
    revert hσm; clear hσ; revert σ; decide
  have hSS : S' = S := by
    funext i; rw [f6 _ _ (hσ i), hσ1]; rfl
  subst hSS
  have hpos : ∀ i, 0 < S' i := fun i => lt_of_lt_of_le h0 (hm (Fin.zero_le i))
  have hAd : A = diagonal fun i => A i i := by
    funext i j
    by_cases hij : i = j
    · subst hij; simp
    · rw [diagonal_apply_ne _ hij]
      by_contra hne
      exact hij (hs.injective (f6 i j hne)).symm
  have hBA : B = A := by
    funext i j
    have h1 := f3 i j
    by_cases hij : i = j
    · subst hij
      have : (S' i : ℂ) ≠ 0 := by exact_mod_cast (hpos i).ne'
      exact (mul_left_cancel₀ this (by rw [← h1]; ring))
    · have hz : A i j = 0 := by rw [hAd]; exact diagonal_apply_ne _ hij
      rw [hz, zero_mul] at h1
      have : (S' i : ℂ) ≠ 0 := by exact_mod_cast (hpos i).ne'
      rw [hz]
      exact (mul_eq_zero.1 h1.symm).resolve_left this
  refine ⟨fun i => A i i, fun i => ?_, ?_, ?_⟩
  · have h1 := congrFun (congrFun (left_inv hAu) i) i
    rw [hAd, diagonal_conjTranspose, diagonal_mul_diagonal, diagonal_apply_eq, one_apply_eq] at h1
    simp only [Pi.star_apply] at h1
    rw [Complex.star_def, Complex.conj_mul'] at h1
    have h2 : ‖A i i‖ ^ 2 = 1 := by exact_mod_cast h1
    nlinarith [norm_nonneg (A i i)]
  · rw [← hAd]; exact hUA
  · rw [← hAd, ← hBA]; exact hVB

theorem svd_pos {M : Mat} {r r' : Mat × (Fin 3 → ℝ) × Mat} (h : IsSvd M r) (h' : IsSvd M r')
    (hs : StrictMono r.2.1) (h0 : 0 < r.2.1 0) : StrictMono r'.2.1 ∧ 0 < r'.2.1 0 := by
  obtain ⟨p, hp, e1, e2⟩ := svd_unique h h' hs h0
  have : dg r'.2.1 = dg r.2.1 := by
    rw [← h'.eq, e1, e2, ← diag_phases hp r.2.1, ← h.eq, conjTranspose_mul]
    simp only [Matrix.mul_assoc]
  have e : r'.2.1 = r.2.1 := by
    funext i
    have := congrFun (congrFun this i) i
    simpa [dg] using this
  rw [e]; exact ⟨hs, h0⟩

theorem phase_one {a b : ℂ} {x y : ℝ} (ha : ‖a‖ = 1) (hb : ‖b‖ = 1) (hx : 0 ≤ x) (hy : 0 ≤ y)
    (hne : x ≠ 0) (h : (y : ℂ) = star a * x * b) : b = a ∧ y = x := by
  have hn := congrArg norm h
  rw [norm_mul, norm_mul, norm_star, ha, hb, Complex.norm_real, Complex.norm_real,
    Real.norm_of_nonneg hx, Real.norm_of_nonneg hy] at hn
  have hyx : y = x := by simpa using hn
  refine ⟨?_, hyx⟩
  rw [hyx] at h
  have hx0 : (x : ℂ) ≠ 0 := by exact_mod_cast hne
  have h1 : star a * b = 1 := mul_left_cancel₀ hx0 (by rw [mul_one]; linear_combination -h)
  have h2 : a * star a = 1 := by
    rw [Complex.star_def, Complex.mul_conj']; rw [ha]; norm_num
  linear_combination a * h1 - b * h2

theorem standard_unique {V V' : Mat} (h : IsStandard V) (h' : IsStandard V') {p p' : Fin 3 → ℂ}
    (hp : IsPhases p) (hp' : IsPhases p') (e : V' = (diagonal p)ᴴ * V * diagonal p')
    (h00 : V 0 0 ≠ 0) (h01 : V 0 1 ≠ 0) (h12 : V 1 2 ≠ 0) (h22 : V 2 2 ≠ 0) :
    ∃ z, ‖z‖ = 1 ∧ (p = fun _ => z) ∧ p' = fun _ => z := by
  have f : ∀ i j, V' i j = star (p i) * V i j * p' j := by
    intro i j; rw [e, diagonal_conjTranspose, mul_diagonal, diagonal_mul]; rfl
  obtain ⟨c12, s12, c13, s13, c23, s23, z, p1, p2, p3, p4, p5, p6, q1, q2, q3, hz, rfl⟩ := h
  obtain ⟨c12', s12', c13', s13', c23', s23', z', p1', p2', p3', p4', p5', p6', q1', q2', q3', hz', rfl⟩ := h'
  have g00 := f 0 0
  have g01 := f 0 1
  have g12 := f 1 2
  have g22 := f 2 2
  have g11 := f 1 1
  have g02 := f 0 2
  simp [ckmStandard] at g00 g01 g12 g22 g11 g02 h00 h01 h12 h22
  obtain ⟨a0, b0⟩ := phase_one (x := c12 * c13) (y := c12' * c13') (hp 0) (hp' 0) (by positivity)
    (by positivity) (by simp [h00]) (by push_cast; rw [g00]; rfl)
  obtain ⟨a1, b1⟩ := phase_one (x := s12 * c13) (y := s12' * c13') (hp 0) (hp' 1) (by positivity)
    (by positivity) (by simp [h01]) (by push_cast; rw [g01]; rfl)
  obtain ⟨a2, b2⟩ := phase_one (x := s23 * c13) (y := s23' * c13') (hp 1) (hp' 2) (by positivity)
    (by positivity) (by simp [h12]) (by push_cast; rw [g12]; rfl)
  obtain ⟨a3, b3⟩ := phase_one (x := c23 * c13) (y := c23' * c13') (hp 2) (hp' 2) (by positivity)
    (by positivity) (by simp [h22]) (by push_cast; rw [g22]; rfl)
  have hc13 : c13' = c13 := by
    refine (pow_left_inj₀ p3' p3 two_ne_zero).1 ?_
    have h1 : (c12' * c13') ^ 2 + (s12' * c13') ^ 2 = (c12 * c13) ^ 2 + (s12 * c13) ^ 2 := by rw [b0, b1]
    linear_combination h1 + c13 ^ 2 * q1 - c13' ^ 2 * q1'
  subst hc13
  have hc0 : c13' ≠ 0 := h00.2
  have hc12 : c12' = c12 := mul_right_cancel₀ hc0 b0
  have hs12 : s12' = s12 := mul_right_cancel₀ hc0 b1
  have hs23 : s23' = s23 := mul_right_cancel₀ hc0 b2
  have hc23 : c23' = c23 := mul_right_cancel₀ hc0 b3
  have hs13 : s13' = s13 := by
    refine (pow_left_inj₀ p4' p4 two_ne_zero).1 ?_
    linear_combination q2' - q2
  subst hc12 hs12 hs23 hc23 hs13
  have g02' := congrArg star g02
  simp only [star_mul', Complex.star_def, Complex.conj_conj, Complex.conj_ofReal] at g02'
  rw [a2] at g02'
  rw [a1] at g11
  have hk : (c12' : ℂ) * c23' ≠ 0 := by
    simp [h00.1, h22.1]
  have ht : (starRingEnd ℂ) (p 1) * p 0 = 1 := by
    refine mul_left_cancel₀ hk ?_
    rw [mul_one]
    linear_combination -g11 - (s12' : ℂ) * s23' * g02'
  have hp1 : p 1 * (starRingEnd ℂ) (p 1) = 1 := by
    rw [Complex.mul_conj', hp 1]; norm_num
  have e01 : p 0 = p 1 := by linear_combination p 1 * ht - p 0 * hp1
  refine ⟨p 1, hp 1, ?_, ?_⟩
  · funext i; fin_cases i
    · exact e01
    · rfl
    · exact a3.symm.trans a2
  · funext i; fin_cases i
    · exact a0.trans e01
    · exact a1.trans e01
    · exact a2

/-! ## Independence of the weak basis -/

/-- the masses are positive and different -/
def Nondegenerate (M : Mat) : Prop := ∃ r, IsSvd M r ∧ StrictMono r.2.1 ∧ 0 < r.2.1 0

/-- a common phase of all quarks and one phase for each lepton generation -/
noncomputable def phaseRot (z : ℂ) (p : Fin 3 → ℂ) : Fl → Mat
  | .q | .u | .d => diagonal fun _ => z
  | .l | .e => diagonal p

/-- number of unbarred minus number of barred fields `f` of generation `i` with `sel f i` in the
entry `ix` of a coefficient with the fields `τ` -/
def charge (sel : Fl → Fin 3 → Bool) : List (Ty Fl) → Ix → ℤ
  | t :: τ, i :: ix => (if sel t.f i then (if t.bar then -1 else 1) else 0) + charge sel τ ix
  | _, _ => 0

/-- quarks -/
def isQuark : Fl → Fin 3 → Bool
  | .q, _ | .u, _ | .d, _ => true
  | _, _ => false

/-- leptons of generation `g` -/
def isLepton (g : Fin 3) : Fl → Fin 3 → Bool
  | .l, i | .e, i => i == g
  | _, _ => false

/-- the entry `ix` violates neither baryon number nor a lepton family number -/
def Conserving (τ : List (Ty Fl)) (ix : Ix) : Prop :=
  charge isQuark τ ix = 0 ∧ ∀ g, charge (isLepton g) τ ix = 0

theorem rot_phases {z : ℂ} {p : Fin 3 → ℂ} (hz : ‖z‖ = 1) (hp : IsPhases p) (τ : List (Ty Fl)) (A : Ten)
    (ix : Ix) (hix : ix.length = τ.length) :
    rot (phaseRot z p) τ A ix =
      z ^ charge isQuark τ ix * (∏ g, p g ^ charge (isLepton g) τ ix) * A ix := by
  have hinv : ∀ w : ℂ, ‖w‖ = 1 → (starRingEnd ℂ) w = w⁻¹ := fun w hw => (Complex.inv_eq_conj hw).symm
  have hz0 : z ≠ 0 := by rintro rfl; simp at hz
  have hp0 : ∀ g, p g ≠ 0 := by intro g h; have := hp g; rw [h] at this; simp at this
  induction τ generalizing A ix with
  | nil =>
    obtain rfl : ix = [] := List.length_eq_zero_iff.1 hix
    simp [rot, charge]
  | cons t τ ih =>
    cases ix with
    | nil => simp at hix
    | cons i is =>
      have hix' : is.length = τ.length := by simpa using hix
      simp only [rot]
      have hf : ∀ j, fac (phaseRot z p) t j i = if j = i then
          z ^ (if isQuark t.f i then (if t.bar then -1 else 1) else 0 : ℤ) *
            ∏ g, p g ^ (if isLepton g t.f i then (if t.bar then -1 else 1) else 0 : ℤ) else 0 := by
        intro j
        obtain ⟨f, b⟩ := t
        by_cases hji : j = i
        · subst hji
          rw [if_pos rfl]
          cases f <;> cases b <;>
            simp [fac, phaseRot, isQuark, isLepton, hinv z hz, hinv (p j) (hp j), Finset.prod_ite_eq, apply_ite]
        · rw [if_neg hji]
          cases f <;> cases b <;> simp [fac, phaseRot, hji]
      simp only [hf, ih _ is hix', ite_mul, zero_mul, Finset.sum_ite_eq', Finset.mem_univ, if_true]
      simp only [charge, zpow_add₀ hz0]
      have : ∏ g, p g ^ ((if isLepton g t.f i then (if t.bar then -1 else 1) else 0 : ℤ) +
            charge (isLepton g) τ is) =
          (∏ g, p g ^ (if isLepton g t.f i then (if t.bar then -1 else 1) else 0 : ℤ)) *
            ∏ g, p g ^ charge (isLepton g) τ is := by
        rw [← Finset.prod_mul_distrib]
        exact Finset.prod_congr rfl fun g _ => zpow_add₀ (hp0 g) _ _
      rw [this]
      ring

theorem svd_rot {M U V : Mat} {r : Mat × (Fin 3 → ℝ) × Mat} (hU : U ∈ unitaryGroup (Fin 3) ℂ)
    (hV : V ∈ unitaryGroup (Fin 3) ℂ) (h : IsSvd (Uᴴ * M * V) r) : IsSvd M (U * r.1, r.2.1, V * r.2.2) := by
  refine ⟨mul_unitary hU h.left, mul_unitary hV h.right, h.nonneg, h.mono, ?_⟩
  rw [← h.eq]
  simp only [conjTranspose_mul, Matrix.mul_assoc]

theorem rot_svd {M U V : Mat} {r : Mat × (Fin 3 → ℝ) × Mat} (hU : U ∈ unitaryGroup (Fin 3) ℂ)
    (hV : V ∈ unitaryGroup (Fin 3) ℂ) (h : IsSvd M r) : IsSvd (Uᴴ * M * V) (Uᴴ * r.1, r.2.1, Vᴴ * r.2.2) := by
  refine ⟨mul_unitary (star_unitary hU) h.left, mul_unitary (star_unitary hV) h.right, h.nonneg, h.mono, ?_⟩
  rw [← h.eq, conjTranspose_mul, conjTranspose_conjTranspose]
  calc _ = r.1ᴴ * (U * Uᴴ) * M * (V * Vᴴ) * r.2.2 := by simp only [Matrix.mul_assoc]
    _ = _ := by rw [right_inv hU, right_inv hV, Matrix.mul_one, Matrix.mul_one]

/-- the CKM matrix in the default basis is unique -/
theorem default_ckm {D : Dict Key Ten} {V V' : Mat} (hn : Nondegenerate (mass D .Gu .uphi))
    (h : InDefaultBasis D V) (h' : InDefaultBasis D V') : V = V' := by
  have key : ∀ {V}, InDefaultBasis D V → ∃ mu, IsSvd (mass D .Gu .uphi) (Vᴴ, mu, 1) := by
    rintro V ⟨md, mu, me, h0, -, hm, -, hV, -, -, -, e⟩
    exact ⟨mu, star_unitary hV, one_mem _, fun i => (h0 i).2.1, hm, by
      simp only [e, conjTranspose_conjTranspose, Matrix.mul_one, ← Matrix.mul_assoc, right_inv hV, Matrix.one_mul]⟩
  obtain ⟨r, hr, h1, h2⟩ := hn
  obtain ⟨mu, hs⟩ := key h
  obtain ⟨mu', hs'⟩ := key h'
  have hpos := svd_pos hr hs h1 h2
  obtain ⟨p, -, e1, e2⟩ := svd_unique hs hs' hpos.1 hpos.2
  simp only [Matrix.one_mul] at e1 e2
  rw [← e2, Matrix.mul_one] at e1
  have := congrArg conjTranspose e1
  rw [conjTranspose_conjTranspose, conjTranspose_conjTranspose] at this
  exact this.symm

theorem phases_mul {p p' : Fin 3 → ℂ} (h : IsPhases p) (h' : IsPhases p') : IsPhases fun i => p i * p' i :=
  fun i => by rw [norm_mul, h i, h' i, one_mul]

theorem phases_star {p : Fin 3 → ℂ} (h : IsPhases p) : IsPhases fun i => star (p i) :=
  fun i => by rw [norm_star, h i]

/-- two sets of rephased columns -/
theorem rephased {A A' : Mat} {W : Mat} {P p p' : Fin 3 → ℂ} (hp : IsPhases p)
    (h : W * A' = A * diagonal P) :
    W * (A' * diagonal p') = A * diagonal p * diagonal fun i => star (p i) * P i * p' i := by
  rw [← Matrix.mul_assoc, h, Matrix.mul_assoc, Matrix.mul_assoc, diagonal_mul_diagonal, diagonal_mul_diagonal]
  congr 2
  funext i
  have : p i * star (p i) = 1 := by rw [Complex.star_def, Complex.mul_conj', hp i]; norm_num
  linear_combination -(P i * p' i) * this

theorem rotOf_change {K : Ckmutil} {C C' : Dict Key Ten} (hC : Complete C) (hK : Works K C) (hK' : Works K C')
    {W : Fl → Mat} (hW : WeakBasisChange W C C')
    (nu : Nondegenerate (mass C .Gu .uphi)) (nd : Nondegenerate (mass C .Gd .dphi))
    (ne : Nondegenerate (mass C .Ge .ephi))
    (h00 : ((quarkRot K C).1ᴴ * (quarkRot K C).2.1) 0 0 ≠ 0) (h01 : ((quarkRot K C).1ᴴ * (quarkRot K C).2.1) 0 1 ≠ 0)
    (h12 : ((quarkRot K C).1ᴴ * (quarkRot K C).2.1) 1 2 ≠ 0) (h22 : ((quarkRot K C).1ᴴ * (quarkRot K C).2.1) 2 2 ≠ 0) :
    ∃ z p, ‖z‖ = 1 ∧ IsPhases p ∧ ∀ f, W f * rotOf K C' f = rotOf K C f * phaseRot z p f := by
  obtain ⟨hWu, hWr⟩ := hW
  have key : ∀ (G c : Key) (f g : Fl), smeftTy G = some [⟨f, true⟩, ⟨g, false⟩] →
      smeftTy c = some [⟨f, true⟩, ⟨g, false⟩] → Nondegenerate (mass C G c) →
      IsSvd (mass C G c) (K.msvd (mass C G c)) → IsSvd (mass C' G c) (K.msvd (mass C' G c)) →
      ∃ p, IsPhases p ∧ W f * (K.msvd (mass C' G c)).1 = (K.msvd (mass C G c)).1 * diagonal p ∧
        W g * (K.msvd (mass C' G c)).2.2 = (K.msvd (mass C G c)).2.2 * diagonal p := by
    intro G c f g hG hc ⟨r, hr, h1, h2⟩ hs hs'
    have hpos := svd_pos hr hs h1 h2
    have e := mass_rot hC hWr hG hc
    have hs'' : IsSvd ((W f)ᴴ * mass C G c * W g) (K.msvd (mass C' G c)) := by rw [← e]; exact hs'
    exact svd_unique hs (svd_rot (hWu f) (hWu g) hs'') hpos.1 hpos.2
  obtain ⟨Pu, hPu, eu1, eu2⟩ := key .Gu .uphi .q .u rfl rfl nu hK.up hK'.up
  obtain ⟨Pd, hPd, ed1, ed2⟩ := key .Gd .dphi .q .d rfl rfl nd hK.down hK'.down
  obtain ⟨Pe, hPe, ee1, ee2⟩ := key .Ge .ephi .l .e rfl rfl ne hK.lepton hK'.lepton
  obtain ⟨p, q, hp, hq, a1, a2, a3, a4⟩ := hK.quarks.phases
  obtain ⟨p', q', hp', hq', b1, b2, b3, b4⟩ := hK'.quarks.phases
  obtain ⟨r, hr, a5, a6⟩ := hK.leptons (K.mtakfac fun i j => -(vev : ℂ) ^ 2 * entry C .llphiphi i j).1
  obtain ⟨r', hr', b5, b6⟩ := hK'.leptons (K.mtakfac fun i j => -(vev : ℂ) ^ 2 * entry C' .llphiphi i j).1
  have c1 := rephased (p' := p') hp eu1
  have c3 := rephased (p' := p') hp eu2
  have c2 := rephased (p' := q') hq ed1
  have c4 := rephased (p' := q') hq ed2
  have c5 := rephased (p' := r') hr ee1
  have c6 := rephased (p' := r') hr ee2
  rw [← a1, ← b1] at c1
  rw [← a2, ← b2] at c2
  rw [← a3, ← b3] at c3
  rw [← a4, ← b4] at c4
  rw [← a5, ← b5] at c5
  rw [← a6, ← b6] at c6
  have hQu := phases_mul (phases_mul (phases_star hp) hPu) hp'
  have hQd := phases_mul (phases_mul (phases_star hq) hPd) hq'
  have hQe := phases_mul (phases_mul (phases_star hr) hPe) hr'
  obtain ⟨z, hz, ez1, ez2⟩ := standard_unique hK.quarks.standard hK'.quarks.standard hQu hQd (by
    rw [← Matrix.mul_assoc, ← conjTranspose_mul, Matrix.mul_assoc, ← c1, ← c2, conjTranspose_mul,
      Matrix.mul_assoc, ← Matrix.mul_assoc (W .q)ᴴ, left_inv (hWu .q), Matrix.one_mul]) h00 h01 h12 h22
  rw [ez1] at c3
  rw [ez2] at c2 c4
  refine ⟨z, _, hz, hQe, fun f => ?_⟩
  cases f
  · exact c2
  · exact c3
  · exact c4
  · exact c5
  · exact c6

/-- **C98 (independence of the weak basis).** Take a parameter point with positive and different
masses and a CKM matrix with non-zero elements `ud`, `us`, `cb`, `tb`.  If it is written in any other
weak basis, the results in the default basis are the same up to a common phase of all quarks and one
phase for each lepton generation; all entries that conserve baryon number and the lepton family
numbers are exactly the same. -/
theorem C98_weak_basis (K : Ckmutil) (C C' D : Dict Key Ten) (W : Fl → Mat) (hC : Complete C)
    (hC' : Complete C') (hK : Works K C) (hK' : Works K C') (hW : WeakBasisChange W C C')
    (nu : Nondegenerate (mass C .Gu .uphi)) (nd : Nondegenerate (mass C .Gd .dphi))
    (ne : Nondegenerate (mass C .Ge .ephi)) (hD : rotateDefault K C = .ok D)
    (V : Mat) (hV : InDefaultBasis D V) (v00 : V 0 0 ≠ 0) (v01 : V 0 1 ≠ 0) (v12 : V 1 2 ≠ 0) (v22 : V 2 2 ≠ 0) :
    ∃ D', rotateDefault K C' = .ok D' ∧
      (∃ z p, ‖z‖ = 1 ∧ IsPhases p ∧ RotatedBy (phaseRot z p) (fun _ => True) D D') ∧
      ∀ k τ A, smeftTy k = some τ → D.get? k = some A → ∃ A', D'.get? k = some A' ∧
        ∀ ix : Ix, ix.length = τ.length → Conserving τ ix → A' ix = A ix := by
  have hnu : Nondegenerate (mass D .Gu .uphi) := by
    obtain ⟨r, hr, h1, h2⟩ := nu
    rw [mass_rot hC (default_of hC hK hD).1 (f := .q) (g := .u) rfl rfl]
    exact ⟨_, rot_svd (rotOf_unitary hK _) (rotOf_unitary hK _) hr, h1, h2⟩
  rw [default_ckm hnu hV (default_of hC hK hD).2] at v00 v01 v12 v22
  obtain ⟨z, p, hz, hp, hf⟩ := rotOf_change hC hK hK' hW nu nd ne v00 v01 v12 v22
  obtain ⟨D', hD', -, h3, -⟩ := C27_method (rotOf K C') C' true (fun k hk _ => hC' k hk)
  rw [← rotateDefault_eq K hC'] at hD'
  have hrot : RotatedBy (phaseRot z p) (fun _ => True) D D' := by
    intro k τ _ hτ
    cases e : C.get? k with
    | none => exact absurd (hC k (mem_keys hτ)) ((Dict.get?_eq_none_iff _ _).1 e)
    | some A =>
      obtain ⟨A', hA', r1⟩ := (hW.2 k τ trivial hτ).1 A e
      obtain ⟨B', hB', r2⟩ := (h3 k τ (fun _ => rfl) hτ).1 A' hA'
      obtain ⟨B, hB, r3⟩ := ((default_of hC hK hD).1 k τ trivial hτ).1 A e
      refine ⟨fun B0 hB0 => ⟨B', hB', fun ix hix => ?_⟩, fun h => absurd (h.symm.trans hB) (by simp)⟩
      obtain rfl : B = B0 := by rw [hB] at hB0; simpa using hB0
      rw [r2 ix hix, rot_congr _ τ A' (rot W τ A) ix (fun j hj => r1 j hj), rot_rot,
        rot_congr _ τ B (rot (rotOf K C) τ A) ix (fun j hj => r3 j hj), rot_rot]
      congr 1
      funext f
      exact hf f
  refine ⟨D', hD', ⟨z, p, hz, hp, hrot⟩, fun k τ A hτ hA => ?_⟩
  obtain ⟨A', hA', hr⟩ := (hrot k τ trivial hτ).1 A hA
  refine ⟨A', hA', fun ix hix hc => ?_⟩
  rw [hr ix hix, rot_phases hz hp τ A ix hix, hc.1]
  simp [hc.2]

/-- **C98 (points in the default basis).** A parameter point that is already in the default basis, as
the input of the running is, stays the same up to a common phase of all quarks and one phase for each
lepton generation; all entries that conserve baryon number and the lepton family numbers are exactly
the same. -/
theorem C98_fixed (K : Ckmutil) (C : Dict Key Ten) (hC : Complete C) (hK : Works K C)
    (nu : Nondegenerate (mass C .Gu .uphi)) (nd : Nondegenerate (mass C .Gd .dphi))
    (ne : Nondegenerate (mass C .Ge .ephi)) (V : Mat) (hV : InDefaultBasis C V) (v00 : V 0 0 ≠ 0)
    (v01 : V 0 1 ≠ 0) (v12 : V 1 2 ≠ 0) (v22 : V 2 2 ≠ 0) :
    ∃ D, rotateDefault K C = .ok D ∧
      (∃ z p, ‖z‖ = 1 ∧ IsPhases p ∧ RotatedBy (phaseRot z p) (fun _ => True) C D) ∧
      ∀ k τ A, smeftTy k = some τ → C.get? k = some A → ∃ A', D.get? k = some A' ∧
        ∀ ix : Ix, ix.length = τ.length → Conserving τ ix → A' ix = A ix := by
  obtain ⟨md, mu, me, h0, hmd, hmu, hme, hVu, hVs, ed, ee, eu⟩ := hV
  have sd : IsSvd (mass C .Gd .dphi) (1, md, 1) :=
    ⟨one_mem _, one_mem _, fun i => (h0 i).1, hmd, by simp [ed]⟩
  have se : IsSvd (mass C .Ge .ephi) (1, me, 1) :=
    ⟨one_mem _, one_mem _, fun i => (h0 i).2.2, hme, by simp [ee]⟩
  have su : IsSvd (mass C .Gu .uphi) (Vᴴ, mu, 1) :=
    ⟨star_unitary hVu, one_mem _, fun i => (h0 i).2.1, hmu, by simp [eu, ← Matrix.mul_assoc, right_inv hVu]⟩
  have key : ∀ {M : Mat} {r : Mat × (Fin 3 → ℝ) × Mat}, Nondegenerate M → IsSvd M r → IsSvd M (K.msvd M) →
      ∃ p, IsPhases p ∧ (K.msvd M).1 = r.1 * diagonal p ∧ (K.msvd M).2.2 = r.2.2 * diagonal p := by
    rintro M r ⟨s, hs, h1, h2⟩ hr hk
    have hpos := svd_pos hs hr h1 h2
    exact svd_unique hr hk hpos.1 hpos.2
  obtain ⟨Pu, hPu, u1, u2⟩ := key nu su hK.up
  obtain ⟨Pd, hPd, d1, d2⟩ := key nd sd hK.down
  obtain ⟨Pe, hPe, l1, l2⟩ := key ne se hK.lepton
  obtain ⟨p, q, hp, hq, a1, a2, a3, a4⟩ := hK.quarks.phases
  obtain ⟨r, hr, a5, a6⟩ := hK.leptons (K.mtakfac fun i j => -(vev : ℂ) ^ 2 * entry C .llphiphi i j).1
  have hst := hK.quarks.standard
  rw [a1, a2] at hst
  simp only [u1, u2, d1, d2, l1, l2, Matrix.one_mul, diagonal_mul_diagonal, Matrix.mul_assoc] at a1 a2 a3 a4 a5 a6 hst
  obtain ⟨z, hz, e1, e2⟩ := standard_unique hVs hst (phases_mul hPu hp) (phases_mul hPd hq) (by
    rw [conjTranspose_mul, conjTranspose_conjTranspose]) v00 v01 v12 v22
  rw [e1] at a3
  rw [e2] at a2 a4
  obtain ⟨D, hD, -, -, -⟩ := C27_method (rotOf K C) C true (fun k hk _ => hC k hk)
  rw [← rotateDefault_eq K hC] at hD
  have hf : rotOf K C = phaseRot z fun i => Pe i * r i := by
    funext f
    cases f
    · show (quarkRot K C).2.1 = _
      unfold quarkRot; rw [u1, u2, d1, d2]; simp only [Matrix.one_mul]; exact a2
    · show (quarkRot K C).2.2.1 = _
      unfold quarkRot; rw [u1, u2, d1, d2]; simp only [Matrix.one_mul]; exact a3
    · show (quarkRot K C).2.2.2 = _
      unfold quarkRot; rw [u1, u2, d1, d2]; simp only [Matrix.one_mul]; exact a4
    · show (leptonRot K C).2.1 = _
      unfold leptonRot; rw [l1, l2]; simp only [Matrix.one_mul]; exact a5
    · show (leptonRot K C).2.2 = _
      unfold leptonRot; rw [l1, l2]; simp only [Matrix.one_mul]; exact a6
  have hrot := (default_of hC hK hD).1
  rw [hf] at hrot
  refine ⟨D, hD, ⟨z, _, hz, phases_mul hPe hr, hrot⟩, fun k τ A hτ hA => ?_⟩
  obtain ⟨A', hA', hr'⟩ := (hrot k τ trivial hτ).1 A hA
  refine ⟨A', hA', fun ix hix hc => ?_⟩
  rw [hr' ix hix, rot_phases hz (phases_mul hPe hr) τ A ix hix, hc.1]
  simp [hc.2]

/-- **C98 (missing input).** A missing parameter or coefficient raises `KeyError`. -/
theorem C98_missing (K : Ckmutil) (C : Dict Key Ten) (k : Key) (hk : k ∈ keys) (hs : k ∉ smParams ∨ k = .Gu ∨ k = .Gd ∨ k = .Ge)
    (hm : k ∉ C.keys) : rotateDefault K C = .error .keyError := by
  have hitem : ∀ k, item2 C k = .error .keyError ∨ (item2 C k = .ok (entry C k) ∧ k ∈ C.keys) := by
    intro k
    by_cases h : k ∈ C.keys
    · exact Or.inr ⟨item2_entry h, h⟩
    · left; unfold item2; rw [(Dict.get?_eq_none_iff _ _).2 h]
  unfold rotateDefault
  rcases hitem .Ge with e | ⟨e, m1⟩ <;> rw [e]
  · rfl
  rcases hitem .ephi with e | ⟨e, m2⟩ <;> rw [e]
  · rfl
  rcases hitem .Gu with e | ⟨e, m3⟩ <;> rw [e]
  · rfl
  rcases hitem .uphi with e | ⟨e, m4⟩ <;> rw [e]
  · rfl
  rcases hitem .Gd with e | ⟨e, m5⟩ <;> rw [e]
  · rfl
  rcases hitem .dphi with e | ⟨e, m6⟩ <;> rw [e]
  · rfl
  rcases hitem .llphiphi with e | ⟨e, m7⟩ <;> rw [e]
  · rfl
  simp only [ok_bind, massOf_eq]
  have hs' : k ∉ smParams := by
    rcases hs with h | rfl | rfl | rfl
    · exact h
    · exact absurd m3 hm
    · exact absurd m5 hm
    · exact absurd m1 hm
  exact C27_method_missing (rotOf K C) C true k hk hs' hm

/-! ## Examples -/

open Classical in
/-- a package that does what it promises whenever this is possible -/
noncomputable def ideal : Ckmutil where
  msvd M := if h : ∃ r, IsSvd M r then h.choose else (1, 0, 1)
  mtakfac _ := (1, 0)
  rephase A B C D := if h : ∃ r, IsRephased A B C D r then h.choose else (A, B, C, D)
  rephasePmns A B C := (A, B, C)

/-- the decompositions determine whether the package can do what it promises -/
theorem ideal_works {C : Dict Key Ten} {ru rd re : Mat × (Fin 3 → ℝ) × Mat} (h1 : IsSvd (mass C .Gu .uphi) ru)
    (h2 : IsSvd (mass C .Gd .dphi) rd) (h3 : IsSvd (mass C .Ge .ephi) re) (su : StrictMono ru.2.1) (pu : 0 < ru.2.1 0)
    (sd : StrictMono rd.2.1) (pd : 0 < rd.2.1 0) (hs : IsStandard (ru.1ᴴ * rd.1)) : Works ideal C := by
  have key : ∀ {M : Mat} {r : Mat × (Fin 3 → ℝ) × Mat}, IsSvd M r → IsSvd M (ideal.msvd M) := by
    intro M r h
    have hex : ∃ r, IsSvd M r := ⟨r, h⟩
    simp only [ideal, dif_pos hex]
    exact hex.choose_spec
  have back : ∀ {A : Mat} {p : Fin 3 → ℂ}, IsPhases p → A * diagonal p * diagonal (fun i => star (p i)) = A := by
    intro A p hp
    rw [Matrix.mul_assoc, diagonal_mul_diagonal]
    have : (fun i => p i * star (p i)) = fun _ => (1 : ℂ) := by
      funext i; rw [Complex.star_def, Complex.mul_conj', hp i]; norm_num
    rw [this, diagonal_one, Matrix.mul_one]
  refine ⟨key h1, key h2, key h3, ?_, fun Unu => ⟨fun _ => 1, fun _ => by simp, ?_, ?_⟩⟩
  · obtain ⟨p, hp, e1, e2⟩ := svd_unique h1 (key h1) su pu
    obtain ⟨q, hq, e3, e4⟩ := svd_unique h2 (key h2) sd pd
    have hex : ∃ r, IsRephased (ideal.msvd (mass C .Gu .uphi)).1 (ideal.msvd (mass C .Gd .dphi)).1
        (ideal.msvd (mass C .Gu .uphi)).2.2 (ideal.msvd (mass C .Gd .dphi)).2.2 r :=
      ⟨(ru.1, rd.1, ru.2.2, rd.2.2), ⟨_, _, phases_star hp, phases_star hq, by rw [e1, back hp],
        by rw [e3, back hq], by rw [e2, back hp], by rw [e4, back hq]⟩, hs⟩
    have e : ∀ A B D E, (∃ r, IsRephased A B D E r) → IsRephased A B D E (ideal.rephase A B D E) := by
      intro A B D E h
      simp only [ideal, dif_pos h]
      exact h.choose_spec
    exact e _ _ _ _ hex
  · simp [ideal]
  · simp [ideal]

/-- a CKM matrix without CP violation -/
noncomputable def ckm0 : Mat := ckmStandard (3 / 5) (4 / 5) 1 0 (3 / 5) (4 / 5) 1

theorem ckm0_standard : IsStandard ckm0 :=
  ⟨3 / 5, 4 / 5, 1, 0, 3 / 5, 4 / 5, 1, by norm_num, by norm_num, by norm_num, by norm_num, by norm_num,
    by norm_num, by norm_num, by norm_num, by norm_num, by norm_num, rfl⟩

theorem ckm0_unitary : ckm0 ∈ unitaryGroup (Fin 3) ℂ := by
  rw [mem_unitaryGroup_iff', star_eq_conjTranspose]
  funext i j
  fin_cases i <;> fin_cases j <;>
    simp [ckm0, ckmStandard, mul_apply, Fin.sum_univ_three, map_ofNat] <;> norm_num

/-- masses 1, 2, 3 -/
def masses0 : Fin 3 → ℝ := ![1, 2, 3]

theorem masses0_mono : StrictMono masses0 := by
  intro i j h
  fin_cases i <;> fin_cases j <;> first | (exact absurd h (by decide)) | (simp [masses0]; try norm_num)

/-- a parameter point with the mass matrices `diag(1, 2, 3)`, `diag(1, 2, 3)` and
`V† diag(1, 2, 3)`, and all Wilson coefficients but the corrections to the masses equal to one -/
noncomputable def point0 : Dict Key Ten := keys.map fun k => (k, fun ix =>
  match k, ix with
  | .Gd, [i, j] => ((Real.sqrt 2 / 246.22 : ℝ) : ℂ) * dg masses0 i j
  | .Ge, [i, j] => ((Real.sqrt 2 / 246.22 : ℝ) : ℂ) * dg masses0 i j
  | .Gu, [i, j] => ((Real.sqrt 2 / 246.22 : ℝ) : ℂ) * (ckm0ᴴ * dg masses0) i j
  | .uphi, _ | .dphi, _ | .ephi, _ => 0
  | _, _ => 1)

theorem point0_complete : Complete point0 := by
  intro k hk
  simp only [point0, Dict.keys, List.map_map, List.mem_map]
  exact ⟨k, hk, rfl⟩

theorem scale0 (x : ℂ) : ((246.22 / Real.sqrt 2 : ℝ) : ℂ) * (((Real.sqrt 2 / 246.22 : ℝ) : ℂ) * x) = x := by
  rw [← mul_assoc, ← Complex.ofReal_mul]
  have : (246.22 / Real.sqrt 2) * (Real.sqrt 2 / 246.22) = 1 := by
    have : Real.sqrt 2 ≠ 0 := by positivity
    field_simp
  rw [this]; simp

theorem point0_mass : mass point0 .Gd .dphi = dg masses0 ∧ mass point0 .Ge .ephi = dg masses0 ∧
    mass point0 .Gu .uphi = ckm0ᴴ * dg masses0 := by
  refine ⟨?_, ?_, ?_⟩ <;> funext i j <;>
    simp only [mass, Matrix.smul_apply, Matrix.sub_apply, smul_eq_mul, entry, point0, keys, List.map_cons,
      Dict.get?_cons, reduceCtorEq, if_false, if_true, Option.getD_some, mul_zero, sub_zero, scale0]

/-- **C98, the hypotheses are met**: by the point above and the same point in any other weak basis. -/
theorem C98_example (W : Fl → Mat) (hW : ∀ f, W f ∈ unitaryGroup (Fin 3) ℂ) :
    ∃ (C C' D : Dict Key Ten) (V : Mat), Complete C ∧ Complete C' ∧ Works ideal C ∧ Works ideal C' ∧
      WeakBasisChange W C C' ∧ Nondegenerate (mass C .Gu .uphi) ∧ Nondegenerate (mass C .Gd .dphi) ∧
      Nondegenerate (mass C .Ge .ephi) ∧ rotateDefault ideal C = .ok D ∧ InDefaultBasis D V ∧
      V 0 0 ≠ 0 ∧ V 0 1 ≠ 0 ∧ V 1 2 ≠ 0 ∧ V 2 2 ≠ 0 := by
  have hpos : 0 < masses0 0 := by simp [masses0]
  have hnn : ∀ i, 0 ≤ masses0 i := fun i => hpos.le.trans (masses0_mono.monotone (Fin.zero_le i))
  have h1 : IsSvd (mass point0 .Gd .dphi) (1, masses0, 1) :=
    ⟨one_mem _, one_mem _, hnn, masses0_mono.monotone, by simp [point0_mass.1]⟩
  have h2 : IsSvd (mass point0 .Ge .ephi) (1, masses0, 1) :=
    ⟨one_mem _, one_mem _, hnn, masses0_mono.monotone, by simp [point0_mass.2.1]⟩
  have h3 : IsSvd (mass point0 .Gu .uphi) (ckm0ᴴ, masses0, 1) :=
    ⟨star_unitary ckm0_unitary, one_mem _, hnn, masses0_mono.monotone, by
      simp [point0_mass.2.2, ← Matrix.mul_assoc, right_inv ckm0_unitary]⟩
  obtain ⟨C', -, -, hr, -⟩ := C27_method W point0 true (fun k hk _ => point0_complete k hk)
  have hr' : RotatedBy W (fun _ => True) point0 C' := fun k τ _ hτ => hr k τ (fun _ => rfl) hτ
  have hty : ∀ k ∈ keys, (smeftTy k).isSome := by decide
  have hC' : Complete C' := by
    intro k hk
    obtain ⟨τ, hτ⟩ := Option.isSome_iff_exists.1 (hty k hk)
    cases e : point0.get? k with
    | none => exact absurd (point0_complete k hk) ((Dict.get?_eq_none_iff _ _).1 e)
    | some A =>
      obtain ⟨B, hB, -⟩ := (hr' k τ trivial hτ).1 A e
      by_contra hn
      rw [(Dict.get?_eq_none_iff _ _).2 hn] at hB
      cases hB
  have hK : Works ideal point0 := ideal_works h3 h1 h2 masses0_mono hpos masses0_mono hpos (by
    simpa using ckm0_standard)
  have hK' : Works ideal C' := by
    refine ideal_works (ru := ((W .q)ᴴ * ckm0ᴴ, masses0, (W .u)ᴴ * 1)) (rd := ((W .q)ᴴ * 1, masses0, (W .d)ᴴ * 1))
      (re := ((W .l)ᴴ * 1, masses0, (W .e)ᴴ * 1)) ?_ ?_ ?_ masses0_mono hpos masses0_mono hpos ?_
    · rw [mass_rot point0_complete hr' (f := .q) (g := .u) rfl rfl]; exact rot_svd (hW _) (hW _) h3
    · rw [mass_rot point0_complete hr' (f := .q) (g := .d) rfl rfl]; exact rot_svd (hW _) (hW _) h1
    · rw [mass_rot point0_complete hr' (f := .l) (g := .e) rfl rfl]; exact rot_svd (hW _) (hW _) h2
    · have : ((W .q)ᴴ * ckm0ᴴ)ᴴ * ((W .q)ᴴ * 1) = ckm0 := by
        rw [conjTranspose_mul, conjTranspose_conjTranspose, conjTranspose_conjTranspose, Matrix.mul_one,
          Matrix.mul_assoc, right_inv (hW _), Matrix.mul_one]
      simp only [this]; exact ckm0_standard
  obtain ⟨D, U, V, hD, -, hU, hrD, hV⟩ := C98_default_basis ideal point0 point0_complete hK
  refine ⟨point0, C', D, V, point0_complete, hC', hK, hK', ⟨hW, hr'⟩, ⟨_, h3, masses0_mono, hpos⟩,
    ⟨_, h1, masses0_mono, hpos⟩, ⟨_, h2, masses0_mono, hpos⟩, hD, hV, ?_⟩
  have hnu : Nondegenerate (mass D .Gu .uphi) := by
    rw [mass_rot point0_complete hrD (f := .q) (g := .u) rfl rfl]
    exact ⟨_, rot_svd (hU _) (hU _) h3, masses0_mono, hpos⟩
  have hne : ∀ i j, ckm0 i j ≠ 0 → V i j ≠ 0 := by
    intro i j hij
    rw [default_ckm hnu hV (default_of point0_complete hK hD).2]
    obtain ⟨p, q, hp, hq, a1, a2, -⟩ := hK.quarks.phases
    obtain ⟨P, hP, b1, -⟩ := svd_unique h3 hK.up masses0_mono hpos
    obtain ⟨Q, hQ, b2, -⟩ := svd_unique h1 hK.down masses0_mono hpos
    have e1 : (quarkRot ideal point0).1 = ckm0ᴴ * diagonal P * diagonal p := by rw [← b1]; exact a1
    have e2 : (quarkRot ideal point0).2.1 = 1 * diagonal Q * diagonal q := by rw [← b2]; exact a2
    rw [e1, e2, Matrix.one_mul, Matrix.mul_assoc, diagonal_mul_diagonal, diagonal_mul_diagonal, conjTranspose_mul,
      conjTranspose_conjTranspose, diagonal_conjTranspose, mul_diagonal, diagonal_mul]
    have f : ∀ {x y : Fin 3 → ℂ}, IsPhases x → IsPhases y → ∀ i, x i * y i ≠ 0 := by
      intro x y hx hy i h0
      have : ‖x i * y i‖ = 1 := phases_mul hx hy i
      rw [h0] at this; simp at this
    exact mul_ne_zero (mul_ne_zero (by simpa using f hP hp i) hij) (f hQ hq j)
  refine ⟨hne _ _ ?_, hne _ _ ?_, hne _ _ ?_, hne _ _ ?_⟩ <;> simp [ckm0, ckmStandard]

end Verif.DefaultBasisProps
