import Verif.Lemmas.SmPar
import Verif.Lemmas.WetRun
import Mathlib.Tactic.Positivity

/-!
# C47, C48: Standard Model parameters in the SMEFT
-/

open Classical Matrix

set_option autoImplicit false

namespace Verif.SmPar

open Verif.Tens (Ten)
open Verif.Beta (Key)
open Verif.WetRun (ok_bind)

/-! ## C47: Higgs potential -/

theorem fdiv_ok {a b x : ℝ} (h : fdiv a b = .ok x) : b ≠ 0 ∧ x = a / b := by
  unfold fdiv at h
  split_ifs at h with hb
  exact ⟨hb, by injection h with h; exact h.symm⟩

theorem fdiv_eq {a b : ℝ} (h : b ≠ 0) : fdiv a b = .ok (a / b) := by
  unfold fdiv; rw [if_neg h]

/-- the kinetic term of the code is the one of the Lagrangian -/
theorem ckin_norm (C : Key → Ten) (v Z : ℝ)
    (h : IsNormalisation (C .phiBox []).re (C .phiD []).re v Z) : 1 - 2 * ckin C * v ^ 2 = Z := by
  have := h 1
  unfold kinetic at this
  unfold ckin
  linear_combination 2 * this

/-- C47: from a vacuum expectation value and a Higgs mass to the parameters of the potential and
back, if the kinetic term is positive. -/
theorem C47_there_and_back (v Mh2 Z : ℝ) (hv : 0 < v) (hM : 0 < Mh2) (C : Key → Ten)
    (hphi : (C .phi []).re = 0 ∨ 1e-16 ≤ |(C .phi []).re|)
    (hZ : IsNormalisation (C .phiBox []).re (C .phiD []).re v Z) (hkin : 0 < Z) :
    ∃ m2 Lambda, toM2Lambda v Mh2 C = .ok (m2, Lambda) ∧ toVMh2 m2 Lambda C = .ok (v, Mh2) := by
  rw [← ckin_norm C v Z hZ] at hkin
  replace hphi : cphi C = 0 ∨ 1e-16 ≤ |cphi C| := hphi
  refine ⟨(Mh2 / v ^ 2 - 2 * ckin C * Mh2 + 3 * cphi C * v ^ 2) * v ^ 2 / 2
    - 3 / 4 * cphi C * (v ^ 2) ^ 2, Mh2 / v ^ 2 - 2 * ckin C * Mh2 + 3 * cphi C * v ^ 2, ?_, ?_⟩
  · unfold toM2Lambda
    rw [if_neg (by simp [hv, hM])]
  · set L := Mh2 / v ^ 2 - 2 * ckin C * Mh2 + 3 * cphi C * v ^ 2 with hL
    have hv2 : 0 < v ^ 2 := by positivity
    have hLv : L - 3 * cphi C * v ^ 2 = Mh2 * (1 - 2 * ckin C * v ^ 2) / v ^ 2 := by
      rw [hL]; field_simp; ring
    have hpos : 0 < L - 3 * cphi C * v ^ 2 := by
      rw [hLv]; positivity
    have h2 : v2Of (L * v ^ 2 / 2 - 3 / 4 * cphi C * (v ^ 2) ^ 2) L C = .ok (v ^ 2) := by
      unfold v2Of
      rcases hphi with h0 | h0
      · rw [h0]
        rw [if_pos (by norm_num), fdiv_eq]
        · congr 1
          have hL0 : L ≠ 0 := by rw [h0] at hpos; linarith
          field_simp
          ring
        · rw [h0] at hpos; linarith
      · rw [if_neg (not_lt.2 h0)]
        have hc : cphi C ≠ 0 := by
          intro h; rw [h] at h0; norm_num at h0
        have hsq : L ^ 2 - 12 * cphi C * (L * v ^ 2 / 2 - 3 / 4 * cphi C * (v ^ 2) ^ 2)
            = (L - 3 * cphi C * v ^ 2) ^ 2 := by ring
        dsimp only
        rw [hsq, if_neg (by push Not; positivity), Real.sqrt_sq hpos.le]
        congr 1
        field_simp
        ring
    unfold toVMh2
    rw [h2]
    simp only [bind, Except.bind]
    rw [if_neg (by push Not; exact hv2), fdiv_eq hkin.ne']
    simp only
    have hMM : v ^ 2 / (1 - 2 * ckin C * v ^ 2) * (L - 3 * cphi C * v ^ 2) = Mh2 := by
      have hk0 := hkin.ne'
      rw [hLv, div_mul_div_comm, mul_comm (1 - _) (v ^ 2), mul_comm Mh2, ← mul_assoc,
        mul_div_cancel_left₀]
      positivity
    rw [hMM, if_neg (by push Not; exact hM), Real.sqrt_sq hv.le]

/-- C47: a successful extraction returns a positive vacuum expectation value and mass. -/
theorem C47_positive (m2 Lambda v Mh2 : ℝ) (C : Key → Ten)
    (h : toVMh2 m2 Lambda C = .ok (v, Mh2)) : 0 < v ∧ 0 < Mh2 := by
  unfold toVMh2 at h
  obtain ⟨v2, -, h⟩ := ok_bind h
  split_ifs at h with h1
  obtain ⟨r, -, h⟩ := ok_bind h
  dsimp only at h
  split_ifs at h with h2
  injection h with h
  injection h with h3 h4
  exact ⟨by rw [← h3]; exact Real.sqrt_pos.2 h1, by rw [← h4]; exact h2⟩

/-- C47: the parameters of the potential exist exactly for positive inputs. -/
theorem C47_domain (v Mh2 : ℝ) (C : Key → Ten) :
    (∃ r, toM2Lambda v Mh2 C = .ok r) ↔ 0 < v ∧ 0 < Mh2 := by
  unfold toM2Lambda
  constructor
  · rintro ⟨r, h⟩
    split_ifs at h with h1
    push Not at h1
    exact h1
  · rintro ⟨h1, h2⟩
    rw [if_neg (by simp [h1, h2])]
    exact ⟨_, rfl⟩

/-- the value of the squared vacuum expectation value in a successful extraction -/
theorem toVMh2_ok {m2 Lambda v Mh2 : ℝ} {C : Key → Ten} (h : toVMh2 m2 Lambda C = .ok (v, Mh2))
    (hphi : cphi C = 0 ∨ 1e-16 ≤ |cphi C|) :
    0 < v ∧ m2 = Lambda * v ^ 2 / 2 - 3 / 4 * cphi C * (v ^ 2) ^ 2 ∧
      1 - 2 * ckin C * v ^ 2 ≠ 0 ∧
      Mh2 * (1 - 2 * ckin C * v ^ 2) = v ^ 2 * (Lambda - 3 * cphi C * v ^ 2) := by
  have hp := C47_positive m2 Lambda v Mh2 C h
  unfold toVMh2 at h
  obtain ⟨v2, hv2, h⟩ := ok_bind h
  split_ifs at h with h1
  obtain ⟨r, hr, h⟩ := ok_bind h
  dsimp only at h
  split_ifs at h with h2
  injection h with h
  injection h with h3 h4
  have hvv : v ^ 2 = v2 := by rw [← h3, Real.sq_sqrt h1.le]
  obtain ⟨hk, hr⟩ := fdiv_ok hr
  refine ⟨hp.1, ?_, by rw [hvv]; exact hk, ?_⟩
  · rw [hvv]
    unfold v2Of at hv2
    rcases hphi with h0 | h0
    · rw [if_pos (by rw [h0]; norm_num)] at hv2
      obtain ⟨hL, hv2⟩ := fdiv_ok hv2
      rw [h0, hv2]
      field_simp
      ring
    · rw [if_neg (not_lt.2 h0)] at hv2
      dsimp only at hv2
      split_ifs at hv2 with h5
      injection hv2 with hv2
      have hc : cphi C ≠ 0 := by
        intro h; rw [h] at h0; norm_num at h0
      have hs := Real.sq_sqrt h5
      set s := Real.sqrt (Lambda ^ 2 - 12 * cphi C * m2)
      have : s = Lambda - 3 * cphi C * v2 := by
        rw [← hv2]; field_simp; ring
      rw [this] at hs
      have h6 : 12 * cphi C * (m2 - (Lambda * v2 / 2 - 3 / 4 * cphi C * v2 ^ 2)) = 0 := by
        linear_combination hs
      rcases mul_eq_zero.1 h6 with h7 | h7
      · exfalso; apply hc; linarith
      · linarith
  · rw [← h4, hr, hvv, mul_right_comm, div_mul_cancel₀ _ hk]

/-- C47: from the parameters of the potential to the physical parameters and back. -/
theorem C47_back_and_there (m2 Lambda v Mh2 : ℝ) (C : Key → Ten)
    (h : toVMh2 m2 Lambda C = .ok (v, Mh2)) (hphi : (C .phi []).re = 0 ∨ 1e-16 ≤ |(C .phi []).re|) :
    toM2Lambda v Mh2 C = .ok (m2, Lambda) := by
  obtain ⟨hv, hm2, hk, hM⟩ := toVMh2_ok h hphi
  have hMp := (C47_positive m2 Lambda v Mh2 C h).2
  have hL : Mh2 / v ^ 2 - 2 * ckin C * Mh2 + 3 * cphi C * v ^ 2 = Lambda := by
    have : v ^ 2 ≠ 0 := by positivity
    field_simp
    linear_combination hM
  unfold toM2Lambda
  rw [if_neg (by simp [hv, hMp])]
  dsimp only
  rw [hL, ← hm2]

/-- C47: the vacuum expectation value is a stationary point of the potential, and the curvature there
is the squared Higgs mass in the field normalised by the kinetic term. -/
theorem C47_minimum (m2 Lambda v Mh2 Z : ℝ) (C : Key → Ten)
    (h : toVMh2 m2 Lambda C = .ok (v, Mh2)) (hphi : (C .phi []).re = 0 ∨ 1e-16 ≤ |(C .phi []).re|)
    (hZ : IsNormalisation (C .phiBox []).re (C .phiD []).re v Z) :
    HasDerivAt (potential m2 Lambda (C .phi []).re) 0 v ∧
    HasDerivAt (deriv (potential m2 Lambda (C .phi []).re)) (Mh2 * Z) v := by
  rw [← ckin_norm C v Z hZ]
  show HasDerivAt (potential m2 Lambda (cphi C)) 0 v ∧
    HasDerivAt (deriv (potential m2 Lambda (cphi C))) (Mh2 * (1 - 2 * ckin C * v ^ 2)) v
  obtain ⟨hv, hm2, hk, hM⟩ := toVMh2_ok h hphi
  have hd : ∀ x, HasDerivAt (potential m2 Lambda (cphi C))
      (-m2 * x + Lambda / 2 * x ^ 3 - 3 / 4 * cphi C * x ^ 5) x := by
    intro x
    have e : potential m2 Lambda (cphi C) = fun x =>
        -m2 / 2 * x ^ 2 + Lambda / 8 * x ^ 4 - cphi C / 8 * x ^ 6 := by
      funext x; unfold potential; ring
    rw [e]
    have h2 := (hasDerivAt_pow 2 x).const_mul (-m2 / 2)
    have h4 := (hasDerivAt_pow 4 x).const_mul (Lambda / 8)
    have h6 := (hasDerivAt_pow 6 x).const_mul (cphi C / 8)
    refine ((h2.add h4).sub h6).congr_deriv ?_
    norm_num
    ring
  constructor
  · refine (hd v).congr_deriv ?_
    rw [hm2]; ring
  · have e : deriv (potential m2 Lambda (cphi C)) = fun x =>
        -m2 * x + Lambda / 2 * x ^ 3 - 3 / 4 * cphi C * x ^ 5 := by
      funext x; exact (hd x).deriv
    rw [e]
    have h1 := (hasDerivAt_id v).const_mul (-m2)
    have h3 := (hasDerivAt_pow 3 v).const_mul (Lambda / 2)
    have h5 := (hasDerivAt_pow 5 v).const_mul (3 / 4 * cphi C)
    refine ((h1.add h3).sub h5).congr_deriv ?_
    rw [hM, hm2]
    norm_num
    ring

/-- C47: below the threshold `|C_phi| < 1e-16` the coefficient is neglected in the vacuum expectation
value, which then deviates by a relative amount of first order in `C_phi`. -/
theorem C47_tiny_violation (v Mh2 : ℝ) (hv : 0 < v) (hM : 0 < Mh2) (C : Key → Ten)
    (hphi : |(C .phi []).re| < 1e-16) (m2 Lambda v' Mh2' : ℝ)
    (h : toM2Lambda v Mh2 C = .ok (m2, Lambda)) (h' : toVMh2 m2 Lambda C = .ok (v', Mh2')) :
    v' ^ 2 = v ^ 2 * (1 - 3 / 2 * (C .phi []).re * v ^ 2 / Lambda) := by
  replace hphi : |cphi C| < 1e-16 := hphi
  show v' ^ 2 = v ^ 2 * (1 - 3 / 2 * cphi C * v ^ 2 / Lambda)
  unfold toM2Lambda at h
  rw [if_neg (by simp [hv, hM])] at h
  injection h with h
  injection h with h1 h2
  rw [h2] at h1
  unfold toVMh2 v2Of at h'
  rw [if_pos hphi] at h'
  obtain ⟨v2, hv2, h'⟩ := ok_bind h'
  obtain ⟨hL, hv2⟩ := fdiv_ok hv2
  split_ifs at h' with h3
  obtain ⟨r, hr, h'⟩ := ok_bind h'
  dsimp only at h'
  split_ifs at h' with h4
  injection h' with h'
  injection h' with h5 h6
  rw [← h5, Real.sq_sqrt h3.le, hv2, ← h1]
  field_simp
  ring

/-! ## C48: the Standard Model inputs are reproduced -/

theorem massMat_yuk (M : M3) (v : ℝ) (hv : 0 < v) (T : Ten) : massMat v (ten (yuk M v T)) T = M := by
  funext i j
  unfold massMat ten yuk
  have h2 : Real.sqrt 2 ≠ 0 := by positivity
  have hs : ((v / Real.sqrt 2 : ℝ) : ℂ) ≠ 0 := by
    exact_mod_cast (div_ne_zero hv.ne' h2)
  field_simp
  ring

theorem getGpbar_root {X : Ext} (hR : RootContract X) {ebar gbar v gp : ℝ} {C : Key → Ten}
    (hg : 0 < gbar) (h : getGpbar X ebar gbar v C = .ok gp) :
    ∃ x, gp = x * (1 - (C .phiB []).re * v ^ 2) ∧ f0 ebar gbar v C x = 0 := by
  unfold getGpbar at h
  obtain ⟨x, hx, h⟩ := ok_bind h
  injection h with h
  refine ⟨x, h.symm, ?_⟩
  split_ifs at hx with h0
  · obtain ⟨s, hs, hx⟩ := ok_bind hx
    obtain ⟨hs0, hx⟩ := fdiv_ok hx
    unfold fsqrt at hs
    split_ifs at hs with hneg
    injection hs with hs
    have hpos : 0 < gbar ^ 2 - ebar ^ 2 := by
      rcases (not_lt.1 hneg).lt_or_eq with h1 | h1
      · exact h1
      · rw [← h1, Real.sqrt_zero] at hs
        exact absurd hs.symm hs0
    have hs2 : s ^ 2 = gbar ^ 2 - ebar ^ 2 := by rw [← hs, Real.sq_sqrt hpos.le]
    have hspos : 0 < s := by rw [← hs]; exact Real.sqrt_pos.2 hpos
    have e1 : gbar ^ 2 + x ^ 2 = (gbar ^ 2 / s) ^ 2 := by
      rw [hx]; field_simp; linear_combination hs2
    unfold f0
    rw [h0]
    dsimp only
    rw [e1, Real.sqrt_sq (by positivity), hx]
    simp only [Complex.zero_re, zero_mul, zero_div, sub_zero, mul_one]
    field_simp
    ring
  · split at hx
    · rename_i y hy
      injection hx with hx
      rw [← hx]
      exact hR _ _ _ _ hy
    · exact absurd hx (by simp)

/-- C48: the parameters that `smeftpar` computes from the Standard Model inputs reproduce these inputs
when they are extracted again by `smpar`: all of them except the Z mass, which is a prediction.  The
Wilson coefficients are arbitrary, subject to the conditions under which the relations can be inverted
at all. -/
theorem C48_reproduces (X : Ext) (hR : RootContract X) (p : Inputs)
    (hp : p.Physical) (hK : CkmContract X p) (C : Key → Ten) (basis : String) (c : Dict Key Ten)
    (hSe : SvdAt X (diagonal ![(p.m_e : ℂ), p.m_mu, p.m_tau]))
    (hSq : ∀ Mu Md, quarkMasses X p basis = .ok (Mu, Md) → SvdAt X Mu ∧ SvdAt X Md)
    (hc : smeftpar X p C basis = .ok c)
    (hphi : (C .phi []).re = 0 ∨ 1e-16 ≤ |(C .phi []).re|) (Z : ℝ)
    (hZ : IsNormalisation (C .phiBox []).re (C .phiD []).re (vevOf p.GF) Z) (hkin : 0 < Z)
    (hG : 1 - (C .phiG []).re * vevOf p.GF ^ 2 ≠ 0)
    (hW : 1 - (C .phiW []).re * vevOf p.GF ^ 2 ≠ 0)
    (hB : 1 - (C .phiB []).re * vevOf p.GF ^ 2 ≠ 0) :
    ∃ q, smpar X (fun k => (c.get? k).getD (C k)) = .ok q ∧ q = { p with m_Z := q.m_Z } := by
  have hs2 : 0 < Real.sqrt 2 := by positivity
  have hv2 : vevOf p.GF ^ 2 = 1 / Real.sqrt 2 / p.GF := by
    unfold vevOf
    rw [Real.sq_sqrt]
    have := hp.GF
    positivity
  have hv : 0 < vevOf p.GF := by
    unfold vevOf
    have := hp.GF
    exact Real.sqrt_pos.2 (by positivity)
  unfold smeftpar at hc
  dsimp only at hc
  obtain ⟨⟨m2, L⟩, hmL, hc⟩ := ok_bind hc
  obtain ⟨gp, hgp, hc⟩ := ok_bind hc
  obtain ⟨⟨Mu, Md⟩, hM, hc⟩ := ok_bind hc
  injection hc with hc
  subst hc
  set v := vevOf p.GF
  have hmW := hp.m_W
  have hgbar : 0 < 2 * p.m_W / v := by positivity
  obtain ⟨x, hx, hroot⟩ := getGpbar_root hR hgbar hgp
  -- Higgs potential
  obtain ⟨m2', L', h1, h2⟩ := C47_there_and_back v (p.m_h ^ 2) Z hv (by have := hp.m_h; positivity) C
    hphi hZ hkin
  rw [hmL] at h1
  injection h1 with h1
  injection h1 with e1 e2
  subst e1; subst e2
  -- quark masses and mixing
  have hKu := hK.1
  obtain ⟨Au, Ad, hAu, hAd, hAK, hMu, hMd⟩ : ∃ Au Ad : M3, IsUnitary Au ∧ IsUnitary Ad ∧
      Au.conjTranspose * Ad = X.ckm p.Vus p.Vub p.Vcb p.gamma ∧
      Mu = Au * diagonal (fun i => ((![p.m_u, p.m_c, p.m_t] i : ℝ) : ℂ)) * 1 ∧
      Md = Ad * diagonal (fun i => ((![p.m_d, p.m_s, p.m_b] i : ℝ) : ℂ)) * 1 := by
    have du : (fun i => ((![p.m_u, p.m_c, p.m_t] i : ℝ) : ℂ)) = ![(p.m_u : ℂ), p.m_c, p.m_t] := by
      funext i; fin_cases i <;> rfl
    have dd : (fun i => ((![p.m_d, p.m_s, p.m_b] i : ℝ) : ℂ)) = ![(p.m_d : ℂ), p.m_s, p.m_b] := by
      funext i; fin_cases i <;> rfl
    unfold quarkMasses at hM
    rw [du, dd]
    dsimp only at hM
    split_ifs at hM with hb1 hb2
    · injection hM with hM
      injection hM with e1 e2
      refine ⟨_, 1, unitary_conj hKu, one_mem _, ?_, ?_, ?_⟩
      · rw [conjTranspose_conjTranspose, Matrix.mul_one]
      · rw [Matrix.mul_one]; exact e1.symm
      · rw [Matrix.mul_one, Matrix.one_mul]; exact e2.symm
    · injection hM with hM
      injection hM with e1 e2
      refine ⟨1, _, one_mem _, hKu, ?_, ?_, ?_⟩
      · rw [conjTranspose_one, Matrix.one_mul]
      · rw [Matrix.mul_one, Matrix.one_mul]; exact e1.symm
      · rw [Matrix.mul_one]; exact e2.symm
  obtain ⟨hSu, hSd⟩ := hSq Mu Md hM
  rw [hMu] at hSu
  rw [hMd] at hSd
  have de : (1 : M3) * diagonal (fun i => ((![p.m_e, p.m_mu, p.m_tau] i : ℝ) : ℂ)) * 1
      = diagonal ![(p.m_e : ℂ), p.m_mu, p.m_tau] := by
    rw [Matrix.one_mul, Matrix.mul_one]
    congr 1
    funext i; fin_cases i <;> rfl
  rw [← de] at hSe
  have hsu := svd_unique Au 1 hAu (one_mem _) ![p.m_u, p.m_c, p.m_t] hSu
    ⟨hp.up.1, hp.up.2.1.le, hp.up.2.2.le⟩
  have hsd := svd_unique Ad 1 hAd (one_mem _) ![p.m_d, p.m_s, p.m_b] hSd
    ⟨hp.down.1, hp.down.2.1.le, hp.down.2.2.le⟩
  have hse := svd_unique 1 1 (one_mem _) (one_mem _) ![p.m_e, p.m_mu, p.m_tau] hSe hp.lep
  obtain ⟨pu, hpu, hUu⟩ := svd_left Au 1 hAu (one_mem _) ![p.m_u, p.m_c, p.m_t] hSu hp.up
  obtain ⟨pd, hpd, hUd⟩ := svd_left Ad 1 hAd (one_mem _) ![p.m_d, p.m_s, p.m_b] hSd hp.down
  rw [← hMu] at hsu hUu
  rw [← hMd] at hsd hUd
  rw [de] at hse
  -- the new mixing matrix
  have hKij : ∀ i j, ((X.msvd Mu).1.conjTranspose * (X.msvd Md).1) i j
      = star (pu i) * (X.ckm p.Vus p.Vub p.Vcb p.gamma) i j * pd j := by
    intro i j
    rw [hUu, hUd, conjTranspose_mul, diagonal_conjTranspose]
    have : diagonal (star pu) * Auᴴ * (Ad * diagonal pd)
        = diagonal (star pu) * (Auᴴ * Ad) * diagonal pd := by
      simp only [Matrix.mul_assoc]
    rw [this, hAK, mul_diagonal, diagonal_mul]
    rfl
  have hnu : ∀ i, ‖pu i‖ = 1 := fun i => norm_one_of (hpu i)
  have hnd : ∀ i, ‖pd i‖ = 1 := fun i => norm_one_of (hpd i)
  have hnorm : ∀ i j, ‖((X.msvd Mu).1.conjTranspose * (X.msvd Md).1) i j‖
      = ‖(X.ckm p.Vus p.Vub p.Vcb p.gamma) i j‖ := by
    intro i j
    rw [hKij, norm_mul, norm_mul, norm_star, hnu, hnd, one_mul, mul_one]
  -- the electric charge
  set gbar := 2 * p.m_W / v
  have hgg : gbar ^ 2 + x ^ 2 ≠ 0 := by positivity
  have hsg : Real.sqrt (gbar ^ 2 + x ^ 2) ≠ 0 := by
    rw [Real.sqrt_ne_zero (by positivity)]; exact hgg
  have heb : ebOf gbar x ((C .phiWB []).re * v ^ 2) = .ok (Real.sqrt (4 * Real.pi * p.alpha_e)) := by
    unfold ebOf
    rw [fdiv_eq hsg, fdiv_eq hgg]
    simp only [bind, Except.bind]
    congr 1
    unfold f0 at hroot
    dsimp only at hroot
    linarith
  -- assemble
  have hgbW : gbar * (1 - (C .phiW []).re * v ^ 2) / (1 - (C .phiW []).re * v ^ 2) = gbar := by
    field_simp
  have hgpB : x * (1 - (C .phiB []).re * v ^ 2) / (1 - (C .phiB []).re * v ^ 2) = x := by
    field_simp
  have hgsG : (1 - (C .phiG []).re * v ^ 2) * Real.sqrt (4 * Real.pi * p.alpha_s)
      / (1 - (C .phiG []).re * v ^ 2) = Real.sqrt (4 * Real.pi * p.alpha_s) := by
    field_simp
  set C' : Key → Ten := fun k => (Dict.get? _ k).getD (C k) with hC'
  have okb : ∀ {α β : Type} (a : α) (f : α → Except Exc β), (Except.ok a >>= f) = f a :=
    fun _ _ => rfl
  have k1 : toVMh2 (C' .m2 []).re (C' .Lambda []).re C' = .ok (v, p.m_h ^ 2) := h2
  have hGF : 1 / (Real.sqrt 2 * v ^ 2) = p.GF := by
    have := hp.GF
    rw [hv2]
    field_simp
  have k2 : fdiv 1 (Real.sqrt 2 * v ^ 2) = .ok p.GF := by
    rw [fdiv_eq (by positivity), hGF]
  have k3 : fdiv (C' .g []).re (1 - (C' .phiW []).re * v ^ 2) = .ok gbar :=
    (fdiv_eq hW).trans (congrArg Except.ok hgbW)
  have k4 : fdiv (C' .gp []).re (1 - (C' .phiB []).re * v ^ 2) = .ok x := by
    have : (C' .gp []).re = x * (1 - (C .phiB []).re * v ^ 2) := hx
    rw [this]
    exact (fdiv_eq hB).trans (congrArg Except.ok hgpB)
  have k5 : fdiv (C' .gs []).re (1 - (C' .phiG []).re * v ^ 2)
      = .ok (Real.sqrt (4 * Real.pi * p.alpha_s)) :=
    (fdiv_eq hG).trans (congrArg Except.ok hgsG)
  have k6 : massMat v (C' .Gu) (C' .uphi) = Mu := massMat_yuk Mu v hv (C .uphi)
  have k7 : massMat v (C' .Gd) (C' .dphi) = Md := massMat_yuk Md v hv (C .dphi)
  have k8 : massMat v (C' .Ge) (C' .ephi) = diagonal ![(p.m_e : ℂ), p.m_mu, p.m_tau] :=
    massMat_yuk _ v hv (C .ephi)
  have k9 : ebOf gbar x ((C' .phiWB []).re * v ^ 2) = .ok (Real.sqrt (4 * Real.pi * p.alpha_e)) := heb
  unfold smpar
  rw [k1, okb]
  dsimp only
  rw [k2, okb, k3, okb, k4, okb, k5, okb, fdiv_eq hgg, okb, k6, k7, k8, k9, okb]
  refine ⟨_, rfl, ?_⟩
  have hpi : 0 < Real.pi := Real.pi_pos
  have q1 : Real.sqrt (4 * Real.pi * p.alpha_e) ^ 2 / (4 * Real.pi) = p.alpha_e := by
    rw [Real.sq_sqrt (by have := hp.alpha_e; positivity)]
    field_simp
  have q2 : Real.sqrt (4 * Real.pi * p.alpha_s) ^ 2 / (4 * Real.pi) = p.alpha_s := by
    rw [Real.sq_sqrt (by have := hp.alpha_s; positivity)]
    field_simp
  have q3 : gbar * v / 2 = p.m_W := by
    simp only [gbar]
    field_simp
  have q4 : Real.sqrt |p.m_h ^ 2| = p.m_h := by
    rw [abs_of_nonneg (by positivity), Real.sqrt_sq hp.m_h.le]
  have q5 : -((X.msvd Mu).1.conjTranspose * (X.msvd Md).1) 0 0
      * star (((X.msvd Mu).1.conjTranspose * (X.msvd Md).1) 0 2)
      / (((X.msvd Mu).1.conjTranspose * (X.msvd Md).1) 1 0
        * star (((X.msvd Mu).1.conjTranspose * (X.msvd Md).1) 1 2))
      = -(X.ckm p.Vus p.Vub p.Vcb p.gamma) 0 0 * star ((X.ckm p.Vus p.Vub p.Vcb p.gamma) 0 2)
        / ((X.ckm p.Vus p.Vub p.Vcb p.gamma) 1 0
          * star ((X.ckm p.Vus p.Vub p.Vcb p.gamma) 1 2)) := by
    rw [hKij, hKij, hKij, hKij]
    simp only [star_mul', star_star]
    set K := X.ckm p.Vus p.Vub p.Vcb p.gamma
    have e1 : -(star (pu 0) * K 0 0 * pd 0) * (pu 0 * star (K 0 2) * star (pd 2))
        = -K 0 0 * star (K 0 2) * (pd 0 * star (pd 2)) := by
      linear_combination (-(K 0 0) * star (K 0 2) * pd 0 * star (pd 2)) * hpu 0
    have e2 : star (pu 1) * K 1 0 * pd 0 * (pu 1 * star (K 1 2) * star (pd 2))
        = K 1 0 * star (K 1 2) * (pd 0 * star (pd 2)) := by
      linear_combination (K 1 0 * star (K 1 2) * pd 0 * star (pd 2)) * hpu 1
    have e3 : pd 0 * star (pd 2) ≠ 0 := by
      intro h
      have := congrArg norm h
      rw [norm_mul, norm_star, hnd, hnd] at this
      simp at this
    rw [e1, e2, mul_div_mul_right _ _ e3]
  obtain ⟨-, r1, r2, r3, r4⟩ := hK
  rw [hsu, hsd, hse, q1, q2, q3, q4, q5, hnorm, hnorm, hnorm, r1, r2, r3, r4]
  rfl

/-! ### A concrete point meeting the hypotheses -/

namespace Example

/-- a non-trivial orthogonal mixing matrix -/
noncomputable def K : M3 := !![2/3, 2/3, -1/3; -1/3, 2/3, 2/3; 2/3, -1/3, 2/3]

theorem K_unitary : IsUnitary K := by
  unfold IsUnitary
  rw [mem_unitaryGroup_iff, star_eq_conjTranspose]
  have e : K.conjTranspose = !![2/3, -1/3, 2/3; 2/3, 2/3, -1/3; -1/3, 2/3, 2/3] := by
    funext i j
    fin_cases i <;> fin_cases j <;> simp [K]
  rw [e]
  funext i j
  fin_cases i <;> fin_cases j <;>
    simp [K, Matrix.mul_apply, Fin.sum_univ_three] <;> norm_num

noncomputable def p : Inputs where
  GF := 1 / Real.sqrt 2
  alpha_e := 1 / (4 * Real.pi)
  alpha_s := 1
  Vus := 2 / 3
  Vub := 1 / 3
  Vcb := 2 / 3
  gamma := Real.pi
  m_e := 7
  m_mu := 8
  m_tau := 9
  m_u := 1
  m_c := 2
  m_t := 3
  m_d := 4
  m_s := 5
  m_b := 6
  m_W := 1
  m_Z := 1
  m_h := 1

noncomputable def Mu : M3 := K.conjTranspose * diagonal ![((p.m_u : ℝ) : ℂ), (p.m_c : ℝ), (p.m_t : ℝ)]
noncomputable def Md : M3 := diagonal ![((p.m_d : ℝ) : ℂ), (p.m_s : ℝ), (p.m_b : ℝ)]

noncomputable def X : Ext where
  ckm := fun _ _ _ _ => K
  msvd := fun M => if M = Mu then (K.conjTranspose, ![1, 2, 3], 1)
    else if M = Md then (1, ![4, 5, 6], 1) else (1, ![7, 8, 9], 1)
  brentq := fun _ _ _ => .error .valueError

/-- coefficients: only `phiG` -/
noncomputable def C : Key → Ten := fun k => if k = .phiG then scal (1 / 2) else scal 0

theorem vev : vevOf p.GF = 1 := by
  unfold vevOf
  have : 1 / Real.sqrt 2 ≠ 0 := by positivity
  rw [show p.GF = 1 / Real.sqrt 2 from rfl, div_self this, Real.sqrt_one]

theorem ck : cphi C = 0 ∧ ckin C = 0 := by
  constructor <;> simp [cphi, ckin, C, scal]

/-- a point with a dimension-six potential term and kinetic term, on the exact branch -/
example : ∃ m2 Lambda, toM2Lambda 1 1 (fun k => if k = .phi then scal (1 / 100) else
      if k = .phiBox then scal (1 / 8) else scal 0) = .ok (m2, Lambda) ∧
    toVMh2 m2 Lambda (fun k => if k = .phi then scal (1 / 100) else
      if k = .phiBox then scal (1 / 8) else scal 0) = .ok (1, 1) := by
  refine C47_there_and_back 1 1 (3 / 4) one_pos one_pos _ ?_ ?_ (by norm_num)
  · right
    simp only [scal, if_true]
    norm_num
  · intro dh
    unfold kinetic
    rw [if_neg (by decide : ¬ Key.phiBox = Key.phi), if_neg (by decide : ¬ Key.phiD = Key.phi),
      if_pos rfl, if_neg (by decide : ¬ Key.phiD = Key.phiBox)]
    norm_num [scal]
    ring

theorem cW : C .phiW = scal 0 := if_neg (by decide)
theorem cB : C .phiB = scal 0 := if_neg (by decide)

theorem Md_ne : Md ≠ Mu := by
  intro h
  have := congrFun (congrFun h 0) 1
  simp [Mu, Md, K, p, Matrix.mul_apply, Matrix.diagonal] at this

theorem example_ok : ∃ c, smeftpar X p C "Warsaw" = .ok c := by
  have h1 : toM2Lambda (vevOf p.GF) (p.m_h ^ 2) C = .ok (1 / 2, 1) := by
    rw [vev]
    unfold toM2Lambda
    rw [if_neg (by norm_num [p]), ck.1, ck.2]
    norm_num [p]
  have h2 : getGpbar X (Real.sqrt (4 * Real.pi * p.alpha_e)) (2 * p.m_W / vevOf p.GF) (vevOf p.GF) C
      = .ok (2 / Real.sqrt 3) := by
    have e1 : Real.sqrt (4 * Real.pi * p.alpha_e) = 1 := by
      have : 4 * Real.pi * p.alpha_e = 1 := by
        unfold p
        have := Real.pi_pos
        dsimp only
        field_simp
      rw [this, Real.sqrt_one]
    have e2 : 2 * p.m_W / vevOf p.GF = 2 := by rw [vev]; norm_num [p]
    rw [e1, e2]
    unfold getGpbar
    rw [if_pos (by simp [C, scal])]
    unfold fsqrt
    rw [if_neg (by norm_num)]
    have e3 : (2 : ℝ) ^ 2 - 1 ^ 2 = 3 := by norm_num
    rw [e3]
    show (fdiv (1 * 2) (Real.sqrt 3) >>= _) = _
    rw [fdiv_eq (by positivity)]
    show Except.ok _ = _
    congr 1
    simp [C, scal]
  unfold smeftpar
  dsimp only
  rw [h1]
  show ∃ c, (getGpbar X _ _ _ C >>= _) = .ok c
  rw [h2]
  exact ⟨_, rfl⟩

example : ∃ c q, smeftpar X p C "Warsaw" = .ok c ∧
    smpar X (fun k => (c.get? k).getD (C k)) = .ok q ∧ q = { p with m_Z := q.m_Z } := by
  obtain ⟨c, hc⟩ := example_ok
  have hKu := K_unitary
  obtain ⟨q, h1, h2⟩ := C48_reproduces X (by intro f a b x h; simp [X] at h) p
    { GF := by unfold p; positivity
      alpha_e := by unfold p; have := Real.pi_pos; positivity
      alpha_s := by norm_num [p]
      m_W := by norm_num [p]
      m_h := by norm_num [p]
      up := by norm_num [p]
      down := by norm_num [p]
      lep := by norm_num [p] }
    (by
      refine ⟨hKu, ?_, ?_, ?_, ?_⟩
      · simp [X, K, p]
      · simp [X, K, p]
      · simp [X, K, p]
      · have : -K 0 0 * star (K 0 2) / (K 1 0 * star (K 1 2)) = -1 := by
          simp [K]
          norm_num
        show Complex.arg (-K 0 0 * star (K 0 2) / (K 1 0 * star (K 1 2))) = Real.pi
        rw [this, Complex.arg_neg_one])
    C "Warsaw" c
    (by
      have h1 : diagonal ![(p.m_e : ℂ), p.m_mu, p.m_tau] ≠ Mu := by
        intro h
        have := congrFun (congrFun h 0) 1
        simp [Mu, K, p, Matrix.mul_apply, Matrix.diagonal] at this
      have h2 : diagonal ![(p.m_e : ℂ), p.m_mu, p.m_tau] ≠ Md := by
        intro h
        have := congrFun (congrFun h 0) 0
        norm_num [Md, p] at this
      unfold SvdAt
      simp only [X, if_neg h1, if_neg h2]
      refine ⟨one_mem _, one_mem _, ?_, by norm_num, by norm_num, by
        show (_ : ℝ) ≤ _; simp; norm_num⟩
      rw [conjTranspose_one, Matrix.one_mul, Matrix.mul_one]
      congr 1
      funext i; fin_cases i <;> simp [p])
    (by
      intro A B h
      have h' : quarkMasses X p "Warsaw" = .ok (Mu, Md) := rfl
      rw [h'] at h
      injection h with h
      injection h with h1 h2
      subst h1; subst h2
      constructor
      · unfold SvdAt
        simp only [X, if_true]
        refine ⟨unitary_conj hKu, one_mem _, ?_, by norm_num, by norm_num, by
        show (_ : ℝ) ≤ _; simp; norm_num⟩
        rw [conjTranspose_conjTranspose, Matrix.mul_one, Mu, ← Matrix.mul_assoc,
          unitary_mul_conj hKu, Matrix.one_mul]
        congr 1
        funext i; fin_cases i <;> simp [p]
      · unfold SvdAt
        simp only [X, if_neg Md_ne, if_true]
        refine ⟨one_mem _, one_mem _, ?_, by norm_num, by norm_num, by
        show (_ : ℝ) ≤ _; simp; norm_num⟩
        rw [conjTranspose_one, Matrix.one_mul, Matrix.mul_one, Md]
        congr 1
        funext i; fin_cases i <;> simp [p])
    hc (Or.inl ck.1) 1 (by intro dh; simp [kinetic, C, scal]) one_pos (by rw [vev]; norm_num [C, scal])
    (by rw [vev, cW]; norm_num [scal]) (by rw [vev, cB]; norm_num [scal])
  exact ⟨c, q, hc, h1, h2⟩

end Example

end Verif.SmPar
