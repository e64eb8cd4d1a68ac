import Verif.Props.BetaLinear
import Mathlib.Tactic.LinearCombination

/-!
# Properties C42 and C44: flavour covariance, baryon and lepton number
-/

set_option autoImplicit false

namespace Verif.BetaFlavour
open Verif Verif.Tens Verif.Beta Verif.Flavour Verif.BetaSpec BigOperators

/-! ### C42 -/

theorem norm_one' : ‖(1 : ℂ)‖ = 1 := by
  rw [Complex.norm_def]; simp

/-- sanity check of the specification: an array with indices (l̄, e) transforms as a matrix,
`Y → U_l† Y U_e` -/
example (U : Fl → Matrix (Fin 3) (Fin 3) ℂ) (M : Matrix (Fin 3) (Fin 3) ℂ) (i j : Fin 3) :
    rot U [Fl.b .l, Fl.x .e] (ofMatrix M) [i, j] = ((U .l).conjTranspose * M * U .e) i j := by
  simp only [rot, ofMatrix, fac, Matrix.mul_apply, Matrix.conjTranspose_apply]
  simp only [Finset.sum_mul, Finset.mul_sum]
  rw [Finset.sum_comm]
  refine Finset.sum_congr rfl fun a _ => Finset.sum_congr rfl fun b _ => ?_
  simp only [if_true, Bool.false_eq_true, if_false]
  simp only [Complex.star_def]
  ring

/-- hypothesis of C42: every coefficient of `C'` is the rotated coefficient of `C` -/
def Rotated (U : Fl → Matrix (Fin 3) (Fin 3) ℂ) (C C' : Key → Ten) : Prop :=
  ∀ k τ, smeftTy k = some τ → ∀ ix : Ix, ix.length = τ.length → C' k ix = rot U τ (C k) ix

theorem input_rotated (U : Fl → Matrix (Fin 3) (Fin 3) ℂ) (C C' : Key → Ten) (hC : Rotated U C C')
    (h : ℂ) (k : Key) : CovR allTy U k (input C h k) (input C' h k) := by
  refine input_cov allTy rfl U C C' h ?_ k
  intro k hk ix hix
  obtain ⟨τ, hτ⟩ := smeft_of_mem_keys hk
  have e := allTy_of_smeft hτ
  rw [e] at hix ⊢
  exact hC k τ hτ ix hix

/-- **C42 (partial).** Under rotations of the five fermion fields by unitary matrices, the
beta function of every parameter and coefficient rotates like the coefficient itself, with
and without new physics. Missing from the full property: `dphi` with new physics, see
`C42_dphi_violation`. -/
theorem C42_covariance_partial (U : Fl → Matrix (Fin 3) (Fin 3) ℂ)
    (hU : ∀ f, U f ∈ Matrix.unitaryGroup (Fin 3) ℂ) (C C' : Key → Ten) (hC : Rotated U C C') (h : ℂ)
    (newphys : Bool) (cKeys : List Key) (hc : ∀ k ∈ keys, k ∈ cKeys) (k : Key) (τ : List (Ty Fl))
    (hk : smeftTy k = some τ) (hd : k ≠ .dphi ∨ newphys = false) :
    ∃ B B', (beta cKeys C h newphys).get? k = some B ∧ (beta cKeys C' h newphys).get? k = some B' ∧
      ∀ ix : Ix, ix.length = τ.length → B' ix = rot U τ B ix := by
  by_cases hk' : k = .dphi
  · subst hk'
    have hn : newphys = false := by simpa using hd
    subst hn
    obtain ⟨B, h1, h2⟩ := BetaLinear.C45_wc_zero cKeys hc C h .dphi (by decide) (by decide)
    obtain ⟨B', h3, h4⟩ := BetaLinear.C45_wc_zero cKeys hc C' h .dphi (by decide) (by decide)
    refine ⟨B, B', h1, h3, fun ix _ => ?_⟩
    have : B = fun _ => 0 := funext h2
    rw [h4, this, rot_zero]
  · obtain ⟨B, B', h1, h2, h3⟩ := beta_rel (CovR allTy U) (fun k => k ≠ .dphi) C C' h h cKeys newphys
      (input_rotated U C C' hC h)
      (fun ke hke env env' henv => step_sound allTy U hU ke (check_loc ke hke) env env' henv)
      (fun ke hke hok env env' henv => step_sound allTy U hU ke (check_beta ke hke hok) env env' henv)
      (fun _ k ix _ => (rot_zero U _ ix).symm) (fun _ => hc) k (mem_keys_of_smeft hk) hk'
    refine ⟨B, B', h1, h2, fun ix hix => ?_⟩
    have e := allTy_of_smeft hk
    have := h3 ix (by rw [e]; exact hix)
    rwa [e] at this

theorem env2_rotated (U : Fl → Matrix (Fin 3) (Fin 3) ℂ)
    (hU : ∀ f, U f ∈ Matrix.unitaryGroup (Fin 3) ℂ) (C C' : Key → Ten) (hC : Rotated U C C') (h : ℂ) :
    ∀ k, CovR allTy U k (env2 C h k) (env2 C' h k) :=
  runLocals_rel _ loc2Prog _ _
    (runLocals_rel _ locProg _ _ (input_rotated U C C' hC h) fun ke hke env env' henv =>
      step_sound allTy U hU ke (check_loc ke (List.mem_append_left _ hke)) env env' henv)
    fun ke hke env env' henv =>
      step_sound allTy U hU ke (check_loc ke (List.mem_append_right _ hke)) env env' henv

theorem good_rotated (U : Fl → Matrix (Fin 3) (Fin 3) ℂ)
    (hU : ∀ f, U f ∈ Matrix.unitaryGroup (Fin 3) ℂ) (C C' : Key → Ten) (hC : Rotated U C C') (h : ℂ)
    (ix : Ix) (hix : ix.length = 2) :
    eval (env2 C' h) goodDphi ix =
      rot U [Fl.b .q, Fl.x .d] (eval (env2 C h) goodDphi) ix :=
  step_sound allTy U hU (.dphi, goodDphi) check_goodDphi _ _ (env2_rotated U hU C C' hC h) ix hix

theorem dphi_value (cKeys : List Key) (C : Key → Ten) (h : ℂ) :
    (beta cKeys C h true).get? .dphi = some (eval (env2 C h) np_dphi) := by
  rw [get?_beta_true, last_dphi]; rfl

/-- **C42 (partial), `dphi`.** The beta function of `dphi` rotates correctly if the
coefficient `quqd1` vanishes. -/
theorem C42_dphi_partial (U : Fl → Matrix (Fin 3) (Fin 3) ℂ)
    (hU : ∀ f, U f ∈ Matrix.unitaryGroup (Fin 3) ℂ) (C C' : Key → Ten) (hC : Rotated U C C') (h : ℂ)
    (cKeys : List Key) (hq : ∀ ix, C .quqd1 ix = 0) (hq' : ∀ ix, C' .quqd1 ix = 0) :
    ∃ B B', (beta cKeys C h true).get? .dphi = some B ∧ (beta cKeys C' h true).get? .dphi = some B' ∧
      ∀ ix : Ix, ix.length = 2 → B' ix = rot U [Fl.b .q, Fl.x .d] B ix := by
  have hb : ∀ (C : Key → Ten), (∀ ix, C .quqd1 ix = 0) → ∀ ix : Ix, ix.length = 2 →
      eval (env2 C h) np_dphi ix = eval (env2 C h) goodDphi ix := by
    intro C hq ix hix
    match ix, hix with
    | [r, s], _ =>
      rw [dphi_split, badTerm_value, env2_key C h .quqd1 (by decide)]
      simp [hq]
  refine ⟨_, _, dphi_value cKeys C h, dphi_value cKeys C' h, fun ix hix => ?_⟩
  rw [hb C' hq' ix hix, good_rotated U hU C C' hC h ix hix]
  match ix, hix with
  | [r, s], _ =>
    simp only [rot]
    refine Finset.sum_congr rfl fun a _ => ?_
    congr 1
    refine Finset.sum_congr rfl fun b _ => ?_
    rw [hb C hq [a, b] rfl]

/-- rephasing of the right-handed up quarks by i -/
noncomputable def uPhase : Fl → Matrix (Fin 3) (Fin 3) ℂ
  | .u => Complex.I • 1
  | _ => 1

/-- witness of the violation: unit up-quark Yukawa matrix and one entry of `quqd1` -/
noncomputable def witC : Key → Ten
  | .Gu => fun | [i, j] => if i = j then 1 else 0 | _ => 0
  | .quqd1 => fun ix => if ix = [0, 0, 0, 0] then 1 else 0
  | _ => fun _ => 0

/-- the rephased coefficients -/
noncomputable def witC' : Key → Ten
  | .Gu => fun ix => Complex.I * witC .Gu ix
  | .quqd1 => fun ix => Complex.I * witC .quqd1 ix
  | _ => fun _ => 0

theorem uPhase_unitary (f : Fl) : uPhase f ∈ Matrix.unitaryGroup (Fin 3) ℂ := by
  cases f
  case u =>
    show (Complex.I • (1 : Matrix (Fin 3) (Fin 3) ℂ)) ∈ _
    exact phaseU_unitary Complex.I 1 (by simp) norm_one' true
  all_goals exact Submonoid.one_mem _

theorem fac_uPhase (f : Fl) (b : Bool) (i j : Fin 3) : fac uPhase ⟨f, b⟩ i j =
    if i = j then (if f = .u then (if b then -Complex.I else Complex.I) else 1) else 0 := by
  rcases eq_or_ne i j with hij | hij
  · subst hij; cases f <;> cases b <;> simp [fac, uPhase]
  · cases f <;> cases b <;> simp [fac, uPhase, hij]

theorem wit_rotated : Rotated uPhase witC witC' := by
  intro k τ hτ ix hix
  by_cases h1 : k = .Gu
  · subst h1
    simp only [smeftTy, Option.some.injEq] at hτ
    subst hτ
    match ix, hix with
    | [a, b], _ => simp [rot, fac_uPhase, witC', witC, eq_comm]
  by_cases h2 : k = .quqd1
  · subst h2
    simp only [smeftTy, Option.some.injEq] at hτ
    subst hτ
    match ix, hix with
    | [a, b, c, d], _ =>
      simp only [rot, fac_uPhase, witC']
      simp only [reduceCtorEq, if_false, if_true, ite_mul, one_mul, zero_mul, Finset.sum_ite_eq',
        Finset.mem_univ, Bool.false_eq_true]
  have e : witC k = fun _ => 0 := by cases k <;> first | rfl | exact absurd rfl h1 | exact absurd rfl h2
  have e' : witC' k = fun _ => 0 := by
    cases k <;> first | rfl | exact absurd rfl h1 | exact absurd rfl h2
  rw [e, e', rot_zero]

/-- **C42 violation.** The beta function of `dphi` is not covariant: rephasing the
right-handed up quarks changes the (d̄-type) beta function of `dphi`, whose index types do
not include u. Line 509 of beta.py contracts the u index of `quqd1` and its first q index
with `Gu @ Gu.conj().T @ Gu` instead of `Gu.conj().T @ Gu @ Gu.conj().T`. -/
theorem C42_dphi_violation (cKeys : List Key) (h : ℂ) :
    ∃ (U : Fl → Matrix (Fin 3) (Fin 3) ℂ) (C C' : Key → Ten) (B B' : Ten),
      (∀ f, U f ∈ Matrix.unitaryGroup (Fin 3) ℂ) ∧ Rotated U C C' ∧
      (beta cKeys C h true).get? .dphi = some B ∧ (beta cKeys C' h true).get? .dphi = some B' ∧
      B' [0, 0] ≠ rot U [Fl.b .q, Fl.x .d] B [0, 0] := by
  refine ⟨uPhase, witC, witC', _, _, uPhase_unitary, wit_rotated, dphi_value cKeys _ h,
    dphi_value cKeys _ h, ?_⟩
  have hg := good_rotated uPhase uPhase_unitary witC witC' wit_rotated h [0, 0] rfl
  have e : ∀ A : Ten, rot uPhase [Fl.b .q, Fl.x .d] A [0, 0] = A [0, 0] := by
    intro A; simp [rot, fac_uPhase]
  have b1 : eval (env2 witC h) badTerm [0, 0] = 1 := by
    rw [badTerm_value, env2_key witC h .quqd1 (by decide), env2_key witC h .Gu (by decide)]
    simp [witC]
  have b2 : eval (env2 witC' h) badTerm [0, 0] = -1 := by
    rw [badTerm_value, env2_key witC' h .quqd1 (by decide), env2_key witC' h .Gu (by decide)]
    simp [witC, witC', Fin.sum_univ_three]
  rw [e] at hg ⊢
  rw [dphi_split, dphi_split, hg, b1, b2]
  intro hcon
  have : (24 : ℂ) = 0 := by linear_combination hcon
  norm_num at this

/-! ### C44 -/

/-- **C44.** Multiplying every coefficient by the phase `z^(quark number) w^(lepton number)`
of its operator multiplies every beta function by the same phase. -/
theorem C44_phase (z w : ℂ) (hz : ‖z‖ = 1) (hw : ‖w‖ = 1) (C C' : Key → Ten)
    (hC : ∀ k ∈ keys, ∀ ix : Ix, ix.length = rank k →
      C' k ix = z ^ quarkNumber k * w ^ leptonNumber k * C k ix)
    (h : ℂ) (newphys : Bool) (cKeys : List Key) (hc : ∀ k ∈ keys, k ∈ cKeys) (k : Key) (hk : k ∈ keys) :
    ∃ B B', (beta cKeys C h newphys).get? k = some B ∧ (beta cKeys C' h newphys).get? k = some B' ∧
      ∀ ix : Ix, ix.length = rank k → B' ix = z ^ quarkNumber k * w ^ leptonNumber k * B ix := by
  have hrot : ∀ k ∈ keys, ∀ A : Ten, ∀ ix : Ix, ix.length = (coarseTy k).length →
      rot (phaseU z w) (coarseTy k) A ix = z ^ quarkNumber k * w ^ leptonNumber k * A ix := by
    intro k hk A ix hix
    obtain ⟨τ, hτ⟩ := smeft_of_mem_keys hk
    have e := allTy_of_smeft hτ
    simp only [coarseTy, e, List.length_map] at hix ⊢
    rw [rot_phase z w hz hw τ A ix hix]
    simp [quarkNumber, leptonNumber, hτ]
  have hlen : ∀ k ∈ keys, (coarseTy k).length = rank k := by
    intro k hk
    obtain ⟨τ, hτ⟩ := smeft_of_mem_keys hk
    simp [coarseTy, allTy, rank, hτ]
  obtain ⟨B, B', h1, h2, h3⟩ := beta_rel (CovR coarseTy (phaseU z w)) (fun _ => True) C C' h h cKeys
    newphys
    (input_cov coarseTy rfl _ C C' h fun k hk ix hix => by
      rw [hrot k hk _ ix hix, hC k hk ix (by rw [← hlen k hk]; exact hix)])
    (fun ke hke env env' henv =>
      step_sound coarseTy _ (phaseU_unitary z w hz hw) ke (check_coarse_loc ke hke) env env' henv)
    (fun ke hke _ env env' henv =>
      step_sound coarseTy _ (phaseU_unitary z w hz hw) ke (check_coarse ke hke) env env' henv)
    (fun _ k ix _ => (rot_zero _ _ ix).symm) (fun _ => hc) k hk trivial
  refine ⟨B, B', h1, h2, fun ix hix => ?_⟩
  have hl : ix.length = (coarseTy k).length := by rw [hlen k hk]; exact hix
  rw [h3 ix hl, hrot k hk _ ix hl]

/-- keep the Standard Model parameters and the coefficients with the charges of `k` -/
def proj (k : Key) (C : Key → Ten) : Key → Ten := fun k' =>
  if k' ∈ keys ∧ (k' ∈ smKeys ∨ SameCharge k k') then C k' else fun _ => 0

/-- the charges that occur -/
theorem charges : ∀ k ∈ keys, (quarkNumber k = 0 ∧ leptonNumber k = 0) ∨
    (k ∉ smKeys ∧ quarkNumber k = 0 ∧ leptonNumber k = 2) ∨
    (k ∉ smKeys ∧ quarkNumber k = 3 ∧ leptonNumber k = 1) := by decide +kernel

theorem sm_charges : ∀ k ∈ smKeys, quarkNumber k = 0 ∧ leptonNumber k = 0 := by decide +kernel

/-- coefficients multiplied by the phase of their operator -/
noncomputable def phased (z w : ℂ) (C : Key → Ten) : Key → Ten := fun k ix =>
  z ^ quarkNumber k * w ^ leptonNumber k * C k ix

theorem phased_sm (z w : ℂ) (C : Key → Ten) (k : Key) (hk : k ∈ smKeys) : phased z w C k = C k := by
  funext ix
  simp [phased, sm_charges k hk]

theorem proj_sm (k : Key) (C : Key → Ten) (k' : Key) (hk : k' ∈ smKeys) : proj k C k' = C k' := by
  have : ∀ k ∈ smKeys, k ∈ keys := by decide
  simp [proj, hk, this k' hk]

theorem beta_proj (C : Key → Ten) (h : ℂ) (cKeys : List Key) (hc : ∀ k ∈ keys, k ∈ cKeys) (k : Key)
    (hk : k ∈ keys) :
    ∃ B B', (beta cKeys C h true).get? k = some B ∧ (beta cKeys (proj k C) h true).get? k = some B' ∧
      ∀ ix : Ix, ix.length = rank k → B ix = B' ix := by
  rcases charges k hk with ⟨q0, l0⟩ | ⟨hs, q0, l0⟩ | ⟨hs, q0, l0⟩
  · obtain ⟨B, B₁, h1, h2, h3⟩ := C44_phase (-Complex.I) Complex.I (by simp) (by simp) C
      (phased (-Complex.I) Complex.I C) (fun _ _ _ _ => rfl) h true cKeys hc k hk
    obtain ⟨D, B', B₁', h4, h5, h6, h7⟩ := BetaLinear.C43_affine cKeys h (1 / 2) (1 / 2) (by norm_num)
      (proj k C) C (phased (-Complex.I) Complex.I C)
      (fun k' hk' => ⟨proj_sm k C k' hk', by rw [proj_sm k C k' hk', phased_sm _ _ _ _ hk']⟩)
      (fun k' hk' hs' ix => by
        rcases charges k' hk' with ⟨q, l⟩ | ⟨_, q, l⟩ | ⟨_, q, l⟩
        · simp [proj, phased, SameCharge, hk', q0, l0, q, l]
          ring
        · simp [proj, phased, SameCharge, hk', hs', q0, l0, q, l]
        · simp [proj, phased, SameCharge, hk', hs', q0, l0, q, l, pow_succ, zpow_ofNat]
          ) k hk
    rw [h1] at h5; rw [h2] at h6
    simp only [Option.some.injEq] at h5 h6
    subst h5; subst h6
    refine ⟨B, D, h1, h4, fun ix hix => ?_⟩
    rw [h7, h3 ix hix]
    simp [q0, l0]; ring
  · obtain ⟨B, B₁, h1, h2, h3⟩ := C44_phase Complex.I Complex.I (by simp) (by simp) C
      (phased Complex.I Complex.I C) (fun _ _ _ _ => rfl) h true cKeys hc k hk
    obtain ⟨D, B', B₁', h4, h5, h6, h7⟩ := BetaLinear.C43_linear cKeys h (1 / 2) (-1 / 2)
      (proj k C) C (phased Complex.I Complex.I C)
      (fun k' hk' => ⟨proj_sm k C k' hk', by rw [proj_sm k C k' hk', phased_sm _ _ _ _ hk']⟩)
      (fun k' hk' hs' ix => by
        rcases charges k' hk' with ⟨q, l⟩ | ⟨_, q, l⟩ | ⟨_, q, l⟩
        · simp [proj, phased, SameCharge, hk', hs', q0, l0, q, l]
          ring
        · simp [proj, phased, SameCharge, hk', q0, l0, q, l, zpow_ofNat]
          ring
        · simp [proj, phased, SameCharge, hk', hs', q0, l0, q, l, pow_succ, zpow_ofNat]
          ring) k hk hs
    rw [h1] at h5; rw [h2] at h6
    simp only [Option.some.injEq] at h5 h6
    subst h5; subst h6
    refine ⟨B, D, h1, h4, fun ix hix => ?_⟩
    rw [h7, h3 ix hix]
    simp [q0, l0, zpow_ofNat]; ring
  · obtain ⟨B, B₁, h1, h2, h3⟩ := C44_phase (-1) 1 (by rw [norm_neg]; exact norm_one') norm_one' C
      (phased (-1) 1 C) (fun _ _ _ _ => rfl) h true cKeys hc k hk
    obtain ⟨D, B', B₁', h4, h5, h6, h7⟩ := BetaLinear.C43_linear cKeys h (1 / 2) (-1 / 2)
      (proj k C) C (phased (-1) 1 C)
      (fun k' hk' => ⟨proj_sm k C k' hk', by rw [proj_sm k C k' hk', phased_sm _ _ _ _ hk']⟩)
      (fun k' hk' hs' ix => by
        rcases charges k' hk' with ⟨q, l⟩ | ⟨_, q, l⟩ | ⟨_, q, l⟩
        · simp [proj, phased, SameCharge, hk', hs', q0, l0, q, l]
          ring
        · simp [proj, phased, SameCharge, hk', hs', q0, l0, q, l]
          ring
        · simp [proj, phased, SameCharge, hk', q0, l0, q, l, pow_succ, zpow_ofNat]
          ring) k hk hs
    rw [h1] at h5; rw [h2] at h6
    simp only [Option.some.injEq] at h5 h6
    subst h5; subst h6
    refine ⟨B, D, h1, h4, fun ix hix => ?_⟩
    rw [h7, h3 ix hix]
    simp [q0, l0, pow_succ, zpow_ofNat]; ring

/-- **C44.** The beta function of a coefficient depends only on the Standard Model
parameters and on the coefficients with the same baryon and lepton number: changing any
others arbitrarily has no effect. -/
theorem C44_selection (C C' : Key → Ten) (h : ℂ) (cKeys : List Key) (hc : ∀ k ∈ keys, k ∈ cKeys)
    (k : Key) (hk : k ∈ keys)
    (hC : ∀ k' ∈ keys, k' ∈ smKeys ∨ SameCharge k k' → C k' = C' k') :
    ∃ B B', (beta cKeys C h true).get? k = some B ∧ (beta cKeys C' h true).get? k = some B' ∧
      ∀ ix : Ix, ix.length = rank k → B ix = B' ix := by
  have e : proj k C = proj k C' := by
    funext k'
    unfold proj
    split
    · rename_i h'
      exact hC k' h'.1 h'.2
    · rfl
  obtain ⟨B, D, h1, h2, h3⟩ := beta_proj C h cKeys hc k hk
  obtain ⟨B', D', h4, h5, h6⟩ := beta_proj C' h cKeys hc k hk
  rw [← e, h2] at h5
  simp only [Option.some.injEq] at h5
  subst h5
  exact ⟨B, B', h1, h4, fun ix hix => by rw [h3 ix hix, h6 ix hix]⟩

/-- The charges of the operators: the proton-decay operators carry baryon and lepton
number one, the Weinberg operator lepton number two, so e.g. the beta function of `duql`
does not see `llphiphi` or `uphi`. -/
example : quarkNumber .duql = 3 ∧ leptonNumber .duql = 1 ∧ leptonNumber .llphiphi = 2 ∧
    quarkNumber .uphi = 0 ∧ quarkNumber .quqd1 = 0 ∧ leptonNumber .ledq = 0 ∧
    ¬ SameCharge .duql .llphiphi ∧ ¬ SameCharge .duql .uphi ∧ SameCharge .duql .qqql := by decide

end Verif.BetaFlavour
