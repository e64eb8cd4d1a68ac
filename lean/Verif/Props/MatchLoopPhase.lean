import Verif.Lemmas.LoopCharge
import Verif.Props.MatchLoop
import Verif.Props.MatchFlavour
import Mathlib.RingTheory.RootsOfUnity.Complex

/-!
# Property C89: rephasing of the fermion fields; baryon number and lepton family numbers
-/

set_option autoImplicit false
set_option linter.unusedSimpArgs false

namespace Verif.Loop
open Verif Verif.Spec Verif.Tens Verif.Beta Verif.Rotation Verif.Match Verif.BetaSym Verif.Flavour Verif.TranslateSmeft
open Verif.WetRun (ok_bind)

attribute [local irreducible] loopProg tens coefTab prog2

/-- a phase for every fermion field and generation: `α` for the quark doublets and the right-handed
up-type quarks, `β` for the right-handed down-type quarks, `γ` for the leptons -/
def phaseOf (α β γ : Fin 3 → ℂ) : Fl → Fin 3 → ℂ
  | .q | .u => α
  | .d => β
  | .l | .e => γ

/-- the diagonal matrices of these phases -/
def phaseMat (α β γ : Fin 3 → ℂ) (f : Fl) : Matrix (Fin 3) (Fin 3) ℂ := Matrix.diagonal (phaseOf α β γ f)

/-- the phase of a tuple of indices -/
noncomputable def phT {F : Type} (ψ : F → Fin 3 → ℂ) : List (Ty F) → Ix → ℂ
  | t :: τ, i :: is => (if t.bar then (starRingEnd ℂ) (ψ t.f i) else ψ t.f i) * phT ψ τ is
  | _, _ => 1

theorem rot_diag {F : Type} (ψ : F → Fin 3 → ℂ) (τ : List (Ty F)) (A : Ten) (ix : Ix) (h : ix.length = τ.length) :
    rot (fun f => Matrix.diagonal (ψ f)) τ A ix = phT ψ τ ix * A ix := by
  induction τ generalizing A ix with
  | nil =>
    cases ix with
    | nil => simp [rot, phT]
    | cons i is => simp at h
  | cons t τ ih =>
    cases ix with
    | nil => simp at h
    | cons i is =>
      simp only [rot, phT]
      rw [Finset.sum_eq_single i]
      · rw [ih _ _ (by simpa using h)]
        simp only [fac, Matrix.diagonal_apply_eq]
        ring
      · intro j _ hj
        simp [fac, Matrix.diagonal_apply_ne _ hj]
      · simp

/-- the phases by class -/
def phi (α β γ : Fin 3 → ℂ) : ℕ → Fin 3 → ℂ
  | 0 => α
  | 1 => β
  | _ => γ

theorem phaseOf_cls (α β γ : Fin 3 → ℂ) (f : Fl) : phaseOf α β γ f = phi α β γ (cls f) := by cases f <;> rfl

theorem phT_phs {F : Type} (φ : ℕ → Fin 3 → ℂ) (c : F → ℕ) (τ : List (Ty F)) (ix : Ix) :
    phT (fun f => φ (c f)) τ ix = phs φ (τ.map fun t => (c t.f, t.bar)) ix := by
  induction τ generalizing ix with
  | nil => rfl
  | cons t τ ih =>
    cases ix with
    | nil => rfl
    | cons i is => simp only [phT, List.map_cons, phs, chPh, ih]

/-- all phases have modulus 1 -/
def Unit3 (α : Fin 3 → ℂ) : Prop := ∀ i, α i * (starRingEnd ℂ) (α i) = 1

theorem loopVal_ch (α β γ : Fin 3 → ℂ) (hα : Unit3 α) (hβ : Unit3 β) (hγ : Unit3 γ) (C C' : Key → Ten) (S : LEnv)
    (hC : ∀ k τ, smeftTy k = some τ → ∀ ix : Ix, ix.length = τ.length →
      C' k ix = rot (phaseMat α β γ) τ (C k) ix)
    {w : WKey} {f : List (ℕ × ℕ)} (hm : (w, f) ∈ loopProg) (ix : Ix) (hix : ix.length = (wetTy w).length) :
    loopVal C' (S.rephase (phi α β γ)) w f ix =
      rot (fun f => phaseMat α β γ (parent f)) (wetTy w) (loopVal C S w f) ix := by
  obtain ⟨φ, hφd⟩ : ∃ φ, φ = phi α β γ := ⟨_, rfl⟩
  have hφ : ∀ c i, φ c i * (starRingEnd ℂ) (φ c i) = 1 := by
    intro c i
    rw [hφd]
    match c with
    | 0 => exact hα i
    | 1 => exact hβ i
    | n + 2 => exact hγ i
  have hC' : ∀ k, (smeftTy k).isSome = true → ∀ ix : Ix, ix.length = (keyChg k).length →
      C' k ix = phs φ (keyChg k) ix * C k ix := by
    intro k hk ix hl
    obtain ⟨τ, hτ⟩ := Option.isSome_iff_exists.1 hk
    have hkc : keyChg k = τ.map fun t => (cls t.f, t.bar) := by simp only [keyChg, hτ, Option.getD_some]; rfl
    rw [hkc] at hl ⊢
    rw [hC k τ hτ ix (by simpa using hl)]
    unfold phaseMat
    rw [rot_diag _ _ _ _ (by simpa using hl), ← phT_phs φ cls, show phaseOf α β γ = fun f => φ (cls f) from
      funext fun f => by rw [hφd]; exact phaseOf_cls α β γ f]
  have hform : ∀ js : Ix, js.length = (formChg w).length →
      formVal C' (S.rephase φ) f js = phs φ (formChg w) js * formVal C S f js := by
    intro js hjs
    unfold formVal
    rw [← List.sum_map_mul_left]
    congr 1
    apply List.map_congr_left
    intro x hx
    rw [tn_ch φ hφ C C' S hC' _ _ (tens_fine _ hm x hx) js hjs, coefVal_rephase]
    ring
  unfold phaseMat
  rw [rot_diag _ _ _ _ hix, ← hφd]
  have hph : phT (fun f => phaseOf α β γ (parent f)) (wetTy w) ix =
      phs φ ((wetTy w).map fun t => (cls (parent t.f), t.bar)) ix := by
    rw [← phT_phs φ (fun f => cls (parent f))]
    simp only [phaseOf_cls, hφd]
  rw [hph]
  unfold loopVal
  by_cases hr : w ∈ rotated
  · have hf2 : formChg w = [(1, true), (1, false)] := if_pos hr
    rw [hf2] at hform
    have hty : (wetTy w).map (fun t => (cls (parent t.f), t.bar)) = [(0, true), (1, false)] := by
      exact (by decide : ∀ w ∈ rotated, (wetTy w).map (fun t => (cls (parent t.f), t.bar)) = [(0, true), (1, false)]) w hr
    have hl2 : (wetTy w).length = 2 := by
      have := congrArg List.length hty
      simpa using this
    rw [if_pos hr, if_pos hr, hty]
    match ix, hix.trans hl2 with
    | [i, j], _ =>
      simp only [matT, Finset.mul_sum]
      refine Finset.sum_congr rfl fun q _ => ?_
      rw [hform [q, j] rfl]
      simp only [matrixT, LEnv.rephase, phs, chPh, if_true, Bool.false_eq_true, if_false, mul_one]
      linear_combination ((starRingEnd ℂ) (φ 0 i) * S.V i q * φ 1 j * formVal C S f [q, j]) * hφ 1 q
  · rw [if_neg hr, if_neg hr]
    have hfc : formChg w = (wetTy w).map fun t => (cls (parent t.f), t.bar) := if_neg hr
    rw [← hfc]
    exact hform ix (by rw [hfc]; simpa using hix)

theorem diag_unitary (ψ : Fin 3 → ℂ) (h : Unit3 ψ) : Matrix.diagonal ψ ∈ Matrix.unitaryGroup (Fin 3) ℂ := by
  rw [Matrix.mem_unitaryGroup_iff, Matrix.star_eq_conjTranspose, Matrix.diagonal_conjTranspose, Matrix.diagonal_mul_diagonal,
    ← Matrix.diagonal_one]
  congr 1
  funext i
  exact h i

theorem mem_get {C : Dict Key Ten} {k : Key} (h : C.mem k = true) : C.get? k = some (cval C k) := by
  obtain ⟨A, hA⟩ := Option.isSome_iff_exists.1 (show (C.get? k).isSome = true from h)
  simp [cval, hA]

/-- **C89.** Covariance of the matching, at tree level and at one loop, under rephasing of the
fermion fields: multiply the left-handed quark doublets and the right-handed up-type quarks by
phases `α`, the right-handed down-type quarks by `β` and the leptons by `γ` (one phase per
generation; `V_ij → α_i* V_ij β_j`). The WET coefficients obtained from the rephased SMEFT coefficients
are the rephased WET coefficients. -/
theorem C89_rephasing (α β γ : Fin 3 → ℂ) (hα : Unit3 α) (hβ : Unit3 β) (hγ : Unit3 γ) (ckm ckm' : Ckm)
    (hV : ∀ a b c d i j, ckm' a b c d i j = (starRingEnd ℂ) (α i) * ckm a b c d i j * β j)
    (C C' : Dict Key Ten)
    (hC : ∀ k τ, smeftTy k = some τ → ∀ ix : Ix, ix.length = τ.length →
      val C' k ix = rot (phaseMat α β γ) τ (val C k) ix)
    (hkeys : ∀ k ∈ coeffKeys, C'.mem k = true) (p : Dict String ℝ) (scale : ℝ) (D : Dict WKey Ten)
    (h : matchArrays (loopRaw ckm) C p scale = .ok D) :
    ∃ D', matchArrays (loopRaw ckm') C' p scale = .ok D' ∧ ∀ k, ∃ B B', D.get? k = some B ∧ D'.get? k = some B' ∧
      ∀ ix : Ix, ix.length = (wetTy k).length →
        B' ix = rot (fun f => phaseMat α β γ (parent f)) (wetTy k) B ix := by
  have hU : ∀ f, phaseMat α β γ f ∈ Matrix.unitaryGroup (Fin 3) ℂ := by
    intro f
    unfold phaseMat
    cases f <;> first | exact diag_unitary _ hα | exact diag_unitary _ hβ | exact diag_unitary _ hγ
  have hdiag : ∀ k τ, smeftTy k = some τ → ∀ ix : Ix, ix.length = τ.length →
      val C' k ix = phT (phaseOf α β γ) τ ix * val C k ix := by
    intro k τ hτ ix hl
    rw [hC k τ hτ ix hl]
    exact rot_diag _ _ _ _ hl
  have e4 : ∀ a b : Fin 3, val C' .ll [a, b, b, a] = val C .ll [a, b, b, a] := by
    intro a b
    rw [hdiag .ll _ rfl _ rfl]
    simp only [phT, Flavour.Fl.b, Flavour.Fl.x, if_true, Bool.false_eq_true, if_false, phaseOf, mul_one]
    linear_combination (val C .ll [a, b, b, a] * (γ b * (starRingEnd ℂ) (γ b))) * hγ a + val C .ll [a, b, b, a] * hγ b
  have e2 : ∀ a : Fin 3, val C' .phil3 [a, a] = val C .phil3 [a, a] := by
    intro a
    rw [hdiag .phil3 _ rfl _ rfl]
    simp only [phT, Flavour.Fl.b, Flavour.Fl.x, if_true, Bool.false_eq_true, if_false, phaseOf, mul_one]
    linear_combination (val C .phil3 [a, a]) * hγ a
  have hz : ∀ k τ, smeftTy k = some τ → ∀ ix : Ix, ix.length = τ.length →
      val (zeroed C') k ix = rot (phaseMat α β γ) τ (val (zeroed C) k) ix := by
    intro k τ _ ix hl
    have h0 := rot_diag (phaseOf α β γ) τ (val (zeroed C) k) ix hl
    rw [val_zeroed C k ix, mul_zero] at h0
    rw [val_zeroed C']
    exact h0.symm
  have rot_add : ∀ (k : WKey) (A B : Ten) (ix : Ix), ix.length = (wetTy k).length →
      rot (fun f => phaseMat α β γ (parent f)) (wetTy k) (fun ix => A ix + B ix) ix =
      rot (fun f => phaseMat α β γ (parent f)) (wetTy k) A ix + rot (fun f => phaseMat α β γ (parent f)) (wetTy k) B ix := by
    intro k A B ix hl
    unfold phaseMat
    rw [rot_diag _ _ _ _ hl, rot_diag _ _ _ _ hl, rot_diag _ _ _ _ hl]
    ring
  refine arrays_rel h rfl
    (fun k B B' => ∀ ix : Ix, ix.length = (wetTy k).length →
        B' ix = rot (fun f => phaseMat α β γ (parent f)) (wetTy k) B ix) ?_ ?_ ?_
  · intro k A A' B B' hA hB ix hl
    rw [rot_add k A B ix hl, ← hA ix hl, ← hB ix hl]
  · intro T hT
    exact C72_covariance (phaseMat α β γ) hU C C' p T hC hkeys ⟨e4 1 0, e4 0 1⟩ ⟨e2 1, e2 0⟩ hT
  · intro L hL
    obtain ⟨S, S0, hS, hS0, hk, hF, hF0, rfl⟩ := loop_ok hL
    have hk' : ∀ k ∈ loopKeys, C'.mem k = true := fun k hm => hkeys k (loopKeys_coeff k hm)
    have hmT : ∀ k ∈ treeKeys, C'.mem k = true := fun k hm => hkeys k (by revert hm; revert k; decide)
    have hmC : ∀ k ∈ treeKeys, C.mem k = true := by
      obtain ⟨T, hT, -⟩ := arrays_ok h
      obtain ⟨_, _, _, _, hm, _⟩ := tree_ok hT
      exact hm
    have hzm : ∀ (C : Dict Key Ten), (∀ k ∈ treeKeys, C.mem k = true) →
        ∀ k ∈ treeKeys, (zeroed C).mem k = true := by
      intro C hm k hk
      rw [Dict.mem_iff, zeroed, Dict.keys_mapVal, ← Dict.mem_iff]
      exact hm k hk
    have henv : ∀ {C C' : Dict Key Ten} {S : LEnv}, scalars C' p = scalars C p → loopEnv ckm C p scale = .ok S →
        loopEnv ckm' C' p scale = .ok (S.rephase (phi α β γ)) := by
      intro C C' S hs hS
      obtain ⟨s, mu, md, me, al, g3, V, h1, h2, h3, h4, h5, h6, h7, rfl⟩ := env_ok hS
      have h7' : ckmOf ckm' p = .ok (fun i j => (starRingEnd ℂ) (α i) * V i j * β j) := by
        unfold ckmOf at h7 ⊢
        obtain ⟨a, f1, h7⟩ := ok_bind h7
        obtain ⟨b, f2, h7⟩ := ok_bind h7
        obtain ⟨c, f3, h7⟩ := ok_bind h7
        obtain ⟨d, f4, h7⟩ := ok_bind h7
        rw [f1, f2, f3, f4]
        show Except.ok (ckm' a b c d) = _
        congr 1
        funext i j
        rw [hV, Except.ok.inj h7]
      exact env_of (hs.trans h1) h2 h3 h4 h5 h6 h7'
    have hs : scalars C' p = scalars C p :=
      scalars_congr p hmC hmT (e4 1 0) (e4 0 1) (e2 1) (e2 0) (hC .phiWB [] rfl [] rfl) (hC .phiD [] rfl [] rfl)
    have hs0 : scalars (zeroed C') p = scalars (zeroed C) p := by
      rw [scalars_congr p (hzm C hmC) (hzm C' hmT)] <;> simp only [val_zeroed]
    refine ⟨_, loop_of (henv hs hS) (henv hs0 hS0) hk' hF hF0, fun k => ?_⟩
    obtain ⟨f, hf⟩ := exists_form k
    refine ⟨_, _, get?_lprog (fun w f => ldiff C S S0 w f) k f hf,
      get?_lprog (fun w f => ldiff C' (S.rephase (phi α β γ)) (S0.rephase (phi α β γ)) w f) k f hf, fun ix hl => ?_⟩
    have a1 := loopVal_ch α β γ hα hβ hγ (cval C) (cval C') S hC hf ix hl
    have a2 := loopVal_ch α β γ hα hβ hγ (cval (zeroed C)) (cval (zeroed C')) S0 hz hf ix hl
    unfold phaseMat at a1 a2 ⊢
    rw [rot_diag _ _ _ _ hl] at a1 a2 ⊢
    unfold ldiff
    rw [a1, a2]
    ring

/-! ### Conserved numbers -/

/-- the number of fields minus the number of conjugate fields in an operator, for the fields with
`χ f i` (`i` the generation) -/
def number {F : Type} (χ : F → Fin 3 → Bool) : List (Ty F) → Ix → ℤ
  | t :: τ, i :: is => (if χ t.f i then (if t.bar then -1 else 1) else 0) + number χ τ is
  | _, _ => 0

/-- the leptons of generation `g` -/
def leptonFamily (g : Fin 3) (f : Fl) (i : Fin 3) : Bool := decide ((f = .l ∨ f = .e) ∧ i = g)

/-- the quarks -/
def quark (f : Fl) (_ : Fin 3) : Bool := decide (f = .q ∨ f = .u ∨ f = .d)

theorem number_le {F : Type} (χ : F → Fin 3 → Bool) (τ : List (Ty F)) (ix : Ix) :
    |number χ τ ix| ≤ τ.length := by
  induction τ generalizing ix with
  | nil => simp [number]
  | cons t τ ih =>
    cases ix with
    | nil => simp [number]; positivity
    | cons i is =>
      simp only [number, List.length_cons, Nat.cast_add, Nat.cast_one]
      have h1 : |(if χ t.f i then (if t.bar then (-1 : ℤ) else 1) else 0)| ≤ 1 := by split <;> (try split) <;> simp
      have := abs_add_le (if χ t.f i then (if t.bar then (-1 : ℤ) else 1) else 0) (number χ τ is)
      linarith [ih is]

theorem conj_zeta (ζ : ℂ) (h : ζ * (starRingEnd ℂ) ζ = 1) : (starRingEnd ℂ) ζ = ζ⁻¹ := by
  have h0 : ζ ≠ 0 := by rintro rfl; simp at h
  field_simp
  linear_combination h

theorem phT_number {F : Type} (χ : F → Fin 3 → Bool) (ζ : ℂ) (h : ζ * (starRingEnd ℂ) ζ = 1) (τ : List (Ty F)) (ix : Ix) :
    phT (fun f i => if χ f i then ζ else 1) τ ix = ζ ^ number χ τ ix := by
  have h0 : ζ ≠ 0 := by rintro rfl; simp at h
  induction τ generalizing ix with
  | nil => simp [phT, number]
  | cons t τ ih =>
    cases ix with
    | nil => simp [phT, number]
    | cons i is =>
      simp only [phT, number, ih, zpow_add₀ h0]
      congr 1
      split <;> split <;> simp [conj_zeta ζ h]

theorem wet_len (w : WKey) : (wetTy w).length ≤ 4 := by cases w <;> decide

/-- a conserved number: the fields with `χ` are multiplied by one phase -/
theorem conserved (χ : Fl → Fin 3 → Bool) (α β γ : Fin 3 → Bool)
    (hχ : ∀ f i, χ f i = match f with | .q | .u => α i | .d => β i | .l | .e => γ i)
    (hV : ∀ i j, α i = β j) (ckm : Ckm) (C : Dict Key Ten)
    (hC : ∀ k τ, smeftTy k = some τ → ∀ ix : Ix, ix.length = τ.length → number χ τ ix ≠ 0 → val C k ix = 0)
    (hkeys : ∀ k ∈ coeffKeys, C.mem k = true) (p : Dict String ℝ) (scale : ℝ) (D : Dict WKey Ten)
    (h : matchArrays (loopRaw ckm) C p scale = .ok D) (k : WKey) :
    ∃ B, D.get? k = some B ∧ ∀ ix : Ix, ix.length = (wetTy k).length →
      number (fun f => χ (parent f)) (wetTy k) ix ≠ 0 → B ix = 0 := by
  obtain ⟨ζ, hprim⟩ : ∃ ζ : ℂ, IsPrimitiveRoot ζ 5 := ⟨_, Complex.isPrimitiveRoot_exp 5 (by norm_num)⟩
  have hζ : ζ * (starRingEnd ℂ) ζ = 1 := by
    have hn : ‖ζ‖ = 1 := Complex.norm_eq_one_of_pow_eq_one hprim.pow_eq_one (by norm_num)
    rw [Complex.mul_conj, Complex.normSq_eq_norm_sq, hn]
    norm_num
  obtain ⟨z, hz⟩ : ∃ z : (Fin 3 → Bool) → Fin 3 → ℂ, z = fun a i => if a i then ζ else 1 := ⟨_, rfl⟩
  have hu : ∀ a, Unit3 (z a) := by
    intro a i
    rw [hz]
    simp only
    split
    · exact hζ
    · simp
  have hph : ∀ f i, phaseOf (z α) (z β) (z γ) f i = if χ f i then ζ else 1 := by
    intro f i
    rw [hχ]
    cases f <;> simp [phaseOf, hz]
  have hph' : phaseOf (z α) (z β) (z γ) = fun f i => if χ f i then ζ else 1 := funext fun f => funext fun i => hph f i
  obtain ⟨D', hD', hR⟩ := C89_rephasing (z α) (z β) (z γ) (hu α) (hu β) (hu γ) ckm ckm (by
    intro a b c d i j
    have e : z α i = z β j := by rw [hz]; simp only [hV i j]
    have := hu β j
    rw [e]
    linear_combination -(ckm a b c d i j) * this) C C (by
    intro k τ hτ ix hl
    unfold phaseMat
    rw [rot_diag _ _ _ _ hl, hph', phT_number χ ζ hζ]
    by_cases h0 : number χ τ ix = 0
    · rw [h0]; simp
    · rw [hC k τ hτ ix hl h0]; simp) hkeys p scale D h
  rw [h] at hD'
  obtain rfl := Except.ok.inj hD'
  obtain ⟨B, B', h1, h2, h3⟩ := hR k
  obtain rfl := Option.some.inj (h1.symm.trans h2)
  refine ⟨B, h1, fun ix hl hne => ?_⟩
  have e := h3 ix hl
  unfold phaseMat at e
  rw [rot_diag _ _ _ _ hl, hph', phT_number (fun f => χ (parent f)) ζ hζ] at e
  by_contra hB
  have h4 : ζ ^ number (fun f => χ (parent f)) (wetTy k) ix = 1 := by
    have : (ζ ^ number (fun f => χ (parent f)) (wetTy k) ix - 1) * B ix = 0 := by linear_combination -e
    rcases mul_eq_zero.1 this with h | h
    · linear_combination h
    · exact absurd h hB
  have h5 := (hprim.zpow_eq_one_iff_dvd _).1 h4
  have h6 : |number (fun f => χ (parent f)) (wetTy k) ix| ≤ 4 :=
    (number_le (fun f => χ (parent f)) (wetTy k) ix).trans (by exact_mod_cast wet_len k)
  obtain ⟨m, hm⟩ := h5
  rw [abs_le] at h6
  apply hne
  have : m = 0 := by
    have h7 : (5 : ℤ) * m = number (fun f => χ (parent f)) (wetTy k) ix := by rw [hm]; rfl
    omega
  rw [hm, this, mul_zero]

/-- **C89, lepton family numbers.** If the SMEFT coefficients conserve the number of leptons of
generation `g`, so do the WET coefficients obtained by matching at tree level or at one loop. -/
theorem C89_lepton_family (g : Fin 3) (ckm : Ckm) (C : Dict Key Ten)
    (hC : ∀ k τ, smeftTy k = some τ → ∀ ix : Ix, ix.length = τ.length → number (leptonFamily g) τ ix ≠ 0 → val C k ix = 0)
    (hkeys : ∀ k ∈ coeffKeys, C.mem k = true) (p : Dict String ℝ) (scale : ℝ) (D : Dict WKey Ten)
    (h : matchArrays (loopRaw ckm) C p scale = .ok D) (k : WKey) :
    ∃ B, D.get? k = some B ∧ ∀ ix : Ix, ix.length = (wetTy k).length →
      number (fun f => leptonFamily g (parent f)) (wetTy k) ix ≠ 0 → B ix = 0 :=
  conserved (leptonFamily g) (fun _ => false) (fun _ => false) (fun i => decide (i = g))
    (fun f i => by cases f <;> simp [leptonFamily]) (fun _ _ => rfl) ckm C hC hkeys p scale D h k

/-- the number of fields of given kinds in an operator -/
def total {F : Type} (q : F → Bool) (τ : List (Ty F)) : ℤ :=
  (τ.map fun t => if q t.f then (if t.bar then (-1 : ℤ) else 1) else 0).sum

theorem number_total {F : Type} (q : F → Bool) (τ : List (Ty F)) (ix : Ix) (hl : ix.length = τ.length) :
    number (fun f _ => q f) τ ix = total q τ := by
  induction τ generalizing ix with
  | nil => simp [number, total]
  | cons t τ ih =>
    cases ix with
    | nil => simp at hl
    | cons i is =>
      have := ih is (by simpa using hl)
      simp only [total] at this
      simp only [number, total, List.map_cons, List.sum_cons, this]

theorem bnv_number (k : WKey) (hk : k ∈ bnvWET) (ix : Ix) (hl : ix.length = (wetTy k).length) :
    number (fun f => quark (parent f)) (wetTy k) ix ≠ 0 := by
  have h := number_total (fun f => quark (parent f) 0) (wetTy k) ix hl
  have e : (fun (f : WFl) (_ : Fin 3) => quark (parent f) 0) = fun f => quark (parent f) := rfl
  rw [e] at h
  rw [h]
  exact (by decide : ∀ k ∈ bnvWET, total (fun f => quark (parent f) 0) (wetTy k) ≠ 0) k hk

theorem bnc_number (k : Key) (τ : List (Ty Fl)) (hτ : smeftTy k = some τ) (ix : Ix) (hl : ix.length = τ.length)
    (hne : number quark τ ix ≠ 0) : k ∈ bnvSMEFT := by
  by_contra hk
  apply hne
  have h := number_total (fun f => quark f 0) τ ix hl
  have e : (fun (f : Fl) (_ : Fin 3) => quark f 0) = quark := rfl
  rw [e] at h
  rw [h, show τ = (smeftTy k).getD [] by rw [hτ]; rfl]
  exact (by decide +kernel : ∀ k ∈ keys, k ∉ bnvSMEFT → total (fun f => quark f 0) ((smeftTy k).getD []) = 0) k
    (mem_keys_of_smeft hτ) hk

/-- **C89, baryon number.** If the baryon-number violating SMEFT coefficients vanish, so do the
baryon-number violating WET coefficients obtained by matching at tree level or at one loop. -/
theorem C89_baryon (ckm : Ckm) (C : Dict Key Ten) (hC : ∀ k ∈ bnvSMEFT, ∀ ix, val C k ix = 0)
    (hkeys : ∀ k ∈ coeffKeys, C.mem k = true) (p : Dict String ℝ) (scale : ℝ) (D : Dict WKey Ten)
    (h : matchArrays (loopRaw ckm) C p scale = .ok D) (k : WKey) (hk : k ∈ bnvWET) :
    ∃ B, D.get? k = some B ∧ ∀ ix : Ix, ix.length = (wetTy k).length → B ix = 0 := by
  obtain ⟨B, h1, h2⟩ := conserved quark (fun _ => true) (fun _ => true) (fun _ => false)
    (fun f i => by cases f <;> simp [quark]) (fun _ _ => rfl) ckm C
    (fun k τ hτ ix hl hne => hC k (bnc_number k τ hτ ix hl hne) ix) hkeys p scale D h k
  exact ⟨B, h1, fun ix hl => h2 ix hl (bnv_number k hk ix hl)⟩

/-- the hypotheses are met, for all generations, by the coefficients used for C87 -/
example (ckm : Ckm) : ∃ p, p.get? "loop_order" = some 1 ∧ (∃ D, matchArrays (loopRaw ckm) exC p 160 = .ok D) ∧
    (∀ k ∈ coeffKeys, exC.mem k = true) ∧ (∀ k ∈ bnvSMEFT, ∀ ix, val exC k ix = 0) ∧
    ∀ g k τ, smeftTy k = some τ → ∀ ix : Ix, ix.length = τ.length → number (leptonFamily g) τ ix ≠ 0 → val exC k ix = 0 := by
  have hm : ∀ k ∈ coeffKeys, exC.mem k = true := by
    intro k hk
    rw [Dict.mem_iff]
    simpa [Dict.keys, exC, Function.comp_def] using hk
  have hv : ∀ k ix, k ≠ .phiq1 → k ≠ .uG → val exC k ix = 0 := by
    intro k ix h1 h2
    unfold val
    cases h : exC.get? k with
    | none => rfl
    | some A =>
      obtain ⟨k', hk', e⟩ := List.mem_map.1 (Dict.mem_of_get? h)
      have e1 : k' = k := (Prod.ext_iff.1 e).1
      rw [exC_get k (e1 ▸ hk')] at h
      obtain rfl := Option.some.inj h
      simp [h1, h2]
  refine ⟨_, rfl, C87_succeeds ckm exC hm ?_ _ (physical_ex ckm) 160 (by norm_num), hm, ?_, ?_⟩
  · intro k hk
    rw [exC_get k (by revert hk; revert k; decide)]
    simp only [List.mem_cons, List.not_mem_nil, or_false] at hk
    rcases hk with rfl | rfl | rfl | rfl <;> simp
  · intro k hk ix
    exact hv k ix (by rintro rfl; revert hk; decide) (by rintro rfl; revert hk; decide)
  · intro g k τ hτ ix hl hne
    refine hv k ix ?_ ?_ <;> rintro rfl <;> apply hne <;> simp only [smeftTy, Option.some.injEq] at hτ <;> subst hτ
    · match ix, hl with
      | [a, b], _ => simp [number, leptonFamily, Fl.b, Fl.x]
    · match ix, hl with
      | [a, b], _ => simp [number, leptonFamily, Fl.b, Fl.x]

end Verif.Loop
