import Verif.Spec.Qcd
import Mathlib.Tactic.Linarith
import Mathlib.Tactic.NormNum
import Mathlib.Tactic.Positivity

/-!
# C61: the strong coupling and mass helpers choose the right thresholds
-/

open Classical

set_option autoImplicit false

namespace Verif.Qcd

private theorem sane_ok {scale : ℝ} {f : ℕ} (h : 0 < scale) (h3 : 3 ≤ f) (h6 : f ≤ 6) :
    sane scale f = .ok () := by
  unfold sane
  rw [if_neg (not_le.mpr h), if_neg (by simp [h3, h6])]

private theorem sane_error {scale : ℝ} {f : ℕ} (h : scale ≤ 0 ∨ f < 3 ∨ 6 < f) :
    sane scale f = .error .valueError := by
  unfold sane
  by_cases h0 : scale ≤ 0
  · rw [if_pos h0]
  · rw [if_neg h0, if_pos]
    rcases h with h | h | h
    · exact absurd h h0
    · omega
    · omega

private theorem thr4 : (⟨1.3, 1.3, 4⟩ : Thr) = ⟨threshold (3 + 1), threshold (3 + 1), 3 + 1⟩ := rfl
private theorem thr5 : (⟨4.8, 4.8, 5⟩ : Thr) = ⟨threshold (4 + 1), threshold (4 + 1), 4 + 1⟩ := rfl
private theorem thr6 : (⟨170, 170, 6⟩ : Thr) = ⟨threshold (5 + 1), threshold (5 + 1), 5 + 1⟩ := rfl

/-! ## Input values and rejected arguments -/

/-- C61: at the input point (`M_Z` with five flavours; `m_b(m_b)` with five; `m_c(m_c)`; 2 GeV with
three flavours) each helper returns its input. -/
theorem C61_input_point (R : RunDec) (x a : ℝ) (loop : ℕ) :
    alphaS R MZ 5 a loop = .ok a ∧ mB R x x 5 a loop = .ok x ∧
    (∀ f, mC R x x f a loop = .ok x) ∧ mS R x 2 3 a loop = .ok x := by
  simp [alphaS, mB, mC, mS]

/-- C61: away from the input points a non-positive scale or a flavour number outside 3..6 raises
ValueError, whatever RunDec does. -/
theorem C61_rejects (R : RunDec) (x scale a : ℝ) (f loop : ℕ)
    (h : scale ≤ 0 ∨ f < 3 ∨ 6 < f) :
    (¬(scale = MZ ∧ f = 5) → alphaS R scale f a loop = .error .valueError) ∧
    (¬(scale = x ∧ f = 5) → mB R x scale f a loop = .error .valueError) ∧
    (scale ≠ x → mC R x scale f a loop = .error .valueError) ∧
    (¬(scale = 2 ∧ f = 3) → mS R x scale f a loop = .error .valueError) := by
  refine ⟨fun h' => ?_, fun h' => ?_, fun h' => ?_, fun h' => ?_⟩
  · rw [alphaS, if_neg h', sane_error h]; rfl
  · rw [mB, if_neg h', sane_error h]; rfl
  · rw [mC, if_neg h', sane_error h]; rfl
  · rw [mS, if_neg h', sane_error h]; rfl

/-- C61: there is no six-flavour charm, strange, up or down mass: ValueError, or the error of
the coupling at the input scale. -/
theorem C61_six_flavours (R : RunDec) (x scale a : ℝ) (loop : ℕ) (hx : scale ≠ x) :
    (∃ e, mC R x scale 6 a loop = .error e) ∧ (∃ e, mS R x scale 6 a loop = .error e) := by
  constructor
  · rw [mC, if_neg hx]
    cases hs : sane scale 6 with
    | error e => exact ⟨e, rfl⟩
    | ok u =>
      cases ha : alphaS R x 4 a loop with
      | error e => exact ⟨e, rfl⟩
      | ok v => exact ⟨.valueError, rfl⟩
  · rw [mS, if_neg (by simp)]
    cases hs : sane scale 6 with
    | error e => exact ⟨e, rfl⟩
    | ok u =>
      cases ha : alphaS R 2 3 a loop with
      | error e => exact ⟨e, rfl⟩
      | ok v => exact ⟨.valueError, rfl⟩

/-- C61: a vanishing coupling returned by RunDec is never passed on. -/
theorem C61_never_zero (R : RunDec) (scale a : ℝ) (f loop : ℕ) (r : ℝ)
    (h : alphaS R scale f a loop = .ok r) (hin : ¬(scale = MZ ∧ f = 5)) : r ≠ 0 := by
  rw [alphaS, if_neg hin] at h
  intro h0
  subst h0
  cases hs : sane scale f with
  | error e => rw [hs] at h; exact absurd h (by simp [bind, Except.bind])
  | ok u =>
    rw [hs] at h
    dsimp only [bind, Except.bind, pure, Except.pure] at h
    split_ifs at h <;> simp_all

/-! ## Thresholds -/

/-- C61: for every family of couplings that RunDec advances, `alpha_s` returns the coupling of the
theory with the requested number of flavours at the requested scale; the input is the
five-flavour coupling at `M_Z`. -/
theorem C61_coupling (R : RunDec) (loop : ℕ) (A : ℕ → ℝ → ℝ) (hA : RunsCoupling R loop A)
    (scale : ℝ) (f : ℕ) (hs : 0 < scale) (h3 : 3 ≤ f) (h6 : f ≤ 6) (h0 : A f scale ≠ 0) :
    alphaS R scale f (A 5 MZ) loop = .ok (A f scale) := by
  by_cases hin : scale = MZ ∧ f = 5
  · rw [alphaS, if_pos hin, hin.1, hin.2]
  · rw [alphaS, if_neg hin, sane_ok hs h3 h6]
    obtain rfl | rfl | rfl | rfl : f = 3 ∨ f = 4 ∨ f = 5 ∨ f = 6 := by omega
    · simp only [thr4, thr5, hA.down 4 MZ, hA.down 3, bind, Except.bind, pure, Except.pure,
        show ¬((3 : ℕ) = 5) by decide, show ¬((3 : ℕ) = 6) by decide,
        show ¬((3 : ℕ) = 4) by decide, if_false, if_true, if_neg h0]
    · simp only [thr5, hA.down 4 MZ, bind, Except.bind, pure, Except.pure,
        show ¬((4 : ℕ) = 5) by decide, show ¬((4 : ℕ) = 6) by decide, if_false, if_true, if_neg h0]
    · simp only [hA.exact 5 MZ, bind, Except.bind, pure, Except.pure, if_true, if_neg h0]
    · simp only [thr6, hA.up 5 MZ, bind, Except.bind, pure, Except.pure,
        show ¬((6 : ℕ) = 5) by decide, if_false, if_true, if_neg h0]

/-- C61: `m_b` returns the mass of the theory with the requested number of flavours; its input is
the five-flavour mass at `m_b(m_b)`. -/
theorem C61_bottom (R : RunDec) (loop : ℕ) (A m : ℕ → ℝ → ℝ) (hA : RunsCoupling R loop A)
    (hm : RunsMass R loop A m) (mb scale : ℝ) (f : ℕ) (hmb : m 5 mb = mb) (hb : 0 < mb)
    (hs : 0 < scale) (h3 : 3 ≤ f) (h6 : f ≤ 6) (h0 : ∀ nf μ, A nf μ ≠ 0) :
    mB R mb scale f (A 5 MZ) loop = .ok (m f scale) := by
  by_cases hin : scale = mb ∧ f = 5
  · rw [mB, if_pos hin, hin.1, hin.2, hmb]
  · rw [mB, if_neg hin, sane_ok hs h3 h6]
    simp only [C61_coupling R loop A hA mb 5 hb (by decide) (by decide) (h0 _ _),
      C61_coupling R loop A hA scale f hs h3 h6 (h0 _ _),
      C61_coupling R loop A hA 1.3 4 (by norm_num) (by decide) (by decide) (h0 _ _),
      bind, Except.bind, pure, Except.pure]
    obtain rfl | rfl | rfl | rfl : f = 3 ∨ f = 4 ∨ f = 5 ∨ f = 6 := by omega
    · have h1 := hm.down 4 mb 1.3
      have h2 := hm.down 3 1.3 scale
      rw [show 4 + 1 = 5 from rfl, hmb] at h1
      simp only [thr4, thr5, show ¬((3 : ℕ) = 5) by decide, show ¬((3 : ℕ) = 4) by decide,
        if_false, if_true]
      rw [show (4 + 1 : ℕ) = 5 from rfl, h1, h2]
    · have h1 := hm.down 4 mb scale
      rw [show 4 + 1 = 5 from rfl, hmb] at h1
      simp only [thr5, show ¬((4 : ℕ) = 5) by decide, if_false, if_true]
      rw [show (4 + 1 : ℕ) = 5 from rfl, h1]
    · have h1 := hm.exact 5 mb scale
      rw [hmb] at h1
      simp only [if_true]
      rw [h1]
    · have h1 := hm.up 5 mb scale
      rw [hmb] at h1
      simp only [thr6, show ¬((6 : ℕ) = 5) by decide, show ¬((6 : ℕ) = 4) by decide,
        show ¬((6 : ℕ) = 3) by decide, if_false, if_true]
      rw [h1]

/-- C61: `m_c` returns the mass of the theory with three, four or five flavours; its input is the
four-flavour mass at `m_c(m_c)`.  At the scale `m_c(m_c)` itself the input is returned for every
flavour number, so there the claim is for four flavours. -/
theorem C61_charm (R : RunDec) (loop : ℕ) (A m : ℕ → ℝ → ℝ) (hA : RunsCoupling R loop A)
    (hm : RunsMass R loop A m) (mc scale : ℝ) (f : ℕ) (hmc : m 4 mc = mc) (hc : 0 < mc)
    (hs : 0 < scale) (h3 : 3 ≤ f) (h5 : f ≤ 5) (h0 : ∀ nf μ, A nf μ ≠ 0)
    (hne : scale = mc → f = 4) :
    mC R mc scale f (A 5 MZ) loop = .ok (m f scale) := by
  by_cases hin : scale = mc
  · rw [mC, if_pos hin, hin, hne hin, hmc]
  · rw [mC, if_neg hin, sane_ok hs h3 (by omega)]
    simp only [C61_coupling R loop A hA mc 4 hc (by decide) (by decide) (h0 _ _),
      C61_coupling R loop A hA scale f hs h3 (by omega) (h0 _ _),
      bind, Except.bind, pure, Except.pure]
    obtain rfl | rfl | rfl : f = 3 ∨ f = 4 ∨ f = 5 := by omega
    · have h1 := hm.down 3 mc scale
      rw [show 3 + 1 = 4 from rfl, hmc] at h1
      simp only [thr4, show ¬((3 : ℕ) = 4) by decide, if_false, if_true]
      rw [show (3 + 1 : ℕ) = 4 from rfl, h1]
    · have h1 := hm.exact 4 mc scale
      rw [hmc] at h1
      simp only [if_true]
      rw [h1]
    · have h1 := hm.up 4 mc scale
      rw [hmc] at h1
      simp only [thr5, show ¬((5 : ℕ) = 4) by decide, show ¬((5 : ℕ) = 3) by decide,
        if_false, if_true]
      rw [h1]

/-- C61 (violation): at the scale `m_c(m_c)` the charm mass is the four-flavour input for every
requested number of flavours (even one outside 3..6), so for any family in which decoupling
changes the mass the value returned is not the mass of the requested theory. -/
theorem C61_charm_violation (R : RunDec) (loop : ℕ) (m : ℕ → ℝ → ℝ) (mc a : ℝ) (f : ℕ)
    (hmc : m 4 mc = mc) (hdec : m f mc ≠ m 4 mc) :
    mC R mc mc f a loop = .ok mc ∧ mC R mc mc f a loop ≠ .ok (m f mc) := by
  have h : mC R mc mc f a loop = .ok mc := by simp [mC]
  refine ⟨h, ?_⟩
  rw [h]
  intro h2
  injection h2 with h2
  exact hdec (by rw [← h2, hmc])

/-- C61: `m_s` (used for the strange, up and down masses) returns the mass of the theory with three,
four or five flavours; its input is the three-flavour mass at 2 GeV. -/
theorem C61_light (R : RunDec) (loop : ℕ) (A m : ℕ → ℝ → ℝ) (hA : RunsCoupling R loop A)
    (hm : RunsMass R loop A m) (scale : ℝ) (f : ℕ) (hs : 0 < scale) (h3 : 3 ≤ f) (h5 : f ≤ 5)
    (h0 : ∀ nf μ, A nf μ ≠ 0) :
    mS R (m 3 2) scale f (A 5 MZ) loop = .ok (m f scale) := by
  by_cases hin : scale = 2 ∧ f = 3
  · rw [mS, if_pos hin, hin.1, hin.2]
  · rw [mS, if_neg hin, sane_ok hs h3 (by omega)]
    simp only [C61_coupling R loop A hA 2 3 (by norm_num) (by decide) (by decide) (h0 _ _),
      C61_coupling R loop A hA scale f hs h3 (by omega) (h0 _ _),
      C61_coupling R loop A hA 1.3 4 (by norm_num) (by decide) (by decide) (h0 _ _),
      bind, Except.bind, pure, Except.pure]
    obtain rfl | rfl | rfl : f = 3 ∨ f = 4 ∨ f = 5 := by omega
    · simp only [if_true]
      rw [hm.exact]
    · simp only [thr4, show ¬((4 : ℕ) = 3) by decide, if_false, if_true]
      rw [hm.up]
    · simp only [thr4, thr5, show ¬((5 : ℕ) = 3) by decide, show ¬((5 : ℕ) = 4) by decide,
        if_false, if_true]
      rw [hm.up 3 2, hm.up]

/-! ## The hypotheses can be met -/

/-- the coupling family of the example -/
noncomputable def exampleCoupling (nf : ℕ) (μ : ℝ) : ℝ := (nf + 1) / (1 + μ ^ 2)

/-- the mass family of the example; the five-flavour mass at 4 is 4 -/
noncomputable def exampleMass (nf : ℕ) (μ : ℝ) : ℝ := 34 / 3 * exampleCoupling nf μ

/-- A RunDec that advances the two families. -/
noncomputable def exampleRunDec : RunDec where
  alphasExact := fun _ _ μ nf _ => exampleCoupling nf μ
  alL2AlH := fun _ _ t μ _ => exampleCoupling t.nf μ
  alH2AlL := fun _ _ t μ _ => exampleCoupling (t.nf - 1) μ
  mMS2mMS := fun m a₁ a₂ _ _ => m / a₁ * a₂
  mH2mL := fun _ _ _ t μ _ => exampleMass (t.nf - 1) μ
  mL2mH := fun _ _ _ t μ _ => exampleMass t.nf μ

theorem exampleCoupling_ne (nf : ℕ) (μ : ℝ) : exampleCoupling nf μ ≠ 0 := by
  have h1 : (0 : ℝ) < 1 + μ ^ 2 := by positivity
  have h2 : (0 : ℝ) < nf + 1 := by positivity
  exact (div_pos h2 h1).ne'

theorem example_runsCoupling (loop : ℕ) : RunsCoupling exampleRunDec loop exampleCoupling := by
  constructor <;> intros <;> simp [exampleRunDec]

theorem example_runsMass (loop : ℕ) :
    RunsMass exampleRunDec loop exampleCoupling exampleMass := by
  constructor
  · intro nf μ₁ μ₂
    have h := exampleCoupling_ne nf μ₁
    simp only [exampleRunDec, exampleMass]
    rw [mul_div_assoc, div_self h, mul_one]
  · intros; simp [exampleRunDec]
  · intros; simp [exampleRunDec]

example (loop : ℕ) :
    alphaS exampleRunDec 2 3 (exampleCoupling 5 MZ) loop = .ok (exampleCoupling 3 2) :=
  C61_coupling exampleRunDec loop exampleCoupling (example_runsCoupling loop) 2 3 (by norm_num)
    (by decide) (by decide) (exampleCoupling_ne _ _)

example (loop : ℕ) :
    mB exampleRunDec 4 2 3 (exampleCoupling 5 MZ) loop = .ok (exampleMass 3 2) :=
  C61_bottom exampleRunDec loop _ _ (example_runsCoupling loop) (example_runsMass loop) 4 2 3
    (by norm_num [exampleMass, exampleCoupling]) (by norm_num) (by norm_num) (by decide)
    (by decide) exampleCoupling_ne

/-- decoupling changes the example masses, as the violation theorem requires -/
example : exampleMass 3 1 ≠ exampleMass 4 1 := by norm_num [exampleMass, exampleCoupling]

end Verif.Qcd
