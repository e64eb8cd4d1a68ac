import Verif.Model.Qcd

/-!
# Specification of the running coupling and masses (C61)

A *family* `A nf μ` gives the strong coupling of the theory with `nf` flavours at scale `μ`.
RunDec advances the family if its functions run at fixed `nf`, and cross the threshold to the
neighbouring theory, along the family.  The heavy-quark thresholds documented in qcd.py are
1.3 (3 to 4 flavours), 4.8 (4 to 5) and 170 GeV (5 to 6).
-/

set_option autoImplicit false

namespace Verif.Qcd

/-- threshold below which the theory has one flavour less than `nf` -/
noncomputable def threshold : ℕ → ℝ
  | 4 => 1.3
  | 5 => 4.8
  | 6 => 170
  | _ => 0

/-- RunDec's coupling functions advance the family `A`. -/
structure RunsCoupling (R : RunDec) (loop : ℕ) (A : ℕ → ℝ → ℝ) : Prop where
  /-- running with a fixed number of flavours -/
  exact : ∀ nf μ₁ μ₂, R.alphasExact (A nf μ₁) μ₁ μ₂ nf loop = A nf μ₂
  /-- decoupling a heavy quark at its threshold -/
  down : ∀ nf μ₁ μ₂,
    R.alH2AlL (A (nf + 1) μ₁) μ₁ ⟨threshold (nf + 1), threshold (nf + 1), nf + 1⟩ μ₂ loop = A nf μ₂
  /-- the inverse step -/
  up : ∀ nf μ₁ μ₂,
    R.alL2AlH (A nf μ₁) μ₁ ⟨threshold (nf + 1), threshold (nf + 1), nf + 1⟩ μ₂ loop = A (nf + 1) μ₂

/-- RunDec's mass functions advance the mass family `m` together with the coupling family. -/
structure RunsMass (R : RunDec) (loop : ℕ) (A m : ℕ → ℝ → ℝ) : Prop where
  exact : ∀ nf μ₁ μ₂, R.mMS2mMS (m nf μ₁) (A nf μ₁) (A nf μ₂) nf loop = m nf μ₂
  down : ∀ nf μ₁ μ₂,
    R.mH2mL (m (nf + 1) μ₁) (A (nf + 1) μ₁) μ₁
      ⟨threshold (nf + 1), threshold (nf + 1), nf + 1⟩ μ₂ loop = m nf μ₂
  up : ∀ nf μ₁ μ₂,
    R.mL2mH (m nf μ₁) (A nf μ₁) μ₁
      ⟨threshold (nf + 1), threshold (nf + 1), nf + 1⟩ μ₂ loop = m (nf + 1) μ₂

end Verif.Qcd
