import Mathlib.LinearAlgebra.Matrix.Notation
import Mathlib.Data.Matrix.Mul
import Mathlib.Data.Real.Basic

/-!
# Specification: the neutral electroweak gauge bosons with dimension-6 corrections (C85)

The fields are `(W₃, B)`.  `C_φWB` mixes their kinetic terms,

  L = -1/4 (W₃ B) K (W₃ B)ᵀ,  K = [[1, ε], [ε, 1]],  ε = v² C_φWB,

and the vacuum expectation value gives mass to `g₂ W₃ - g₁ B`, with a factor `ρ = 1 + v² C_φD/2`,

  L = 1/2 (v²ρ/4) (g₂ W₃ - g₁ B)².

A mass eigenstate `V` is a vector `f` with `(W₃, B) = f V`, normalised by `f·K f = 1`; its coupling
to a fermion of isospin `T₃` and charge `Q` is `g₂ T₃ f₀ + g₁ (Q - T₃) f₁`.
-/

set_option autoImplicit false

namespace Verif.Ew
open Matrix

/-- kinetic matrix -/
def kin (ε : ℝ) : Matrix (Fin 2) (Fin 2) ℝ := !![1, ε; ε, 1]

/-- mass matrix -/
noncomputable def mass (v ρ g1 g2 : ℝ) : Matrix (Fin 2) (Fin 2) ℝ :=
  (v ^ 2 * ρ / 4) • !![g2 ^ 2, -(g1 * g2); -(g1 * g2), g1 ^ 2]

/-- coupling of a fermion -/
def coupling (g1 g2 : ℝ) (f : Fin 2 → ℝ) (T3 Q : ℝ) : ℝ := g2 * T3 * f 0 + g1 * (Q - T3) * f 1

/-- a normalised mass eigenstate with squared mass `m2` -/
structure IsMassState (K M : Matrix (Fin 2) (Fin 2) ℝ) (m2 : ℝ) (f : Fin 2 → ℝ) : Prop where
  eig : M *ᵥ f = m2 • K *ᵥ f
  norm : f ⬝ᵥ K *ᵥ f = 1

/-- the electric charge is `e` -/
def ElectricCharge (v ρ ε g1 g2 e : ℝ) : Prop :=
  ∃ f, IsMassState (kin ε) (mass v ρ g1 g2) 0 f ∧ ∀ T3 Q, coupling g1 g2 f T3 Q = e * Q

/-- the Z boson has squared mass `m2` and coupling `g_Z (T₃ - s2 Q)` with `g_Z² = gZ2` -/
def ZBoson (v ρ ε g1 g2 m2 gZ2 s2 : ℝ) : Prop :=
  m2 ≠ 0 ∧ ∃ f gZ, IsMassState (kin ε) (mass v ρ g1 g2) m2 f ∧ gZ ^ 2 = gZ2 ∧
    ∀ T3 Q, coupling g1 g2 f T3 Q = gZ * (T3 - s2 * Q)

end Verif.Ew
