import Verif.Spec.Flavour
import Mathlib.LinearAlgebra.Matrix.Trace

/-!
# Specification for the SMEFT beta functions

Standard Model parameters versus Wilson coefficients, fermion-number charges of the
coefficients, and the one-loop Standard Model renormalisation group equations
(arXiv:1308.2627, 1310.4838, 1312.2014) as formulas with matrices.
-/

set_option autoImplicit false

namespace Verif.BetaSpec
open Verif.Tens Verif.Beta Verif.Flavour

/-- the parameters of the Standard Model -/
def smKeys : List Key := [.g, .gp, .gs, .Lambda, .m2, .Gu, .Gd, .Ge]

/-- number of indices of a coefficient -/
def rank (k : Key) : ℕ := ((smeftTy k).getD []).length

/-- quark minus antiquark fields for `isQuark`, lepton minus antilepton fields otherwise -/
def net (quark : Bool) (τ : List (Ty Fl)) : ℤ :=
  (τ.map fun t =>
    if (decide (t.f = .q ∨ t.f = .u ∨ t.f = .d)) = quark then (if t.bar then -1 else 1) else 0).sum

/-- net quark number of a coefficient's operator (three times its baryon number) -/
def quarkNumber (k : Key) : ℤ := net true ((smeftTy k).getD [])

/-- net lepton number of a coefficient's operator -/
def leptonNumber (k : Key) : ℤ := net false ((smeftTy k).getD [])

/-- two coefficients carry the same baryon and lepton number -/
def SameCharge (k k' : Key) : Prop :=
  quarkNumber k = quarkNumber k' ∧ leptonNumber k = leptonNumber k'

instance (k k' : Key) : Decidable (SameCharge k k') := inferInstanceAs (Decidable (_ ∧ _))

/-- a 3×3 matrix as an array -/
def ofMatrix (M : Matrix (Fin 3) (Fin 3) ℂ) : Ten
  | [i, j] => M i j
  | _ => 0

open Matrix in
/-- γ_H = tr(3 Γ_u Γ_u† + 3 Γ_d Γ_d† + Γ_e Γ_e†) -/
noncomputable def gammaH (Yu Yd Ye : Matrix (Fin 3) (Fin 3) ℂ) : ℂ :=
  3 * trace (Yu * Yuᴴ) + 3 * trace (Yd * Ydᴴ) + trace (Ye * Yeᴴ)

/-- one-loop running of the Higgs self-coupling in the SM -/
noncomputable def smLambda (g gp lam : ℂ) (Yu Yd Ye : Matrix (Fin 3) (Fin 3) ℂ) : ℂ :=
  12 * lam ^ 2 + 3 / 4 * gp ^ 4 + 3 / 2 * g ^ 2 * gp ^ 2 + 9 / 4 * g ^ 4
    - 3 * (gp ^ 2 + 3 * g ^ 2) * lam + 4 * lam * gammaH Yu Yd Ye
    - 4 * (3 * Matrix.trace (Yd * Yd.conjTranspose * (Yd * Yd.conjTranspose))
      + 3 * Matrix.trace (Yu * Yu.conjTranspose * (Yu * Yu.conjTranspose))
      + Matrix.trace (Ye * Ye.conjTranspose * (Ye * Ye.conjTranspose)))

/-- one-loop running of the Higgs mass parameter in the SM -/
noncomputable def smM2 (g gp lam m2 : ℂ) (Yu Yd Ye : Matrix (Fin 3) (Fin 3) ℂ) : ℂ :=
  m2 * (6 * lam - 9 / 2 * g ^ 2 - 3 / 2 * gp ^ 2 + 2 * gammaH Yu Yd Ye)

open Matrix in
/-- one-loop running of the up-type Yukawa matrix in the SM -/
noncomputable def smYu (g gp gs : ℂ) (Yu Yd Ye : Matrix (Fin 3) (Fin 3) ℂ) :
    Matrix (Fin 3) (Fin 3) ℂ :=
  (3 / 2 : ℂ) • (Yu * Yuᴴ * Yu - Yd * Ydᴴ * Yu)
    + (gammaH Yu Yd Ye - 9 / 4 * g ^ 2 - 17 / 12 * gp ^ 2 - 8 * gs ^ 2) • Yu

open Matrix in
/-- one-loop running of the down-type Yukawa matrix in the SM -/
noncomputable def smYd (g gp gs : ℂ) (Yu Yd Ye : Matrix (Fin 3) (Fin 3) ℂ) :
    Matrix (Fin 3) (Fin 3) ℂ :=
  (3 / 2 : ℂ) • (Yd * Ydᴴ * Yd - Yu * Yuᴴ * Yd)
    + (gammaH Yu Yd Ye - 9 / 4 * g ^ 2 - 5 / 12 * gp ^ 2 - 8 * gs ^ 2) • Yd

open Matrix in
/-- one-loop running of the charged-lepton Yukawa matrix in the SM -/
noncomputable def smYe (g gp : ℂ) (Yu Yd Ye : Matrix (Fin 3) (Fin 3) ℂ) :
    Matrix (Fin 3) (Fin 3) ℂ :=
  (3 / 2 : ℂ) • (Ye * Yeᴴ * Ye) + (gammaH Yu Yd Ye - 9 / 4 * g ^ 2 - 15 / 4 * gp ^ 2) • Ye

end Verif.BetaSpec
