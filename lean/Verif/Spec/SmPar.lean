import Verif.Model.SmPar
import Mathlib.LinearAlgebra.UnitaryGroup
import Mathlib.Analysis.Calculus.Deriv.Pow

/-!
# Specification for the extraction of Standard Model parameters (C47, C48)
-/

set_option autoImplicit false

namespace Verif.SmPar

/-- Potential of the Higgs field `h` with mass parameter `m2`, self-coupling `Lambda` and the
dimension-six coefficient `c` of `(φ†φ)³`, for `φ†φ = h²/2`:
`V = -m² φ†φ + Λ/2 (φ†φ)² - c (φ†φ)³`. -/
noncomputable def potential (m2 Lambda c h : ℝ) : ℝ :=
  -m2 * (h ^ 2 / 2) + Lambda / 2 * (h ^ 2 / 2) ^ 2 - c * (h ^ 2 / 2) ^ 3

/-- Kinetic term of the Higgs field, `φ†φ = h²/2`, with the coefficients `box` of
`(φ†φ)□(φ†φ)`, i.e. `-(∂(φ†φ))²`, and `D` of `|φ†∂φ|²`, as a function of `h` and `∂h`. -/
noncomputable def kinetic (box D h dh : ℝ) : ℝ :=
  dh ^ 2 / 2 + box * -(h * dh) ^ 2 + D * (h * dh / 2) ^ 2

/-- the field is multiplied by `√Z` at `h = v` -/
def IsNormalisation (box D v Z : ℝ) : Prop := ∀ dh, kinetic box D v dh = Z * dh ^ 2 / 2

/-- a 3×3 matrix is unitary -/
def IsUnitary (U : M3) : Prop := U ∈ Matrix.unitaryGroup (Fin 3) ℂ

/-- contract of `ckmutil.diag.msvd` at the matrix `M`: a singular value decomposition with singular
values in ascending order -/
def SvdAt (X : Ext) (M : M3) : Prop :=
  IsUnitary (X.msvd M).1 ∧ IsUnitary (X.msvd M).2.2 ∧
    (X.msvd M).1.conjTranspose * M * (X.msvd M).2.2
      = Matrix.diagonal (fun i => (((X.msvd M).2.1 i : ℝ) : ℂ)) ∧
    0 ≤ (X.msvd M).2.1 0 ∧ (X.msvd M).2.1 0 ≤ (X.msvd M).2.1 1 ∧
    (X.msvd M).2.1 1 ≤ (X.msvd M).2.1 2

/-- contract of `scipy.optimize.brentq`: the returned point is a root -/
def RootContract (X : Ext) : Prop := ∀ f a b x, X.brentq f a b = .ok x → f x = 0

/-- contract of `ckmutil.ckm.ckm_tree` at the given inputs: a unitary matrix with the given absolute
values and the given angle -/
def CkmContract (X : Ext) (p : Inputs) : Prop :=
  let K := X.ckm p.Vus p.Vub p.Vcb p.gamma
  IsUnitary K ∧ ‖K 0 1‖ = p.Vus ∧ ‖K 0 2‖ = p.Vub ∧ ‖K 1 2‖ = p.Vcb ∧
    Complex.arg (-K 0 0 * star (K 0 2) / (K 1 0 * star (K 1 2))) = p.gamma

/-- physically sensible inputs: positive and with distinct, ordered masses -/
structure Inputs.Physical (p : Inputs) : Prop where
  GF : 0 < p.GF
  alpha_e : 0 < p.alpha_e
  alpha_s : 0 ≤ p.alpha_s
  m_W : 0 < p.m_W
  m_h : 0 < p.m_h
  up : 0 ≤ p.m_u ∧ p.m_u < p.m_c ∧ p.m_c < p.m_t
  down : 0 ≤ p.m_d ∧ p.m_d < p.m_s ∧ p.m_s < p.m_b
  lep : 0 ≤ p.m_e ∧ p.m_e ≤ p.m_mu ∧ p.m_mu ≤ p.m_tau

end Verif.SmPar
