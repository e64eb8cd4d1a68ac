import Verif.Model.WetTables

/-!
# The normalisation in which the WET anomalous dimensions are given (C70)

The anomalous dimension matrices are those of the dipole operators with a factor `m/g_s` (gluon) or
`e m/g_s²` (photon) pulled out, where `m` is the mass of the heavier of the two fermions, and of the
three-gluon operators with a factor `1/g_s` pulled out.
-/

set_option autoImplicit false

namespace Verif.WetTab
open Verif Verif.Rotation Verif.WetRun

/-- `g_s` -/
noncomputable def gStrong (p : Par) : ℝ := Real.sqrt (4 * Real.pi * p.alpha_s)

/-- `e` -/
noncomputable def gElectric (p : Par) : ℝ := Real.sqrt (4 * Real.pi * p.alpha_e)

/-- masses by generation -/
def upMass (p : Par) : ℕ → ℝ
  | 1 => p.m_u | 2 => p.m_c | _ => 0
def downMass (p : Par) : ℕ → ℝ
  | 1 => p.m_d | 2 => p.m_s | 3 => p.m_b | _ => 0
def leptonMass (p : Par) : ℕ → ℝ
  | 1 => p.m_e | 2 => p.m_mu | 3 => p.m_tau | _ => 0

/-- a coefficient in the normalisation of the anomalous dimensions, divided by the coefficient -/
noncomputable def norm (p : Par) : WKey → List ℕ → ℝ
  | .uG, [i, j] => gStrong p / upMass p (max i j)
  | .dG, [i, j] => gStrong p / downMass p (max i j)
  | .ugamma, [i, j] => gStrong p ^ 2 / (gElectric p * upMass p (max i j))
  | .dgamma, [i, j] => gStrong p ^ 2 / (gElectric p * downMass p (max i j))
  | .egamma, [i, j] => gStrong p ^ 2 / (gElectric p * leptonMass p (max i j))
  | .G, _ => gStrong p
  | .Gtilde, _ => gStrong p
  | _, _ => 1

end Verif.WetTab
