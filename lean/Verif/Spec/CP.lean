import Verif.Gen.Beta
import Verif.Gen.Rotation

/-!
# Specification: CP conjugation of Wilson coefficients

CP maps an operator to its hermitian conjugate, with an additional sign for the operators
containing a dual field strength.  So the CP-conjugate set of coefficients is the complex
conjugate one, with the sign of the coefficients of the latter operators changed.
-/

set_option autoImplicit false

namespace Verif.CP
open Verif.Tens Verif.Beta Verif.Rotation

/-- SMEFT operators with a dual field strength -/
def smeftOdd (k : Key) : Bool :=
  decide (k ∈ [Key.Gtilde, .Wtilde, .phiGtilde, .phiBtilde, .phiWtilde, .phiWtildeB])

/-- WET operators with a dual field strength -/
def wetOdd (k : WKey) : Bool := decide (k = .Gtilde)

/-- the CP conjugate of an array -/
noncomputable def cpConj (odd : Bool) (A : Ten) : Ten := fun ix =>
  (if odd then -1 else 1) * (starRingEnd ℂ) (A ix)

end Verif.CP
