import Verif.Lemmas.PyFast
import Verif.Lemmas.SymSubst
import Verif.Gen.WetOutJB

/-!
# The result of `JMS_to_Bern`

Running the interpreter on the source of `JMS_to_Bern` gives the formulas in `Gen/WetOutJB`.
-/

set_option autoImplicit false

namespace Verif.Py

set_option maxRecDepth 100000 in
theorem run_JMS_to_Bern : outputs n!"JMS_to_Bern" = .ok Gen.WetOut.JMS_to_Bern := by
  rw [← outputsR_eq]
  exact isItems_sound (by decide +kernel)

end Verif.Py
