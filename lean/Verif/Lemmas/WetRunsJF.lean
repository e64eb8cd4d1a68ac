import Verif.Lemmas.PyFast
import Verif.Lemmas.SymSubst
import Verif.Gen.WetOutJF

/-!
# The result of `JMS_to_flavio`

Running the interpreter on the source of `JMS_to_flavio` gives the formulas in `Gen/WetOutJF`.
-/

set_option autoImplicit false

namespace Verif.Py

set_option maxRecDepth 100000 in
theorem run_JMS_to_flavio : outputs n!"JMS_to_flavio" = .ok Gen.WetOut.JMS_to_flavio := by
  rw [← outputsR_eq]
  exact isItems_sound (by decide +kernel)

end Verif.Py
