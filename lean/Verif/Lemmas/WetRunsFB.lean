import Verif.Lemmas.WetRunsFJ
import Verif.Gen.WetOutFB

/-!
# The result of `flavio_to_Bern`

Running the interpreter on the source of `flavio_to_Bern` gives the formulas in `Gen/WetOutFB`.

(The import of `WetRunsFJ` only serves to build one of these memory-hungry files after the other.)
-/

set_option autoImplicit false

namespace Verif.Py

set_option maxRecDepth 100000 in
theorem run_flavio_to_Bern : outputs n!"flavio_to_Bern" = .ok Gen.WetOut.flavio_to_Bern := by
  rw [← outputsR_eq]
  exact isItems_sound (by decide +kernel)

end Verif.Py
