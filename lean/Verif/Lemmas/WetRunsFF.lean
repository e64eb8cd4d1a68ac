import Verif.Lemmas.WetRunsBF
import Verif.Gen.WetOutFF

/-!
# The result of `JMS_to_FormFlavor`

Running the interpreter on the source of `JMS_to_FormFlavor` gives the formulas in `Gen/WetOutFF`.

(The import of `WetRunsBF` only serves to build one of these memory-hungry files after the other.)
-/

set_option autoImplicit false

namespace Verif.Py

set_option maxRecDepth 100000 in
theorem run_JMS_to_FormFlavor : outputs n!"JMS_to_FormFlavor" = .ok Gen.WetOut.JMS_to_FormFlavor := by
  rw [← outputsR_eq]
  exact isItems_sound (by decide +kernel)

end Verif.Py
