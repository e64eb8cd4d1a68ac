import Verif.Lemmas.WetRunsJF
import Verif.Gen.WetOutFJ

/-!
# The result of `flavio_to_JMS`

Running the interpreter on the source of `flavio_to_JMS` gives the formulas in `Gen/WetOutFJ`.

(The import of `WetRunsJF` only serves to build one of these memory-hungry files after the other.)
-/

set_option autoImplicit false

namespace Verif.Py

set_option maxRecDepth 100000 in
theorem run_flavio_to_JMS : outputs n!"flavio_to_JMS" = .ok Gen.WetOut.flavio_to_JMS := by
  rw [← outputsR_eq]
  exact isItems_sound (by decide +kernel)

end Verif.Py
