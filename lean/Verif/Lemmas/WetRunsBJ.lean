import Verif.Lemmas.WetRunsJB
import Verif.Gen.WetOutBJ

/-!
# The result of `Bern_to_JMS`

Running the interpreter on the source of `Bern_to_JMS` gives the formulas in `Gen/WetOutBJ`.

(The import of `WetRunsJB` only serves to build one of these memory-hungry files after the other.)
-/

set_option autoImplicit false

namespace Verif.Py

set_option maxRecDepth 100000 in
theorem run_Bern_to_JMS : outputs n!"Bern_to_JMS" = .ok Gen.WetOut.Bern_to_JMS := by
  rw [← outputsR_eq]
  exact isItems_sound (by decide +kernel)

end Verif.Py
