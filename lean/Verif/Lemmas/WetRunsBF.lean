import Verif.Lemmas.WetRunsBJ
import Verif.Gen.WetOutBF

/-!
# The result of `Bern_to_flavio`

Running the interpreter on the source of `Bern_to_flavio` gives the formulas in `Gen/WetOutBF`.

(The import of `WetRunsBJ` only serves to build one of these memory-hungry files after the other.)
-/

set_option autoImplicit false

namespace Verif.Py

set_option maxRecDepth 100000 in
theorem run_Bern_to_flavio : outputs n!"Bern_to_flavio" = .ok Gen.WetOut.Bern_to_flavio := by
  rw [← outputsR_eq]
  exact isItems_sound (by decide +kernel)

end Verif.Py
