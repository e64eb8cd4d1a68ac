import Verif.Lemmas.WetBack
import Verif.Gen.WetOutJB
import Verif.Gen.WetOutBJ
import Verif.Gen.WetOutJF
import Verif.Gen.WetOutFJ
import Verif.Gen.WetOutBF
import Verif.Gen.WetOutFB

/-!
# The names in the results of the translators are codes of strings
-/

set_option autoImplicit false
set_option maxRecDepth 100000

namespace Verif.WetApply
open Verif.Py Verif.Gen.WetOut

theorem valid_JMS_to_Bern : validL JMS_to_Bern = true := by decide +kernel

theorem valid_Bern_to_JMS : validL Bern_to_JMS = true := by decide +kernel

theorem valid_JMS_to_flavio : validL JMS_to_flavio = true := by decide +kernel

theorem valid_flavio_to_JMS : validL flavio_to_JMS = true := by decide +kernel

theorem valid_Bern_to_flavio : validL Bern_to_flavio = true := by decide +kernel

theorem valid_flavio_to_Bern : validL flavio_to_Bern = true := by decide +kernel

/-! The last lines of the flavio translators do not interfere with the others. -/

/-- the names in the JMS basis -/
def tailJ : List (ℕ × ℕ) := Gen.WetPy.tableNunull ++ Gen.WetPy.tableLfv

/-- the names in the flavio basis -/
def tailF : List (ℕ × ℕ) := tailJ.map fun p => (p.2, p.1)

theorem reads_flavio_to_JMS : allSyms (inpsAll (outside (treeOf tailF))) flavio_to_JMS = true := by decide +kernel

theorem reads_JMS_to_flavio : allSyms (inpsAll (outside (treeOf tailJ))) JMS_to_flavio = true := by decide +kernel

theorem writes_flavio_to_JMS : allKeys (outside (treeOf tailJ)) flavio_to_JMS = true := by decide +kernel

theorem writes_JMS_to_flavio : allKeys (outside (treeOf tailF)) JMS_to_flavio = true := by decide +kernel

end Verif.WetApply
