import Verif.Lemmas.WetBack
import Verif.Gen.WetOutJB
import Verif.Gen.WetOutBJ

/-!
# `JMS_to_Bern` and `Bern_to_JMS` are inverse to each other
-/

set_option autoImplicit false
set_option maxRecDepth 100000

namespace Verif.WetApply
open Verif.Py Verif.Gen.WetOut

theorem check_JBJ : checkBack (treeOf JMS_to_Bern) (treeOf []) Bern_to_JMS = true := by decide +kernel

theorem check_BJB : checkBack (treeOf Bern_to_JMS) (treeOf []) JMS_to_Bern = true := by decide +kernel

end Verif.WetApply
