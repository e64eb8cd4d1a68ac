import Verif.Lemmas.WetCheckBF
import Verif.Gen.WetOutJB
import Verif.Gen.WetOutJF

/-!
# Translating via a third basis
-/

set_option autoImplicit false
set_option maxRecDepth 100000

namespace Verif.WetApply
open Verif.Py Verif.Gen.WetOut

/-- inserts the formula of `JMS_to_Bern` -/
def toTri : Sym → Sym
  | .mul a (.inp k) => .mul a (orZero (look k JMS_to_Bern))
  | s => s

/-- The semileptonic operators of type 7 become multiples of those of type 9. -/
def sevensTri : List (ℕ × Sym) := sevens.map (fun p => (p.1, toTri p.2)) ++ JMS_to_Bern

theorem check_JBF : checkBack (treeOf JMS_to_Bern) (treeOf JMS_to_flavio) Bern_to_flavio = true := by decide +kernel

theorem check_JFB : checkBack (treeOf JMS_to_flavio) (treeOf sevensTri) flavio_to_Bern = true := by decide +kernel

end Verif.WetApply
