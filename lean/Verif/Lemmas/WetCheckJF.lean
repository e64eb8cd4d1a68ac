import Verif.Lemmas.WetBack
import Verif.Lemmas.WetCheckJB
import Verif.Gen.WetOutJF
import Verif.Gen.WetOutFJ

/-!
# `JMS_to_flavio` and `flavio_to_JMS`
-/

set_option autoImplicit false
set_option maxRecDepth 100000

namespace Verif.WetApply
open Verif.Py Verif.Gen.WetOut

/-- The semileptonic tensor operators are lost: they come back as zero. -/
def lostTensors : List (ℕ × Sym) :=
  [(n!"TedRR_1112", .rat 0 1), (n!"TedRR_1113", .rat 0 1), (n!"TedRR_1121", .rat 0 1), (n!"TedRR_1123", .rat 0 1), (n!"TedRR_1131", .rat 0 1),
   (n!"TedRR_1132", .rat 0 1), (n!"TedRR_1212", .rat 0 1), (n!"TedRR_1213", .rat 0 1), (n!"TedRR_1221", .rat 0 1), (n!"TedRR_1223", .rat 0 1),
   (n!"TedRR_1231", .rat 0 1), (n!"TedRR_1232", .rat 0 1), (n!"TedRR_1312", .rat 0 1), (n!"TedRR_1313", .rat 0 1), (n!"TedRR_1321", .rat 0 1),
   (n!"TedRR_1323", .rat 0 1), (n!"TedRR_1331", .rat 0 1), (n!"TedRR_1332", .rat 0 1), (n!"TedRR_2112", .rat 0 1), (n!"TedRR_2113", .rat 0 1),
   (n!"TedRR_2121", .rat 0 1), (n!"TedRR_2123", .rat 0 1), (n!"TedRR_2131", .rat 0 1), (n!"TedRR_2132", .rat 0 1), (n!"TedRR_2212", .rat 0 1),
   (n!"TedRR_2213", .rat 0 1), (n!"TedRR_2221", .rat 0 1), (n!"TedRR_2223", .rat 0 1), (n!"TedRR_2231", .rat 0 1), (n!"TedRR_2232", .rat 0 1),
   (n!"TedRR_2312", .rat 0 1), (n!"TedRR_2313", .rat 0 1), (n!"TedRR_2321", .rat 0 1), (n!"TedRR_2323", .rat 0 1), (n!"TedRR_2331", .rat 0 1),
   (n!"TedRR_2332", .rat 0 1), (n!"TedRR_3112", .rat 0 1), (n!"TedRR_3113", .rat 0 1), (n!"TedRR_3121", .rat 0 1), (n!"TedRR_3123", .rat 0 1),
   (n!"TedRR_3131", .rat 0 1), (n!"TedRR_3132", .rat 0 1), (n!"TedRR_3212", .rat 0 1), (n!"TedRR_3213", .rat 0 1), (n!"TedRR_3221", .rat 0 1),
   (n!"TedRR_3223", .rat 0 1), (n!"TedRR_3231", .rat 0 1), (n!"TedRR_3232", .rat 0 1), (n!"TedRR_3312", .rat 0 1), (n!"TedRR_3313", .rat 0 1),
   (n!"TedRR_3321", .rat 0 1), (n!"TedRR_3323", .rat 0 1), (n!"TedRR_3331", .rat 0 1), (n!"TedRR_3332", .rat 0 1), (n!"TeuRR_1112", .rat 0 1),
   (n!"TeuRR_1121", .rat 0 1), (n!"TeuRR_2212", .rat 0 1), (n!"TeuRR_2221", .rat 0 1), (n!"TeuRR_3312", .rat 0 1), (n!"TeuRR_3321", .rat 0 1)]

theorem check_JFJ : checkBack (treeOf JMS_to_flavio) (treeOf lostTensors) flavio_to_JMS = true := by decide +kernel

theorem check_FJF : checkBack (treeOf flavio_to_JMS) (treeOf []) JMS_to_flavio = true := by decide +kernel

end Verif.WetApply
