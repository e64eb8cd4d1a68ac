import Verif.Lemmas.WetBack
import Verif.Lemmas.WetCheckJF
import Verif.Gen.WetOutBF
import Verif.Gen.WetOutFB

/-!
# `Bern_to_flavio` and `flavio_to_Bern`
-/

set_option autoImplicit false
set_option maxRecDepth 100000

namespace Verif.WetApply
open Verif.Py Verif.Gen.WetOut

/-- The semileptonic operators of type 7 come back as multiples of those of type 9. -/
def sevens : List (ℕ × Sym) :=
  [(n!"7dbee", .mul (.rat 16 1) (.inp n!"9dbee")), (n!"7dbemu", .mul (.rat 16 1) (.inp n!"9dbemu")), (n!"7dbetau", .mul (.rat 16 1) (.inp n!"9dbetau")),
   (n!"7dbmue", .mul (.rat 16 1) (.inp n!"9dbmue")), (n!"7dbmumu", .mul (.rat 16 1) (.inp n!"9dbmumu")), (n!"7dbmutau", .mul (.rat 16 1) (.inp n!"9dbmutau")),
   (n!"7dbtaue", .mul (.rat 16 1) (.inp n!"9dbtaue")), (n!"7dbtaumu", .mul (.rat 16 1) (.inp n!"9dbtaumu")), (n!"7dbtautau", .mul (.rat 16 1) (.inp n!"9dbtautau")),
   (n!"7dsee", .mul (.rat 16 1) (.inp n!"9dsee")), (n!"7dsmumu", .mul (.rat 16 1) (.inp n!"9dsmumu")), (n!"7dstautau", .mul (.rat 16 1) (.inp n!"9dstautau")),
   (n!"7pdbee", .mul (.rat 16 1) (.inp n!"9pdbee")), (n!"7pdbemu", .mul (.rat 16 1) (.inp n!"9pdbemu")), (n!"7pdbetau", .mul (.rat 16 1) (.inp n!"9pdbetau")),
   (n!"7pdbmue", .mul (.rat 16 1) (.inp n!"9pdbmue")), (n!"7pdbmumu", .mul (.rat 16 1) (.inp n!"9pdbmumu")), (n!"7pdbmutau", .mul (.rat 16 1) (.inp n!"9pdbmutau")),
   (n!"7pdbtaue", .mul (.rat 16 1) (.inp n!"9pdbtaue")), (n!"7pdbtaumu", .mul (.rat 16 1) (.inp n!"9pdbtaumu")), (n!"7pdbtautau", .mul (.rat 16 1) (.inp n!"9pdbtautau")),
   (n!"7pdsee", .mul (.rat 16 1) (.inp n!"9pdsee")), (n!"7pdsmumu", .mul (.rat 16 1) (.inp n!"9pdsmumu")), (n!"7pdstautau", .mul (.rat 16 1) (.inp n!"9pdstautau")),
   (n!"7psbee", .mul (.rat 16 1) (.inp n!"9psbee")), (n!"7psbemu", .mul (.rat 16 1) (.inp n!"9psbemu")), (n!"7psbetau", .mul (.rat 16 1) (.inp n!"9psbetau")),
   (n!"7psbmue", .mul (.rat 16 1) (.inp n!"9psbmue")), (n!"7psbmumu", .mul (.rat 16 1) (.inp n!"9psbmumu")), (n!"7psbmutau", .mul (.rat 16 1) (.inp n!"9psbmutau")),
   (n!"7psbtaue", .mul (.rat 16 1) (.inp n!"9psbtaue")), (n!"7psbtaumu", .mul (.rat 16 1) (.inp n!"9psbtaumu")), (n!"7psbtautau", .mul (.rat 16 1) (.inp n!"9psbtautau")),
   (n!"7sbee", .mul (.rat 16 1) (.inp n!"9sbee")), (n!"7sbemu", .mul (.rat 16 1) (.inp n!"9sbemu")), (n!"7sbetau", .mul (.rat 16 1) (.inp n!"9sbetau")),
   (n!"7sbmue", .mul (.rat 16 1) (.inp n!"9sbmue")), (n!"7sbmumu", .mul (.rat 16 1) (.inp n!"9sbmumu")), (n!"7sbmutau", .mul (.rat 16 1) (.inp n!"9sbmutau")),
   (n!"7sbtaue", .mul (.rat 16 1) (.inp n!"9sbtaue")), (n!"7sbtaumu", .mul (.rat 16 1) (.inp n!"9sbtaumu")), (n!"7sbtautau", .mul (.rat 16 1) (.inp n!"9sbtautau"))]

/-- The operators with s, d and two different leptons come back as zero. -/
def lostSd : List (ℕ × Sym) :=
  [(n!"C10_sdemu", .rat 0 1), (n!"C10_sdetau", .rat 0 1), (n!"C10_sdmue", .rat 0 1), (n!"C10_sdmutau", .rat 0 1), (n!"C10_sdtaue", .rat 0 1),
   (n!"C10_sdtaumu", .rat 0 1), (n!"C10p_sdemu", .rat 0 1), (n!"C10p_sdetau", .rat 0 1), (n!"C10p_sdmue", .rat 0 1), (n!"C10p_sdmutau", .rat 0 1),
   (n!"C10p_sdtaue", .rat 0 1), (n!"C10p_sdtaumu", .rat 0 1), (n!"C9_sdemu", .rat 0 1), (n!"C9_sdetau", .rat 0 1), (n!"C9_sdmue", .rat 0 1),
   (n!"C9_sdmutau", .rat 0 1), (n!"C9_sdtaue", .rat 0 1), (n!"C9_sdtaumu", .rat 0 1), (n!"C9p_sdemu", .rat 0 1), (n!"C9p_sdetau", .rat 0 1),
   (n!"C9p_sdmue", .rat 0 1), (n!"C9p_sdmutau", .rat 0 1), (n!"C9p_sdtaue", .rat 0 1), (n!"C9p_sdtaumu", .rat 0 1), (n!"CP_sdemu", .rat 0 1),
   (n!"CP_sdetau", .rat 0 1), (n!"CP_sdmue", .rat 0 1), (n!"CP_sdmutau", .rat 0 1), (n!"CP_sdtaue", .rat 0 1), (n!"CP_sdtaumu", .rat 0 1),
   (n!"CPp_sdemu", .rat 0 1), (n!"CPp_sdetau", .rat 0 1), (n!"CPp_sdmue", .rat 0 1), (n!"CPp_sdmutau", .rat 0 1), (n!"CPp_sdtaue", .rat 0 1),
   (n!"CPp_sdtaumu", .rat 0 1), (n!"CS_sdemu", .rat 0 1), (n!"CS_sdetau", .rat 0 1), (n!"CS_sdmue", .rat 0 1), (n!"CS_sdmutau", .rat 0 1),
   (n!"CS_sdtaue", .rat 0 1), (n!"CS_sdtaumu", .rat 0 1), (n!"CSp_sdemu", .rat 0 1), (n!"CSp_sdetau", .rat 0 1), (n!"CSp_sdmue", .rat 0 1),
   (n!"CSp_sdmutau", .rat 0 1), (n!"CSp_sdtaue", .rat 0 1), (n!"CSp_sdtaumu", .rat 0 1)]

theorem check_BFB : checkBack (treeOf Bern_to_flavio) (treeOf sevens) flavio_to_Bern = true := by decide +kernel

theorem check_FBF : checkBack (treeOf flavio_to_Bern) (treeOf lostSd) Bern_to_flavio = true := by decide +kernel

end Verif.WetApply
