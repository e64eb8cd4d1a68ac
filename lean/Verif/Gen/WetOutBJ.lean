import Verif.Model.Py

/-!
# The dictionary returned by `Bern_to_JMS`

GENERATED by tools/gen_wetout.lean; that this is what the translator returns is proved in
`Lemmas/WetRunsBJ`.
-/

set_option autoImplicit false
set_option maxRecDepth 20000

namespace Verif.Gen.WetOut
open Verif.Py

def Bern_to_JMS_0 : List (ℕ × Sym) := [
  (n!"SnueduRL_2132", (.mul (.div (.mul (.rat 4 1) (.par n!"GF")) (.sqrt (.rat 2 1))) (.conj (.inp n!"5cbemu")))),
  (n!"V1ddLR_1333", (.mul (.div (.mul (.rat 4 1) (.par n!"GF")) (.sqrt (.rat 2 1))) (.sub (.neg (.div (.add (.inp n!"5dbbb") (.mul (.rat 16 1) (.inp n!"9dbbb"))) (.mul (.rat 2 1) (.rat 3 1)))) (.div (.mul (.rat (-2) 1) (.add (.inp n!"1dbbb") (.mul (.rat 4 1) (.inp n!"3dbbb")))) (.rat 2 1))))),
  (n!"VnudLR_1212", (.mul (.div (.mul (.rat 4 1) (.par n!"GF")) (.sqrt (.rat 2 1))) (.inp n!"nu1pdsemu"))),
  (n!"VddRR_1222", (.mul (.div (.mul (.rat 4 1) (.par n!"GF")) (.sqrt (.rat 2 1))) (.add (.inp n!"1pdsss") (.mul (.rat 16 1) (.inp n!"3pdsss"))))),
  (n!"SedRL_2121", (.mul (.div (.mul (.rat 4 1) (.par n!"GF")) (.sqrt (.rat 2 1))) (.add (.neg (.conj (.mul (.rat 24 1) (.inp n!"9dsemu")))) (.conj (.add (.inp n!"5dsemu") (.mul (.rat 40 1) (.inp n!"9dsemu"))))))),
  (n!"SnueduRR_2222", (.mul (.div (.mul (.rat 4 1) (.par n!"GF")) (.sqrt (.rat 2 1))) (.conj (.inp n!"5pcsmumu")))),
  (n!"V1duLR_1321", (.mul (.div (.mul (.rat 4 1) (.par n!"GF")) (.sqrt (.rat 2 1))) (.add (.sub (.add (.sub (.inp n!"1dbcu") (.div (.inp n!"2dbcu") (.rat 6 1))) (.mul (.rat 4 1) (.inp n!"3dbcu"))) (.div (.mul (.rat 2 1) (.inp n!"4dbcu")) (.rat 3 1))) (.div (.add (.div (.inp n!"2dbcu") (.rat 2 1)) (.mul (.rat 2 1) (.inp n!"4dbcu"))) (.rat 3 1))))),
  (n!"V8udLL_1231", (.mul (.div (.mul (.rat 4 1) (.par n!"GF")) (.sqrt (.rat 2 1))) (.conj (.mul (.rat 2 1) (.add (.div (.inp n!"2dbcu") (.rat 2 1)) (.mul (.rat 8 1) (.inp n!"4dbcu"))))))),
  (n!"TnueduRR_2311", (.mul (.div (.mul (.rat 4 1) (.par n!"GF")) (.sqrt (.rat 2 1))) (.conj (.inp n!"7pudtaumu")))),
  (n!"VedLL_3312", (.mul (.div (.mul (.rat 4 1) (.par n!"GF")) (.sqrt (.rat 2 1))) (.add (.neg (.mul (.rat (-6) 1) (.inp n!"3dstautau"))) (.add (.inp n!"1dstautau") (.mul (.rat 10 1) (.inp n!"3dstautau")))))),
  (n!"SnueduRL_1322", (.mul (.div (.mul (.rat 4 1) (.par n!"GF")) (.sqrt (.rat 2 1))) (.conj (.inp n!"5cstaue")))),
  (n!"V1udduLR_1131", (.mul (.div (.mul (.rat 4 1) (.par n!"GF")) (.sqrt (.rat 2 1))) (.sub (.neg (.div (.conj (.add (.sub (.add (.neg (.div (.mul (.rat 8 1) (.inp n!"10dbuu")) (.rat 3 1))) (.inp n!"5dbuu")) (.div (.inp n!"6dbuu") (.rat 6 1))) (.mul (.rat 16 1) (.inp n!"9dbuu")))) (.mul (.rat 2 1) (.rat 3 1)))) (.div (.conj (.add (.mul (.rat 8 1) (.inp n!"10dbuu")) (.div (.inp n!"6dbuu") (.rat 2 1)))) (.rat 2 1))))),
  (n!"S1ddRR_3232", (.mul (.div (.mul (.rat 4 1) (.par n!"GF")) (.sqrt (.rat 2 1))) (.add (.conj (.inp n!"2sbsb")) (.div (.conj (.inp n!"3sbsb")) (.rat 3 1))))),
  (n!"V1udLR_1123", (.mul (.div (.mul (.rat 4 1) (.par n!"GF")) (.sqrt (.rat 2 1))) (.add (.sub (.add (.sub (.inp n!"1psbuu") (.div (.inp n!"2psbuu") (.rat 6 1))) (.mul (.rat 4 1) (.inp n!"3psbuu"))) (.div (.mul (.rat 2 1) (.inp n!"4psbuu")) (.rat 3 1))) (.div (.add (.div (.inp n!"2psbuu") (.rat 2 1)) (.mul (.rat 2 1) (.inp n!"4psbuu"))) (.rat 3 1))))),
  (n!"V8ddLR_2333", (.mul (.div (.mul (.rat 4 1) (.par n!"GF")) (.sqrt (.rat 2 1))) (.neg (.add (.inp n!"5sbbb") (.mul (.rat 16 1) (.inp n!"9sbbb")))))),
  (n!"VdeLR_1233", (.mul (.div (.mul (.rat 4 1) (.par n!"GF")) (.sqrt (.rat 2 1))) (.add (.mul (.rat (-6) 1) (.inp n!"3dstautau")) (.add (.inp n!"1dstautau") (.mul (.rat 10 1) (.inp n!"3dstautau")))))),
  (n!"VnudLL_3323", (.mul (.div (.mul (.rat 4 1) (.par n!"GF")) (.sqrt (.rat 2 1))) (.inp n!"nu1sbtautau"))),
  (n!"V8duLR_2321", (.mul (.div (.mul (.rat 4 1) (.par n!"GF")) (.sqrt (.rat 2 1))) (.mul (.rat 2 1) (.add (.div (.inp n!"2sbcu") (.rat 2 1)) (.mul (.rat 2 1) (.inp n!"4sbcu")))))),
  (n!"V1ddLR_3313", (.mul (.div (.mul (.rat 4 1) (.par n!"GF")) (.sqrt (.rat 2 1))) (.sub (.neg (.div (.add (.inp n!"5pdbbb") (.mul (.rat 16 1) (.inp n!"9pdbbb"))) (.mul (.rat 2 1) (.rat 3 1)))) (.div (.mul (.rat (-2) 1) (.add (.inp n!"1pdbbb") (.mul (.rat 4 1) (.inp n!"3pdbbb")))) (.rat 2 1))))),
  (n!"VnudLR_2331", (.mul (.div (.mul (.rat 4 1) (.par n!"GF")) (.sqrt (.rat 2 1))) (.conj (.inp n!"nu1pdbtaumu")))),
  (n!"SnueduRR_1132", (.mul (.div (.mul (.rat 4 1) (.par n!"GF")) (.sqrt (.rat 2 1))) (.conj (.inp n!"5pcbee")))),
  (n!"VnueduLL_3321", (.mul (.div (.mul (.rat 4 1) (.par n!"GF")) (.sqrt (.rat 2 1))) (.conj (.inp n!"1ustautau")))),
  (n!"SedRL_2113", (.mul (.div (.mul (.rat 4 1) (.par n!"GF")) (.sqrt (.rat 2 1))) (.add (.mul (.rat (-24) 1) (.inp n!"9pdbmue")) (.add (.inp n!"5pdbmue") (.mul (.rat 40 1) (.inp n!"9pdbmue")))))),
  (n!"VnueduLL_1112", (.mul (.div (.mul (.rat 4 1) (.par n!"GF")) (.sqrt (.rat 2 1))) (.conj (.inp n!"1cdee")))),
  (n!"SedRR_1121", (.mul (.div (.mul (.rat 4 1) (.par n!"GF")) (.sqrt (.rat 2 1))) (.add (.neg (.conj (.mul (.rat (-24) 1) (.inp n!"9pdsee")))) (.conj (.add (.inp n!"5pdsee") (.mul (.rat 40 1) (.inp n!"9pdsee"))))))),
  (n!"S8udRR_1232", (.mul (.div (.mul (.rat 4 1) (.par n!"GF")) (.sqrt (.rat 2 1))) (.sub (.mul (.rat 2 1) (.conj (.add (.mul (.rat 32 1) (.inp n!"10psbcu")) (.div (.inp n!"6psbcu") (.rat 2 1))))) (.mul (.rat 8 1) (.conj (.add (.mul (.rat (-8) 1) (.inp n!"10psbcu")) (.div (.inp n!"8psbcu") (.rat 2 1)))))))),
  (n!"TnueduRR_1221", (.mul (.div (.mul (.rat 4 1) (.par n!"GF")) (.sqrt (.rat 2 1))) (.conj (.inp n!"7pusmue")))),
  (n!"V8udLL_1223", (.mul (.div (.mul (.rat 4 1) (.par n!"GF")) (.sqrt (.rat 2 1))) (.mul (.rat 2 1) (.add (.div (.inp n!"2sbuc") (.rat 2 1)) (.mul (.rat 8 1) (.inp n!"4sbuc")))))),
  (n!"VedRR_1331", (.mul (.div (.mul (.rat 4 1) (.par n!"GF")) (.sqrt (.rat 2 1))) (.conj (.add (.mul (.rat 6 1) (.inp n!"3pdbtaue")) (.add (.inp n!"1pdbtaue") (.mul (.rat 10 1) (.inp n!"3pdbtaue"))))))),
  (n!"S1udduRR_2231", (.mul (.div (.mul (.rat 4 1) (.par n!"GF")) (.sqrt (.rat 2 1))) (.sub (.neg (.div (.mul (.rat 8 1) (.conj (.sub (.sub (.add (.div (.mul (.rat 8 1) (.inp n!"10psbuc")) (.rat 3 1)) (.inp n!"7psbuc")) (.div (.inp n!"8psbuc") (.rat 6 1))) (.mul (.rat 16 1) (.inp n!"9psbuc"))))) (.rat 3 1))) (.mul (.rat 8 1) (.conj (.add (.mul (.rat (-8) 1) (.inp n!"10psbuc")) (.div (.inp n!"8psbuc") (.rat 2 1)))))))),
  (n!"VedLR_2312", (.mul (.div (.mul (.rat 4 1) (.par n!"GF")) (.sqrt (.rat 2 1))) (.add (.neg (.mul (.rat 6 1) (.inp n!"3pdsmutau"))) (.add (.inp n!"1pdsmutau") (.mul (.rat 10 1) (.inp n!"3pdsmutau")))))),
  (n!"S1udRR_2212", (.mul (.div (.mul (.rat 4 1) (.par n!"GF")) (.sqrt (.rat 2 1))) (.sub (.sub (.add (.add (.sub (.add (.neg (.div (.mul (.rat 32 1) (.inp n!"10dscc")) (.rat 3 1))) (.inp n!"5dscc")) (.div (.inp n!"6dscc") (.rat 6 1))) (.mul (.rat 64 1) (.inp n!"9dscc"))) (.div (.add (.mul (.rat 32 1) (.inp n!"10dscc")) (.div (.inp n!"6dscc") (.rat 2 1))) (.rat 3 1))) (.mul (.rat 4 1) (.sub (.sub (.add (.div (.mul (.rat 8 1) (.inp n!"10dscc")) (.rat 3 1)) (.inp n!"7dscc")) (.div (.inp n!"8dscc") (.rat 6 1))) (.mul (.rat 16 1) (.inp n!"9dscc"))))) (.div (.mul (.rat 4 1) (.add (.mul (.rat (-8) 1) (.inp n!"10dscc")) (.div (.inp n!"8dscc") (.rat 2 1)))) (.rat 3 1))))),
  (n!"V8udduLR_2212", (.mul (.div (.mul (.rat 4 1) (.par n!"GF")) (.sqrt (.rat 2 1))) (.neg (.add (.sub (.add (.neg (.div (.mul (.rat 8 1) (.inp n!"10pdscc")) (.rat 3 1))) (.inp n!"5pdscc")) (.div (.inp n!"6pdscc") (.rat 6 1))) (.mul (.rat 16 1) (.inp n!"9pdscc")))))),
  (n!"S8ddRR_1213", (.mul (.div (.mul (.rat 4 1) (.par n!"GF")) (.sqrt (.rat 2 1))) (.mul (.rat (-16) 1) (.sub (.inp n!"7pdbds") (.mul (.rat 16 1) (.inp n!"9pdbds")))))),
  (n!"VnueduLR_3131", (.mul (.div (.mul (.rat 4 1) (.par n!"GF")) (.sqrt (.rat 2 1))) (.conj (.inp n!"1pubetau")))),
  (n!"V1ddLR_2223", (.mul (.div (.mul (.rat 4 1) (.par n!"GF")) (.sqrt (.rat 2 1))) (.add (.add (.inp n!"1psbss") (.mul (.rat 4 1) (.inp n!"3psbss"))) (.div (.mul (.div (.rat (-1) 1) (.rat 2 1)) (.add (.inp n!"5psbss") (.mul (.rat 16 1) (.inp n!"9psbss")))) (.rat 3 1))))),
  (n!"TedRR_3321", (.mul (.div (.mul (.rat 4 1) (.par n!"GF")) (.sqrt (.rat 2 1))) (.sub (.conj (.sub (.sub (.add (.div (.inp n!"7dstautau") (.rat 2 1)) (.div (.inp n!"7pdstautau") (.rat 2 1))) (.mul (.rat 8 1) (.inp n!"9dstautau"))) (.mul (.rat 8 1) (.inp n!"9pdstautau")))) (.conj (.add (.sub (.sub (.div (.inp n!"7dstautau") (.rat 2 1)) (.div (.inp n!"7pdstautau") (.rat 2 1))) (.mul (.rat 8 1) (.inp n!"9dstautau"))) (.mul (.rat 8 1) (.inp n!"9pdstautau"))))))),
  (n!"S1ddRR_1332", (.mul (.div (.mul (.rat 4 1) (.par n!"GF")) (.sqrt (.rat 2 1))) (.sub (.neg (.div (.mul (.rat 8 1) (.sub (.sub (.add (.div (.mul (.rat 8 1) (.inp n!"10dsbb")) (.rat 3 1)) (.inp n!"7dsbb")) (.div (.inp n!"8dsbb") (.rat 6 1))) (.mul (.rat 16 1) (.inp n!"9dsbb")))) (.rat 3 1))) (.mul (.rat 8 1) (.add (.mul (.rat (-8) 1) (.inp n!"10dsbb")) (.div (.inp n!"8dsbb") (.rat 2 1))))))),
  (n!"SnueduRR_3112", (.mul (.div (.mul (.rat 4 1) (.par n!"GF")) (.sqrt (.rat 2 1))) (.conj (.inp n!"5pcdetau")))),
  (n!"VnudLR_2323", (.mul (.div (.mul (.rat 4 1) (.par n!"GF")) (.sqrt (.rat 2 1))) (.inp n!"nu1psbmutau"))),
  (n!"TedRR_1112", (.mul (.div (.mul (.rat 4 1) (.par n!"GF")) (.sqrt (.rat 2 1))) (.add (.sub (.sub (.add (.div (.inp n!"7dsee") (.rat 2 1)) (.div (.inp n!"7pdsee") (.rat 2 1))) (.mul (.rat 8 1) (.inp n!"9dsee"))) (.mul (.rat 8 1) (.inp n!"9pdsee"))) (.add (.sub (.sub (.div (.inp n!"7dsee") (.rat 2 1)) (.div (.inp n!"7pdsee") (.rat 2 1))) (.mul (.rat 8 1) (.inp n!"9dsee"))) (.mul (.rat 8 1) (.inp n!"9pdsee")))))),
  (n!"VddRR_2333", (.mul (.div (.mul (.rat 4 1) (.par n!"GF")) (.sqrt (.rat 2 1))) (.add (.inp n!"1psbbb") (.mul (.rat 16 1) (.inp n!"3psbbb"))))),
  (n!"SedRL_3232", (.mul (.div (.mul (.rat 4 1) (.par n!"GF")) (.sqrt (.rat 2 1))) (.add (.neg (.conj (.mul (.rat 24 1) (.inp n!"9sbmutau")))) (.conj (.add (.inp n!"5sbmutau") (.mul (.rat 40 1) (.inp n!"9sbmutau"))))))),
  (n!"VdeLR_1321", (.mul (.div (.mul (.rat 4 1) (.par n!"GF")) (.sqrt (.rat 2 1))) (.add (.mul (.rat (-6) 1) (.inp n!"3dbmue")) (.add (.inp n!"1dbmue") (.mul (.rat 10 1) (.inp n!"3dbmue")))))),
  (n!"VnueduLL_2231", (.mul (.div (.mul (.rat 4 1) (.par n!"GF")) (.sqrt (.rat 2 1))) (.conj (.inp n!"1ubmumu")))),
  (n!"VddLL_1332", (.mul (.div (.mul (.rat 4 1) (.par n!"GF")) (.sqrt (.rat 2 1))) (.add (.div (.inp n!"2dsbb") (.rat 2 1)) (.mul (.rat 8 1) (.inp n!"4dsbb"))))),
  (n!"SnueduRL_2212", (.mul (.div (.mul (.rat 4 1) (.par n!"GF")) (.sqrt (.rat 2 1))) (.conj (.inp n!"5cdmumu")))),
  (n!"VnueduLR_2321", (.mul (.div (.mul (.rat 4 1) (.par n!"GF")) (.sqrt (.rat 2 1))) (.conj (.inp n!"1pustaumu")))),
  (n!"SedRR_1113", (.mul (.div (.mul (.rat 4 1) (.par n!"GF")) (.sqrt (.rat 2 1))) (.add (.mul (.rat 24 1) (.inp n!"9dbee")) (.add (.inp n!"5dbee") (.mul (.rat 40 1) (.inp n!"9dbee")))))),
  (n!"V8udduLR_1122", (.mul (.div (.mul (.rat 4 1) (.par n!"GF")) (.sqrt (.rat 2 1))) (.neg (.conj (.add (.sub (.add (.neg (.div (.mul (.rat 8 1) (.inp n!"10dscu")) (.rat 3 1))) (.inp n!"5dscu")) (.div (.inp n!"6dscu") (.rat 6 1))) (.mul (.rat 16 1) (.inp n!"9dscu")))))))]

def Bern_to_JMS_1 : List (ℕ × Sym) := [
  (n!"VedRR_1323", (.mul (.div (.mul (.rat 4 1) (.par n!"GF")) (.sqrt (.rat 2 1))) (.add (.mul (.rat 6 1) (.inp n!"3psbetau")) (.add (.inp n!"1psbetau") (.mul (.rat 10 1) (.inp n!"3psbetau")))))),
  (n!"V1udLL_1113", (.mul (.div (.mul (.rat 4 1) (.par n!"GF")) (.sqrt (.rat 2 1))) (.add (.sub (.add (.sub (.inp n!"1dbuu") (.div (.inp n!"2dbuu") (.rat 6 1))) (.mul (.rat 16 1) (.inp n!"3dbuu"))) (.div (.mul (.rat 8 1) (.inp n!"4dbuu")) (.rat 3 1))) (.div (.add (.div (.inp n!"2dbuu") (.rat 2 1)) (.mul (.rat 8 1) (.inp n!"4dbuu"))) (.rat 3 1))))),
  (n!"S8uuRR_1212", (.mul (.div (.mul (.rat 4 1) (.par n!"GF")) (.sqrt (.rat 2 1))) (.mul (.rat 2 1) (.conj (.inp n!"3cucu"))))),
  (n!"V1udduLR_1211", (.mul (.div (.mul (.rat 4 1) (.par n!"GF")) (.sqrt (.rat 2 1))) (.sub (.neg (.div (.add (.sub (.add (.neg (.div (.mul (.rat 8 1) (.inp n!"10pdsuu")) (.rat 3 1))) (.inp n!"5pdsuu")) (.div (.inp n!"6pdsuu") (.rat 6 1))) (.mul (.rat 16 1) (.inp n!"9pdsuu"))) (.mul (.rat 2 1) (.rat 3 1)))) (.div (.add (.mul (.rat 8 1) (.inp n!"10pdsuu")) (.div (.inp n!"6pdsuu") (.rat 2 1))) (.rat 2 1))))),
  (n!"TedRR_2231", (.mul (.div (.mul (.rat 4 1) (.par n!"GF")) (.sqrt (.rat 2 1))) (.sub (.conj (.sub (.sub (.add (.div (.inp n!"7dbmumu") (.rat 2 1)) (.div (.inp n!"7pdbmumu") (.rat 2 1))) (.mul (.rat 8 1) (.inp n!"9dbmumu"))) (.mul (.rat 8 1) (.inp n!"9pdbmumu")))) (.conj (.add (.sub (.sub (.div (.inp n!"7dbmumu") (.rat 2 1)) (.div (.inp n!"7pdbmumu") (.rat 2 1))) (.mul (.rat 8 1) (.inp n!"9dbmumu"))) (.mul (.rat 8 1) (.inp n!"9pdbmumu"))))))),
  (n!"VnudLL_2321", (.mul (.div (.mul (.rat 4 1) (.par n!"GF")) (.sqrt (.rat 2 1))) (.conj (.inp n!"nu1dstaumu")))),
  (n!"V1ddLR_2311", (.mul (.div (.mul (.rat 4 1) (.par n!"GF")) (.sqrt (.rat 2 1))) (.add (.sub (.add (.sub (.inp n!"1sbdd") (.div (.inp n!"2sbdd") (.rat 6 1))) (.mul (.rat 4 1) (.inp n!"3sbdd"))) (.div (.mul (.rat 2 1) (.inp n!"4sbdd")) (.rat 3 1))) (.div (.add (.div (.inp n!"2sbdd") (.rat 2 1)) (.mul (.rat 2 1) (.inp n!"4sbdd"))) (.rat 3 1))))),
  (n!"TedRR_3313", (.mul (.div (.mul (.rat 4 1) (.par n!"GF")) (.sqrt (.rat 2 1))) (.add (.sub (.sub (.add (.div (.inp n!"7dbtautau") (.rat 2 1)) (.div (.inp n!"7pdbtautau") (.rat 2 1))) (.mul (.rat 8 1) (.inp n!"9dbtautau"))) (.mul (.rat 8 1) (.inp n!"9pdbtautau"))) (.add (.sub (.sub (.div (.inp n!"7dbtautau") (.rat 2 1)) (.div (.inp n!"7pdbtautau") (.rat 2 1))) (.mul (.rat 8 1) (.inp n!"9dbtautau"))) (.mul (.rat 8 1) (.inp n!"9pdbtautau")))))),
  (n!"VdeLR_1313", (.mul (.div (.mul (.rat 4 1) (.par n!"GF")) (.sqrt (.rat 2 1))) (.add (.mul (.rat (-6) 1) (.inp n!"3dbetau")) (.add (.inp n!"1dbetau") (.mul (.rat 10 1) (.inp n!"3dbetau")))))),
  (n!"TnueduRR_2111", (.mul (.div (.mul (.rat 4 1) (.par n!"GF")) (.sqrt (.rat 2 1))) (.conj (.inp n!"7pudemu")))),
  (n!"SnueduRL_3331", (.mul (.div (.mul (.rat 4 1) (.par n!"GF")) (.sqrt (.rat 2 1))) (.conj (.inp n!"5ubtautau")))),
  (n!"SnueduRL_1122", (.mul (.div (.mul (.rat 4 1) (.par n!"GF")) (.sqrt (.rat 2 1))) (.conj (.inp n!"5csee")))),
  (n!"SedRR_2232", (.mul (.div (.mul (.rat 4 1) (.par n!"GF")) (.sqrt (.rat 2 1))) (.add (.neg (.conj (.mul (.rat (-24) 1) (.inp n!"9psbmumu")))) (.conj (.add (.inp n!"5psbmumu") (.mul (.rat 40 1) (.inp n!"9psbmumu"))))))),
  (n!"VnueduLR_1231", (.mul (.div (.mul (.rat 4 1) (.par n!"GF")) (.sqrt (.rat 2 1))) (.conj (.inp n!"1pubmue")))),
  (n!"TnueduRR_2332", (.mul (.div (.mul (.rat 4 1) (.par n!"GF")) (.sqrt (.rat 2 1))) (.conj (.inp n!"7pcbtaumu")))),
  (n!"SnueduRR_1212", (.mul (.div (.mul (.rat 4 1) (.par n!"GF")) (.sqrt (.rat 2 1))) (.conj (.inp n!"5pcdmue")))),
  (n!"SedRL_1332", (.mul (.div (.mul (.rat 4 1) (.par n!"GF")) (.sqrt (.rat 2 1))) (.add (.neg (.conj (.mul (.rat 24 1) (.inp n!"9sbtaue")))) (.conj (.add (.inp n!"5sbtaue") (.mul (.rat 40 1) (.inp n!"9sbtaue"))))))),
  (n!"VnueduLL_3121", (.mul (.div (.mul (.rat 4 1) (.par n!"GF")) (.sqrt (.rat 2 1))) (.conj (.inp n!"1usetau")))),
  (n!"S1udduRR_2311", (.mul (.div (.mul (.rat 4 1) (.par n!"GF")) (.sqrt (.rat 2 1))) (.sub (.neg (.div (.mul (.rat 8 1) (.sub (.sub (.add (.div (.mul (.rat 8 1) (.inp n!"10dbcu")) (.rat 3 1)) (.inp n!"7dbcu")) (.div (.inp n!"8dbcu") (.rat 6 1))) (.mul (.rat 16 1) (.inp n!"9dbcu")))) (.rat 3 1))) (.mul (.rat 8 1) (.add (.mul (.rat (-8) 1) (.inp n!"10dbcu")) (.div (.inp n!"8dbcu") (.rat 2 1))))))),
  (n!"VnudLL_1231", (.mul (.div (.mul (.rat 4 1) (.par n!"GF")) (.sqrt (.rat 2 1))) (.conj (.inp n!"nu1dbmue")))),
  (n!"TedRR_2223", (.mul (.div (.mul (.rat 4 1) (.par n!"GF")) (.sqrt (.rat 2 1))) (.add (.sub (.sub (.add (.div (.inp n!"7sbmumu") (.rat 2 1)) (.div (.inp n!"7psbmumu") (.rat 2 1))) (.mul (.rat 8 1) (.inp n!"9sbmumu"))) (.mul (.rat 8 1) (.inp n!"9psbmumu"))) (.add (.sub (.sub (.div (.inp n!"7sbmumu") (.rat 2 1)) (.div (.inp n!"7psbmumu") (.rat 2 1))) (.mul (.rat 8 1) (.inp n!"9sbmumu"))) (.mul (.rat 8 1) (.inp n!"9psbmumu")))))),
  (n!"VnudLL_2313", (.mul (.div (.mul (.rat 4 1) (.par n!"GF")) (.sqrt (.rat 2 1))) (.inp n!"nu1dbmutau"))),
  (n!"VnueduLR_3211", (.mul (.div (.mul (.rat 4 1) (.par n!"GF")) (.sqrt (.rat 2 1))) (.conj (.inp n!"1pudmutau")))),
  (n!"V8duLR_1311", (.mul (.div (.mul (.rat 4 1) (.par n!"GF")) (.sqrt (.rat 2 1))) (.mul (.rat 2 1) (.add (.div (.inp n!"2dbuu") (.rat 2 1)) (.mul (.rat 2 1) (.inp n!"4dbuu")))))),
  (n!"VnudLR_1321", (.mul (.div (.mul (.rat 4 1) (.par n!"GF")) (.sqrt (.rat 2 1))) (.conj (.inp n!"nu1pdstaue")))),
  (n!"SnueduRR_2331", (.mul (.div (.mul (.rat 4 1) (.par n!"GF")) (.sqrt (.rat 2 1))) (.conj (.inp n!"5pubtaumu")))),
  (n!"SedRL_3312", (.mul (.div (.mul (.rat 4 1) (.par n!"GF")) (.sqrt (.rat 2 1))) (.add (.mul (.rat (-24) 1) (.inp n!"9pdstautau")) (.add (.inp n!"5pdstautau") (.mul (.rat 40 1) (.inp n!"9pdstautau")))))),
  (n!"V8udLR_1113", (.mul (.div (.mul (.rat 4 1) (.par n!"GF")) (.sqrt (.rat 2 1))) (.mul (.rat 2 1) (.add (.div (.inp n!"2pdbuu") (.rat 2 1)) (.mul (.rat 2 1) (.inp n!"4pdbuu")))))),
  (n!"VnueduLL_2311", (.mul (.div (.mul (.rat 4 1) (.par n!"GF")) (.sqrt (.rat 2 1))) (.conj (.inp n!"1udtaumu")))),
  (n!"VedRR_2213", (.mul (.div (.mul (.rat 4 1) (.par n!"GF")) (.sqrt (.rat 2 1))) (.add (.mul (.rat 6 1) (.inp n!"3pdbmumu")) (.add (.inp n!"1pdbmumu") (.mul (.rat 10 1) (.inp n!"3pdbmumu")))))),
  (n!"S8udduRR_1132", (.mul (.div (.mul (.rat 4 1) (.par n!"GF")) (.sqrt (.rat 2 1))) (.mul (.rat (-16) 1) (.conj (.sub (.sub (.add (.div (.mul (.rat 8 1) (.inp n!"10pdbcu")) (.rat 3 1)) (.inp n!"7pdbcu")) (.div (.inp n!"8pdbcu") (.rat 6 1))) (.mul (.rat 16 1) (.inp n!"9pdbcu"))))))),
  (n!"VedLL_1212", (.mul (.div (.mul (.rat 4 1) (.par n!"GF")) (.sqrt (.rat 2 1))) (.add (.neg (.mul (.rat (-6) 1) (.inp n!"3dsemu"))) (.add (.inp n!"1dsemu") (.mul (.rat 10 1) (.inp n!"3dsemu")))))),
  (n!"V1udRR_1112", (.mul (.div (.mul (.rat 4 1) (.par n!"GF")) (.sqrt (.rat 2 1))) (.add (.sub (.add (.sub (.inp n!"1pdsuu") (.div (.inp n!"2pdsuu") (.rat 6 1))) (.mul (.rat 16 1) (.inp n!"3pdsuu"))) (.div (.mul (.rat 8 1) (.inp n!"4pdsuu")) (.rat 3 1))) (.div (.add (.div (.inp n!"2pdsuu") (.rat 2 1)) (.mul (.rat 8 1) (.inp n!"4pdsuu"))) (.rat 3 1))))),
  (n!"V1udLR_1232", (.mul (.div (.mul (.rat 4 1) (.par n!"GF")) (.sqrt (.rat 2 1))) (.conj (.add (.sub (.add (.sub (.inp n!"1psbcu") (.div (.inp n!"2psbcu") (.rat 6 1))) (.mul (.rat 4 1) (.inp n!"3psbcu"))) (.div (.mul (.rat 2 1) (.inp n!"4psbcu")) (.rat 3 1))) (.div (.add (.div (.inp n!"2psbcu") (.rat 2 1)) (.mul (.rat 2 1) (.inp n!"4psbcu"))) (.rat 3 1)))))),
  (n!"TedRR_3121", (.mul (.div (.mul (.rat 4 1) (.par n!"GF")) (.sqrt (.rat 2 1))) (.sub (.conj (.sub (.sub (.add (.div (.inp n!"7dsetau") (.rat 2 1)) (.div (.inp n!"7pdsetau") (.rat 2 1))) (.mul (.rat 8 1) (.inp n!"9dsetau"))) (.mul (.rat 8 1) (.inp n!"9pdsetau")))) (.conj (.add (.sub (.sub (.div (.inp n!"7dsetau") (.rat 2 1)) (.div (.inp n!"7pdsetau") (.rat 2 1))) (.mul (.rat 8 1) (.inp n!"9dsetau"))) (.mul (.rat 8 1) (.inp n!"9pdsetau"))))))),
  (n!"S1ddRR_1132", (.mul (.div (.mul (.rat 4 1) (.par n!"GF")) (.sqrt (.rat 2 1))) (.sub (.sub (.add (.conj (.add (.sub (.add (.neg (.div (.mul (.rat 32 1) (.inp n!"10psbdd")) (.rat 3 1))) (.inp n!"5psbdd")) (.div (.inp n!"6psbdd") (.rat 6 1))) (.mul (.rat 64 1) (.inp n!"9psbdd")))) (.div (.conj (.add (.mul (.rat 32 1) (.inp n!"10psbdd")) (.div (.inp n!"6psbdd") (.rat 2 1)))) (.rat 3 1))) (.mul (.rat 4 1) (.conj (.sub (.sub (.add (.div (.mul (.rat 8 1) (.inp n!"10psbdd")) (.rat 3 1)) (.inp n!"7psbdd")) (.div (.inp n!"8psbdd") (.rat 6 1))) (.mul (.rat 16 1) (.inp n!"9psbdd")))))) (.div (.mul (.rat 4 1) (.conj (.add (.mul (.rat (-8) 1) (.inp n!"10psbdd")) (.div (.inp n!"8psbdd") (.rat 2 1))))) (.rat 3 1))))),
  (n!"V1udduLR_2322", (.mul (.div (.mul (.rat 4 1) (.par n!"GF")) (.sqrt (.rat 2 1))) (.sub (.neg (.div (.add (.sub (.add (.neg (.div (.mul (.rat 8 1) (.inp n!"10psbcc")) (.rat 3 1))) (.inp n!"5psbcc")) (.div (.inp n!"6psbcc") (.rat 6 1))) (.mul (.rat 16 1) (.inp n!"9psbcc"))) (.mul (.rat 2 1) (.rat 3 1)))) (.div (.add (.mul (.rat 8 1) (.inp n!"10psbcc")) (.div (.inp n!"6psbcc") (.rat 2 1))) (.rat 2 1))))),
  (n!"VnudLL_1223", (.mul (.div (.mul (.rat 4 1) (.par n!"GF")) (.sqrt (.rat 2 1))) (.inp n!"nu1sbemu"))),
  (n!"VnueduLR_2121", (.mul (.div (.mul (.rat 4 1) (.par n!"GF")) (.sqrt (.rat 2 1))) (.conj (.inp n!"1pusemu")))),
  (n!"V1ddLR_1213", (.mul (.div (.mul (.rat 4 1) (.par n!"GF")) (.sqrt (.rat 2 1))) (.add (.add (.inp n!"1pdbds") (.mul (.rat 4 1) (.inp n!"3pdbds"))) (.div (.mul (.div (.rat (-1) 1) (.rat 2 1)) (.add (.inp n!"5pdbds") (.mul (.rat 16 1) (.inp n!"9pdbds")))) (.rat 3 1))))),
  (n!"TnueduRR_3222", (.mul (.div (.mul (.rat 4 1) (.par n!"GF")) (.sqrt (.rat 2 1))) (.conj (.inp n!"7pcsmutau")))),
  (n!"VnudLR_1313", (.mul (.div (.mul (.rat 4 1) (.par n!"GF")) (.sqrt (.rat 2 1))) (.inp n!"nu1pdbetau"))),
  (n!"S8ddRR_2132", (.mul (.div (.mul (.rat 4 1) (.par n!"GF")) (.sqrt (.rat 2 1))) (.mul (.rat (-16) 1) (.conj (.sub (.sub (.add (.div (.mul (.rat 8 1) (.inp n!"10pdbss")) (.rat 3 1)) (.inp n!"7pdbss")) (.div (.inp n!"8pdbss") (.rat 6 1))) (.mul (.rat 16 1) (.inp n!"9pdbss"))))))),
  (n!"VnueduLL_1221", (.mul (.div (.mul (.rat 4 1) (.par n!"GF")) (.sqrt (.rat 2 1))) (.conj (.inp n!"1usmue")))),
  (n!"VedRR_1123", (.mul (.div (.mul (.rat 4 1) (.par n!"GF")) (.sqrt (.rat 2 1))) (.add (.mul (.rat 6 1) (.inp n!"3psbee")) (.add (.inp n!"1psbee") (.mul (.rat 10 1) (.inp n!"3psbee")))))),
  (n!"VedLL_2331", (.mul (.div (.mul (.rat 4 1) (.par n!"GF")) (.sqrt (.rat 2 1))) (.conj (.add (.neg (.mul (.rat (-6) 1) (.inp n!"3dbtaumu"))) (.add (.inp n!"1dbtaumu") (.mul (.rat 10 1) (.inp n!"3dbtaumu"))))))),
  (n!"SedRR_2312", (.mul (.div (.mul (.rat 4 1) (.par n!"GF")) (.sqrt (.rat 2 1))) (.add (.mul (.rat 24 1) (.inp n!"9dsmutau")) (.add (.inp n!"5dsmutau") (.mul (.rat 40 1) (.inp n!"9dsmutau")))))),
  (n!"VnueduLR_1311", (.mul (.div (.mul (.rat 4 1) (.par n!"GF")) (.sqrt (.rat 2 1))) (.conj (.inp n!"1pudtaue")))),
  (n!"V8ddLR_2213", (.mul (.div (.mul (.rat 4 1) (.par n!"GF")) (.sqrt (.rat 2 1))) (.mul (.rat 2 1) (.add (.div (.inp n!"2pdbss") (.rat 2 1)) (.mul (.rat 2 1) (.inp n!"4pdbss")))))),
  (n!"V1udduLR_1232", (.mul (.div (.mul (.rat 4 1) (.par n!"GF")) (.sqrt (.rat 2 1))) (.sub (.neg (.div (.conj (.add (.sub (.add (.neg (.div (.mul (.rat 8 1) (.inp n!"10sbcu")) (.rat 3 1))) (.inp n!"5sbcu")) (.div (.inp n!"6sbcu") (.rat 6 1))) (.mul (.rat 16 1) (.inp n!"9sbcu")))) (.mul (.rat 2 1) (.rat 3 1)))) (.div (.conj (.add (.mul (.rat 8 1) (.inp n!"10sbcu")) (.div (.inp n!"6sbcu") (.rat 2 1)))) (.rat 2 1)))))]

def Bern_to_JMS_2 : List (ℕ × Sym) := [
  (n!"V8udduLR_2321", (.mul (.div (.mul (.rat 4 1) (.par n!"GF")) (.sqrt (.rat 2 1))) (.neg (.add (.sub (.add (.neg (.div (.mul (.rat 8 1) (.inp n!"10psbcu")) (.rat 3 1))) (.inp n!"5psbcu")) (.div (.inp n!"6psbcu") (.rat 6 1))) (.mul (.rat 16 1) (.inp n!"9psbcu")))))),
  (n!"TedRR_3113", (.mul (.div (.mul (.rat 4 1) (.par n!"GF")) (.sqrt (.rat 2 1))) (.add (.sub (.sub (.add (.div (.inp n!"7dbtaue") (.rat 2 1)) (.div (.inp n!"7pdbtaue") (.rat 2 1))) (.mul (.rat 8 1) (.inp n!"9dbtaue"))) (.mul (.rat 8 1) (.inp n!"9pdbtaue"))) (.add (.sub (.sub (.div (.inp n!"7dbtaue") (.rat 2 1)) (.div (.inp n!"7pdbtaue") (.rat 2 1))) (.mul (.rat 8 1) (.inp n!"9dbtaue"))) (.mul (.rat 8 1) (.inp n!"9pdbtaue")))))),
  (n!"S8ddRR_1322", (.mul (.div (.mul (.rat 4 1) (.par n!"GF")) (.sqrt (.rat 2 1))) (.sub (.mul (.rat 2 1) (.add (.mul (.rat 32 1) (.inp n!"10dbss")) (.div (.inp n!"6dbss") (.rat 2 1)))) (.mul (.rat 8 1) (.add (.mul (.rat (-8) 1) (.inp n!"10dbss")) (.div (.inp n!"8dbss") (.rat 2 1))))))),
  (n!"SnueduRL_3131", (.mul (.div (.mul (.rat 4 1) (.par n!"GF")) (.sqrt (.rat 2 1))) (.conj (.inp n!"5ubetau")))),
  (n!"TnueduRR_2132", (.mul (.div (.mul (.rat 4 1) (.par n!"GF")) (.sqrt (.rat 2 1))) (.conj (.inp n!"7pcbemu")))),
  (n!"V1uuLR_1212", (.mul (.div (.mul (.rat 4 1) (.par n!"GF")) (.sqrt (.rat 2 1))) (.conj (.sub (.div (.neg (.inp n!"4cucu")) (.rat 6 1)) (.div (.inp n!"5cucu") (.rat 2 1)))))),
  (n!"dgamma_21", (.mul (.div (.mul (.rat 4 1) (.par n!"GF")) (.sqrt (.rat 2 1))) (.conj (.div (.inp n!"7pgammads") (.div (.div (.mul (.sqrt (.mul (.mul (.rat 4 1) .pi) (.par n!"alpha_s"))) (.sqrt (.mul (.mul (.rat 4 1) .pi) (.par n!"alpha_s")))) (.sqrt (.mul (.mul (.rat 4 1) .pi) (.par n!"alpha_e")))) (.par n!"m_s")))))),
  (n!"SnueduRR_3221", (.mul (.div (.mul (.rat 4 1) (.par n!"GF")) (.sqrt (.rat 2 1))) (.conj (.inp n!"5pusmutau")))),
  (n!"TedRR_1221", (.mul (.div (.mul (.rat 4 1) (.par n!"GF")) (.sqrt (.rat 2 1))) (.sub (.conj (.sub (.sub (.add (.div (.inp n!"7dsmue") (.rat 2 1)) (.div (.inp n!"7pdsmue") (.rat 2 1))) (.mul (.rat 8 1) (.inp n!"9dsmue"))) (.mul (.rat 8 1) (.inp n!"9pdsmue")))) (.conj (.add (.sub (.sub (.div (.inp n!"7dsmue") (.rat 2 1)) (.div (.inp n!"7pdsmue") (.rat 2 1))) (.mul (.rat 8 1) (.inp n!"9dsmue"))) (.mul (.rat 8 1) (.inp n!"9pdsmue"))))))),
  (n!"SedRL_1132", (.mul (.div (.mul (.rat 4 1) (.par n!"GF")) (.sqrt (.rat 2 1))) (.add (.neg (.conj (.mul (.rat 24 1) (.inp n!"9sbee")))) (.conj (.add (.inp n!"5sbee") (.mul (.rat 40 1) (.inp n!"9sbee"))))))),
  (n!"S8udRR_1112", (.mul (.div (.mul (.rat 4 1) (.par n!"GF")) (.sqrt (.rat 2 1))) (.sub (.mul (.rat 2 1) (.add (.mul (.rat 32 1) (.inp n!"10dsuu")) (.div (.inp n!"6dsuu") (.rat 2 1)))) (.mul (.rat 8 1) (.add (.mul (.rat (-8) 1) (.inp n!"10dsuu")) (.div (.inp n!"8dsuu") (.rat 2 1))))))),
  (n!"SnueduRL_2321", (.mul (.div (.mul (.rat 4 1) (.par n!"GF")) (.sqrt (.rat 2 1))) (.conj (.inp n!"5ustaumu")))),
  (n!"TnueduRR_1322", (.mul (.div (.mul (.rat 4 1) (.par n!"GF")) (.sqrt (.rat 2 1))) (.conj (.inp n!"7pcstaue")))),
  (n!"VedLL_2323", (.mul (.div (.mul (.rat 4 1) (.par n!"GF")) (.sqrt (.rat 2 1))) (.add (.neg (.mul (.rat (-6) 1) (.inp n!"3sbmutau"))) (.add (.inp n!"1sbmutau") (.mul (.rat 10 1) (.inp n!"3sbmutau")))))),
  (n!"V1udRR_2223", (.mul (.div (.mul (.rat 4 1) (.par n!"GF")) (.sqrt (.rat 2 1))) (.add (.sub (.add (.sub (.inp n!"1psbcc") (.div (.inp n!"2psbcc") (.rat 6 1))) (.mul (.rat 16 1) (.inp n!"3psbcc"))) (.div (.mul (.rat 8 1) (.inp n!"4psbcc")) (.rat 3 1))) (.div (.add (.div (.inp n!"2psbcc") (.rat 2 1)) (.mul (.rat 8 1) (.inp n!"4psbcc"))) (.rat 3 1))))),
  (n!"V8ddLR_1123", (.mul (.div (.mul (.rat 4 1) (.par n!"GF")) (.sqrt (.rat 2 1))) (.mul (.rat 2 1) (.add (.div (.inp n!"2psbdd") (.rat 2 1)) (.mul (.rat 2 1) (.inp n!"4psbdd")))))),
  (n!"VedLR_1331", (.mul (.div (.mul (.rat 4 1) (.par n!"GF")) (.sqrt (.rat 2 1))) (.conj (.add (.neg (.mul (.rat 6 1) (.inp n!"3pdbtaue"))) (.add (.inp n!"1pdbtaue") (.mul (.rat 10 1) (.inp n!"3pdbtaue"))))))),
  (n!"S1udRR_1231", (.mul (.div (.mul (.rat 4 1) (.par n!"GF")) (.sqrt (.rat 2 1))) (.sub (.sub (.add (.conj (.add (.sub (.add (.neg (.div (.mul (.rat 32 1) (.inp n!"10pdbcu")) (.rat 3 1))) (.inp n!"5pdbcu")) (.div (.inp n!"6pdbcu") (.rat 6 1))) (.mul (.rat 64 1) (.inp n!"9pdbcu")))) (.div (.conj (.add (.mul (.rat 32 1) (.inp n!"10pdbcu")) (.div (.inp n!"6pdbcu") (.rat 2 1)))) (.rat 3 1))) (.mul (.rat 4 1) (.conj (.sub (.sub (.add (.div (.mul (.rat 8 1) (.inp n!"10pdbcu")) (.rat 3 1)) (.inp n!"7pdbcu")) (.div (.inp n!"8pdbcu") (.rat 6 1))) (.mul (.rat 16 1) (.inp n!"9pdbcu")))))) (.div (.mul (.rat 4 1) (.conj (.add (.mul (.rat (-8) 1) (.inp n!"10pdbcu")) (.div (.inp n!"8pdbcu") (.rat 2 1))))) (.rat 3 1))))),
  (n!"V8udduLR_1231", (.mul (.div (.mul (.rat 4 1) (.par n!"GF")) (.sqrt (.rat 2 1))) (.neg (.conj (.add (.sub (.add (.neg (.div (.mul (.rat 8 1) (.inp n!"10sbuu")) (.rat 3 1))) (.inp n!"5sbuu")) (.div (.inp n!"6sbuu") (.rat 6 1))) (.mul (.rat 16 1) (.inp n!"9sbuu"))))))),
  (n!"S8udduRR_1212", (.mul (.div (.mul (.rat 4 1) (.par n!"GF")) (.sqrt (.rat 2 1))) (.mul (.rat (-16) 1) (.sub (.sub (.add (.div (.mul (.rat 8 1) (.inp n!"10dsuc")) (.rat 3 1)) (.inp n!"7dsuc")) (.div (.inp n!"8dsuc") (.rat 6 1))) (.mul (.rat 16 1) (.inp n!"9dsuc")))))),
  (n!"VnueduLR_3232", (.mul (.div (.mul (.rat 4 1) (.par n!"GF")) (.sqrt (.rat 2 1))) (.conj (.inp n!"1pcbmutau")))),
  (n!"S1ddRR_1212", (.mul (.div (.mul (.rat 4 1) (.par n!"GF")) (.sqrt (.rat 2 1))) (.add (.inp n!"2pdsds") (.div (.inp n!"3pdsds") (.rat 3 1))))),
  (n!"SnueduRR_2131", (.mul (.div (.mul (.rat 4 1) (.par n!"GF")) (.sqrt (.rat 2 1))) (.conj (.inp n!"5pubemu")))),
  (n!"SedRL_3112", (.mul (.div (.mul (.rat 4 1) (.par n!"GF")) (.sqrt (.rat 2 1))) (.add (.mul (.rat (-24) 1) (.inp n!"9pdstaue")) (.add (.inp n!"5pdstaue") (.mul (.rat 40 1) (.inp n!"9pdstaue")))))),
  (n!"dgamma_13", (.mul (.div (.mul (.rat 4 1) (.par n!"GF")) (.sqrt (.rat 2 1))) (.div (.inp n!"7gammadb") (.div (.div (.mul (.sqrt (.mul (.mul (.rat 4 1) .pi) (.par n!"alpha_s"))) (.sqrt (.mul (.mul (.rat 4 1) .pi) (.par n!"alpha_s")))) (.sqrt (.mul (.mul (.rat 4 1) .pi) (.par n!"alpha_e")))) (.par n!"m_b"))))),
  (n!"VnueduLL_2111", (.mul (.div (.mul (.rat 4 1) (.par n!"GF")) (.sqrt (.rat 2 1))) (.conj (.inp n!"1udemu")))),
  (n!"S8udRR_2231", (.mul (.div (.mul (.rat 4 1) (.par n!"GF")) (.sqrt (.rat 2 1))) (.sub (.mul (.rat 2 1) (.conj (.add (.mul (.rat 32 1) (.inp n!"10pdbcc")) (.div (.inp n!"6pdbcc") (.rat 2 1))))) (.mul (.rat 8 1) (.conj (.add (.mul (.rat (-8) 1) (.inp n!"10pdbcc")) (.div (.inp n!"8pdbcc") (.rat 2 1)))))))),
  (n!"TedRR_1213", (.mul (.div (.mul (.rat 4 1) (.par n!"GF")) (.sqrt (.rat 2 1))) (.add (.sub (.sub (.add (.div (.inp n!"7dbemu") (.rat 2 1)) (.div (.inp n!"7pdbemu") (.rat 2 1))) (.mul (.rat 8 1) (.inp n!"9dbemu"))) (.mul (.rat 8 1) (.inp n!"9pdbemu"))) (.add (.sub (.sub (.div (.inp n!"7dbemu") (.rat 2 1)) (.div (.inp n!"7pdbemu") (.rat 2 1))) (.mul (.rat 8 1) (.inp n!"9dbemu"))) (.mul (.rat 8 1) (.inp n!"9pdbemu")))))),
  (n!"V1duLR_2312", (.mul (.div (.mul (.rat 4 1) (.par n!"GF")) (.sqrt (.rat 2 1))) (.add (.sub (.add (.sub (.inp n!"1sbuc") (.div (.inp n!"2sbuc") (.rat 6 1))) (.mul (.rat 4 1) (.inp n!"3sbuc"))) (.div (.mul (.rat 2 1) (.inp n!"4sbuc")) (.rat 3 1))) (.div (.add (.div (.inp n!"2sbuc") (.rat 2 1)) (.mul (.rat 2 1) (.inp n!"4sbuc"))) (.rat 3 1))))),
  (n!"VnueduLL_2332", (.mul (.div (.mul (.rat 4 1) (.par n!"GF")) (.sqrt (.rat 2 1))) (.conj (.inp n!"1cbtaumu")))),
  (n!"VddLL_1212", (.mul (.div (.mul (.rat 4 1) (.par n!"GF")) (.sqrt (.rat 2 1))) (.inp n!"1dsds"))),
  (n!"SnueduRL_1231", (.mul (.div (.mul (.rat 4 1) (.par n!"GF")) (.sqrt (.rat 2 1))) (.conj (.inp n!"5ubmue")))),
  (n!"V1udduLR_2122", (.mul (.div (.mul (.rat 4 1) (.par n!"GF")) (.sqrt (.rat 2 1))) (.sub (.neg (.div (.conj (.add (.sub (.add (.neg (.div (.mul (.rat 8 1) (.inp n!"10dscc")) (.rat 3 1))) (.inp n!"5dscc")) (.div (.inp n!"6dscc") (.rat 6 1))) (.mul (.rat 16 1) (.inp n!"9dscc")))) (.mul (.rat 2 1) (.rat 3 1)))) (.div (.conj (.add (.mul (.rat 8 1) (.inp n!"10dscc")) (.div (.inp n!"6dscc") (.rat 2 1)))) (.rat 2 1))))),
  (n!"SnueduRR_1321", (.mul (.div (.mul (.rat 4 1) (.par n!"GF")) (.sqrt (.rat 2 1))) (.conj (.inp n!"5pustaue")))),
  (n!"VedLR_1323", (.mul (.div (.mul (.rat 4 1) (.par n!"GF")) (.sqrt (.rat 2 1))) (.add (.neg (.mul (.rat 6 1) (.inp n!"3psbetau"))) (.add (.inp n!"1psbetau") (.mul (.rat 10 1) (.inp n!"3psbetau")))))),
  (n!"S1udRR_1223", (.mul (.div (.mul (.rat 4 1) (.par n!"GF")) (.sqrt (.rat 2 1))) (.sub (.sub (.add (.add (.sub (.add (.neg (.div (.mul (.rat 32 1) (.inp n!"10sbuc")) (.rat 3 1))) (.inp n!"5sbuc")) (.div (.inp n!"6sbuc") (.rat 6 1))) (.mul (.rat 64 1) (.inp n!"9sbuc"))) (.div (.add (.mul (.rat 32 1) (.inp n!"10sbuc")) (.div (.inp n!"6sbuc") (.rat 2 1))) (.rat 3 1))) (.mul (.rat 4 1) (.sub (.sub (.add (.div (.mul (.rat 8 1) (.inp n!"10sbuc")) (.rat 3 1)) (.inp n!"7sbuc")) (.div (.inp n!"8sbuc") (.rat 6 1))) (.mul (.rat 16 1) (.inp n!"9sbuc"))))) (.div (.mul (.rat 4 1) (.add (.mul (.rat (-8) 1) (.inp n!"10sbuc")) (.div (.inp n!"8sbuc") (.rat 2 1)))) (.rat 3 1))))),
  (n!"V8ddLR_1211", (.mul (.div (.mul (.rat 4 1) (.par n!"GF")) (.sqrt (.rat 2 1))) (.neg (.add (.inp n!"5dsdd") (.mul (.rat 16 1) (.inp n!"9dsdd")))))),
  (n!"S1ddRR_2331", (.mul (.div (.mul (.rat 4 1) (.par n!"GF")) (.sqrt (.rat 2 1))) (.sub (.neg (.div (.mul (.rat 8 1) (.conj (.sub (.sub (.add (.div (.mul (.rat 8 1) (.inp n!"10pdsbb")) (.rat 3 1)) (.inp n!"7pdsbb")) (.div (.inp n!"8pdsbb") (.rat 6 1))) (.mul (.rat 16 1) (.inp n!"9pdsbb"))))) (.rat 3 1))) (.mul (.rat 8 1) (.conj (.add (.mul (.rat (-8) 1) (.inp n!"10pdsbb")) (.div (.inp n!"8pdsbb") (.rat 2 1)))))))),
  (n!"VnudLR_1113", (.mul (.div (.mul (.rat 4 1) (.par n!"GF")) (.sqrt (.rat 2 1))) (.inp n!"nu1pdbee"))),
  (n!"VddRR_1123", (.mul (.div (.mul (.rat 4 1) (.par n!"GF")) (.sqrt (.rat 2 1))) (.sub (.add (.sub (.inp n!"1psbdd") (.div (.inp n!"2psbdd") (.rat 6 1))) (.mul (.rat 16 1) (.inp n!"3psbdd"))) (.div (.mul (.rat 8 1) (.inp n!"4psbdd")) (.rat 3 1))))),
  (n!"V1udduLR_1312", (.mul (.div (.mul (.rat 4 1) (.par n!"GF")) (.sqrt (.rat 2 1))) (.sub (.neg (.div (.add (.sub (.add (.neg (.div (.mul (.rat 8 1) (.inp n!"10pdbuc")) (.rat 3 1))) (.inp n!"5pdbuc")) (.div (.inp n!"6pdbuc") (.rat 6 1))) (.mul (.rat 16 1) (.inp n!"9pdbuc"))) (.mul (.rat 2 1) (.rat 3 1)))) (.div (.add (.mul (.rat 8 1) (.inp n!"10pdbuc")) (.div (.inp n!"6pdbuc") (.rat 2 1))) (.rat 2 1))))),
  (n!"TedRR_2332", (.mul (.div (.mul (.rat 4 1) (.par n!"GF")) (.sqrt (.rat 2 1))) (.sub (.conj (.sub (.sub (.add (.div (.inp n!"7sbtaumu") (.rat 2 1)) (.div (.inp n!"7psbtaumu") (.rat 2 1))) (.mul (.rat 8 1) (.inp n!"9sbtaumu"))) (.mul (.rat 8 1) (.inp n!"9psbtaumu")))) (.conj (.add (.sub (.sub (.div (.inp n!"7sbtaumu") (.rat 2 1)) (.div (.inp n!"7psbtaumu") (.rat 2 1))) (.mul (.rat 8 1) (.inp n!"9sbtaumu"))) (.mul (.rat 8 1) (.inp n!"9psbtaumu"))))))),
  (n!"V1duLR_1222", (.mul (.div (.mul (.rat 4 1) (.par n!"GF")) (.sqrt (.rat 2 1))) (.add (.sub (.add (.sub (.inp n!"1dscc") (.div (.inp n!"2dscc") (.rat 6 1))) (.mul (.rat 4 1) (.inp n!"3dscc"))) (.div (.mul (.rat 2 1) (.inp n!"4dscc")) (.rat 3 1))) (.div (.add (.div (.inp n!"2dscc") (.rat 2 1)) (.mul (.rat 2 1) (.inp n!"4dscc"))) (.rat 3 1))))),
  (n!"SnueduRL_3211", (.mul (.div (.mul (.rat 4 1) (.par n!"GF")) (.sqrt (.rat 2 1))) (.conj (.inp n!"5udmutau")))),
  (n!"SedRR_2112", (.mul (.div (.mul (.rat 4 1) (.par n!"GF")) (.sqrt (.rat 2 1))) (.add (.mul (.rat 24 1) (.inp n!"9dsmue")) (.add (.inp n!"5dsmue") (.mul (.rat 40 1) (.inp n!"9dsmue")))))),
  (n!"VnueduLR_1111", (.mul (.div (.mul (.rat 4 1) (.par n!"GF")) (.sqrt (.rat 2 1))) (.conj (.inp n!"1pudee")))),
  (n!"S8udRR_2223", (.mul (.div (.mul (.rat 4 1) (.par n!"GF")) (.sqrt (.rat 2 1))) (.sub (.mul (.rat 2 1) (.add (.mul (.rat 32 1) (.inp n!"10sbcc")) (.div (.inp n!"6sbcc") (.rat 2 1)))) (.mul (.rat 8 1) (.add (.mul (.rat (-8) 1) (.inp n!"10sbcc")) (.div (.inp n!"8sbcc") (.rat 2 1))))))),
  (n!"dG_12", (.mul (.div (.mul (.rat 4 1) (.par n!"GF")) (.sqrt (.rat 2 1))) (.div (.inp n!"8gds") (.div (.sqrt (.mul (.mul (.rat 4 1) .pi) (.par n!"alpha_s"))) (.par n!"m_s"))))),
  (n!"TnueduRR_2212", (.mul (.div (.mul (.rat 4 1) (.par n!"GF")) (.sqrt (.rat 2 1))) (.conj (.inp n!"7pcdmumu")))),
  (n!"S1ddRR_3133", (.mul (.div (.mul (.rat 4 1) (.par n!"GF")) (.sqrt (.rat 2 1))) (.sub (.neg (.div (.mul (.rat 8 1) (.conj (.sub (.inp n!"7pdbbb") (.mul (.rat 16 1) (.inp n!"9pdbbb"))))) (.rat 3 1))) (.mul (.rat 8 1) (.conj (.add (.mul (.div (.rat (-1) 1) (.rat 8 1)) (.add (.inp n!"5pdbbb") (.mul (.rat 64 1) (.inp n!"9pdbbb")))) (.mul (.div (.rat 1 1) (.rat 2 1)) (.sub (.inp n!"7pdbbb") (.mul (.rat 16 1) (.inp n!"9pdbbb"))))))))))]

def Bern_to_JMS_3 : List (ℕ × Sym) := [
  (n!"S1udRR_2121", (.mul (.div (.mul (.rat 4 1) (.par n!"GF")) (.sqrt (.rat 2 1))) (.sub (.sub (.add (.conj (.add (.sub (.add (.neg (.div (.mul (.rat 32 1) (.inp n!"10pdsuc")) (.rat 3 1))) (.inp n!"5pdsuc")) (.div (.inp n!"6pdsuc") (.rat 6 1))) (.mul (.rat 64 1) (.inp n!"9pdsuc")))) (.div (.conj (.add (.mul (.rat 32 1) (.inp n!"10pdsuc")) (.div (.inp n!"6pdsuc") (.rat 2 1)))) (.rat 3 1))) (.mul (.rat 4 1) (.conj (.sub (.sub (.add (.div (.mul (.rat 8 1) (.inp n!"10pdsuc")) (.rat 3 1)) (.inp n!"7pdsuc")) (.div (.inp n!"8pdsuc") (.rat 6 1))) (.mul (.rat 16 1) (.inp n!"9pdsuc")))))) (.div (.mul (.rat 4 1) (.conj (.add (.mul (.rat (-8) 1) (.inp n!"10pdsuc")) (.div (.inp n!"8pdsuc") (.rat 2 1))))) (.rat 3 1))))),
  (n!"VnueduLR_1332", (.mul (.div (.mul (.rat 4 1) (.par n!"GF")) (.sqrt (.rat 2 1))) (.conj (.inp n!"1pcbtaue")))),
  (n!"V8udduLR_2121", (.mul (.div (.mul (.rat 4 1) (.par n!"GF")) (.sqrt (.rat 2 1))) (.neg (.conj (.add (.sub (.add (.neg (.div (.mul (.rat 8 1) (.inp n!"10dsuc")) (.rat 3 1))) (.inp n!"5dsuc")) (.div (.inp n!"6dsuc") (.rat 6 1))) (.mul (.rat 16 1) (.inp n!"9dsuc"))))))),
  (n!"SedRL_1212", (.mul (.div (.mul (.rat 4 1) (.par n!"GF")) (.sqrt (.rat 2 1))) (.add (.mul (.rat (-24) 1) (.inp n!"9pdsemu")) (.add (.inp n!"5pdsemu") (.mul (.rat 40 1) (.inp n!"9pdsemu")))))),
  (n!"VedLL_1321", (.mul (.div (.mul (.rat 4 1) (.par n!"GF")) (.sqrt (.rat 2 1))) (.conj (.add (.neg (.mul (.rat (-6) 1) (.inp n!"3dstaue"))) (.add (.inp n!"1dstaue") (.mul (.rat 10 1) (.inp n!"3dstaue"))))))),
  (n!"V1udRR_1221", (.mul (.div (.mul (.rat 4 1) (.par n!"GF")) (.sqrt (.rat 2 1))) (.conj (.add (.sub (.add (.sub (.inp n!"1pdscu") (.div (.inp n!"2pdscu") (.rat 6 1))) (.mul (.rat 16 1) (.inp n!"3pdscu"))) (.div (.mul (.rat 8 1) (.inp n!"4pdscu")) (.rat 3 1))) (.div (.add (.div (.inp n!"2pdscu") (.rat 2 1)) (.mul (.rat 8 1) (.inp n!"4pdscu"))) (.rat 3 1)))))),
  (n!"S1ddRR_2323", (.mul (.div (.mul (.rat 4 1) (.par n!"GF")) (.sqrt (.rat 2 1))) (.add (.inp n!"2psbsb") (.div (.inp n!"3psbsb") (.rat 3 1))))),
  (n!"V8udduLR_1311", (.mul (.div (.mul (.rat 4 1) (.par n!"GF")) (.sqrt (.rat 2 1))) (.neg (.add (.sub (.add (.neg (.div (.mul (.rat 8 1) (.inp n!"10pdbuu")) (.rat 3 1))) (.inp n!"5pdbuu")) (.div (.inp n!"6pdbuu") (.rat 6 1))) (.mul (.rat 16 1) (.inp n!"9pdbuu")))))),
  (n!"VdeLR_2312", (.mul (.div (.mul (.rat 4 1) (.par n!"GF")) (.sqrt (.rat 2 1))) (.add (.mul (.rat (-6) 1) (.inp n!"3sbemu")) (.add (.inp n!"1sbemu") (.mul (.rat 10 1) (.inp n!"3sbemu")))))),
  (n!"VnueduLL_3222", (.mul (.div (.mul (.rat 4 1) (.par n!"GF")) (.sqrt (.rat 2 1))) (.conj (.inp n!"1csmutau")))),
  (n!"SnueduRL_2121", (.mul (.div (.mul (.rat 4 1) (.par n!"GF")) (.sqrt (.rat 2 1))) (.conj (.inp n!"5usemu")))),
  (n!"VnudLL_1332", (.mul (.div (.mul (.rat 4 1) (.par n!"GF")) (.sqrt (.rat 2 1))) (.conj (.inp n!"nu1sbtaue")))),
  (n!"SedRR_3231", (.mul (.div (.mul (.rat 4 1) (.par n!"GF")) (.sqrt (.rat 2 1))) (.add (.neg (.conj (.mul (.rat (-24) 1) (.inp n!"9pdbmutau")))) (.conj (.add (.inp n!"5pdbmutau") (.mul (.rat 40 1) (.inp n!"9pdbmutau"))))))),
  (n!"V1ddLR_1322", (.mul (.div (.mul (.rat 4 1) (.par n!"GF")) (.sqrt (.rat 2 1))) (.add (.sub (.add (.sub (.inp n!"1dbss") (.div (.inp n!"2dbss") (.rat 6 1))) (.mul (.rat 4 1) (.inp n!"3dbss"))) (.div (.mul (.rat 2 1) (.inp n!"4dbss")) (.rat 3 1))) (.div (.add (.div (.inp n!"2dbss") (.rat 2 1)) (.mul (.rat 2 1) (.inp n!"4dbss"))) (.rat 3 1))))),
  (n!"TnueduRR_3331", (.mul (.div (.mul (.rat 4 1) (.par n!"GF")) (.sqrt (.rat 2 1))) (.conj (.inp n!"7pubtautau")))),
  (n!"VddLL_2323", (.mul (.div (.mul (.rat 4 1) (.par n!"GF")) (.sqrt (.rat 2 1))) (.inp n!"1sbsb"))),
  (n!"TnueduRR_1122", (.mul (.div (.mul (.rat 4 1) (.par n!"GF")) (.sqrt (.rat 2 1))) (.conj (.inp n!"7pcsee")))),
  (n!"VnueduLR_3312", (.mul (.div (.mul (.rat 4 1) (.par n!"GF")) (.sqrt (.rat 2 1))) (.conj (.inp n!"1pcdtautau")))),
  (n!"SnueduRR_2211", (.mul (.div (.mul (.rat 4 1) (.par n!"GF")) (.sqrt (.rat 2 1))) (.conj (.inp n!"5pudmumu")))),
  (n!"SedRL_2331", (.mul (.div (.mul (.rat 4 1) (.par n!"GF")) (.sqrt (.rat 2 1))) (.add (.neg (.conj (.mul (.rat 24 1) (.inp n!"9dbtaumu")))) (.conj (.add (.inp n!"5dbtaumu") (.mul (.rat 40 1) (.inp n!"9dbtaumu"))))))),
  (n!"VedRR_1232", (.mul (.div (.mul (.rat 4 1) (.par n!"GF")) (.sqrt (.rat 2 1))) (.conj (.add (.mul (.rat 6 1) (.inp n!"3psbmue")) (.add (.inp n!"1psbmue") (.mul (.rat 10 1) (.inp n!"3psbmue"))))))),
  (n!"S1udduRR_2132", (.mul (.div (.mul (.rat 4 1) (.par n!"GF")) (.sqrt (.rat 2 1))) (.sub (.neg (.div (.mul (.rat 8 1) (.conj (.sub (.sub (.add (.div (.mul (.rat 8 1) (.inp n!"10pdbcc")) (.rat 3 1)) (.inp n!"7pdbcc")) (.div (.inp n!"8pdbcc") (.rat 6 1))) (.mul (.rat 16 1) (.inp n!"9pdbcc"))))) (.rat 3 1))) (.mul (.rat 8 1) (.conj (.add (.mul (.rat (-8) 1) (.inp n!"10pdbcc")) (.div (.inp n!"8pdbcc") (.rat 2 1)))))))),
  (n!"VedLR_2213", (.mul (.div (.mul (.rat 4 1) (.par n!"GF")) (.sqrt (.rat 2 1))) (.add (.neg (.mul (.rat 6 1) (.inp n!"3pdbmumu"))) (.add (.inp n!"1pdbmumu") (.mul (.rat 10 1) (.inp n!"3pdbmumu")))))),
  (n!"S1udRR_2113", (.mul (.div (.mul (.rat 4 1) (.par n!"GF")) (.sqrt (.rat 2 1))) (.sub (.sub (.add (.add (.sub (.add (.neg (.div (.mul (.rat 32 1) (.inp n!"10dbcu")) (.rat 3 1))) (.inp n!"5dbcu")) (.div (.inp n!"6dbcu") (.rat 6 1))) (.mul (.rat 64 1) (.inp n!"9dbcu"))) (.div (.add (.mul (.rat 32 1) (.inp n!"10dbcu")) (.div (.inp n!"6dbcu") (.rat 2 1))) (.rat 3 1))) (.mul (.rat 4 1) (.sub (.sub (.add (.div (.mul (.rat 8 1) (.inp n!"10dbcu")) (.rat 3 1)) (.inp n!"7dbcu")) (.div (.inp n!"8dbcu") (.rat 6 1))) (.mul (.rat 16 1) (.inp n!"9dbcu"))))) (.div (.mul (.rat 4 1) (.add (.mul (.rat (-8) 1) (.inp n!"10dbcu")) (.div (.inp n!"8dbcu") (.rat 2 1)))) (.rat 3 1))))),
  (n!"SnueduRL_1311", (.mul (.div (.mul (.rat 4 1) (.par n!"GF")) (.sqrt (.rat 2 1))) (.conj (.inp n!"5udtaue")))),
  (n!"V1udLR_1112", (.mul (.div (.mul (.rat 4 1) (.par n!"GF")) (.sqrt (.rat 2 1))) (.add (.sub (.add (.sub (.inp n!"1pdsuu") (.div (.inp n!"2pdsuu") (.rat 6 1))) (.mul (.rat 4 1) (.inp n!"3pdsuu"))) (.div (.mul (.rat 2 1) (.inp n!"4pdsuu")) (.rat 3 1))) (.div (.add (.div (.inp n!"2pdsuu") (.rat 2 1)) (.mul (.rat 2 1) (.inp n!"4pdsuu"))) (.rat 3 1))))),
  (n!"V8ddLR_2322", (.mul (.div (.mul (.rat 4 1) (.par n!"GF")) (.sqrt (.rat 2 1))) (.neg (.add (.inp n!"5sbss") (.mul (.rat 16 1) (.inp n!"9sbss")))))),
  (n!"VedLL_1313", (.mul (.div (.mul (.rat 4 1) (.par n!"GF")) (.sqrt (.rat 2 1))) (.add (.neg (.mul (.rat (-6) 1) (.inp n!"3dbetau"))) (.add (.inp n!"1dbetau") (.mul (.rat 10 1) (.inp n!"3dbetau")))))),
  (n!"V1udRR_1213", (.mul (.div (.mul (.rat 4 1) (.par n!"GF")) (.sqrt (.rat 2 1))) (.add (.sub (.add (.sub (.inp n!"1pdbuc") (.div (.inp n!"2pdbuc") (.rat 6 1))) (.mul (.rat 16 1) (.inp n!"3pdbuc"))) (.div (.mul (.rat 8 1) (.inp n!"4pdbuc")) (.rat 3 1))) (.div (.add (.div (.inp n!"2pdbuc") (.rat 2 1)) (.mul (.rat 8 1) (.inp n!"4pdbuc"))) (.rat 3 1))))),
  (n!"S1ddRR_1233", (.mul (.div (.mul (.rat 4 1) (.par n!"GF")) (.sqrt (.rat 2 1))) (.sub (.sub (.add (.add (.sub (.add (.neg (.div (.mul (.rat 32 1) (.inp n!"10dsbb")) (.rat 3 1))) (.inp n!"5dsbb")) (.div (.inp n!"6dsbb") (.rat 6 1))) (.mul (.rat 64 1) (.inp n!"9dsbb"))) (.div (.add (.mul (.rat 32 1) (.inp n!"10dsbb")) (.div (.inp n!"6dsbb") (.rat 2 1))) (.rat 3 1))) (.mul (.rat 4 1) (.sub (.sub (.add (.div (.mul (.rat 8 1) (.inp n!"10dsbb")) (.rat 3 1)) (.inp n!"7dsbb")) (.div (.inp n!"8dsbb") (.rat 6 1))) (.mul (.rat 16 1) (.inp n!"9dsbb"))))) (.div (.mul (.rat 4 1) (.add (.mul (.rat (-8) 1) (.inp n!"10dsbb")) (.div (.inp n!"8dsbb") (.rat 2 1)))) (.rat 3 1))))),
  (n!"VdeLR_1222", (.mul (.div (.mul (.rat 4 1) (.par n!"GF")) (.sqrt (.rat 2 1))) (.add (.mul (.rat (-6) 1) (.inp n!"3dsmumu")) (.add (.inp n!"1dsmumu") (.mul (.rat 10 1) (.inp n!"3dsmumu")))))),
  (n!"VnueduLL_2132", (.mul (.div (.mul (.rat 4 1) (.par n!"GF")) (.sqrt (.rat 2 1))) (.conj (.inp n!"1cbemu")))),
  (n!"VnudLL_3312", (.mul (.div (.mul (.rat 4 1) (.par n!"GF")) (.sqrt (.rat 2 1))) (.inp n!"nu1dstautau"))),
  (n!"S1udduRR_1322", (.mul (.div (.mul (.rat 4 1) (.par n!"GF")) (.sqrt (.rat 2 1))) (.sub (.neg (.div (.mul (.rat 8 1) (.sub (.sub (.add (.div (.mul (.rat 8 1) (.inp n!"10sbuc")) (.rat 3 1)) (.inp n!"7sbuc")) (.div (.inp n!"8sbuc") (.rat 6 1))) (.mul (.rat 16 1) (.inp n!"9sbuc")))) (.rat 3 1))) (.mul (.rat 8 1) (.add (.mul (.rat (-8) 1) (.inp n!"10sbuc")) (.div (.inp n!"8sbuc") (.rat 2 1))))))),
  (n!"VddLL_1233", (.mul (.div (.mul (.rat 4 1) (.par n!"GF")) (.sqrt (.rat 2 1))) (.sub (.add (.sub (.inp n!"1dsbb") (.div (.inp n!"2dsbb") (.rat 6 1))) (.mul (.rat 16 1) (.inp n!"3dsbb"))) (.div (.mul (.rat 8 1) (.inp n!"4dsbb")) (.rat 3 1))))),
  (n!"SedRR_3223", (.mul (.div (.mul (.rat 4 1) (.par n!"GF")) (.sqrt (.rat 2 1))) (.add (.mul (.rat 24 1) (.inp n!"9sbtaumu")) (.add (.inp n!"5sbtaumu") (.mul (.rat 40 1) (.inp n!"9sbtaumu")))))),
  (n!"VnueduLR_2222", (.mul (.div (.mul (.rat 4 1) (.par n!"GF")) (.sqrt (.rat 2 1))) (.conj (.inp n!"1pcsmumu")))),
  (n!"SnueduRR_1121", (.mul (.div (.mul (.rat 4 1) (.par n!"GF")) (.sqrt (.rat 2 1))) (.conj (.inp n!"5pusee")))),
  (n!"V8udRR_2213", (.mul (.div (.mul (.rat 4 1) (.par n!"GF")) (.sqrt (.rat 2 1))) (.mul (.rat 2 1) (.add (.div (.inp n!"2pdbcc") (.rat 2 1)) (.mul (.rat 8 1) (.inp n!"4pdbcc")))))),
  (n!"VedLR_1123", (.mul (.div (.mul (.rat 4 1) (.par n!"GF")) (.sqrt (.rat 2 1))) (.add (.neg (.mul (.rat 6 1) (.inp n!"3psbee"))) (.add (.inp n!"1psbee") (.mul (.rat 10 1) (.inp n!"3psbee")))))),
  (n!"S8udduRR_2131", (.mul (.div (.mul (.rat 4 1) (.par n!"GF")) (.sqrt (.rat 2 1))) (.mul (.rat (-16) 1) (.conj (.sub (.sub (.add (.div (.mul (.rat 8 1) (.inp n!"10pdbuc")) (.rat 3 1)) (.inp n!"7pdbuc")) (.div (.inp n!"8pdbuc") (.rat 6 1))) (.mul (.rat 16 1) (.inp n!"9pdbuc"))))))),
  (n!"S8udRR_1221", (.mul (.div (.mul (.rat 4 1) (.par n!"GF")) (.sqrt (.rat 2 1))) (.sub (.mul (.rat 2 1) (.conj (.add (.mul (.rat 32 1) (.inp n!"10pdscu")) (.div (.inp n!"6pdscu") (.rat 2 1))))) (.mul (.rat 8 1) (.conj (.add (.mul (.rat (-8) 1) (.inp n!"10pdscu")) (.div (.inp n!"8pdscu") (.rat 2 1)))))))),
  (n!"SedRL_2323", (.mul (.div (.mul (.rat 4 1) (.par n!"GF")) (.sqrt (.rat 2 1))) (.add (.mul (.rat (-24) 1) (.inp n!"9psbmutau")) (.add (.inp n!"5psbmutau") (.mul (.rat 40 1) (.inp n!"9psbmutau")))))),
  (n!"VnueduLL_1322", (.mul (.div (.mul (.rat 4 1) (.par n!"GF")) (.sqrt (.rat 2 1))) (.conj (.inp n!"1cstaue")))),
  (n!"V8udLL_1212", (.mul (.div (.mul (.rat 4 1) (.par n!"GF")) (.sqrt (.rat 2 1))) (.mul (.rat 2 1) (.add (.div (.inp n!"2dsuc") (.rat 2 1)) (.mul (.rat 8 1) (.inp n!"4dsuc")))))),
  (n!"SedRR_1331", (.mul (.div (.mul (.rat 4 1) (.par n!"GF")) (.sqrt (.rat 2 1))) (.add (.neg (.conj (.mul (.rat (-24) 1) (.inp n!"9pdbtaue")))) (.conj (.add (.inp n!"5pdbtaue") (.mul (.rat 40 1) (.inp n!"9pdbtaue"))))))),
  (n!"S1ddRR_2131", (.mul (.div (.mul (.rat 4 1) (.par n!"GF")) (.sqrt (.rat 2 1))) (.sub (.neg (.div (.mul (.rat 8 1) (.conj (.sub (.inp n!"7dbds") (.mul (.rat 16 1) (.inp n!"9dbds"))))) (.rat 3 1))) (.mul (.rat 8 1) (.conj (.add (.mul (.div (.rat (-1) 1) (.rat 8 1)) (.add (.inp n!"5dbds") (.mul (.rat 64 1) (.inp n!"9dbds")))) (.mul (.div (.rat 1 1) (.rat 2 1)) (.sub (.inp n!"7dbds") (.mul (.rat 16 1) (.inp n!"9dbds")))))))))),
  (n!"V8ddLR_1232", (.mul (.div (.mul (.rat 4 1) (.par n!"GF")) (.sqrt (.rat 2 1))) (.conj (.mul (.rat 2 1) (.mul (.div (.rat (-1) 1) (.rat 2 1)) (.add (.inp n!"5psbsd") (.mul (.rat 16 1) (.inp n!"9psbsd")))))))),
  (n!"TedRR_2132", (.mul (.div (.mul (.rat 4 1) (.par n!"GF")) (.sqrt (.rat 2 1))) (.sub (.conj (.sub (.sub (.add (.div (.inp n!"7sbemu") (.rat 2 1)) (.div (.inp n!"7psbemu") (.rat 2 1))) (.mul (.rat 8 1) (.inp n!"9sbemu"))) (.mul (.rat 8 1) (.inp n!"9psbemu")))) (.conj (.add (.sub (.sub (.div (.inp n!"7sbemu") (.rat 2 1)) (.div (.inp n!"7psbemu") (.rat 2 1))) (.mul (.rat 8 1) (.inp n!"9sbemu"))) (.mul (.rat 8 1) (.inp n!"9psbemu"))))))),
  (n!"V1ddLR_2212", (.mul (.div (.mul (.rat 4 1) (.par n!"GF")) (.sqrt (.rat 2 1))) (.sub (.neg (.div (.add (.inp n!"5pdsss") (.mul (.rat 16 1) (.inp n!"9pdsss"))) (.mul (.rat 2 1) (.rat 3 1)))) (.div (.mul (.rat (-2) 1) (.add (.inp n!"1pdsss") (.mul (.rat 4 1) (.inp n!"3pdsss")))) (.rat 2 1)))))]

def Bern_to_JMS_4 : List (ℕ × Sym) := [
  (n!"S8udduRR_1321", (.mul (.div (.mul (.rat 4 1) (.par n!"GF")) (.sqrt (.rat 2 1))) (.mul (.rat (-16) 1) (.sub (.sub (.add (.div (.mul (.rat 8 1) (.inp n!"10sbuu")) (.rat 3 1)) (.inp n!"7sbuu")) (.div (.inp n!"8sbuu") (.rat 6 1))) (.mul (.rat 16 1) (.inp n!"9sbuu")))))),
  (n!"SnueduRL_3232", (.mul (.div (.mul (.rat 4 1) (.par n!"GF")) (.sqrt (.rat 2 1))) (.conj (.inp n!"5cbmutau")))),
  (n!"S1ddRR_1321", (.mul (.div (.mul (.rat 4 1) (.par n!"GF")) (.sqrt (.rat 2 1))) (.sub (.neg (.div (.mul (.rat 8 1) (.sub (.sub (.add (.div (.mul (.rat 8 1) (.inp n!"10sbdd")) (.rat 3 1)) (.inp n!"7sbdd")) (.div (.inp n!"8sbdd") (.rat 6 1))) (.mul (.rat 16 1) (.inp n!"9sbdd")))) (.rat 3 1))) (.mul (.rat 8 1) (.add (.mul (.rat (-8) 1) (.inp n!"10sbdd")) (.div (.inp n!"8sbdd") (.rat 2 1))))))),
  (n!"VnueduLR_1132", (.mul (.div (.mul (.rat 4 1) (.par n!"GF")) (.sqrt (.rat 2 1))) (.conj (.inp n!"1pcbee")))),
  (n!"VnudLR_2312", (.mul (.div (.mul (.rat 4 1) (.par n!"GF")) (.sqrt (.rat 2 1))) (.inp n!"nu1pdsmutau"))),
  (n!"S8ddRR_3131", (.mul (.div (.mul (.rat 4 1) (.par n!"GF")) (.sqrt (.rat 2 1))) (.mul (.rat 2 1) (.conj (.inp n!"3dbdb"))))),
  (n!"SedRL_3221", (.mul (.div (.mul (.rat 4 1) (.par n!"GF")) (.sqrt (.rat 2 1))) (.add (.neg (.conj (.mul (.rat 24 1) (.inp n!"9dsmutau")))) (.conj (.add (.inp n!"5dsmutau") (.mul (.rat 40 1) (.inp n!"9dsmutau"))))))),
  (n!"SnueduRR_3322", (.mul (.div (.mul (.rat 4 1) (.par n!"GF")) (.sqrt (.rat 2 1))) (.conj (.inp n!"5pcstautau")))),
  (n!"V8udRR_1123", (.mul (.div (.mul (.rat 4 1) (.par n!"GF")) (.sqrt (.rat 2 1))) (.mul (.rat 2 1) (.add (.div (.inp n!"2psbuu") (.rat 2 1)) (.mul (.rat 8 1) (.inp n!"4psbuu")))))),
  (n!"S8udRR_1213", (.mul (.div (.mul (.rat 4 1) (.par n!"GF")) (.sqrt (.rat 2 1))) (.sub (.mul (.rat 2 1) (.add (.mul (.rat 32 1) (.inp n!"10dbuc")) (.div (.inp n!"6dbuc") (.rat 2 1)))) (.mul (.rat 8 1) (.add (.mul (.rat (-8) 1) (.inp n!"10dbuc")) (.div (.inp n!"8dbuc") (.rat 2 1))))))),
  (n!"V1udduLR_2231", (.mul (.div (.mul (.rat 4 1) (.par n!"GF")) (.sqrt (.rat 2 1))) (.sub (.neg (.div (.conj (.add (.sub (.add (.neg (.div (.mul (.rat 8 1) (.inp n!"10sbuc")) (.rat 3 1))) (.inp n!"5sbuc")) (.div (.inp n!"6sbuc") (.rat 6 1))) (.mul (.rat 16 1) (.inp n!"9sbuc")))) (.mul (.rat 2 1) (.rat 3 1)))) (.div (.conj (.add (.mul (.rat 8 1) (.inp n!"10sbuc")) (.div (.inp n!"6sbuc") (.rat 2 1)))) (.rat 2 1))))),
  (n!"V1udLR_2223", (.mul (.div (.mul (.rat 4 1) (.par n!"GF")) (.sqrt (.rat 2 1))) (.add (.sub (.add (.sub (.inp n!"1psbcc") (.div (.inp n!"2psbcc") (.rat 6 1))) (.mul (.rat 4 1) (.inp n!"3psbcc"))) (.div (.mul (.rat 2 1) (.inp n!"4psbcc")) (.rat 3 1))) (.div (.add (.div (.inp n!"2psbcc") (.rat 2 1)) (.mul (.rat 2 1) (.inp n!"4psbcc"))) (.rat 3 1))))),
  (n!"SedRR_1323", (.mul (.div (.mul (.rat 4 1) (.par n!"GF")) (.sqrt (.rat 2 1))) (.add (.mul (.rat 24 1) (.inp n!"9sbetau")) (.add (.inp n!"5sbetau") (.mul (.rat 40 1) (.inp n!"9sbetau")))))),
  (n!"S1ddRR_2123", (.mul (.div (.mul (.rat 4 1) (.par n!"GF")) (.sqrt (.rat 2 1))) (.sub (.neg (.div (.mul (.rat 8 1) (.sub (.inp n!"7psbsd") (.mul (.rat 16 1) (.inp n!"9psbsd")))) (.rat 3 1))) (.mul (.rat 8 1) (.add (.mul (.div (.rat (-1) 1) (.rat 8 1)) (.add (.inp n!"5psbsd") (.mul (.rat 64 1) (.inp n!"9psbsd")))) (.mul (.div (.rat 1 1) (.rat 2 1)) (.sub (.inp n!"7psbsd") (.mul (.rat 16 1) (.inp n!"9psbsd"))))))))),
  (n!"VedRR_1312", (.mul (.div (.mul (.rat 4 1) (.par n!"GF")) (.sqrt (.rat 2 1))) (.add (.mul (.rat 6 1) (.inp n!"3pdsetau")) (.add (.inp n!"1pdsetau") (.mul (.rat 10 1) (.inp n!"3pdsetau")))))),
  (n!"S1udduRR_2212", (.mul (.div (.mul (.rat 4 1) (.par n!"GF")) (.sqrt (.rat 2 1))) (.sub (.neg (.div (.mul (.rat 8 1) (.sub (.sub (.add (.div (.mul (.rat 8 1) (.inp n!"10dscc")) (.rat 3 1)) (.inp n!"7dscc")) (.div (.inp n!"8dscc") (.rat 6 1))) (.mul (.rat 16 1) (.inp n!"9dscc")))) (.rat 3 1))) (.mul (.rat 8 1) (.add (.mul (.rat (-8) 1) (.inp n!"10dscc")) (.div (.inp n!"8dscc") (.rat 2 1))))))),
  (n!"VdeLR_2333", (.mul (.div (.mul (.rat 4 1) (.par n!"GF")) (.sqrt (.rat 2 1))) (.add (.mul (.rat (-6) 1) (.inp n!"3sbtautau")) (.add (.inp n!"1sbtautau") (.mul (.rat 10 1) (.inp n!"3sbtautau")))))),
  (n!"TnueduRR_3131", (.mul (.div (.mul (.rat 4 1) (.par n!"GF")) (.sqrt (.rat 2 1))) (.conj (.inp n!"7pubetau")))),
  (n!"VnueduLR_3112", (.mul (.div (.mul (.rat 4 1) (.par n!"GF")) (.sqrt (.rat 2 1))) (.conj (.inp n!"1pcdetau")))),
  (n!"V8duLR_1212", (.mul (.div (.mul (.rat 4 1) (.par n!"GF")) (.sqrt (.rat 2 1))) (.mul (.rat 2 1) (.add (.div (.inp n!"2dsuc") (.rat 2 1)) (.mul (.rat 2 1) (.inp n!"4dsuc")))))),
  (n!"VddRR_1232", (.mul (.div (.mul (.rat 4 1) (.par n!"GF")) (.sqrt (.rat 2 1))) (.conj (.add (.inp n!"1psbsd") (.mul (.rat 16 1) (.inp n!"3psbsd")))))),
  (n!"SedRL_2131", (.mul (.div (.mul (.rat 4 1) (.par n!"GF")) (.sqrt (.rat 2 1))) (.add (.neg (.conj (.mul (.rat 24 1) (.inp n!"9dbemu")))) (.conj (.add (.inp n!"5dbemu") (.mul (.rat 40 1) (.inp n!"9dbemu"))))))),
  (n!"S1ddRR_1313", (.mul (.div (.mul (.rat 4 1) (.par n!"GF")) (.sqrt (.rat 2 1))) (.add (.inp n!"2pdbdb") (.div (.inp n!"3pdbdb") (.rat 3 1))))),
  (n!"SnueduRR_2232", (.mul (.div (.mul (.rat 4 1) (.par n!"GF")) (.sqrt (.rat 2 1))) (.conj (.inp n!"5pcbmumu")))),
  (n!"SedRL_3213", (.mul (.div (.mul (.rat 4 1) (.par n!"GF")) (.sqrt (.rat 2 1))) (.add (.mul (.rat (-24) 1) (.inp n!"9pdbtaumu")) (.add (.inp n!"5pdbtaumu") (.mul (.rat 40 1) (.inp n!"9pdbtaumu")))))),
  (n!"VnueduLL_2212", (.mul (.div (.mul (.rat 4 1) (.par n!"GF")) (.sqrt (.rat 2 1))) (.conj (.inp n!"1cdmumu")))),
  (n!"SnueduRL_1111", (.mul (.div (.mul (.rat 4 1) (.par n!"GF")) (.sqrt (.rat 2 1))) (.conj (.inp n!"5udee")))),
  (n!"SedRR_2221", (.mul (.div (.mul (.rat 4 1) (.par n!"GF")) (.sqrt (.rat 2 1))) (.add (.neg (.conj (.mul (.rat (-24) 1) (.inp n!"9pdsmumu")))) (.conj (.add (.inp n!"5pdsmumu") (.mul (.rat 40 1) (.inp n!"9pdsmumu"))))))),
  (n!"TnueduRR_2321", (.mul (.div (.mul (.rat 4 1) (.par n!"GF")) (.sqrt (.rat 2 1))) (.conj (.inp n!"7pustaumu")))),
  (n!"VddLL_1313", (.mul (.div (.mul (.rat 4 1) (.par n!"GF")) (.sqrt (.rat 2 1))) (.inp n!"1dbdb"))),
  (n!"VedLL_1113", (.mul (.div (.mul (.rat 4 1) (.par n!"GF")) (.sqrt (.rat 2 1))) (.add (.neg (.mul (.rat (-6) 1) (.inp n!"3dbee"))) (.add (.inp n!"1dbee") (.mul (.rat 10 1) (.inp n!"3dbee")))))),
  (n!"SnueduRL_1332", (.mul (.div (.mul (.rat 4 1) (.par n!"GF")) (.sqrt (.rat 2 1))) (.conj (.inp n!"5cbtaue")))),
  (n!"S8ddRR_1231", (.mul (.div (.mul (.rat 4 1) (.par n!"GF")) (.sqrt (.rat 2 1))) (.mul (.rat (-16) 1) (.conj (.sub (.sub (.add (.div (.mul (.rat 8 1) (.inp n!"10psbdd")) (.rat 3 1)) (.inp n!"7psbdd")) (.div (.inp n!"8psbdd") (.rat 6 1))) (.mul (.rat 16 1) (.inp n!"9psbdd"))))))),
  (n!"SedRL_1321", (.mul (.div (.mul (.rat 4 1) (.par n!"GF")) (.sqrt (.rat 2 1))) (.add (.neg (.conj (.mul (.rat 24 1) (.inp n!"9dstaue")))) (.conj (.add (.inp n!"5dstaue") (.mul (.rat 40 1) (.inp n!"9dstaue"))))))),
  (n!"S1udduRR_1122", (.mul (.div (.mul (.rat 4 1) (.par n!"GF")) (.sqrt (.rat 2 1))) (.sub (.neg (.div (.mul (.rat 8 1) (.conj (.sub (.sub (.add (.div (.mul (.rat 8 1) (.inp n!"10pdscu")) (.rat 3 1)) (.inp n!"7pdscu")) (.div (.inp n!"8pdscu") (.rat 6 1))) (.mul (.rat 16 1) (.inp n!"9pdscu"))))) (.rat 3 1))) (.mul (.rat 8 1) (.conj (.add (.mul (.rat (-8) 1) (.inp n!"10pdscu")) (.div (.inp n!"8pdscu") (.rat 2 1)))))))),
  (n!"S8udduRR_2211", (.mul (.div (.mul (.rat 4 1) (.par n!"GF")) (.sqrt (.rat 2 1))) (.mul (.rat (-16) 1) (.sub (.sub (.add (.div (.mul (.rat 8 1) (.inp n!"10dscu")) (.rat 3 1)) (.inp n!"7dscu")) (.div (.inp n!"8dscu") (.rat 6 1))) (.mul (.rat 16 1) (.inp n!"9dscu")))))),
  (n!"V1ddLR_3323", (.mul (.div (.mul (.rat 4 1) (.par n!"GF")) (.sqrt (.rat 2 1))) (.sub (.neg (.div (.add (.inp n!"5psbbb") (.mul (.rat 16 1) (.inp n!"9psbbb"))) (.mul (.rat 2 1) (.rat 3 1)))) (.div (.mul (.rat (-2) 1) (.add (.inp n!"1psbbb") (.mul (.rat 4 1) (.inp n!"3psbbb")))) (.rat 2 1))))),
  (n!"V8ddLR_1312", (.mul (.div (.mul (.rat 4 1) (.par n!"GF")) (.sqrt (.rat 2 1))) (.neg (.add (.inp n!"5dbds") (.mul (.rat 16 1) (.inp n!"9dbds")))))),
  (n!"TedRR_2212", (.mul (.div (.mul (.rat 4 1) (.par n!"GF")) (.sqrt (.rat 2 1))) (.add (.sub (.sub (.add (.div (.inp n!"7dsmumu") (.rat 2 1)) (.div (.inp n!"7pdsmumu") (.rat 2 1))) (.mul (.rat 8 1) (.inp n!"9dsmumu"))) (.mul (.rat 8 1) (.inp n!"9pdsmumu"))) (.add (.sub (.sub (.div (.inp n!"7dsmumu") (.rat 2 1)) (.div (.inp n!"7pdsmumu") (.rat 2 1))) (.mul (.rat 8 1) (.inp n!"9dsmumu"))) (.mul (.rat 8 1) (.inp n!"9pdsmumu")))))),
  (n!"VnueduLL_3331", (.mul (.div (.mul (.rat 4 1) (.par n!"GF")) (.sqrt (.rat 2 1))) (.conj (.inp n!"1ubtautau")))),
  (n!"SedRL_2123", (.mul (.div (.mul (.rat 4 1) (.par n!"GF")) (.sqrt (.rat 2 1))) (.add (.mul (.rat (-24) 1) (.inp n!"9psbmue")) (.add (.inp n!"5psbmue") (.mul (.rat 40 1) (.inp n!"9psbmue")))))),
  (n!"VnueduLL_1122", (.mul (.div (.mul (.rat 4 1) (.par n!"GF")) (.sqrt (.rat 2 1))) (.conj (.inp n!"1csee")))),
  (n!"SedRR_1131", (.mul (.div (.mul (.rat 4 1) (.par n!"GF")) (.sqrt (.rat 2 1))) (.add (.neg (.conj (.mul (.rat (-24) 1) (.inp n!"9pdbee")))) (.conj (.add (.inp n!"5pdbee") (.mul (.rat 40 1) (.inp n!"9pdbee"))))))),
  (n!"TnueduRR_1231", (.mul (.div (.mul (.rat 4 1) (.par n!"GF")) (.sqrt (.rat 2 1))) (.conj (.inp n!"7pubmue")))),
  (n!"SnueduRL_3312", (.mul (.div (.mul (.rat 4 1) (.par n!"GF")) (.sqrt (.rat 2 1))) (.conj (.inp n!"5cdtautau")))),
  (n!"SedRR_2213", (.mul (.div (.mul (.rat 4 1) (.par n!"GF")) (.sqrt (.rat 2 1))) (.add (.mul (.rat 24 1) (.inp n!"9dbmumu")) (.add (.inp n!"5dbmumu") (.mul (.rat 40 1) (.inp n!"9dbmumu")))))),
  (n!"VnueduLR_1212", (.mul (.div (.mul (.rat 4 1) (.par n!"GF")) (.sqrt (.rat 2 1))) (.conj (.inp n!"1pcdmue")))),
  (n!"S8udduRR_1121", (.mul (.div (.mul (.rat 4 1) (.par n!"GF")) (.sqrt (.rat 2 1))) (.mul (.rat (-16) 1) (.conj (.sub (.sub (.add (.div (.mul (.rat 8 1) (.inp n!"10pdsuu")) (.rat 3 1)) (.inp n!"7pdsuu")) (.div (.inp n!"8pdsuu") (.rat 6 1))) (.mul (.rat 16 1) (.inp n!"9pdsuu"))))))),
  (n!"V1udLL_2213", (.mul (.div (.mul (.rat 4 1) (.par n!"GF")) (.sqrt (.rat 2 1))) (.add (.sub (.add (.sub (.inp n!"1dbcc") (.div (.inp n!"2dbcc") (.rat 6 1))) (.mul (.rat 16 1) (.inp n!"3dbcc"))) (.div (.mul (.rat 8 1) (.inp n!"4dbcc")) (.rat 3 1))) (.div (.add (.div (.inp n!"2dbcc") (.rat 2 1)) (.mul (.rat 8 1) (.inp n!"4dbcc"))) (.rat 3 1))))),
  (n!"S8ddRR_1223", (.mul (.div (.mul (.rat 4 1) (.par n!"GF")) (.sqrt (.rat 2 1))) (.mul (.rat (-16) 1) (.sub (.sub (.add (.div (.mul (.rat 8 1) (.inp n!"10dbss")) (.rat 3 1)) (.inp n!"7dbss")) (.div (.inp n!"8dbss") (.rat 6 1))) (.mul (.rat 16 1) (.inp n!"9dbss"))))))]

def Bern_to_JMS_5 : List (ℕ × Sym) := [
  (n!"SedRL_1313", (.mul (.div (.mul (.rat 4 1) (.par n!"GF")) (.sqrt (.rat 2 1))) (.add (.mul (.rat (-24) 1) (.inp n!"9pdbetau")) (.add (.inp n!"5pdbetau") (.mul (.rat 40 1) (.inp n!"9pdbetau")))))),
  (n!"V1udLR_1221", (.mul (.div (.mul (.rat 4 1) (.par n!"GF")) (.sqrt (.rat 2 1))) (.conj (.add (.sub (.add (.sub (.inp n!"1pdscu") (.div (.inp n!"2pdscu") (.rat 6 1))) (.mul (.rat 4 1) (.inp n!"3pdscu"))) (.div (.mul (.rat 2 1) (.inp n!"4pdscu")) (.rat 3 1))) (.div (.add (.div (.inp n!"2pdscu") (.rat 2 1)) (.mul (.rat 2 1) (.inp n!"4pdscu"))) (.rat 3 1)))))),
  (n!"S1ddRR_1121", (.mul (.div (.mul (.rat 4 1) (.par n!"GF")) (.sqrt (.rat 2 1))) (.sub (.neg (.div (.mul (.rat 8 1) (.conj (.sub (.inp n!"7dsdd") (.mul (.rat 16 1) (.inp n!"9dsdd"))))) (.rat 3 1))) (.mul (.rat 8 1) (.conj (.add (.mul (.div (.rat (-1) 1) (.rat 8 1)) (.add (.inp n!"5dsdd") (.mul (.rat 64 1) (.inp n!"9dsdd")))) (.mul (.div (.rat 1 1) (.rat 2 1)) (.sub (.inp n!"7dsdd") (.mul (.rat 16 1) (.inp n!"9dsdd")))))))))),
  (n!"V1udduLR_2311", (.mul (.div (.mul (.rat 4 1) (.par n!"GF")) (.sqrt (.rat 2 1))) (.sub (.neg (.div (.add (.sub (.add (.neg (.div (.mul (.rat 8 1) (.inp n!"10pdbcu")) (.rat 3 1))) (.inp n!"5pdbcu")) (.div (.inp n!"6pdbcu") (.rat 6 1))) (.mul (.rat 16 1) (.inp n!"9pdbcu"))) (.mul (.rat 2 1) (.rat 3 1)))) (.div (.add (.mul (.rat 8 1) (.inp n!"10pdbcu")) (.div (.inp n!"6pdbcu") (.rat 2 1))) (.rat 2 1))))),
  (n!"TedRR_3331", (.mul (.div (.mul (.rat 4 1) (.par n!"GF")) (.sqrt (.rat 2 1))) (.sub (.conj (.sub (.sub (.add (.div (.inp n!"7dbtautau") (.rat 2 1)) (.div (.inp n!"7pdbtautau") (.rat 2 1))) (.mul (.rat 8 1) (.inp n!"9dbtautau"))) (.mul (.rat 8 1) (.inp n!"9pdbtautau")))) (.conj (.add (.sub (.sub (.div (.inp n!"7dbtautau") (.rat 2 1)) (.div (.inp n!"7pdbtautau") (.rat 2 1))) (.mul (.rat 8 1) (.inp n!"9dbtautau"))) (.mul (.rat 8 1) (.inp n!"9pdbtautau"))))))),
  (n!"SnueduRR_3122", (.mul (.div (.mul (.rat 4 1) (.par n!"GF")) (.sqrt (.rat 2 1))) (.conj (.inp n!"5pcsetau")))),
  (n!"VdeLR_1331", (.mul (.div (.mul (.rat 4 1) (.par n!"GF")) (.sqrt (.rat 2 1))) (.add (.mul (.rat (-6) 1) (.inp n!"3dbtaue")) (.add (.inp n!"1dbtaue") (.mul (.rat 10 1) (.inp n!"3dbtaue")))))),
  (n!"VnudLL_1212", (.mul (.div (.mul (.rat 4 1) (.par n!"GF")) (.sqrt (.rat 2 1))) (.inp n!"nu1dsemu"))),
  (n!"TnueduRR_3211", (.mul (.div (.mul (.rat 4 1) (.par n!"GF")) (.sqrt (.rat 2 1))) (.conj (.inp n!"7pudmutau")))),
  (n!"SnueduRL_2222", (.mul (.div (.mul (.rat 4 1) (.par n!"GF")) (.sqrt (.rat 2 1))) (.conj (.inp n!"5csmumu")))),
  (n!"SedRR_3332", (.mul (.div (.mul (.rat 4 1) (.par n!"GF")) (.sqrt (.rat 2 1))) (.add (.neg (.conj (.mul (.rat (-24) 1) (.inp n!"9psbtautau")))) (.conj (.add (.inp n!"5psbtautau") (.mul (.rat 40 1) (.inp n!"9psbtautau"))))))),
  (n!"VnueduLR_2331", (.mul (.div (.mul (.rat 4 1) (.par n!"GF")) (.sqrt (.rat 2 1))) (.conj (.inp n!"1pubtaumu")))),
  (n!"SedRR_1123", (.mul (.div (.mul (.rat 4 1) (.par n!"GF")) (.sqrt (.rat 2 1))) (.add (.mul (.rat 24 1) (.inp n!"9sbee")) (.add (.inp n!"5sbee") (.mul (.rat 40 1) (.inp n!"9sbee")))))),
  (n!"S8ddRR_2121", (.mul (.div (.mul (.rat 4 1) (.par n!"GF")) (.sqrt (.rat 2 1))) (.mul (.rat 2 1) (.conj (.inp n!"3dsds"))))),
  (n!"VedRR_1112", (.mul (.div (.mul (.rat 4 1) (.par n!"GF")) (.sqrt (.rat 2 1))) (.add (.mul (.rat 6 1) (.inp n!"3pdsee")) (.add (.inp n!"1pdsee") (.mul (.rat 10 1) (.inp n!"3pdsee")))))),
  (n!"VedLR_1232", (.mul (.div (.mul (.rat 4 1) (.par n!"GF")) (.sqrt (.rat 2 1))) (.conj (.add (.neg (.mul (.rat 6 1) (.inp n!"3psbmue"))) (.add (.inp n!"1psbmue") (.mul (.rat 10 1) (.inp n!"3psbmue"))))))),
  (n!"S1udRR_1132", (.mul (.div (.mul (.rat 4 1) (.par n!"GF")) (.sqrt (.rat 2 1))) (.sub (.sub (.add (.conj (.add (.sub (.add (.neg (.div (.mul (.rat 32 1) (.inp n!"10psbuu")) (.rat 3 1))) (.inp n!"5psbuu")) (.div (.inp n!"6psbuu") (.rat 6 1))) (.mul (.rat 64 1) (.inp n!"9psbuu")))) (.div (.conj (.add (.mul (.rat 32 1) (.inp n!"10psbuu")) (.div (.inp n!"6psbuu") (.rat 2 1)))) (.rat 3 1))) (.mul (.rat 4 1) (.conj (.sub (.sub (.add (.div (.mul (.rat 8 1) (.inp n!"10psbuu")) (.rat 3 1)) (.inp n!"7psbuu")) (.div (.inp n!"8psbuu") (.rat 6 1))) (.mul (.rat 16 1) (.inp n!"9psbuu")))))) (.div (.mul (.rat 4 1) (.conj (.add (.mul (.rat (-8) 1) (.inp n!"10psbuu")) (.div (.inp n!"8psbuu") (.rat 2 1))))) (.rat 3 1))))),
  (n!"V8udduLR_1132", (.mul (.div (.mul (.rat 4 1) (.par n!"GF")) (.sqrt (.rat 2 1))) (.neg (.conj (.add (.sub (.add (.neg (.div (.mul (.rat 8 1) (.inp n!"10dbcu")) (.rat 3 1))) (.inp n!"5dbcu")) (.div (.inp n!"6dbcu") (.rat 6 1))) (.mul (.rat 16 1) (.inp n!"9dbcu"))))))),
  (n!"SnueduRR_2312", (.mul (.div (.mul (.rat 4 1) (.par n!"GF")) (.sqrt (.rat 2 1))) (.conj (.inp n!"5pcdtaumu")))),
  (n!"V1udLL_1123", (.mul (.div (.mul (.rat 4 1) (.par n!"GF")) (.sqrt (.rat 2 1))) (.add (.sub (.add (.sub (.inp n!"1sbuu") (.div (.inp n!"2sbuu") (.rat 6 1))) (.mul (.rat 16 1) (.inp n!"3sbuu"))) (.div (.mul (.rat 8 1) (.inp n!"4sbuu")) (.rat 3 1))) (.div (.add (.div (.inp n!"2sbuu") (.rat 2 1)) (.mul (.rat 8 1) (.inp n!"4sbuu"))) (.rat 3 1))))),
  (n!"V1udLR_1213", (.mul (.div (.mul (.rat 4 1) (.par n!"GF")) (.sqrt (.rat 2 1))) (.add (.sub (.add (.sub (.inp n!"1pdbuc") (.div (.inp n!"2pdbuc") (.rat 6 1))) (.mul (.rat 4 1) (.inp n!"3pdbuc"))) (.div (.mul (.rat 2 1) (.inp n!"4pdbuc")) (.rat 3 1))) (.div (.add (.div (.inp n!"2pdbuc") (.rat 2 1)) (.mul (.rat 2 1) (.inp n!"4pdbuc"))) (.rat 3 1))))),
  (n!"S1ddRR_1113", (.mul (.div (.mul (.rat 4 1) (.par n!"GF")) (.sqrt (.rat 2 1))) (.sub (.neg (.div (.mul (.rat 8 1) (.sub (.inp n!"7pdbdd") (.mul (.rat 16 1) (.inp n!"9pdbdd")))) (.rat 3 1))) (.mul (.rat 8 1) (.add (.mul (.div (.rat (-1) 1) (.rat 8 1)) (.add (.inp n!"5pdbdd") (.mul (.rat 64 1) (.inp n!"9pdbdd")))) (.mul (.div (.rat 1 1) (.rat 2 1)) (.sub (.inp n!"7pdbdd") (.mul (.rat 16 1) (.inp n!"9pdbdd"))))))))),
  (n!"VnudLL_2331", (.mul (.div (.mul (.rat 4 1) (.par n!"GF")) (.sqrt (.rat 2 1))) (.conj (.inp n!"nu1dbtaumu")))),
  (n!"V1ddLR_2321", (.mul (.div (.mul (.rat 4 1) (.par n!"GF")) (.sqrt (.rat 2 1))) (.sub (.neg (.div (.add (.inp n!"5sbsd") (.mul (.rat 16 1) (.inp n!"9sbsd"))) (.mul (.rat 2 1) (.rat 3 1)))) (.div (.mul (.rat (-2) 1) (.add (.inp n!"1sbsd") (.mul (.rat 4 1) (.inp n!"3sbsd")))) (.rat 2 1))))),
  (n!"TedRR_3323", (.mul (.div (.mul (.rat 4 1) (.par n!"GF")) (.sqrt (.rat 2 1))) (.add (.sub (.sub (.add (.div (.inp n!"7sbtautau") (.rat 2 1)) (.div (.inp n!"7psbtautau") (.rat 2 1))) (.mul (.rat 8 1) (.inp n!"9sbtautau"))) (.mul (.rat 8 1) (.inp n!"9psbtautau"))) (.add (.sub (.sub (.div (.inp n!"7sbtautau") (.rat 2 1)) (.div (.inp n!"7psbtautau") (.rat 2 1))) (.mul (.rat 8 1) (.inp n!"9sbtautau"))) (.mul (.rat 8 1) (.inp n!"9psbtautau")))))),
  (n!"S8udRR_2132", (.mul (.div (.mul (.rat 4 1) (.par n!"GF")) (.sqrt (.rat 2 1))) (.sub (.mul (.rat 2 1) (.conj (.add (.mul (.rat 32 1) (.inp n!"10psbuc")) (.div (.inp n!"6psbuc") (.rat 2 1))))) (.mul (.rat 8 1) (.conj (.add (.mul (.rat (-8) 1) (.inp n!"10psbuc")) (.div (.inp n!"8psbuc") (.rat 2 1)))))))),
  (n!"VdeLR_1323", (.mul (.div (.mul (.rat 4 1) (.par n!"GF")) (.sqrt (.rat 2 1))) (.add (.mul (.rat (-6) 1) (.inp n!"3dbmutau")) (.add (.inp n!"1dbmutau") (.mul (.rat 10 1) (.inp n!"3dbmutau")))))),
  (n!"TnueduRR_2121", (.mul (.div (.mul (.rat 4 1) (.par n!"GF")) (.sqrt (.rat 2 1))) (.conj (.inp n!"7pusemu")))),
  (n!"VddLL_1113", (.mul (.div (.mul (.rat 4 1) (.par n!"GF")) (.sqrt (.rat 2 1))) (.add (.inp n!"1dbdd") (.mul (.rat 16 1) (.inp n!"3dbdd"))))),
  (n!"SnueduRL_1132", (.mul (.div (.mul (.rat 4 1) (.par n!"GF")) (.sqrt (.rat 2 1))) (.conj (.inp n!"5cbee")))),
  (n!"SedRL_1121", (.mul (.div (.mul (.rat 4 1) (.par n!"GF")) (.sqrt (.rat 2 1))) (.add (.neg (.conj (.mul (.rat 24 1) (.inp n!"9dsee")))) (.conj (.add (.inp n!"5dsee") (.mul (.rat 40 1) (.inp n!"9dsee"))))))),
  (n!"V8udRR_1232", (.mul (.div (.mul (.rat 4 1) (.par n!"GF")) (.sqrt (.rat 2 1))) (.conj (.mul (.rat 2 1) (.add (.div (.inp n!"2psbcu") (.rat 2 1)) (.mul (.rat 8 1) (.inp n!"4psbcu"))))))),
  (n!"SnueduRR_1222", (.mul (.div (.mul (.rat 4 1) (.par n!"GF")) (.sqrt (.rat 2 1))) (.conj (.inp n!"5pcsmue")))),
  (n!"V8udLR_2213", (.mul (.div (.mul (.rat 4 1) (.par n!"GF")) (.sqrt (.rat 2 1))) (.mul (.rat 2 1) (.add (.div (.inp n!"2pdbcc") (.rat 2 1)) (.mul (.rat 2 1) (.inp n!"4pdbcc")))))),
  (n!"VedRR_3313", (.mul (.div (.mul (.rat 4 1) (.par n!"GF")) (.sqrt (.rat 2 1))) (.add (.mul (.rat 6 1) (.inp n!"3pdbtautau")) (.add (.inp n!"1pdbtautau") (.mul (.rat 10 1) (.inp n!"3pdbtautau")))))),
  (n!"S8udduRR_2232", (.mul (.div (.mul (.rat 4 1) (.par n!"GF")) (.sqrt (.rat 2 1))) (.mul (.rat (-16) 1) (.conj (.sub (.sub (.add (.div (.mul (.rat 8 1) (.inp n!"10psbcc")) (.rat 3 1)) (.inp n!"7psbcc")) (.div (.inp n!"8psbcc") (.rat 6 1))) (.mul (.rat 16 1) (.inp n!"9psbcc"))))))),
  (n!"TnueduRR_1311", (.mul (.div (.mul (.rat 4 1) (.par n!"GF")) (.sqrt (.rat 2 1))) (.conj (.inp n!"7pudtaue")))),
  (n!"VedLL_2312", (.mul (.div (.mul (.rat 4 1) (.par n!"GF")) (.sqrt (.rat 2 1))) (.add (.neg (.mul (.rat (-6) 1) (.inp n!"3dsmutau"))) (.add (.inp n!"1dsmutau") (.mul (.rat 10 1) (.inp n!"3dsmutau")))))),
  (n!"V1udRR_2212", (.mul (.div (.mul (.rat 4 1) (.par n!"GF")) (.sqrt (.rat 2 1))) (.add (.sub (.add (.sub (.inp n!"1pdscc") (.div (.inp n!"2pdscc") (.rat 6 1))) (.mul (.rat 16 1) (.inp n!"3pdscc"))) (.div (.mul (.rat 8 1) (.inp n!"4pdscc")) (.rat 3 1))) (.div (.add (.div (.inp n!"2pdscc") (.rat 2 1)) (.mul (.rat 8 1) (.inp n!"4pdscc"))) (.rat 3 1))))),
  (n!"V8ddLR_1112", (.mul (.div (.mul (.rat 4 1) (.par n!"GF")) (.sqrt (.rat 2 1))) (.mul (.rat 2 1) (.mul (.div (.rat (-1) 1) (.rat 2 1)) (.add (.inp n!"5pdsdd") (.mul (.rat 16 1) (.inp n!"9pdsdd"))))))),
  (n!"S1ddRR_2232", (.mul (.div (.mul (.rat 4 1) (.par n!"GF")) (.sqrt (.rat 2 1))) (.sub (.neg (.div (.mul (.rat 8 1) (.conj (.sub (.inp n!"7sbss") (.mul (.rat 16 1) (.inp n!"9sbss"))))) (.rat 3 1))) (.mul (.rat 8 1) (.conj (.add (.mul (.div (.rat (-1) 1) (.rat 8 1)) (.add (.inp n!"5sbss") (.mul (.rat 64 1) (.inp n!"9sbss")))) (.mul (.div (.rat 1 1) (.rat 2 1)) (.sub (.inp n!"7sbss") (.mul (.rat 16 1) (.inp n!"9sbss")))))))))),
  (n!"V8ddLR_1333", (.mul (.div (.mul (.rat 4 1) (.par n!"GF")) (.sqrt (.rat 2 1))) (.neg (.add (.inp n!"5dbbb") (.mul (.rat 16 1) (.inp n!"9dbbb")))))),
  (n!"VnueduLL_3131", (.mul (.div (.mul (.rat 4 1) (.par n!"GF")) (.sqrt (.rat 2 1))) (.conj (.inp n!"1ubetau")))),
  (n!"S1udduRR_2321", (.mul (.div (.mul (.rat 4 1) (.par n!"GF")) (.sqrt (.rat 2 1))) (.sub (.neg (.div (.mul (.rat 8 1) (.sub (.sub (.add (.div (.mul (.rat 8 1) (.inp n!"10sbcu")) (.rat 3 1)) (.inp n!"7sbcu")) (.div (.inp n!"8sbcu") (.rat 6 1))) (.mul (.rat 16 1) (.inp n!"9sbcu")))) (.rat 3 1))) (.mul (.rat 8 1) (.add (.mul (.rat (-8) 1) (.inp n!"10sbcu")) (.div (.inp n!"8sbcu") (.rat 2 1))))))),
  (n!"V1ddLR_1231", (.mul (.div (.mul (.rat 4 1) (.par n!"GF")) (.sqrt (.rat 2 1))) (.conj (.sub (.neg (.div (.add (.sub (.add (.neg (.div (.mul (.rat 8 1) (.inp n!"10sbdd")) (.rat 3 1))) (.inp n!"5sbdd")) (.div (.inp n!"6sbdd") (.rat 6 1))) (.mul (.rat 16 1) (.inp n!"9sbdd"))) (.mul (.rat 2 1) (.rat 3 1)))) (.div (.add (.mul (.rat 8 1) (.inp n!"10sbdd")) (.div (.inp n!"6sbdd") (.rat 2 1))) (.rat 2 1)))))),
  (n!"SnueduRL_3112", (.mul (.div (.mul (.rat 4 1) (.par n!"GF")) (.sqrt (.rat 2 1))) (.conj (.inp n!"5cdetau")))),
  (n!"VnudLL_2323", (.mul (.div (.mul (.rat 4 1) (.par n!"GF")) (.sqrt (.rat 2 1))) (.inp n!"nu1sbmutau"))),
  (n!"VnueduLR_3221", (.mul (.div (.mul (.rat 4 1) (.par n!"GF")) (.sqrt (.rat 2 1))) (.conj (.inp n!"1pusmutau")))),
  (n!"V8duLR_1321", (.mul (.div (.mul (.rat 4 1) (.par n!"GF")) (.sqrt (.rat 2 1))) (.mul (.rat 2 1) (.add (.div (.inp n!"2dbcu") (.rat 2 1)) (.mul (.rat 2 1) (.inp n!"4dbcu")))))),
  (n!"VnudLR_1331", (.mul (.div (.mul (.rat 4 1) (.par n!"GF")) (.sqrt (.rat 2 1))) (.conj (.inp n!"nu1pdbtaue"))))]

def Bern_to_JMS_6 : List (ℕ × Sym) := [
  (n!"S8ddRR_3232", (.mul (.div (.mul (.rat 4 1) (.par n!"GF")) (.sqrt (.rat 2 1))) (.mul (.rat 2 1) (.conj (.inp n!"3sbsb"))))),
  (n!"V8udLR_1123", (.mul (.div (.mul (.rat 4 1) (.par n!"GF")) (.sqrt (.rat 2 1))) (.mul (.rat 2 1) (.add (.div (.inp n!"2psbuu") (.rat 2 1)) (.mul (.rat 2 1) (.inp n!"4psbuu")))))),
  (n!"VnueduLL_2321", (.mul (.div (.mul (.rat 4 1) (.par n!"GF")) (.sqrt (.rat 2 1))) (.conj (.inp n!"1ustaumu")))),
  (n!"VedRR_2223", (.mul (.div (.mul (.rat 4 1) (.par n!"GF")) (.sqrt (.rat 2 1))) (.add (.mul (.rat 6 1) (.inp n!"3psbmumu")) (.add (.inp n!"1psbmumu") (.mul (.rat 10 1) (.inp n!"3psbmumu")))))),
  (n!"SedRL_1113", (.mul (.div (.mul (.rat 4 1) (.par n!"GF")) (.sqrt (.rat 2 1))) (.add (.mul (.rat (-24) 1) (.inp n!"9pdbee")) (.add (.inp n!"5pdbee") (.mul (.rat 40 1) (.inp n!"9pdbee")))))),
  (n!"TedRR_3131", (.mul (.div (.mul (.rat 4 1) (.par n!"GF")) (.sqrt (.rat 2 1))) (.sub (.conj (.sub (.sub (.add (.div (.inp n!"7dbetau") (.rat 2 1)) (.div (.inp n!"7pdbetau") (.rat 2 1))) (.mul (.rat 8 1) (.inp n!"9dbetau"))) (.mul (.rat 8 1) (.inp n!"9pdbetau")))) (.conj (.add (.sub (.sub (.div (.inp n!"7dbetau") (.rat 2 1)) (.div (.inp n!"7pdbetau") (.rat 2 1))) (.mul (.rat 8 1) (.inp n!"9dbetau"))) (.mul (.rat 8 1) (.inp n!"9pdbetau"))))))),
  (n!"V8ddLR_3313", (.mul (.div (.mul (.rat 4 1) (.par n!"GF")) (.sqrt (.rat 2 1))) (.neg (.add (.inp n!"5pdbbb") (.mul (.rat 16 1) (.inp n!"9pdbbb")))))),
  (n!"S1udduRR_1231", (.mul (.div (.mul (.rat 4 1) (.par n!"GF")) (.sqrt (.rat 2 1))) (.sub (.neg (.div (.mul (.rat 8 1) (.conj (.sub (.sub (.add (.div (.mul (.rat 8 1) (.inp n!"10psbuu")) (.rat 3 1)) (.inp n!"7psbuu")) (.div (.inp n!"8psbuu") (.rat 6 1))) (.mul (.rat 16 1) (.inp n!"9psbuu"))))) (.rat 3 1))) (.mul (.rat 8 1) (.conj (.add (.mul (.rat (-8) 1) (.inp n!"10psbuu")) (.div (.inp n!"8psbuu") (.rat 2 1)))))))),
  (n!"VedLR_1312", (.mul (.div (.mul (.rat 4 1) (.par n!"GF")) (.sqrt (.rat 2 1))) (.add (.neg (.mul (.rat 6 1) (.inp n!"3pdsetau"))) (.add (.inp n!"1pdsetau") (.mul (.rat 10 1) (.inp n!"3pdsetau")))))),
  (n!"S1udRR_1212", (.mul (.div (.mul (.rat 4 1) (.par n!"GF")) (.sqrt (.rat 2 1))) (.sub (.sub (.add (.add (.sub (.add (.neg (.div (.mul (.rat 32 1) (.inp n!"10dsuc")) (.rat 3 1))) (.inp n!"5dsuc")) (.div (.inp n!"6dsuc") (.rat 6 1))) (.mul (.rat 64 1) (.inp n!"9dsuc"))) (.div (.add (.mul (.rat 32 1) (.inp n!"10dsuc")) (.div (.inp n!"6dsuc") (.rat 2 1))) (.rat 3 1))) (.mul (.rat 4 1) (.sub (.sub (.add (.div (.mul (.rat 8 1) (.inp n!"10dsuc")) (.rat 3 1)) (.inp n!"7dsuc")) (.div (.inp n!"8dsuc") (.rat 6 1))) (.mul (.rat 16 1) (.inp n!"9dsuc"))))) (.div (.mul (.rat 4 1) (.add (.mul (.rat (-8) 1) (.inp n!"10dsuc")) (.div (.inp n!"8dsuc") (.rat 2 1)))) (.rat 3 1))))),
  (n!"V8udduLR_1212", (.mul (.div (.mul (.rat 4 1) (.par n!"GF")) (.sqrt (.rat 2 1))) (.neg (.add (.sub (.add (.neg (.div (.mul (.rat 8 1) (.inp n!"10pdsuc")) (.rat 3 1))) (.inp n!"5pdsuc")) (.div (.inp n!"6pdsuc") (.rat 6 1))) (.mul (.rat 16 1) (.inp n!"9pdsuc")))))),
  (n!"SedRR_3132", (.mul (.div (.mul (.rat 4 1) (.par n!"GF")) (.sqrt (.rat 2 1))) (.add (.neg (.conj (.mul (.rat (-24) 1) (.inp n!"9psbetau")))) (.conj (.add (.inp n!"5psbetau") (.mul (.rat 40 1) (.inp n!"9psbetau"))))))),
  (n!"VnueduLR_2131", (.mul (.div (.mul (.rat 4 1) (.par n!"GF")) (.sqrt (.rat 2 1))) (.conj (.inp n!"1pubemu")))),
  (n!"V1ddLR_1223", (.mul (.div (.mul (.rat 4 1) (.par n!"GF")) (.sqrt (.rat 2 1))) (.sub (.neg (.div (.add (.sub (.add (.neg (.div (.mul (.rat 8 1) (.inp n!"10dbss")) (.rat 3 1))) (.inp n!"5dbss")) (.div (.inp n!"6dbss") (.rat 6 1))) (.mul (.rat 16 1) (.inp n!"9dbss"))) (.mul (.rat 2 1) (.rat 3 1)))) (.div (.add (.mul (.rat 8 1) (.inp n!"10dbss")) (.div (.inp n!"6dbss") (.rat 2 1))) (.rat 2 1))))),
  (n!"TnueduRR_3232", (.mul (.div (.mul (.rat 4 1) (.par n!"GF")) (.sqrt (.rat 2 1))) (.conj (.inp n!"7pcbmutau")))),
  (n!"VddRR_1112", (.mul (.div (.mul (.rat 4 1) (.par n!"GF")) (.sqrt (.rat 2 1))) (.add (.inp n!"1pdsdd") (.mul (.rat 16 1) (.inp n!"3pdsdd"))))),
  (n!"TedRR_2321", (.mul (.div (.mul (.rat 4 1) (.par n!"GF")) (.sqrt (.rat 2 1))) (.sub (.conj (.sub (.sub (.add (.div (.inp n!"7dstaumu") (.rat 2 1)) (.div (.inp n!"7pdstaumu") (.rat 2 1))) (.mul (.rat 8 1) (.inp n!"9dstaumu"))) (.mul (.rat 8 1) (.inp n!"9pdstaumu")))) (.conj (.add (.sub (.sub (.div (.inp n!"7dstaumu") (.rat 2 1)) (.div (.inp n!"7pdstaumu") (.rat 2 1))) (.mul (.rat 8 1) (.inp n!"9dstaumu"))) (.mul (.rat 8 1) (.inp n!"9pdstaumu"))))))),
  (n!"SnueduRR_2112", (.mul (.div (.mul (.rat 4 1) (.par n!"GF")) (.sqrt (.rat 2 1))) (.conj (.inp n!"5pcdemu")))),
  (n!"VnudLR_1323", (.mul (.div (.mul (.rat 4 1) (.par n!"GF")) (.sqrt (.rat 2 1))) (.inp n!"nu1psbetau"))),
  (n!"VddRR_1333", (.mul (.div (.mul (.rat 4 1) (.par n!"GF")) (.sqrt (.rat 2 1))) (.add (.inp n!"1pdbbb") (.mul (.rat 16 1) (.inp n!"3pdbbb"))))),
  (n!"SedRL_2232", (.mul (.div (.mul (.rat 4 1) (.par n!"GF")) (.sqrt (.rat 2 1))) (.add (.neg (.conj (.mul (.rat 24 1) (.inp n!"9sbmumu")))) (.conj (.add (.inp n!"5sbmumu") (.mul (.rat 40 1) (.inp n!"9sbmumu"))))))),
  (n!"V1duLR_1211", (.mul (.div (.mul (.rat 4 1) (.par n!"GF")) (.sqrt (.rat 2 1))) (.add (.sub (.add (.sub (.inp n!"1dsuu") (.div (.inp n!"2dsuu") (.rat 6 1))) (.mul (.rat 4 1) (.inp n!"3dsuu"))) (.div (.mul (.rat 2 1) (.inp n!"4dsuu")) (.rat 3 1))) (.div (.add (.div (.inp n!"2dsuu") (.rat 2 1)) (.mul (.rat 2 1) (.inp n!"4dsuu"))) (.rat 3 1))))),
  (n!"VnueduLL_1231", (.mul (.div (.mul (.rat 4 1) (.par n!"GF")) (.sqrt (.rat 2 1))) (.conj (.inp n!"1ubmue")))),
  (n!"S8udRR_2212", (.mul (.div (.mul (.rat 4 1) (.par n!"GF")) (.sqrt (.rat 2 1))) (.sub (.mul (.rat 2 1) (.add (.mul (.rat 32 1) (.inp n!"10dscc")) (.div (.inp n!"6dscc") (.rat 2 1)))) (.mul (.rat 8 1) (.add (.mul (.rat (-8) 1) (.inp n!"10dscc")) (.div (.inp n!"8dscc") (.rat 2 1))))))),
  (n!"SnueduRL_1212", (.mul (.div (.mul (.rat 4 1) (.par n!"GF")) (.sqrt (.rat 2 1))) (.conj (.inp n!"5cdmue")))),
  (n!"VnueduLR_1321", (.mul (.div (.mul (.rat 4 1) (.par n!"GF")) (.sqrt (.rat 2 1))) (.conj (.inp n!"1pustaue")))),
  (n!"V8ddLR_2223", (.mul (.div (.mul (.rat 4 1) (.par n!"GF")) (.sqrt (.rat 2 1))) (.mul (.rat 2 1) (.mul (.div (.rat (-1) 1) (.rat 2 1)) (.add (.inp n!"5psbss") (.mul (.rat 16 1) (.inp n!"9psbss"))))))),
  (n!"TedRR_3123", (.mul (.div (.mul (.rat 4 1) (.par n!"GF")) (.sqrt (.rat 2 1))) (.add (.sub (.sub (.add (.div (.inp n!"7sbtaue") (.rat 2 1)) (.div (.inp n!"7psbtaue") (.rat 2 1))) (.mul (.rat 8 1) (.inp n!"9sbtaue"))) (.mul (.rat 8 1) (.inp n!"9psbtaue"))) (.add (.sub (.sub (.div (.inp n!"7sbtaue") (.rat 2 1)) (.div (.inp n!"7psbtaue") (.rat 2 1))) (.mul (.rat 8 1) (.inp n!"9sbtaue"))) (.mul (.rat 8 1) (.inp n!"9psbtaue")))))),
  (n!"S8ddRR_1332", (.mul (.div (.mul (.rat 4 1) (.par n!"GF")) (.sqrt (.rat 2 1))) (.mul (.rat (-16) 1) (.sub (.sub (.add (.div (.mul (.rat 8 1) (.inp n!"10dsbb")) (.rat 3 1)) (.inp n!"7dsbb")) (.div (.inp n!"8dsbb") (.rat 6 1))) (.mul (.rat 16 1) (.inp n!"9dsbb")))))),
  (n!"S8udduRR_2312", (.mul (.div (.mul (.rat 4 1) (.par n!"GF")) (.sqrt (.rat 2 1))) (.mul (.rat (-16) 1) (.sub (.sub (.add (.div (.mul (.rat 8 1) (.inp n!"10dbcc")) (.rat 3 1)) (.inp n!"7dbcc")) (.div (.inp n!"8dbcc") (.rat 6 1))) (.mul (.rat 16 1) (.inp n!"9dbcc")))))),
  (n!"dgamma_31", (.mul (.div (.mul (.rat 4 1) (.par n!"GF")) (.sqrt (.rat 2 1))) (.conj (.div (.inp n!"7pgammadb") (.div (.div (.mul (.sqrt (.mul (.mul (.rat 4 1) .pi) (.par n!"alpha_s"))) (.sqrt (.mul (.mul (.rat 4 1) .pi) (.par n!"alpha_s")))) (.sqrt (.mul (.mul (.rat 4 1) .pi) (.par n!"alpha_e")))) (.par n!"m_b")))))),
  (n!"SnueduRR_3231", (.mul (.div (.mul (.rat 4 1) (.par n!"GF")) (.sqrt (.rat 2 1))) (.conj (.inp n!"5pubmutau")))),
  (n!"TedRR_1231", (.mul (.div (.mul (.rat 4 1) (.par n!"GF")) (.sqrt (.rat 2 1))) (.sub (.conj (.sub (.sub (.add (.div (.inp n!"7dbmue") (.rat 2 1)) (.div (.inp n!"7pdbmue") (.rat 2 1))) (.mul (.rat 8 1) (.inp n!"9dbmue"))) (.mul (.rat 8 1) (.inp n!"9pdbmue")))) (.conj (.add (.sub (.sub (.div (.inp n!"7dbmue") (.rat 2 1)) (.div (.inp n!"7pdbmue") (.rat 2 1))) (.mul (.rat 8 1) (.inp n!"9dbmue"))) (.mul (.rat 8 1) (.inp n!"9pdbmue"))))))),
  (n!"VnueduLL_3211", (.mul (.div (.mul (.rat 4 1) (.par n!"GF")) (.sqrt (.rat 2 1))) (.conj (.inp n!"1udmutau")))),
  (n!"VnudLL_1321", (.mul (.div (.mul (.rat 4 1) (.par n!"GF")) (.sqrt (.rat 2 1))) (.conj (.inp n!"nu1dstaue")))),
  (n!"V1ddLR_1311", (.mul (.div (.mul (.rat 4 1) (.par n!"GF")) (.sqrt (.rat 2 1))) (.sub (.neg (.div (.add (.inp n!"5dbdd") (.mul (.rat 16 1) (.inp n!"9dbdd"))) (.mul (.rat 2 1) (.rat 3 1)))) (.div (.mul (.rat (-2) 1) (.add (.inp n!"1dbdd") (.mul (.rat 4 1) (.inp n!"3dbdd")))) (.rat 2 1))))),
  (n!"TedRR_2313", (.mul (.div (.mul (.rat 4 1) (.par n!"GF")) (.sqrt (.rat 2 1))) (.add (.sub (.sub (.add (.div (.inp n!"7dbmutau") (.rat 2 1)) (.div (.inp n!"7pdbmutau") (.rat 2 1))) (.mul (.rat 8 1) (.inp n!"9dbmutau"))) (.mul (.rat 8 1) (.inp n!"9pdbmutau"))) (.add (.sub (.sub (.div (.inp n!"7dbmutau") (.rat 2 1)) (.div (.inp n!"7pdbmutau") (.rat 2 1))) (.mul (.rat 8 1) (.inp n!"9dbmutau"))) (.mul (.rat 8 1) (.inp n!"9pdbmutau")))))),
  (n!"TnueduRR_1111", (.mul (.div (.mul (.rat 4 1) (.par n!"GF")) (.sqrt (.rat 2 1))) (.conj (.inp n!"7pudee")))),
  (n!"SnueduRL_2331", (.mul (.div (.mul (.rat 4 1) (.par n!"GF")) (.sqrt (.rat 2 1))) (.conj (.inp n!"5ubtaumu")))),
  (n!"V8udLL_1113", (.mul (.div (.mul (.rat 4 1) (.par n!"GF")) (.sqrt (.rat 2 1))) (.mul (.rat 2 1) (.add (.div (.inp n!"2dbuu") (.rat 2 1)) (.mul (.rat 8 1) (.inp n!"4dbuu")))))),
  (n!"SedRR_1232", (.mul (.div (.mul (.rat 4 1) (.par n!"GF")) (.sqrt (.rat 2 1))) (.add (.neg (.conj (.mul (.rat (-24) 1) (.inp n!"9psbmue")))) (.conj (.add (.inp n!"5psbmue") (.mul (.rat 40 1) (.inp n!"9psbmue"))))))),
  (n!"TnueduRR_1332", (.mul (.div (.mul (.rat 4 1) (.par n!"GF")) (.sqrt (.rat 2 1))) (.conj (.inp n!"7pcbtaue")))),
  (n!"VedRR_1221", (.mul (.div (.mul (.rat 4 1) (.par n!"GF")) (.sqrt (.rat 2 1))) (.conj (.add (.mul (.rat 6 1) (.inp n!"3pdsmue")) (.add (.inp n!"1pdsmue") (.mul (.rat 10 1) (.inp n!"3pdsmue"))))))),
  (n!"S1udduRR_2121", (.mul (.div (.mul (.rat 4 1) (.par n!"GF")) (.sqrt (.rat 2 1))) (.sub (.neg (.div (.mul (.rat 8 1) (.conj (.sub (.sub (.add (.div (.mul (.rat 8 1) (.inp n!"10pdsuc")) (.rat 3 1)) (.inp n!"7pdsuc")) (.div (.inp n!"8pdsuc") (.rat 6 1))) (.mul (.rat 16 1) (.inp n!"9pdsuc"))))) (.rat 3 1))) (.mul (.rat 8 1) (.conj (.add (.mul (.rat (-8) 1) (.inp n!"10pdsuc")) (.div (.inp n!"8pdsuc") (.rat 2 1)))))))),
  (n!"V1udLL_1232", (.mul (.div (.mul (.rat 4 1) (.par n!"GF")) (.sqrt (.rat 2 1))) (.conj (.add (.sub (.add (.sub (.inp n!"1sbcu") (.div (.inp n!"2sbcu") (.rat 6 1))) (.mul (.rat 16 1) (.inp n!"3sbcu"))) (.div (.mul (.rat 8 1) (.inp n!"4sbcu")) (.rat 3 1))) (.div (.add (.div (.inp n!"2sbcu") (.rat 2 1)) (.mul (.rat 8 1) (.inp n!"4sbcu"))) (.rat 3 1)))))),
  (n!"V8ddLR_2311", (.mul (.div (.mul (.rat 4 1) (.par n!"GF")) (.sqrt (.rat 2 1))) (.mul (.rat 2 1) (.add (.div (.inp n!"2sbdd") (.rat 2 1)) (.mul (.rat 2 1) (.inp n!"4sbdd")))))),
  (n!"S1ddRR_1222", (.mul (.div (.mul (.rat 4 1) (.par n!"GF")) (.sqrt (.rat 2 1))) (.sub (.neg (.div (.mul (.rat 8 1) (.sub (.inp n!"7dsss") (.mul (.rat 16 1) (.inp n!"9dsss")))) (.rat 3 1))) (.mul (.rat 8 1) (.add (.mul (.div (.rat (-1) 1) (.rat 8 1)) (.add (.inp n!"5dsss") (.mul (.rat 64 1) (.inp n!"9dsss")))) (.mul (.div (.rat 1 1) (.rat 2 1)) (.sub (.inp n!"7dsss") (.mul (.rat 16 1) (.inp n!"9dsss"))))))))),
  (n!"VnudLR_2213", (.mul (.div (.mul (.rat 4 1) (.par n!"GF")) (.sqrt (.rat 2 1))) (.inp n!"nu1pdbmumu"))),
  (n!"VddRR_2223", (.mul (.div (.mul (.rat 4 1) (.par n!"GF")) (.sqrt (.rat 2 1))) (.add (.inp n!"1psbss") (.mul (.rat 16 1) (.inp n!"3psbss"))))),
  (n!"dgamma_23", (.mul (.div (.mul (.rat 4 1) (.par n!"GF")) (.sqrt (.rat 2 1))) (.div (.inp n!"7gammasb") (.div (.div (.mul (.sqrt (.mul (.mul (.rat 4 1) .pi) (.par n!"alpha_s"))) (.sqrt (.mul (.mul (.rat 4 1) .pi) (.par n!"alpha_s")))) (.sqrt (.mul (.mul (.rat 4 1) .pi) (.par n!"alpha_e")))) (.par n!"m_b")))))]

def Bern_to_JMS_7 : List (ℕ × Sym) := [
  (n!"VdeLR_1211", (.mul (.div (.mul (.rat 4 1) (.par n!"GF")) (.sqrt (.rat 2 1))) (.add (.mul (.rat (-6) 1) (.inp n!"3dsee")) (.add (.inp n!"1dsee") (.mul (.rat 10 1) (.inp n!"3dsee")))))),
  (n!"VnueduLL_2121", (.mul (.div (.mul (.rat 4 1) (.par n!"GF")) (.sqrt (.rat 2 1))) (.conj (.inp n!"1usemu")))),
  (n!"S1udduRR_1311", (.mul (.div (.mul (.rat 4 1) (.par n!"GF")) (.sqrt (.rat 2 1))) (.sub (.neg (.div (.mul (.rat 8 1) (.sub (.sub (.add (.div (.mul (.rat 8 1) (.inp n!"10dbuu")) (.rat 3 1)) (.inp n!"7dbuu")) (.div (.inp n!"8dbuu") (.rat 6 1))) (.mul (.rat 16 1) (.inp n!"9dbuu")))) (.rat 3 1))) (.mul (.rat 8 1) (.add (.mul (.rat (-8) 1) (.inp n!"10dbuu")) (.div (.inp n!"8dbuu") (.rat 2 1))))))),
  (n!"TedRR_1223", (.mul (.div (.mul (.rat 4 1) (.par n!"GF")) (.sqrt (.rat 2 1))) (.add (.sub (.sub (.add (.div (.inp n!"7sbemu") (.rat 2 1)) (.div (.inp n!"7psbemu") (.rat 2 1))) (.mul (.rat 8 1) (.inp n!"9sbemu"))) (.mul (.rat 8 1) (.inp n!"9psbemu"))) (.add (.sub (.sub (.div (.inp n!"7sbemu") (.rat 2 1)) (.div (.inp n!"7psbemu") (.rat 2 1))) (.mul (.rat 8 1) (.inp n!"9sbemu"))) (.mul (.rat 8 1) (.inp n!"9psbemu")))))),
  (n!"V1duLR_2322", (.mul (.div (.mul (.rat 4 1) (.par n!"GF")) (.sqrt (.rat 2 1))) (.add (.sub (.add (.sub (.inp n!"1sbcc") (.div (.inp n!"2sbcc") (.rat 6 1))) (.mul (.rat 4 1) (.inp n!"3sbcc"))) (.div (.mul (.rat 2 1) (.inp n!"4sbcc")) (.rat 3 1))) (.div (.add (.div (.inp n!"2sbcc") (.rat 2 1)) (.mul (.rat 2 1) (.inp n!"4sbcc"))) (.rat 3 1))))),
  (n!"VddLL_1222", (.mul (.div (.mul (.rat 4 1) (.par n!"GF")) (.sqrt (.rat 2 1))) (.add (.inp n!"1dsss") (.mul (.rat 16 1) (.inp n!"3dsss"))))),
  (n!"VnudLL_1313", (.mul (.div (.mul (.rat 4 1) (.par n!"GF")) (.sqrt (.rat 2 1))) (.inp n!"nu1dbetau"))),
  (n!"SedRR_3212", (.mul (.div (.mul (.rat 4 1) (.par n!"GF")) (.sqrt (.rat 2 1))) (.add (.mul (.rat 24 1) (.inp n!"9dstaumu")) (.add (.inp n!"5dstaumu") (.mul (.rat 40 1) (.inp n!"9dstaumu")))))),
  (n!"VnueduLR_2211", (.mul (.div (.mul (.rat 4 1) (.par n!"GF")) (.sqrt (.rat 2 1))) (.conj (.inp n!"1pudmumu")))),
  (n!"TnueduRR_3312", (.mul (.div (.mul (.rat 4 1) (.par n!"GF")) (.sqrt (.rat 2 1))) (.conj (.inp n!"7pcdtautau")))),
  (n!"V1udduLR_2132", (.mul (.div (.mul (.rat 4 1) (.par n!"GF")) (.sqrt (.rat 2 1))) (.sub (.neg (.div (.conj (.add (.sub (.add (.neg (.div (.mul (.rat 8 1) (.inp n!"10dbcc")) (.rat 3 1))) (.inp n!"5dbcc")) (.div (.inp n!"6dbcc") (.rat 6 1))) (.mul (.rat 16 1) (.inp n!"9dbcc")))) (.mul (.rat 2 1) (.rat 3 1)))) (.div (.conj (.add (.mul (.rat 8 1) (.inp n!"10dbcc")) (.div (.inp n!"6dbcc") (.rat 2 1)))) (.rat 2 1))))),
  (n!"VedLR_1112", (.mul (.div (.mul (.rat 4 1) (.par n!"GF")) (.sqrt (.rat 2 1))) (.add (.neg (.mul (.rat 6 1) (.inp n!"3pdsee"))) (.add (.inp n!"1pdsee") (.mul (.rat 10 1) (.inp n!"3pdsee")))))),
  (n!"SnueduRR_1331", (.mul (.div (.mul (.rat 4 1) (.par n!"GF")) (.sqrt (.rat 2 1))) (.conj (.inp n!"5pubtaue")))),
  (n!"SedRL_2312", (.mul (.div (.mul (.rat 4 1) (.par n!"GF")) (.sqrt (.rat 2 1))) (.add (.mul (.rat (-24) 1) (.inp n!"9pdsmutau")) (.add (.inp n!"5pdsmutau") (.mul (.rat 40 1) (.inp n!"9pdsmutau")))))),
  (n!"VnueduLL_1311", (.mul (.div (.mul (.rat 4 1) (.par n!"GF")) (.sqrt (.rat 2 1))) (.conj (.inp n!"1udtaue")))),
  (n!"VedRR_1213", (.mul (.div (.mul (.rat 4 1) (.par n!"GF")) (.sqrt (.rat 2 1))) (.add (.mul (.rat 6 1) (.inp n!"3pdbemu")) (.add (.inp n!"1pdbemu") (.mul (.rat 10 1) (.inp n!"3pdbemu")))))),
  (n!"TedRR_2121", (.mul (.div (.mul (.rat 4 1) (.par n!"GF")) (.sqrt (.rat 2 1))) (.sub (.conj (.sub (.sub (.add (.div (.inp n!"7dsemu") (.rat 2 1)) (.div (.inp n!"7pdsemu") (.rat 2 1))) (.mul (.rat 8 1) (.inp n!"9dsemu"))) (.mul (.rat 8 1) (.inp n!"9pdsemu")))) (.conj (.add (.sub (.sub (.div (.inp n!"7dsemu") (.rat 2 1)) (.div (.inp n!"7pdsemu") (.rat 2 1))) (.mul (.rat 8 1) (.inp n!"9dsemu"))) (.mul (.rat 8 1) (.inp n!"9pdsemu"))))))),
  (n!"VnudLR_1123", (.mul (.div (.mul (.rat 4 1) (.par n!"GF")) (.sqrt (.rat 2 1))) (.inp n!"nu1psbee"))),
  (n!"V1udduLR_1322", (.mul (.div (.mul (.rat 4 1) (.par n!"GF")) (.sqrt (.rat 2 1))) (.sub (.neg (.div (.add (.sub (.add (.neg (.div (.mul (.rat 8 1) (.inp n!"10psbuc")) (.rat 3 1))) (.inp n!"5psbuc")) (.div (.inp n!"6psbuc") (.rat 6 1))) (.mul (.rat 16 1) (.inp n!"9psbuc"))) (.mul (.rat 2 1) (.rat 3 1)))) (.div (.add (.mul (.rat 8 1) (.inp n!"10psbuc")) (.div (.inp n!"6psbuc") (.rat 2 1))) (.rat 2 1))))),
  (n!"SnueduRL_3221", (.mul (.div (.mul (.rat 4 1) (.par n!"GF")) (.sqrt (.rat 2 1))) (.conj (.inp n!"5usmutau")))),
  (n!"VnueduLR_1121", (.mul (.div (.mul (.rat 4 1) (.par n!"GF")) (.sqrt (.rat 2 1))) (.conj (.inp n!"1pusee")))),
  (n!"TnueduRR_2222", (.mul (.div (.mul (.rat 4 1) (.par n!"GF")) (.sqrt (.rat 2 1))) (.conj (.inp n!"7pcsmumu")))),
  (n!"S1udRR_2131", (.mul (.div (.mul (.rat 4 1) (.par n!"GF")) (.sqrt (.rat 2 1))) (.sub (.sub (.add (.conj (.add (.sub (.add (.neg (.div (.mul (.rat 32 1) (.inp n!"10pdbuc")) (.rat 3 1))) (.inp n!"5pdbuc")) (.div (.inp n!"6pdbuc") (.rat 6 1))) (.mul (.rat 64 1) (.inp n!"9pdbuc")))) (.div (.conj (.add (.mul (.rat 32 1) (.inp n!"10pdbuc")) (.div (.inp n!"6pdbuc") (.rat 2 1)))) (.rat 3 1))) (.mul (.rat 4 1) (.conj (.sub (.sub (.add (.div (.mul (.rat 8 1) (.inp n!"10pdbuc")) (.rat 3 1)) (.inp n!"7pdbuc")) (.div (.inp n!"8pdbuc") (.rat 6 1))) (.mul (.rat 16 1) (.inp n!"9pdbuc")))))) (.div (.mul (.rat 4 1) (.conj (.add (.mul (.rat (-8) 1) (.inp n!"10pdbuc")) (.div (.inp n!"8pdbuc") (.rat 2 1))))) (.rat 3 1))))),
  (n!"V8udduLR_2131", (.mul (.div (.mul (.rat 4 1) (.par n!"GF")) (.sqrt (.rat 2 1))) (.neg (.conj (.add (.sub (.add (.neg (.div (.mul (.rat 8 1) (.inp n!"10dbuc")) (.rat 3 1))) (.inp n!"5dbuc")) (.div (.inp n!"6dbuc") (.rat 6 1))) (.mul (.rat 16 1) (.inp n!"9dbuc"))))))),
  (n!"SnueduRR_3311", (.mul (.div (.mul (.rat 4 1) (.par n!"GF")) (.sqrt (.rat 2 1))) (.conj (.inp n!"5pudtautau")))),
  (n!"V8udRR_1112", (.mul (.div (.mul (.rat 4 1) (.par n!"GF")) (.sqrt (.rat 2 1))) (.mul (.rat 2 1) (.add (.div (.inp n!"2pdsuu") (.rat 2 1)) (.mul (.rat 8 1) (.inp n!"4pdsuu")))))),
  (n!"V8udLR_1232", (.mul (.div (.mul (.rat 4 1) (.par n!"GF")) (.sqrt (.rat 2 1))) (.conj (.mul (.rat 2 1) (.add (.div (.inp n!"2psbcu") (.rat 2 1)) (.mul (.rat 2 1) (.inp n!"4psbcu"))))))),
  (n!"VedRR_2332", (.mul (.div (.mul (.rat 4 1) (.par n!"GF")) (.sqrt (.rat 2 1))) (.conj (.add (.mul (.rat 6 1) (.inp n!"3psbtaumu")) (.add (.inp n!"1psbtaumu") (.mul (.rat 10 1) (.inp n!"3psbtaumu"))))))),
  (n!"S8ddRR_1132", (.mul (.div (.mul (.rat 4 1) (.par n!"GF")) (.sqrt (.rat 2 1))) (.sub (.mul (.rat 2 1) (.conj (.add (.mul (.rat 32 1) (.inp n!"10psbdd")) (.div (.inp n!"6psbdd") (.rat 2 1))))) (.mul (.rat 8 1) (.conj (.add (.mul (.rat (-8) 1) (.inp n!"10psbdd")) (.div (.inp n!"8psbdd") (.rat 2 1)))))))),
  (n!"VedLR_3313", (.mul (.div (.mul (.rat 4 1) (.par n!"GF")) (.sqrt (.rat 2 1))) (.add (.neg (.mul (.rat 6 1) (.inp n!"3pdbtautau"))) (.add (.inp n!"1pdbtautau") (.mul (.rat 10 1) (.inp n!"3pdbtautau")))))),
  (n!"VedLL_1331", (.mul (.div (.mul (.rat 4 1) (.par n!"GF")) (.sqrt (.rat 2 1))) (.conj (.add (.neg (.mul (.rat (-6) 1) (.inp n!"3dbtaue"))) (.add (.inp n!"1dbtaue") (.mul (.rat 10 1) (.inp n!"3dbtaue"))))))),
  (n!"V1udRR_1231", (.mul (.div (.mul (.rat 4 1) (.par n!"GF")) (.sqrt (.rat 2 1))) (.conj (.add (.sub (.add (.sub (.inp n!"1pdbcu") (.div (.inp n!"2pdbcu") (.rat 6 1))) (.mul (.rat 16 1) (.inp n!"3pdbcu"))) (.div (.mul (.rat 8 1) (.inp n!"4pdbcu")) (.rat 3 1))) (.div (.add (.div (.inp n!"2pdbcu") (.rat 2 1)) (.mul (.rat 8 1) (.inp n!"4pdbcu"))) (.rat 3 1)))))),
  (n!"V1udLR_2212", (.mul (.div (.mul (.rat 4 1) (.par n!"GF")) (.sqrt (.rat 2 1))) (.add (.sub (.add (.sub (.inp n!"1pdscc") (.div (.inp n!"2pdscc") (.rat 6 1))) (.mul (.rat 4 1) (.inp n!"3pdscc"))) (.div (.mul (.rat 2 1) (.inp n!"4pdscc")) (.rat 3 1))) (.div (.add (.div (.inp n!"2pdscc") (.rat 2 1)) (.mul (.rat 2 1) (.inp n!"4pdscc"))) (.rat 3 1))))),
  (n!"SedRR_1312", (.mul (.div (.mul (.rat 4 1) (.par n!"GF")) (.sqrt (.rat 2 1))) (.add (.mul (.rat 24 1) (.inp n!"9dsetau")) (.add (.inp n!"5dsetau") (.mul (.rat 40 1) (.inp n!"9dsetau")))))),
  (n!"V8ddLR_1213", (.mul (.div (.mul (.rat 4 1) (.par n!"GF")) (.sqrt (.rat 2 1))) (.mul (.rat 2 1) (.mul (.div (.rat (-1) 1) (.rat 2 1)) (.add (.inp n!"5pdbds") (.mul (.rat 16 1) (.inp n!"9pdbds"))))))),
  (n!"S1ddRR_2333", (.mul (.div (.mul (.rat 4 1) (.par n!"GF")) (.sqrt (.rat 2 1))) (.sub (.neg (.div (.mul (.rat 8 1) (.sub (.inp n!"7sbbb") (.mul (.rat 16 1) (.inp n!"9sbbb")))) (.rat 3 1))) (.mul (.rat 8 1) (.add (.mul (.div (.rat (-1) 1) (.rat 8 1)) (.add (.inp n!"5sbbb") (.mul (.rat 64 1) (.inp n!"9sbbb")))) (.mul (.div (.rat 1 1) (.rat 2 1)) (.sub (.inp n!"7sbbb") (.mul (.rat 16 1) (.inp n!"9sbbb"))))))))),
  (n!"V8udduLR_1321", (.mul (.div (.mul (.rat 4 1) (.par n!"GF")) (.sqrt (.rat 2 1))) (.neg (.add (.sub (.add (.neg (.div (.mul (.rat 8 1) (.inp n!"10psbuu")) (.rat 3 1))) (.inp n!"5psbuu")) (.div (.inp n!"6psbuu") (.rat 6 1))) (.mul (.rat 16 1) (.inp n!"9psbuu")))))),
  (n!"TedRR_2113", (.mul (.div (.mul (.rat 4 1) (.par n!"GF")) (.sqrt (.rat 2 1))) (.add (.sub (.sub (.add (.div (.inp n!"7dbmue") (.rat 2 1)) (.div (.inp n!"7pdbmue") (.rat 2 1))) (.mul (.rat 8 1) (.inp n!"9dbmue"))) (.mul (.rat 8 1) (.inp n!"9pdbmue"))) (.add (.sub (.sub (.div (.inp n!"7dbmue") (.rat 2 1)) (.div (.inp n!"7pdbmue") (.rat 2 1))) (.mul (.rat 8 1) (.inp n!"9dbmue"))) (.mul (.rat 8 1) (.inp n!"9pdbmue")))))),
  (n!"VdeLR_2322", (.mul (.div (.mul (.rat 4 1) (.par n!"GF")) (.sqrt (.rat 2 1))) (.add (.mul (.rat (-6) 1) (.inp n!"3sbmumu")) (.add (.inp n!"1sbmumu") (.mul (.rat 10 1) (.inp n!"3sbmumu")))))),
  (n!"VnueduLL_3232", (.mul (.div (.mul (.rat 4 1) (.par n!"GF")) (.sqrt (.rat 2 1))) (.conj (.inp n!"1cbmutau")))),
  (n!"SnueduRL_2131", (.mul (.div (.mul (.rat 4 1) (.par n!"GF")) (.sqrt (.rat 2 1))) (.conj (.inp n!"5ubemu")))),
  (n!"V1ddLR_1332", (.mul (.div (.mul (.rat 4 1) (.par n!"GF")) (.sqrt (.rat 2 1))) (.sub (.neg (.div (.add (.sub (.add (.neg (.div (.mul (.rat 8 1) (.inp n!"10dsbb")) (.rat 3 1))) (.inp n!"5dsbb")) (.div (.inp n!"6dsbb") (.rat 6 1))) (.mul (.rat 16 1) (.inp n!"9dsbb"))) (.mul (.rat 2 1) (.rat 3 1)))) (.div (.add (.mul (.rat 8 1) (.inp n!"10dsbb")) (.div (.inp n!"6dsbb") (.rat 2 1))) (.rat 2 1))))),
  (n!"VddLL_2333", (.mul (.div (.mul (.rat 4 1) (.par n!"GF")) (.sqrt (.rat 2 1))) (.add (.inp n!"1sbbb") (.mul (.rat 16 1) (.inp n!"3sbbb"))))),
  (n!"TnueduRR_1132", (.mul (.div (.mul (.rat 4 1) (.par n!"GF")) (.sqrt (.rat 2 1))) (.conj (.inp n!"7pcbee")))),
  (n!"VnueduLR_3322", (.mul (.div (.mul (.rat 4 1) (.par n!"GF")) (.sqrt (.rat 2 1))) (.conj (.inp n!"1pcstautau")))),
  (n!"SnueduRR_2221", (.mul (.div (.mul (.rat 4 1) (.par n!"GF")) (.sqrt (.rat 2 1))) (.conj (.inp n!"5pusmumu")))),
  (n!"VedLR_2223", (.mul (.div (.mul (.rat 4 1) (.par n!"GF")) (.sqrt (.rat 2 1))) (.add (.neg (.mul (.rat 6 1) (.inp n!"3psbmumu"))) (.add (.inp n!"1psbmumu") (.mul (.rat 10 1) (.inp n!"3psbmumu")))))),
  (n!"S1udRR_2123", (.mul (.div (.mul (.rat 4 1) (.par n!"GF")) (.sqrt (.rat 2 1))) (.sub (.sub (.add (.add (.sub (.add (.neg (.div (.mul (.rat 32 1) (.inp n!"10sbcu")) (.rat 3 1))) (.inp n!"5sbcu")) (.div (.inp n!"6sbcu") (.rat 6 1))) (.mul (.rat 64 1) (.inp n!"9sbcu"))) (.div (.add (.mul (.rat 32 1) (.inp n!"10sbcu")) (.div (.inp n!"6sbcu") (.rat 2 1))) (.rat 3 1))) (.mul (.rat 4 1) (.sub (.sub (.add (.div (.mul (.rat 8 1) (.inp n!"10sbcu")) (.rat 3 1)) (.inp n!"7sbcu")) (.div (.inp n!"8sbcu") (.rat 6 1))) (.mul (.rat 16 1) (.inp n!"9sbcu"))))) (.div (.mul (.rat 4 1) (.add (.mul (.rat (-8) 1) (.inp n!"10sbcu")) (.div (.inp n!"8sbcu") (.rat 2 1)))) (.rat 3 1))))),
  (n!"SnueduRL_1321", (.mul (.div (.mul (.rat 4 1) (.par n!"GF")) (.sqrt (.rat 2 1))) (.conj (.inp n!"5ustaue")))),
  (n!"VedLL_1323", (.mul (.div (.mul (.rat 4 1) (.par n!"GF")) (.sqrt (.rat 2 1))) (.add (.neg (.mul (.rat (-6) 1) (.inp n!"3sbetau"))) (.add (.inp n!"1sbetau") (.mul (.rat 10 1) (.inp n!"3sbetau"))))))]

def Bern_to_JMS_8 : List (ℕ × Sym) := [
  (n!"V1udRR_1223", (.mul (.div (.mul (.rat 4 1) (.par n!"GF")) (.sqrt (.rat 2 1))) (.add (.sub (.add (.sub (.inp n!"1psbuc") (.div (.inp n!"2psbuc") (.rat 6 1))) (.mul (.rat 16 1) (.inp n!"3psbuc"))) (.div (.mul (.rat 8 1) (.inp n!"4psbuc")) (.rat 3 1))) (.div (.add (.div (.inp n!"2psbuc") (.rat 2 1)) (.mul (.rat 8 1) (.inp n!"4psbuc"))) (.rat 3 1))))),
  (n!"V1udduLR_2212", (.mul (.div (.mul (.rat 4 1) (.par n!"GF")) (.sqrt (.rat 2 1))) (.sub (.neg (.div (.add (.sub (.add (.neg (.div (.mul (.rat 8 1) (.inp n!"10pdscc")) (.rat 3 1))) (.inp n!"5pdscc")) (.div (.inp n!"6pdscc") (.rat 6 1))) (.mul (.rat 16 1) (.inp n!"9pdscc"))) (.mul (.rat 2 1) (.rat 3 1)))) (.div (.add (.mul (.rat 8 1) (.inp n!"10pdscc")) (.div (.inp n!"6pdscc") (.rat 2 1))) (.rat 2 1))))),
  (n!"V8uuLR_1212", (.mul (.div (.mul (.rat 4 1) (.par n!"GF")) (.sqrt (.rat 2 1))) (.conj (.neg (.inp n!"4cucu"))))),
  (n!"TedRR_3232", (.mul (.div (.mul (.rat 4 1) (.par n!"GF")) (.sqrt (.rat 2 1))) (.sub (.conj (.sub (.sub (.add (.div (.inp n!"7sbmutau") (.rat 2 1)) (.div (.inp n!"7psbmutau") (.rat 2 1))) (.mul (.rat 8 1) (.inp n!"9sbmutau"))) (.mul (.rat 8 1) (.inp n!"9psbmutau")))) (.conj (.add (.sub (.sub (.div (.inp n!"7sbmutau") (.rat 2 1)) (.div (.inp n!"7psbmutau") (.rat 2 1))) (.mul (.rat 8 1) (.inp n!"9sbmutau"))) (.mul (.rat 8 1) (.inp n!"9psbmutau"))))))),
  (n!"VdeLR_1232", (.mul (.div (.mul (.rat 4 1) (.par n!"GF")) (.sqrt (.rat 2 1))) (.add (.mul (.rat (-6) 1) (.inp n!"3dstaumu")) (.add (.inp n!"1dstaumu") (.mul (.rat 10 1) (.inp n!"3dstaumu")))))),
  (n!"V1ddLR_3312", (.mul (.div (.mul (.rat 4 1) (.par n!"GF")) (.sqrt (.rat 2 1))) (.add (.sub (.add (.sub (.inp n!"1pdsbb") (.div (.inp n!"2pdsbb") (.rat 6 1))) (.mul (.rat 4 1) (.inp n!"3pdsbb"))) (.div (.mul (.rat 2 1) (.inp n!"4pdsbb")) (.rat 3 1))) (.div (.add (.div (.inp n!"2pdsbb") (.rat 2 1)) (.mul (.rat 2 1) (.inp n!"4pdsbb"))) (.rat 3 1))))),
  (n!"VnudLL_1113", (.mul (.div (.mul (.rat 4 1) (.par n!"GF")) (.sqrt (.rat 2 1))) (.inp n!"nu1dbee"))),
  (n!"TnueduRR_3112", (.mul (.div (.mul (.rat 4 1) (.par n!"GF")) (.sqrt (.rat 2 1))) (.conj (.inp n!"7pcdetau")))),
  (n!"VnueduLR_2232", (.mul (.div (.mul (.rat 4 1) (.par n!"GF")) (.sqrt (.rat 2 1))) (.conj (.inp n!"1pcbmumu")))),
  (n!"SnueduRR_1131", (.mul (.div (.mul (.rat 4 1) (.par n!"GF")) (.sqrt (.rat 2 1))) (.conj (.inp n!"5pubee")))),
  (n!"VddRR_1213", (.mul (.div (.mul (.rat 4 1) (.par n!"GF")) (.sqrt (.rat 2 1))) (.add (.inp n!"1pdbds") (.mul (.rat 16 1) (.inp n!"3pdbds"))))),
  (n!"SedRL_2112", (.mul (.div (.mul (.rat 4 1) (.par n!"GF")) (.sqrt (.rat 2 1))) (.add (.mul (.rat (-24) 1) (.inp n!"9pdsmue")) (.add (.inp n!"5pdsmue") (.mul (.rat 40 1) (.inp n!"9pdsmue")))))),
  (n!"VnueduLL_1111", (.mul (.div (.mul (.rat 4 1) (.par n!"GF")) (.sqrt (.rat 2 1))) (.conj (.inp n!"1udee")))),
  (n!"V8udRR_2223", (.mul (.div (.mul (.rat 4 1) (.par n!"GF")) (.sqrt (.rat 2 1))) (.mul (.rat 2 1) (.add (.div (.inp n!"2psbcc") (.rat 2 1)) (.mul (.rat 8 1) (.inp n!"4psbcc")))))),
  (n!"S8udRR_1231", (.mul (.div (.mul (.rat 4 1) (.par n!"GF")) (.sqrt (.rat 2 1))) (.sub (.mul (.rat 2 1) (.conj (.add (.mul (.rat 32 1) (.inp n!"10pdbcu")) (.div (.inp n!"6pdbcu") (.rat 2 1))))) (.mul (.rat 8 1) (.conj (.add (.mul (.rat (-8) 1) (.inp n!"10pdbcu")) (.div (.inp n!"8pdbcu") (.rat 2 1)))))))),
  (n!"V1duLR_1312", (.mul (.div (.mul (.rat 4 1) (.par n!"GF")) (.sqrt (.rat 2 1))) (.add (.sub (.add (.sub (.inp n!"1dbuc") (.div (.inp n!"2dbuc") (.rat 6 1))) (.mul (.rat 4 1) (.inp n!"3dbuc"))) (.div (.mul (.rat 2 1) (.inp n!"4dbuc")) (.rat 3 1))) (.div (.add (.div (.inp n!"2dbuc") (.rat 2 1)) (.mul (.rat 2 1) (.inp n!"4dbuc"))) (.rat 3 1))))),
  (n!"VnueduLL_1332", (.mul (.div (.mul (.rat 4 1) (.par n!"GF")) (.sqrt (.rat 2 1))) (.conj (.inp n!"1cbtaue")))),
  (n!"V1udduLR_1122", (.mul (.div (.mul (.rat 4 1) (.par n!"GF")) (.sqrt (.rat 2 1))) (.sub (.neg (.div (.conj (.add (.sub (.add (.neg (.div (.mul (.rat 8 1) (.inp n!"10dscu")) (.rat 3 1))) (.inp n!"5dscu")) (.div (.inp n!"6dscu") (.rat 6 1))) (.mul (.rat 16 1) (.inp n!"9dscu")))) (.mul (.rat 2 1) (.rat 3 1)))) (.div (.conj (.add (.mul (.rat 8 1) (.inp n!"10dscu")) (.div (.inp n!"6dscu") (.rat 2 1)))) (.rat 2 1))))),
  (n!"V8udduLR_2211", (.mul (.div (.mul (.rat 4 1) (.par n!"GF")) (.sqrt (.rat 2 1))) (.neg (.add (.sub (.add (.neg (.div (.mul (.rat 8 1) (.inp n!"10pdscu")) (.rat 3 1))) (.inp n!"5pdscu")) (.div (.inp n!"6pdscu") (.rat 6 1))) (.mul (.rat 16 1) (.inp n!"9pdscu")))))),
  (n!"S8ddRR_1212", (.mul (.div (.mul (.rat 4 1) (.par n!"GF")) (.sqrt (.rat 2 1))) (.mul (.rat 2 1) (.inp n!"3pdsds")))),
  (n!"V8duLR_2312", (.mul (.div (.mul (.rat 4 1) (.par n!"GF")) (.sqrt (.rat 2 1))) (.mul (.rat 2 1) (.add (.div (.inp n!"2sbuc") (.rat 2 1)) (.mul (.rat 2 1) (.inp n!"4sbuc")))))),
  (n!"SnueduRR_3111", (.mul (.div (.mul (.rat 4 1) (.par n!"GF")) (.sqrt (.rat 2 1))) (.conj (.inp n!"5pudetau")))),
  (n!"SedRL_3231", (.mul (.div (.mul (.rat 4 1) (.par n!"GF")) (.sqrt (.rat 2 1))) (.add (.neg (.conj (.mul (.rat 24 1) (.inp n!"9dbmutau")))) (.conj (.add (.inp n!"5dbmutau") (.mul (.rat 40 1) (.inp n!"9dbmutau"))))))),
  (n!"VuuRR_1212", (.mul (.div (.mul (.rat 4 1) (.par n!"GF")) (.sqrt (.rat 2 1))) (.conj (.inp n!"1pcucu")))),
  (n!"SnueduRR_3332", (.mul (.div (.mul (.rat 4 1) (.par n!"GF")) (.sqrt (.rat 2 1))) (.conj (.inp n!"5pcbtautau")))),
  (n!"TedRR_1332", (.mul (.div (.mul (.rat 4 1) (.par n!"GF")) (.sqrt (.rat 2 1))) (.sub (.conj (.sub (.sub (.add (.div (.inp n!"7sbtaue") (.rat 2 1)) (.div (.inp n!"7psbtaue") (.rat 2 1))) (.mul (.rat 8 1) (.inp n!"9sbtaue"))) (.mul (.rat 8 1) (.inp n!"9psbtaue")))) (.conj (.add (.sub (.sub (.div (.inp n!"7sbtaue") (.rat 2 1)) (.div (.inp n!"7psbtaue") (.rat 2 1))) (.mul (.rat 8 1) (.inp n!"9sbtaue"))) (.mul (.rat 8 1) (.inp n!"9psbtaue"))))))),
  (n!"VnueduLL_3312", (.mul (.div (.mul (.rat 4 1) (.par n!"GF")) (.sqrt (.rat 2 1))) (.conj (.inp n!"1cdtautau")))),
  (n!"SnueduRL_2211", (.mul (.div (.mul (.rat 4 1) (.par n!"GF")) (.sqrt (.rat 2 1))) (.conj (.inp n!"5udmumu")))),
  (n!"SedRR_3321", (.mul (.div (.mul (.rat 4 1) (.par n!"GF")) (.sqrt (.rat 2 1))) (.add (.neg (.conj (.mul (.rat (-24) 1) (.inp n!"9pdstautau")))) (.conj (.add (.inp n!"5pdstautau") (.mul (.rat 40 1) (.inp n!"9pdstautau"))))))),
  (n!"SedRR_1112", (.mul (.div (.mul (.rat 4 1) (.par n!"GF")) (.sqrt (.rat 2 1))) (.add (.mul (.rat 24 1) (.inp n!"9dsee")) (.add (.inp n!"5dsee") (.mul (.rat 40 1) (.inp n!"9dsee")))))),
  (n!"S8udRR_1223", (.mul (.div (.mul (.rat 4 1) (.par n!"GF")) (.sqrt (.rat 2 1))) (.sub (.mul (.rat 2 1) (.add (.mul (.rat 32 1) (.inp n!"10sbuc")) (.div (.inp n!"6sbuc") (.rat 2 1)))) (.mul (.rat 8 1) (.add (.mul (.rat (-8) 1) (.inp n!"10sbuc")) (.div (.inp n!"8sbuc") (.rat 2 1))))))),
  (n!"TnueduRR_1212", (.mul (.div (.mul (.rat 4 1) (.par n!"GF")) (.sqrt (.rat 2 1))) (.conj (.inp n!"7pcdmue")))),
  (n!"VedLL_2213", (.mul (.div (.mul (.rat 4 1) (.par n!"GF")) (.sqrt (.rat 2 1))) (.add (.neg (.mul (.rat (-6) 1) (.inp n!"3dbmumu"))) (.add (.inp n!"1dbmumu") (.mul (.rat 10 1) (.inp n!"3dbmumu")))))),
  (n!"VedLR_1221", (.mul (.div (.mul (.rat 4 1) (.par n!"GF")) (.sqrt (.rat 2 1))) (.conj (.add (.neg (.mul (.rat 6 1) (.inp n!"3pdsmue"))) (.add (.inp n!"1pdsmue") (.mul (.rat 10 1) (.inp n!"3pdsmue"))))))),
  (n!"S1ddRR_2133", (.mul (.div (.mul (.rat 4 1) (.par n!"GF")) (.sqrt (.rat 2 1))) (.sub (.sub (.add (.conj (.add (.sub (.add (.neg (.div (.mul (.rat 32 1) (.inp n!"10pdsbb")) (.rat 3 1))) (.inp n!"5pdsbb")) (.div (.inp n!"6pdsbb") (.rat 6 1))) (.mul (.rat 64 1) (.inp n!"9pdsbb")))) (.div (.conj (.add (.mul (.rat 32 1) (.inp n!"10pdsbb")) (.div (.inp n!"6pdsbb") (.rat 2 1)))) (.rat 3 1))) (.mul (.rat 4 1) (.conj (.sub (.sub (.add (.div (.mul (.rat 8 1) (.inp n!"10pdsbb")) (.rat 3 1)) (.inp n!"7pdsbb")) (.div (.inp n!"8pdsbb") (.rat 6 1))) (.mul (.rat 16 1) (.inp n!"9pdsbb")))))) (.div (.mul (.rat 4 1) (.conj (.add (.mul (.rat (-8) 1) (.inp n!"10pdsbb")) (.div (.inp n!"8pdsbb") (.rat 2 1))))) (.rat 3 1))))),
  (n!"S1udRR_1121", (.mul (.div (.mul (.rat 4 1) (.par n!"GF")) (.sqrt (.rat 2 1))) (.sub (.sub (.add (.conj (.add (.sub (.add (.neg (.div (.mul (.rat 32 1) (.inp n!"10pdsuu")) (.rat 3 1))) (.inp n!"5pdsuu")) (.div (.inp n!"6pdsuu") (.rat 6 1))) (.mul (.rat 64 1) (.inp n!"9pdsuu")))) (.div (.conj (.add (.mul (.rat 32 1) (.inp n!"10pdsuu")) (.div (.inp n!"6pdsuu") (.rat 2 1)))) (.rat 3 1))) (.mul (.rat 4 1) (.conj (.sub (.sub (.add (.div (.mul (.rat 8 1) (.inp n!"10pdsuu")) (.rat 3 1)) (.inp n!"7pdsuu")) (.div (.inp n!"8pdsuu") (.rat 6 1))) (.mul (.rat 16 1) (.inp n!"9pdsuu")))))) (.div (.mul (.rat 4 1) (.conj (.add (.mul (.rat (-8) 1) (.inp n!"10pdsuu")) (.div (.inp n!"8pdsuu") (.rat 2 1))))) (.rat 3 1))))),
  (n!"V8udduLR_1121", (.mul (.div (.mul (.rat 4 1) (.par n!"GF")) (.sqrt (.rat 2 1))) (.neg (.conj (.add (.sub (.add (.neg (.div (.mul (.rat 8 1) (.inp n!"10dsuu")) (.rat 3 1))) (.inp n!"5dsuu")) (.div (.inp n!"6dsuu") (.rat 6 1))) (.mul (.rat 16 1) (.inp n!"9dsuu"))))))),
  (n!"S8ddRR_2331", (.mul (.div (.mul (.rat 4 1) (.par n!"GF")) (.sqrt (.rat 2 1))) (.mul (.rat (-16) 1) (.conj (.sub (.sub (.add (.div (.mul (.rat 8 1) (.inp n!"10pdsbb")) (.rat 3 1)) (.inp n!"7pdsbb")) (.div (.inp n!"8pdsbb") (.rat 6 1))) (.mul (.rat 16 1) (.inp n!"9pdsbb"))))))),
  (n!"V1udLL_1112", (.mul (.div (.mul (.rat 4 1) (.par n!"GF")) (.sqrt (.rat 2 1))) (.add (.sub (.add (.sub (.inp n!"1dsuu") (.div (.inp n!"2dsuu") (.rat 6 1))) (.mul (.rat 16 1) (.inp n!"3dsuu"))) (.div (.mul (.rat 8 1) (.inp n!"4dsuu")) (.rat 3 1))) (.div (.add (.div (.inp n!"2dsuu") (.rat 2 1)) (.mul (.rat 8 1) (.inp n!"4dsuu"))) (.rat 3 1))))),
  (n!"VnueduLR_3122", (.mul (.div (.mul (.rat 4 1) (.par n!"GF")) (.sqrt (.rat 2 1))) (.conj (.inp n!"1pcsetau")))),
  (n!"V8duLR_1222", (.mul (.div (.mul (.rat 4 1) (.par n!"GF")) (.sqrt (.rat 2 1))) (.mul (.rat 2 1) (.add (.div (.inp n!"2dscc") (.rat 2 1)) (.mul (.rat 2 1) (.inp n!"4dscc")))))),
  (n!"VnudLR_1232", (.mul (.div (.mul (.rat 4 1) (.par n!"GF")) (.sqrt (.rat 2 1))) (.conj (.inp n!"nu1psbmue")))),
  (n!"TedRR_3312", (.mul (.div (.mul (.rat 4 1) (.par n!"GF")) (.sqrt (.rat 2 1))) (.add (.sub (.sub (.add (.div (.inp n!"7dstautau") (.rat 2 1)) (.div (.inp n!"7pdstautau") (.rat 2 1))) (.mul (.rat 8 1) (.inp n!"9dstautau"))) (.mul (.rat 8 1) (.inp n!"9pdstautau"))) (.add (.sub (.sub (.div (.inp n!"7dstautau") (.rat 2 1)) (.div (.inp n!"7pdstautau") (.rat 2 1))) (.mul (.rat 8 1) (.inp n!"9dstautau"))) (.mul (.rat 8 1) (.inp n!"9pdstautau")))))),
  (n!"S8ddRR_3133", (.mul (.div (.mul (.rat 4 1) (.par n!"GF")) (.sqrt (.rat 2 1))) (.mul (.rat (-16) 1) (.conj (.sub (.inp n!"7pdbbb") (.mul (.rat 16 1) (.inp n!"9pdbbb"))))))),
  (n!"S8udRR_2121", (.mul (.div (.mul (.rat 4 1) (.par n!"GF")) (.sqrt (.rat 2 1))) (.sub (.mul (.rat 2 1) (.conj (.add (.mul (.rat 32 1) (.inp n!"10pdsuc")) (.div (.inp n!"6pdsuc") (.rat 2 1))))) (.mul (.rat 8 1) (.conj (.add (.mul (.rat (-8) 1) (.inp n!"10pdsuc")) (.div (.inp n!"8pdsuc") (.rat 2 1)))))))),
  (n!"SedRL_3223", (.mul (.div (.mul (.rat 4 1) (.par n!"GF")) (.sqrt (.rat 2 1))) (.add (.mul (.rat (-24) 1) (.inp n!"9psbtaumu")) (.add (.inp n!"5psbtaumu") (.mul (.rat 40 1) (.inp n!"9psbtaumu")))))),
  (n!"VdeLR_1312", (.mul (.div (.mul (.rat 4 1) (.par n!"GF")) (.sqrt (.rat 2 1))) (.add (.mul (.rat (-6) 1) (.inp n!"3dbemu")) (.add (.inp n!"1dbemu") (.mul (.rat 10 1) (.inp n!"3dbemu")))))),
  (n!"VnueduLL_2222", (.mul (.div (.mul (.rat 4 1) (.par n!"GF")) (.sqrt (.rat 2 1))) (.conj (.inp n!"1csmumu")))),
  (n!"SnueduRL_1121", (.mul (.div (.mul (.rat 4 1) (.par n!"GF")) (.sqrt (.rat 2 1))) (.conj (.inp n!"5usee")))),
  (n!"SedRR_2231", (.mul (.div (.mul (.rat 4 1) (.par n!"GF")) (.sqrt (.rat 2 1))) (.add (.neg (.conj (.mul (.rat (-24) 1) (.inp n!"9pdbmumu")))) (.conj (.add (.inp n!"5pdbmumu") (.mul (.rat 40 1) (.inp n!"9pdbmumu")))))))]

def Bern_to_JMS_9 : List (ℕ × Sym) := [
  (n!"TnueduRR_2331", (.mul (.div (.mul (.rat 4 1) (.par n!"GF")) (.sqrt (.rat 2 1))) (.conj (.inp n!"7pubtaumu")))),
  (n!"VedLL_1123", (.mul (.div (.mul (.rat 4 1) (.par n!"GF")) (.sqrt (.rat 2 1))) (.add (.neg (.mul (.rat (-6) 1) (.inp n!"3sbee"))) (.add (.inp n!"1sbee") (.mul (.rat 10 1) (.inp n!"3sbee")))))),
  (n!"SedRR_3313", (.mul (.div (.mul (.rat 4 1) (.par n!"GF")) (.sqrt (.rat 2 1))) (.add (.mul (.rat 24 1) (.inp n!"9dbtautau")) (.add (.inp n!"5dbtautau") (.mul (.rat 40 1) (.inp n!"9dbtautau")))))),
  (n!"VnueduLR_2312", (.mul (.div (.mul (.rat 4 1) (.par n!"GF")) (.sqrt (.rat 2 1))) (.conj (.inp n!"1pcdtaumu")))),
  (n!"V8udRR_1221", (.mul (.div (.mul (.rat 4 1) (.par n!"GF")) (.sqrt (.rat 2 1))) (.conj (.mul (.rat 2 1) (.add (.div (.inp n!"2pdscu") (.rat 2 1)) (.mul (.rat 8 1) (.inp n!"4pdscu"))))))),
  (n!"SnueduRR_1211", (.mul (.div (.mul (.rat 4 1) (.par n!"GF")) (.sqrt (.rat 2 1))) (.conj (.inp n!"5pudmue")))),
  (n!"SedRL_1331", (.mul (.div (.mul (.rat 4 1) (.par n!"GF")) (.sqrt (.rat 2 1))) (.add (.neg (.conj (.mul (.rat 24 1) (.inp n!"9dbtaue")))) (.conj (.add (.inp n!"5dbtaue") (.mul (.rat 40 1) (.inp n!"9dbtaue"))))))),
  (n!"S1udduRR_1132", (.mul (.div (.mul (.rat 4 1) (.par n!"GF")) (.sqrt (.rat 2 1))) (.sub (.neg (.div (.mul (.rat 8 1) (.conj (.sub (.sub (.add (.div (.mul (.rat 8 1) (.inp n!"10pdbcu")) (.rat 3 1)) (.inp n!"7pdbcu")) (.div (.inp n!"8pdbcu") (.rat 6 1))) (.mul (.rat 16 1) (.inp n!"9pdbcu"))))) (.rat 3 1))) (.mul (.rat 8 1) (.conj (.add (.mul (.rat (-8) 1) (.inp n!"10pdbcu")) (.div (.inp n!"8pdbcu") (.rat 2 1)))))))),
  (n!"VedLR_1213", (.mul (.div (.mul (.rat 4 1) (.par n!"GF")) (.sqrt (.rat 2 1))) (.add (.neg (.mul (.rat 6 1) (.inp n!"3pdbemu"))) (.add (.inp n!"1pdbemu") (.mul (.rat 10 1) (.inp n!"3pdbemu")))))),
  (n!"S1udRR_1113", (.mul (.div (.mul (.rat 4 1) (.par n!"GF")) (.sqrt (.rat 2 1))) (.sub (.sub (.add (.add (.sub (.add (.neg (.div (.mul (.rat 32 1) (.inp n!"10dbuu")) (.rat 3 1))) (.inp n!"5dbuu")) (.div (.inp n!"6dbuu") (.rat 6 1))) (.mul (.rat 64 1) (.inp n!"9dbuu"))) (.div (.add (.mul (.rat 32 1) (.inp n!"10dbuu")) (.div (.inp n!"6dbuu") (.rat 2 1))) (.rat 3 1))) (.mul (.rat 4 1) (.sub (.sub (.add (.div (.mul (.rat 8 1) (.inp n!"10dbuu")) (.rat 3 1)) (.inp n!"7dbuu")) (.div (.inp n!"8dbuu") (.rat 6 1))) (.mul (.rat 16 1) (.inp n!"9dbuu"))))) (.div (.mul (.rat 4 1) (.add (.mul (.rat (-8) 1) (.inp n!"10dbuu")) (.div (.inp n!"8dbuu") (.rat 2 1)))) (.rat 3 1))))),
  (n!"S8ddRR_2323", (.mul (.div (.mul (.rat 4 1) (.par n!"GF")) (.sqrt (.rat 2 1))) (.mul (.rat 2 1) (.inp n!"3psbsb")))),
  (n!"V8ddLR_1322", (.mul (.div (.mul (.rat 4 1) (.par n!"GF")) (.sqrt (.rat 2 1))) (.mul (.rat 2 1) (.add (.div (.inp n!"2dbss") (.rat 2 1)) (.mul (.rat 2 1) (.inp n!"4dbss")))))),
  (n!"VnueduLL_1132", (.mul (.div (.mul (.rat 4 1) (.par n!"GF")) (.sqrt (.rat 2 1))) (.conj (.inp n!"1cbee")))),
  (n!"VnudLL_2312", (.mul (.div (.mul (.rat 4 1) (.par n!"GF")) (.sqrt (.rat 2 1))) (.inp n!"nu1dsmutau"))),
  (n!"S8udRR_2113", (.mul (.div (.mul (.rat 4 1) (.par n!"GF")) (.sqrt (.rat 2 1))) (.sub (.mul (.rat 2 1) (.add (.mul (.rat 32 1) (.inp n!"10dbcu")) (.div (.inp n!"6dbcu") (.rat 2 1)))) (.mul (.rat 8 1) (.add (.mul (.rat (-8) 1) (.inp n!"10dbcu")) (.div (.inp n!"8dbcu") (.rat 2 1))))))),
  (n!"SnueduRL_3322", (.mul (.div (.mul (.rat 4 1) (.par n!"GF")) (.sqrt (.rat 2 1))) (.conj (.inp n!"5cstautau")))),
  (n!"SedRR_2223", (.mul (.div (.mul (.rat 4 1) (.par n!"GF")) (.sqrt (.rat 2 1))) (.add (.mul (.rat 24 1) (.inp n!"9sbmumu")) (.add (.inp n!"5sbmumu") (.mul (.rat 40 1) (.inp n!"9sbmumu")))))),
  (n!"VnueduLR_1222", (.mul (.div (.mul (.rat 4 1) (.par n!"GF")) (.sqrt (.rat 2 1))) (.conj (.inp n!"1pcsmue")))),
  (n!"V8udLR_1112", (.mul (.div (.mul (.rat 4 1) (.par n!"GF")) (.sqrt (.rat 2 1))) (.mul (.rat 2 1) (.add (.div (.inp n!"2pdsuu") (.rat 2 1)) (.mul (.rat 2 1) (.inp n!"4pdsuu")))))),
  (n!"VedRR_2212", (.mul (.div (.mul (.rat 4 1) (.par n!"GF")) (.sqrt (.rat 2 1))) (.add (.mul (.rat 6 1) (.inp n!"3pdsmumu")) (.add (.inp n!"1pdsmumu") (.mul (.rat 10 1) (.inp n!"3pdsmumu")))))),
  (n!"VedLR_2332", (.mul (.div (.mul (.rat 4 1) (.par n!"GF")) (.sqrt (.rat 2 1))) (.conj (.add (.neg (.mul (.rat 6 1) (.inp n!"3psbtaumu"))) (.add (.inp n!"1psbtaumu") (.mul (.rat 10 1) (.inp n!"3psbtaumu"))))))),
  (n!"S1udRR_2232", (.mul (.div (.mul (.rat 4 1) (.par n!"GF")) (.sqrt (.rat 2 1))) (.sub (.sub (.add (.conj (.add (.sub (.add (.neg (.div (.mul (.rat 32 1) (.inp n!"10psbcc")) (.rat 3 1))) (.inp n!"5psbcc")) (.div (.inp n!"6psbcc") (.rat 6 1))) (.mul (.rat 64 1) (.inp n!"9psbcc")))) (.div (.conj (.add (.mul (.rat 32 1) (.inp n!"10psbcc")) (.div (.inp n!"6psbcc") (.rat 2 1)))) (.rat 3 1))) (.mul (.rat 4 1) (.conj (.sub (.sub (.add (.div (.mul (.rat 8 1) (.inp n!"10psbcc")) (.rat 3 1)) (.inp n!"7psbcc")) (.div (.inp n!"8psbcc") (.rat 6 1))) (.mul (.rat 16 1) (.inp n!"9psbcc")))))) (.div (.mul (.rat 4 1) (.conj (.add (.mul (.rat (-8) 1) (.inp n!"10psbcc")) (.div (.inp n!"8psbcc") (.rat 2 1))))) (.rat 3 1))))),
  (n!"V8udduLR_2232", (.mul (.div (.mul (.rat 4 1) (.par n!"GF")) (.sqrt (.rat 2 1))) (.neg (.conj (.add (.sub (.add (.neg (.div (.mul (.rat 8 1) (.inp n!"10sbcc")) (.rat 3 1))) (.inp n!"5sbcc")) (.div (.inp n!"6sbcc") (.rat 6 1))) (.mul (.rat 16 1) (.inp n!"9sbcc"))))))),
  (n!"V8udRR_1213", (.mul (.div (.mul (.rat 4 1) (.par n!"GF")) (.sqrt (.rat 2 1))) (.mul (.rat 2 1) (.add (.div (.inp n!"2pdbuc") (.rat 2 1)) (.mul (.rat 8 1) (.inp n!"4pdbuc")))))),
  (n!"S8udduRR_1131", (.mul (.div (.mul (.rat 4 1) (.par n!"GF")) (.sqrt (.rat 2 1))) (.mul (.rat (-16) 1) (.conj (.sub (.sub (.add (.div (.mul (.rat 8 1) (.inp n!"10pdbuu")) (.rat 3 1)) (.inp n!"7pdbuu")) (.div (.inp n!"8pdbuu") (.rat 6 1))) (.mul (.rat 16 1) (.inp n!"9pdbuu"))))))),
  (n!"V1udLL_2223", (.mul (.div (.mul (.rat 4 1) (.par n!"GF")) (.sqrt (.rat 2 1))) (.add (.sub (.add (.sub (.inp n!"1sbcc") (.div (.inp n!"2sbcc") (.rat 6 1))) (.mul (.rat 16 1) (.inp n!"3sbcc"))) (.div (.mul (.rat 8 1) (.inp n!"4sbcc")) (.rat 3 1))) (.div (.add (.div (.inp n!"2sbcc") (.rat 2 1)) (.mul (.rat 8 1) (.inp n!"4sbcc"))) (.rat 3 1))))),
  (n!"S8ddRR_1233", (.mul (.div (.mul (.rat 4 1) (.par n!"GF")) (.sqrt (.rat 2 1))) (.sub (.mul (.rat 2 1) (.add (.mul (.rat 32 1) (.inp n!"10dsbb")) (.div (.inp n!"6dsbb") (.rat 2 1)))) (.mul (.rat 8 1) (.add (.mul (.rat (-8) 1) (.inp n!"10dsbb")) (.div (.inp n!"8dsbb") (.rat 2 1))))))),
  (n!"SedRL_1323", (.mul (.div (.mul (.rat 4 1) (.par n!"GF")) (.sqrt (.rat 2 1))) (.add (.mul (.rat (-24) 1) (.inp n!"9psbetau")) (.add (.inp n!"5psbetau") (.mul (.rat 40 1) (.inp n!"9psbetau")))))),
  (n!"V1udLR_1231", (.mul (.div (.mul (.rat 4 1) (.par n!"GF")) (.sqrt (.rat 2 1))) (.conj (.add (.sub (.add (.sub (.inp n!"1pdbcu") (.div (.inp n!"2pdbcu") (.rat 6 1))) (.mul (.rat 4 1) (.inp n!"3pdbcu"))) (.div (.mul (.rat 2 1) (.inp n!"4pdbcu")) (.rat 3 1))) (.div (.add (.div (.inp n!"2pdbcu") (.rat 2 1)) (.mul (.rat 2 1) (.inp n!"4pdbcu"))) (.rat 3 1)))))),
  (n!"S1ddRR_1131", (.mul (.div (.mul (.rat 4 1) (.par n!"GF")) (.sqrt (.rat 2 1))) (.sub (.neg (.div (.mul (.rat 8 1) (.conj (.sub (.inp n!"7dbdd") (.mul (.rat 16 1) (.inp n!"9dbdd"))))) (.rat 3 1))) (.mul (.rat 8 1) (.conj (.add (.mul (.div (.rat (-1) 1) (.rat 8 1)) (.add (.inp n!"5dbdd") (.mul (.rat 64 1) (.inp n!"9dbdd")))) (.mul (.div (.rat 1 1) (.rat 2 1)) (.sub (.inp n!"7dbdd") (.mul (.rat 16 1) (.inp n!"9dbdd")))))))))),
  (n!"V1udduLR_2321", (.mul (.div (.mul (.rat 4 1) (.par n!"GF")) (.sqrt (.rat 2 1))) (.sub (.neg (.div (.add (.sub (.add (.neg (.div (.mul (.rat 8 1) (.inp n!"10psbcu")) (.rat 3 1))) (.inp n!"5psbcu")) (.div (.inp n!"6psbcu") (.rat 6 1))) (.mul (.rat 16 1) (.inp n!"9psbcu"))) (.mul (.rat 2 1) (.rat 3 1)))) (.div (.add (.mul (.rat 8 1) (.inp n!"10psbcu")) (.div (.inp n!"6psbcu") (.rat 2 1))) (.rat 2 1))))),
  (n!"SnueduRR_3132", (.mul (.div (.mul (.rat 4 1) (.par n!"GF")) (.sqrt (.rat 2 1))) (.conj (.inp n!"5pcbetau")))),
  (n!"TedRR_1132", (.mul (.div (.mul (.rat 4 1) (.par n!"GF")) (.sqrt (.rat 2 1))) (.sub (.conj (.sub (.sub (.add (.div (.inp n!"7sbee") (.rat 2 1)) (.div (.inp n!"7psbee") (.rat 2 1))) (.mul (.rat 8 1) (.inp n!"9sbee"))) (.mul (.rat 8 1) (.inp n!"9psbee")))) (.conj (.add (.sub (.sub (.div (.inp n!"7sbee") (.rat 2 1)) (.div (.inp n!"7psbee") (.rat 2 1))) (.mul (.rat 8 1) (.inp n!"9sbee"))) (.mul (.rat 8 1) (.inp n!"9psbee"))))))),
  (n!"VnueduLL_3112", (.mul (.div (.mul (.rat 4 1) (.par n!"GF")) (.sqrt (.rat 2 1))) (.conj (.inp n!"1cdetau")))),
  (n!"SedRR_3121", (.mul (.div (.mul (.rat 4 1) (.par n!"GF")) (.sqrt (.rat 2 1))) (.add (.neg (.conj (.mul (.rat (-24) 1) (.inp n!"9pdsetau")))) (.conj (.add (.inp n!"5pdsetau") (.mul (.rat 40 1) (.inp n!"9pdsetau"))))))),
  (n!"V1ddLR_1212", (.mul (.div (.mul (.rat 4 1) (.par n!"GF")) (.sqrt (.rat 2 1))) (.sub (.div (.neg (.inp n!"4dsds")) (.rat 6 1)) (.div (.inp n!"5dsds") (.rat 2 1))))),
  (n!"TnueduRR_3221", (.mul (.div (.mul (.rat 4 1) (.par n!"GF")) (.sqrt (.rat 2 1))) (.conj (.inp n!"7pusmutau")))),
  (n!"SnueduRL_2232", (.mul (.div (.mul (.rat 4 1) (.par n!"GF")) (.sqrt (.rat 2 1))) (.conj (.inp n!"5cbmumu")))),
  (n!"VnudLR_1312", (.mul (.div (.mul (.rat 4 1) (.par n!"GF")) (.sqrt (.rat 2 1))) (.inp n!"nu1pdsetau"))),
  (n!"S8ddRR_2131", (.mul (.div (.mul (.rat 4 1) (.par n!"GF")) (.sqrt (.rat 2 1))) (.mul (.rat (-16) 1) (.conj (.sub (.inp n!"7dbds") (.mul (.rat 16 1) (.inp n!"9dbds"))))))),
  (n!"VddRR_1322", (.mul (.div (.mul (.rat 4 1) (.par n!"GF")) (.sqrt (.rat 2 1))) (.sub (.add (.sub (.inp n!"1pdbss") (.div (.inp n!"2pdbss") (.rat 6 1))) (.mul (.rat 16 1) (.inp n!"3pdbss"))) (.div (.mul (.rat 8 1) (.inp n!"4pdbss")) (.rat 3 1))))),
  (n!"SedRL_2221", (.mul (.div (.mul (.rat 4 1) (.par n!"GF")) (.sqrt (.rat 2 1))) (.add (.neg (.conj (.mul (.rat 24 1) (.inp n!"9dsmumu")))) (.conj (.add (.inp n!"5dsmumu") (.mul (.rat 40 1) (.inp n!"9dsmumu"))))))),
  (n!"SnueduRR_2322", (.mul (.div (.mul (.rat 4 1) (.par n!"GF")) (.sqrt (.rat 2 1))) (.conj (.inp n!"5pcstaumu")))),
  (n!"V8ddLR_2212", (.mul (.div (.mul (.rat 4 1) (.par n!"GF")) (.sqrt (.rat 2 1))) (.neg (.add (.inp n!"5pdsss") (.mul (.rat 16 1) (.inp n!"9pdsss")))))),
  (n!"V1udduLR_1231", (.mul (.div (.mul (.rat 4 1) (.par n!"GF")) (.sqrt (.rat 2 1))) (.sub (.neg (.div (.conj (.add (.sub (.add (.neg (.div (.mul (.rat 8 1) (.inp n!"10sbuu")) (.rat 3 1))) (.inp n!"5sbuu")) (.div (.inp n!"6sbuu") (.rat 6 1))) (.mul (.rat 16 1) (.inp n!"9sbuu")))) (.mul (.rat 2 1) (.rat 3 1)))) (.div (.conj (.add (.mul (.rat 8 1) (.inp n!"10sbuu")) (.div (.inp n!"6sbuu") (.rat 2 1)))) (.rat 2 1))))),
  (n!"V1udLR_1223", (.mul (.div (.mul (.rat 4 1) (.par n!"GF")) (.sqrt (.rat 2 1))) (.add (.sub (.add (.sub (.inp n!"1psbuc") (.div (.inp n!"2psbuc") (.rat 6 1))) (.mul (.rat 4 1) (.inp n!"3psbuc"))) (.div (.mul (.rat 2 1) (.inp n!"4psbuc")) (.rat 3 1))) (.div (.add (.div (.inp n!"2psbuc") (.rat 2 1)) (.mul (.rat 2 1) (.inp n!"4psbuc"))) (.rat 3 1))))),
  (n!"TedRR_3112", (.mul (.div (.mul (.rat 4 1) (.par n!"GF")) (.sqrt (.rat 2 1))) (.add (.sub (.sub (.add (.div (.inp n!"7dstaue") (.rat 2 1)) (.div (.inp n!"7pdstaue") (.rat 2 1))) (.mul (.rat 8 1) (.inp n!"9dstaue"))) (.mul (.rat 8 1) (.inp n!"9pdstaue"))) (.add (.sub (.sub (.div (.inp n!"7dstaue") (.rat 2 1)) (.div (.inp n!"7pdstaue") (.rat 2 1))) (.mul (.rat 8 1) (.inp n!"9dstaue"))) (.mul (.rat 8 1) (.inp n!"9pdstaue")))))),
  (n!"S1ddRR_1123", (.mul (.div (.mul (.rat 4 1) (.par n!"GF")) (.sqrt (.rat 2 1))) (.sub (.sub (.add (.add (.sub (.add (.neg (.div (.mul (.rat 32 1) (.inp n!"10sbdd")) (.rat 3 1))) (.inp n!"5sbdd")) (.div (.inp n!"6sbdd") (.rat 6 1))) (.mul (.rat 64 1) (.inp n!"9sbdd"))) (.div (.add (.mul (.rat 32 1) (.inp n!"10sbdd")) (.div (.inp n!"6sbdd") (.rat 2 1))) (.rat 3 1))) (.mul (.rat 4 1) (.sub (.sub (.add (.div (.mul (.rat 8 1) (.inp n!"10sbdd")) (.rat 3 1)) (.inp n!"7sbdd")) (.div (.inp n!"8sbdd") (.rat 6 1))) (.mul (.rat 16 1) (.inp n!"9sbdd"))))) (.div (.mul (.rat 4 1) (.add (.mul (.rat (-8) 1) (.inp n!"10sbdd")) (.div (.inp n!"8sbdd") (.rat 2 1)))) (.rat 3 1))))),
  (n!"S8ddRR_1321", (.mul (.div (.mul (.rat 4 1) (.par n!"GF")) (.sqrt (.rat 2 1))) (.mul (.rat (-16) 1) (.sub (.sub (.add (.div (.mul (.rat 8 1) (.inp n!"10sbdd")) (.rat 3 1)) (.inp n!"7sbdd")) (.div (.inp n!"8sbdd") (.rat 6 1))) (.mul (.rat 16 1) (.inp n!"9sbdd")))))),
  (n!"V1ddLR_2331", (.mul (.div (.mul (.rat 4 1) (.par n!"GF")) (.sqrt (.rat 2 1))) (.conj (.sub (.neg (.div (.add (.sub (.add (.neg (.div (.mul (.rat 8 1) (.inp n!"10pdsbb")) (.rat 3 1))) (.inp n!"5pdsbb")) (.div (.inp n!"6pdsbb") (.rat 6 1))) (.mul (.rat 16 1) (.inp n!"9pdsbb"))) (.mul (.rat 2 1) (.rat 3 1)))) (.div (.add (.mul (.rat 8 1) (.inp n!"10pdsbb")) (.div (.inp n!"6pdsbb") (.rat 2 1))) (.rat 2 1))))))]

def Bern_to_JMS_10 : List (ℕ × Sym) := [
  (n!"S1udduRR_1212", (.mul (.div (.mul (.rat 4 1) (.par n!"GF")) (.sqrt (.rat 2 1))) (.sub (.neg (.div (.mul (.rat 8 1) (.sub (.sub (.add (.div (.mul (.rat 8 1) (.inp n!"10dsuc")) (.rat 3 1)) (.inp n!"7dsuc")) (.div (.inp n!"8dsuc") (.rat 6 1))) (.mul (.rat 16 1) (.inp n!"9dsuc")))) (.rat 3 1))) (.mul (.rat 8 1) (.add (.mul (.rat (-8) 1) (.inp n!"10dsuc")) (.div (.inp n!"8dsuc") (.rat 2 1))))))),
  (n!"VdeLR_1333", (.mul (.div (.mul (.rat 4 1) (.par n!"GF")) (.sqrt (.rat 2 1))) (.add (.mul (.rat (-6) 1) (.inp n!"3dbtautau")) (.add (.inp n!"1dbtautau") (.mul (.rat 10 1) (.inp n!"3dbtautau")))))),
  (n!"TnueduRR_2131", (.mul (.div (.mul (.rat 4 1) (.par n!"GF")) (.sqrt (.rat 2 1))) (.conj (.inp n!"7pubemu")))),
  (n!"VddLL_1123", (.mul (.div (.mul (.rat 4 1) (.par n!"GF")) (.sqrt (.rat 2 1))) (.sub (.add (.sub (.inp n!"1sbdd") (.div (.inp n!"2sbdd") (.rat 6 1))) (.mul (.rat 16 1) (.inp n!"3sbdd"))) (.div (.mul (.rat 8 1) (.inp n!"4sbdd")) (.rat 3 1))))),
  (n!"SedRR_3113", (.mul (.div (.mul (.rat 4 1) (.par n!"GF")) (.sqrt (.rat 2 1))) (.add (.mul (.rat 24 1) (.inp n!"9dbtaue")) (.add (.inp n!"5dbtaue") (.mul (.rat 40 1) (.inp n!"9dbtaue")))))),
  (n!"VnueduLR_2112", (.mul (.div (.mul (.rat 4 1) (.par n!"GF")) (.sqrt (.rat 2 1))) (.conj (.inp n!"1pcdemu")))),
  (n!"SedRL_1131", (.mul (.div (.mul (.rat 4 1) (.par n!"GF")) (.sqrt (.rat 2 1))) (.add (.neg (.conj (.mul (.rat 24 1) (.inp n!"9dbee")))) (.conj (.add (.inp n!"5dbee") (.mul (.rat 40 1) (.inp n!"9dbee"))))))),
  (n!"SnueduRR_1232", (.mul (.div (.mul (.rat 4 1) (.par n!"GF")) (.sqrt (.rat 2 1))) (.conj (.inp n!"5pcbmue")))),
  (n!"V8udLR_2223", (.mul (.div (.mul (.rat 4 1) (.par n!"GF")) (.sqrt (.rat 2 1))) (.mul (.rat 2 1) (.add (.div (.inp n!"2psbcc") (.rat 2 1)) (.mul (.rat 2 1) (.inp n!"4psbcc")))))),
  (n!"VedRR_3323", (.mul (.div (.mul (.rat 4 1) (.par n!"GF")) (.sqrt (.rat 2 1))) (.add (.mul (.rat 6 1) (.inp n!"3psbtautau")) (.add (.inp n!"1psbtautau") (.mul (.rat 10 1) (.inp n!"3psbtautau")))))),
  (n!"S8ddRR_2123", (.mul (.div (.mul (.rat 4 1) (.par n!"GF")) (.sqrt (.rat 2 1))) (.mul (.rat (-16) 1) (.sub (.inp n!"7psbsd") (.mul (.rat 16 1) (.inp n!"9psbsd")))))),
  (n!"SedRL_2213", (.mul (.div (.mul (.rat 4 1) (.par n!"GF")) (.sqrt (.rat 2 1))) (.add (.mul (.rat (-24) 1) (.inp n!"9pdbmumu")) (.add (.inp n!"5pdbmumu") (.mul (.rat 40 1) (.inp n!"9pdbmumu")))))),
  (n!"VnueduLL_1212", (.mul (.div (.mul (.rat 4 1) (.par n!"GF")) (.sqrt (.rat 2 1))) (.conj (.inp n!"1cdmue")))),
  (n!"SedRR_1221", (.mul (.div (.mul (.rat 4 1) (.par n!"GF")) (.sqrt (.rat 2 1))) (.add (.neg (.conj (.mul (.rat (-24) 1) (.inp n!"9pdsmue")))) (.conj (.add (.inp n!"5pdsmue") (.mul (.rat 40 1) (.inp n!"9pdsmue"))))))),
  (n!"TnueduRR_1321", (.mul (.div (.mul (.rat 4 1) (.par n!"GF")) (.sqrt (.rat 2 1))) (.conj (.inp n!"7pustaue")))),
  (n!"V1udLL_1221", (.mul (.div (.mul (.rat 4 1) (.par n!"GF")) (.sqrt (.rat 2 1))) (.conj (.add (.sub (.add (.sub (.inp n!"1dscu") (.div (.inp n!"2dscu") (.rat 6 1))) (.mul (.rat 16 1) (.inp n!"3dscu"))) (.div (.mul (.rat 8 1) (.inp n!"4dscu")) (.rat 3 1))) (.div (.add (.div (.inp n!"2dscu") (.rat 2 1)) (.mul (.rat 8 1) (.inp n!"4dscu"))) (.rat 3 1)))))),
  (n!"V8udduLR_2312", (.mul (.div (.mul (.rat 4 1) (.par n!"GF")) (.sqrt (.rat 2 1))) (.neg (.add (.sub (.add (.neg (.div (.mul (.rat 8 1) (.inp n!"10pdbcc")) (.rat 3 1))) (.inp n!"5pdbcc")) (.div (.inp n!"6pdbcc") (.rat 6 1))) (.mul (.rat 16 1) (.inp n!"9pdbcc")))))),
  (n!"S8udduRR_1211", (.mul (.div (.mul (.rat 4 1) (.par n!"GF")) (.sqrt (.rat 2 1))) (.mul (.rat (-16) 1) (.sub (.sub (.add (.div (.mul (.rat 8 1) (.inp n!"10dsuu")) (.rat 3 1)) (.inp n!"7dsuu")) (.div (.inp n!"8dsuu") (.rat 6 1))) (.mul (.rat 16 1) (.inp n!"9dsuu")))))),
  (n!"S8ddRR_1313", (.mul (.div (.mul (.rat 4 1) (.par n!"GF")) (.sqrt (.rat 2 1))) (.mul (.rat 2 1) (.inp n!"3pdbdb")))),
  (n!"SnueduRL_3122", (.mul (.div (.mul (.rat 4 1) (.par n!"GF")) (.sqrt (.rat 2 1))) (.conj (.inp n!"5csetau")))),
  (n!"VnueduLR_3231", (.mul (.div (.mul (.rat 4 1) (.par n!"GF")) (.sqrt (.rat 2 1))) (.conj (.inp n!"1pubmutau")))),
  (n!"V1ddLR_2323", (.mul (.div (.mul (.rat 4 1) (.par n!"GF")) (.sqrt (.rat 2 1))) (.sub (.div (.neg (.inp n!"4sbsb")) (.rat 6 1)) (.div (.inp n!"5sbsb") (.rat 2 1))))),
  (n!"dgamma_12", (.mul (.div (.mul (.rat 4 1) (.par n!"GF")) (.sqrt (.rat 2 1))) (.div (.inp n!"7gammads") (.div (.div (.mul (.sqrt (.mul (.mul (.rat 4 1) .pi) (.par n!"alpha_s"))) (.sqrt (.mul (.mul (.rat 4 1) .pi) (.par n!"alpha_s")))) (.sqrt (.mul (.mul (.rat 4 1) .pi) (.par n!"alpha_e")))) (.par n!"m_s"))))),
  (n!"SnueduRR_3212", (.mul (.div (.mul (.rat 4 1) (.par n!"GF")) (.sqrt (.rat 2 1))) (.conj (.inp n!"5pcdmutau")))),
  (n!"TedRR_1212", (.mul (.div (.mul (.rat 4 1) (.par n!"GF")) (.sqrt (.rat 2 1))) (.add (.sub (.sub (.add (.div (.inp n!"7dsemu") (.rat 2 1)) (.div (.inp n!"7pdsemu") (.rat 2 1))) (.mul (.rat 8 1) (.inp n!"9dsemu"))) (.mul (.rat 8 1) (.inp n!"9pdsemu"))) (.add (.sub (.sub (.div (.inp n!"7dsemu") (.rat 2 1)) (.div (.inp n!"7pdsemu") (.rat 2 1))) (.mul (.rat 8 1) (.inp n!"9dsemu"))) (.mul (.rat 8 1) (.inp n!"9pdsemu")))))),
  (n!"SedRL_3332", (.mul (.div (.mul (.rat 4 1) (.par n!"GF")) (.sqrt (.rat 2 1))) (.add (.neg (.conj (.mul (.rat 24 1) (.inp n!"9sbtautau")))) (.conj (.add (.inp n!"5sbtautau") (.mul (.rat 40 1) (.inp n!"9sbtautau"))))))),
  (n!"V1duLR_2311", (.mul (.div (.mul (.rat 4 1) (.par n!"GF")) (.sqrt (.rat 2 1))) (.add (.sub (.add (.sub (.inp n!"1sbuu") (.div (.inp n!"2sbuu") (.rat 6 1))) (.mul (.rat 4 1) (.inp n!"3sbuu"))) (.div (.mul (.rat 2 1) (.inp n!"4sbuu")) (.rat 3 1))) (.div (.add (.div (.inp n!"2sbuu") (.rat 2 1)) (.mul (.rat 2 1) (.inp n!"4sbuu"))) (.rat 3 1))))),
  (n!"VnueduLL_2331", (.mul (.div (.mul (.rat 4 1) (.par n!"GF")) (.sqrt (.rat 2 1))) (.conj (.inp n!"1ubtaumu")))),
  (n!"SedRL_1123", (.mul (.div (.mul (.rat 4 1) (.par n!"GF")) (.sqrt (.rat 2 1))) (.add (.mul (.rat (-24) 1) (.inp n!"9psbee")) (.add (.inp n!"5psbee") (.mul (.rat 40 1) (.inp n!"9psbee")))))),
  (n!"VedLL_1232", (.mul (.div (.mul (.rat 4 1) (.par n!"GF")) (.sqrt (.rat 2 1))) (.conj (.add (.neg (.mul (.rat (-6) 1) (.inp n!"3sbmue"))) (.add (.inp n!"1sbmue") (.mul (.rat 10 1) (.inp n!"3sbmue"))))))),
  (n!"SnueduRL_2312", (.mul (.div (.mul (.rat 4 1) (.par n!"GF")) (.sqrt (.rat 2 1))) (.conj (.inp n!"5cdtaumu")))),
  (n!"V1udduLR_2121", (.mul (.div (.mul (.rat 4 1) (.par n!"GF")) (.sqrt (.rat 2 1))) (.sub (.neg (.div (.conj (.add (.sub (.add (.neg (.div (.mul (.rat 8 1) (.inp n!"10dsuc")) (.rat 3 1))) (.inp n!"5dsuc")) (.div (.inp n!"6dsuc") (.rat 6 1))) (.mul (.rat 16 1) (.inp n!"9dsuc")))) (.mul (.rat 2 1) (.rat 3 1)))) (.div (.conj (.add (.mul (.rat 8 1) (.inp n!"10dsuc")) (.div (.inp n!"6dsuc") (.rat 2 1)))) (.rat 2 1))))),
  (n!"SedRR_1213", (.mul (.div (.mul (.rat 4 1) (.par n!"GF")) (.sqrt (.rat 2 1))) (.add (.mul (.rat 24 1) (.inp n!"9dbemu")) (.add (.inp n!"5dbemu") (.mul (.rat 40 1) (.inp n!"9dbemu")))))),
  (n!"V8ddLR_3323", (.mul (.div (.mul (.rat 4 1) (.par n!"GF")) (.sqrt (.rat 2 1))) (.neg (.add (.inp n!"5psbbb") (.mul (.rat 16 1) (.inp n!"9psbbb")))))),
  (n!"V1udLL_1213", (.mul (.div (.mul (.rat 4 1) (.par n!"GF")) (.sqrt (.rat 2 1))) (.add (.sub (.add (.sub (.inp n!"1dbuc") (.div (.inp n!"2dbuc") (.rat 6 1))) (.mul (.rat 16 1) (.inp n!"3dbuc"))) (.div (.mul (.rat 8 1) (.inp n!"4dbuc")) (.rat 3 1))) (.div (.add (.div (.inp n!"2dbuc") (.rat 2 1)) (.mul (.rat 8 1) (.inp n!"4dbuc"))) (.rat 3 1))))),
  (n!"V1ddLR_1233", (.mul (.div (.mul (.rat 4 1) (.par n!"GF")) (.sqrt (.rat 2 1))) (.add (.sub (.add (.sub (.inp n!"1dsbb") (.div (.inp n!"2dsbb") (.rat 6 1))) (.mul (.rat 4 1) (.inp n!"3dsbb"))) (.div (.mul (.rat 2 1) (.inp n!"4dsbb")) (.rat 3 1))) (.div (.add (.div (.inp n!"2dsbb") (.rat 2 1)) (.mul (.rat 2 1) (.inp n!"4dsbb"))) (.rat 3 1))))),
  (n!"VnudLR_1112", (.mul (.div (.mul (.rat 4 1) (.par n!"GF")) (.sqrt (.rat 2 1))) (.inp n!"nu1pdsee"))),
  (n!"V1udduLR_1311", (.mul (.div (.mul (.rat 4 1) (.par n!"GF")) (.sqrt (.rat 2 1))) (.sub (.neg (.div (.add (.sub (.add (.neg (.div (.mul (.rat 8 1) (.inp n!"10pdbuu")) (.rat 3 1))) (.inp n!"5pdbuu")) (.div (.inp n!"6pdbuu") (.rat 6 1))) (.mul (.rat 16 1) (.inp n!"9pdbuu"))) (.mul (.rat 2 1) (.rat 3 1)))) (.div (.add (.mul (.rat 8 1) (.inp n!"10pdbuu")) (.div (.inp n!"6pdbuu") (.rat 2 1))) (.rat 2 1))))),
  (n!"TedRR_2331", (.mul (.div (.mul (.rat 4 1) (.par n!"GF")) (.sqrt (.rat 2 1))) (.sub (.conj (.sub (.sub (.add (.div (.inp n!"7dbtaumu") (.rat 2 1)) (.div (.inp n!"7pdbtaumu") (.rat 2 1))) (.mul (.rat 8 1) (.inp n!"9dbtaumu"))) (.mul (.rat 8 1) (.inp n!"9pdbtaumu")))) (.conj (.add (.sub (.sub (.div (.inp n!"7dbtaumu") (.rat 2 1)) (.div (.inp n!"7pdbtaumu") (.rat 2 1))) (.mul (.rat 8 1) (.inp n!"9dbtaumu"))) (.mul (.rat 8 1) (.inp n!"9pdbtaumu"))))))),
  (n!"SnueduRR_2122", (.mul (.div (.mul (.rat 4 1) (.par n!"GF")) (.sqrt (.rat 2 1))) (.conj (.inp n!"5pcsemu")))),
  (n!"V1duLR_1221", (.mul (.div (.mul (.rat 4 1) (.par n!"GF")) (.sqrt (.rat 2 1))) (.add (.sub (.add (.sub (.inp n!"1dscu") (.div (.inp n!"2dscu") (.rat 6 1))) (.mul (.rat 4 1) (.inp n!"3dscu"))) (.div (.mul (.rat 2 1) (.inp n!"4dscu")) (.rat 3 1))) (.div (.add (.div (.inp n!"2dscu") (.rat 2 1)) (.mul (.rat 2 1) (.inp n!"4dscu"))) (.rat 3 1))))),
  (n!"TnueduRR_2211", (.mul (.div (.mul (.rat 4 1) (.par n!"GF")) (.sqrt (.rat 2 1))) (.conj (.inp n!"7pudmumu")))),
  (n!"SnueduRL_1222", (.mul (.div (.mul (.rat 4 1) (.par n!"GF")) (.sqrt (.rat 2 1))) (.conj (.inp n!"5csmue")))),
  (n!"V8udLL_2213", (.mul (.div (.mul (.rat 4 1) (.par n!"GF")) (.sqrt (.rat 2 1))) (.mul (.rat 2 1) (.add (.div (.inp n!"2dbcc") (.rat 2 1)) (.mul (.rat 8 1) (.inp n!"4dbcc")))))),
  (n!"SedRR_2332", (.mul (.div (.mul (.rat 4 1) (.par n!"GF")) (.sqrt (.rat 2 1))) (.add (.neg (.conj (.mul (.rat (-24) 1) (.inp n!"9psbtaumu")))) (.conj (.add (.inp n!"5psbtaumu") (.mul (.rat 40 1) (.inp n!"9psbtaumu"))))))),
  (n!"VnueduLR_1331", (.mul (.div (.mul (.rat 4 1) (.par n!"GF")) (.sqrt (.rat 2 1))) (.conj (.inp n!"1pubtaue")))),
  (n!"V8udLR_1221", (.mul (.div (.mul (.rat 4 1) (.par n!"GF")) (.sqrt (.rat 2 1))) (.conj (.mul (.rat 2 1) (.add (.div (.inp n!"2pdscu") (.rat 2 1)) (.mul (.rat 2 1) (.inp n!"4pdscu"))))))),
  (n!"VedRR_2321", (.mul (.div (.mul (.rat 4 1) (.par n!"GF")) (.sqrt (.rat 2 1))) (.conj (.add (.mul (.rat 6 1) (.inp n!"3pdstaumu")) (.add (.inp n!"1pdstaumu") (.mul (.rat 10 1) (.inp n!"3pdstaumu"))))))),
  (n!"S8ddRR_1121", (.mul (.div (.mul (.rat 4 1) (.par n!"GF")) (.sqrt (.rat 2 1))) (.mul (.rat (-16) 1) (.conj (.sub (.inp n!"7dsdd") (.mul (.rat 16 1) (.inp n!"9dsdd"))))))),
  (n!"SnueduRR_1312", (.mul (.div (.mul (.rat 4 1) (.par n!"GF")) (.sqrt (.rat 2 1))) (.conj (.inp n!"5pcdtaue"))))]

def Bern_to_JMS_11 : List (ℕ × Sym) := [
  (n!"S8udduRR_2322", (.mul (.div (.mul (.rat 4 1) (.par n!"GF")) (.sqrt (.rat 2 1))) (.mul (.rat (-16) 1) (.sub (.sub (.add (.div (.mul (.rat 8 1) (.inp n!"10sbcc")) (.rat 3 1)) (.inp n!"7sbcc")) (.div (.inp n!"8sbcc") (.rat 6 1))) (.mul (.rat 16 1) (.inp n!"9sbcc")))))),
  (n!"VnudLR_3313", (.mul (.div (.mul (.rat 4 1) (.par n!"GF")) (.sqrt (.rat 2 1))) (.inp n!"nu1pdbtautau"))),
  (n!"VdeLR_2311", (.mul (.div (.mul (.rat 4 1) (.par n!"GF")) (.sqrt (.rat 2 1))) (.add (.mul (.rat (-6) 1) (.inp n!"3sbee")) (.add (.inp n!"1sbee") (.mul (.rat 10 1) (.inp n!"3sbee")))))),
  (n!"VnueduLL_3221", (.mul (.div (.mul (.rat 4 1) (.par n!"GF")) (.sqrt (.rat 2 1))) (.conj (.inp n!"1usmutau")))),
  (n!"VnudLL_1331", (.mul (.div (.mul (.rat 4 1) (.par n!"GF")) (.sqrt (.rat 2 1))) (.conj (.inp n!"nu1dbtaue")))),
  (n!"V1ddLR_1321", (.mul (.div (.mul (.rat 4 1) (.par n!"GF")) (.sqrt (.rat 2 1))) (.sub (.neg (.div (.add (.sub (.add (.neg (.div (.mul (.rat 8 1) (.inp n!"10psbdd")) (.rat 3 1))) (.inp n!"5psbdd")) (.div (.inp n!"6psbdd") (.rat 6 1))) (.mul (.rat 16 1) (.inp n!"9psbdd"))) (.mul (.rat 2 1) (.rat 3 1)))) (.div (.add (.mul (.rat 8 1) (.inp n!"10psbdd")) (.div (.inp n!"6psbdd") (.rat 2 1))) (.rat 2 1))))),
  (n!"TedRR_2323", (.mul (.div (.mul (.rat 4 1) (.par n!"GF")) (.sqrt (.rat 2 1))) (.add (.sub (.sub (.add (.div (.inp n!"7sbmutau") (.rat 2 1)) (.div (.inp n!"7psbmutau") (.rat 2 1))) (.mul (.rat 8 1) (.inp n!"9sbmutau"))) (.mul (.rat 8 1) (.inp n!"9psbmutau"))) (.add (.sub (.sub (.div (.inp n!"7sbmutau") (.rat 2 1)) (.div (.inp n!"7psbmutau") (.rat 2 1))) (.mul (.rat 8 1) (.inp n!"9sbmutau"))) (.mul (.rat 8 1) (.inp n!"9psbmutau")))))),
  (n!"S8udRR_1132", (.mul (.div (.mul (.rat 4 1) (.par n!"GF")) (.sqrt (.rat 2 1))) (.sub (.mul (.rat 2 1) (.conj (.add (.mul (.rat 32 1) (.inp n!"10psbuu")) (.div (.inp n!"6psbuu") (.rat 2 1))))) (.mul (.rat 8 1) (.conj (.add (.mul (.rat (-8) 1) (.inp n!"10psbuu")) (.div (.inp n!"8psbuu") (.rat 2 1)))))))),
  (n!"TnueduRR_1121", (.mul (.div (.mul (.rat 4 1) (.par n!"GF")) (.sqrt (.rat 2 1))) (.conj (.inp n!"7pusee")))),
  (n!"VnueduLR_3311", (.mul (.div (.mul (.rat 4 1) (.par n!"GF")) (.sqrt (.rat 2 1))) (.conj (.inp n!"1pudtautau")))),
  (n!"V8udLL_1123", (.mul (.div (.mul (.rat 4 1) (.par n!"GF")) (.sqrt (.rat 2 1))) (.mul (.rat 2 1) (.add (.div (.inp n!"2sbuu") (.rat 2 1)) (.mul (.rat 8 1) (.inp n!"4sbuu")))))),
  (n!"VedRR_1231", (.mul (.div (.mul (.rat 4 1) (.par n!"GF")) (.sqrt (.rat 2 1))) (.conj (.add (.mul (.rat 6 1) (.inp n!"3pdbmue")) (.add (.inp n!"1pdbmue") (.mul (.rat 10 1) (.inp n!"3pdbmue"))))))),
  (n!"S1udduRR_2131", (.mul (.div (.mul (.rat 4 1) (.par n!"GF")) (.sqrt (.rat 2 1))) (.sub (.neg (.div (.mul (.rat 8 1) (.conj (.sub (.sub (.add (.div (.mul (.rat 8 1) (.inp n!"10pdbuc")) (.rat 3 1)) (.inp n!"7pdbuc")) (.div (.inp n!"8pdbuc") (.rat 6 1))) (.mul (.rat 16 1) (.inp n!"9pdbuc"))))) (.rat 3 1))) (.mul (.rat 8 1) (.conj (.add (.mul (.rat (-8) 1) (.inp n!"10pdbuc")) (.div (.inp n!"8pdbuc") (.rat 2 1)))))))),
  (n!"VedLR_2212", (.mul (.div (.mul (.rat 4 1) (.par n!"GF")) (.sqrt (.rat 2 1))) (.add (.neg (.mul (.rat 6 1) (.inp n!"3pdsmumu"))) (.add (.inp n!"1pdsmumu") (.mul (.rat 10 1) (.inp n!"3pdsmumu")))))),
  (n!"S1udRR_2112", (.mul (.div (.mul (.rat 4 1) (.par n!"GF")) (.sqrt (.rat 2 1))) (.sub (.sub (.add (.add (.sub (.add (.neg (.div (.mul (.rat 32 1) (.inp n!"10dscu")) (.rat 3 1))) (.inp n!"5dscu")) (.div (.inp n!"6dscu") (.rat 6 1))) (.mul (.rat 64 1) (.inp n!"9dscu"))) (.div (.add (.mul (.rat 32 1) (.inp n!"10dscu")) (.div (.inp n!"6dscu") (.rat 2 1))) (.rat 3 1))) (.mul (.rat 4 1) (.sub (.sub (.add (.div (.mul (.rat 8 1) (.inp n!"10dscu")) (.rat 3 1)) (.inp n!"7dscu")) (.div (.inp n!"8dscu") (.rat 6 1))) (.mul (.rat 16 1) (.inp n!"9dscu"))))) (.div (.mul (.rat 4 1) (.add (.mul (.rat (-8) 1) (.inp n!"10dscu")) (.div (.inp n!"8dscu") (.rat 2 1)))) (.rat 3 1))))),
  (n!"V8udLR_1213", (.mul (.div (.mul (.rat 4 1) (.par n!"GF")) (.sqrt (.rat 2 1))) (.mul (.rat 2 1) (.add (.div (.inp n!"2pdbuc") (.rat 2 1)) (.mul (.rat 2 1) (.inp n!"4pdbuc")))))),
  (n!"VedRR_2313", (.mul (.div (.mul (.rat 4 1) (.par n!"GF")) (.sqrt (.rat 2 1))) (.add (.mul (.rat 6 1) (.inp n!"3pdbmutau")) (.add (.inp n!"1pdbmutau") (.mul (.rat 10 1) (.inp n!"3pdbmutau")))))),
  (n!"S8ddRR_1113", (.mul (.div (.mul (.rat 4 1) (.par n!"GF")) (.sqrt (.rat 2 1))) (.mul (.rat (-16) 1) (.sub (.inp n!"7pdbdd") (.mul (.rat 16 1) (.inp n!"9pdbdd")))))),
  (n!"S8udduRR_1232", (.mul (.div (.mul (.rat 4 1) (.par n!"GF")) (.sqrt (.rat 2 1))) (.mul (.rat (-16) 1) (.conj (.sub (.sub (.add (.div (.mul (.rat 8 1) (.inp n!"10psbcu")) (.rat 3 1)) (.inp n!"7psbcu")) (.div (.inp n!"8psbcu") (.rat 6 1))) (.mul (.rat 16 1) (.inp n!"9psbcu"))))))),
  (n!"V8ddLR_2321", (.mul (.div (.mul (.rat 4 1) (.par n!"GF")) (.sqrt (.rat 2 1))) (.neg (.add (.inp n!"5sbsd") (.mul (.rat 16 1) (.inp n!"9sbsd")))))),
  (n!"VedLL_1312", (.mul (.div (.mul (.rat 4 1) (.par n!"GF")) (.sqrt (.rat 2 1))) (.add (.neg (.mul (.rat (-6) 1) (.inp n!"3dsetau"))) (.add (.inp n!"1dsetau") (.mul (.rat 10 1) (.inp n!"3dsetau")))))),
  (n!"V1udRR_1212", (.mul (.div (.mul (.rat 4 1) (.par n!"GF")) (.sqrt (.rat 2 1))) (.add (.sub (.add (.sub (.inp n!"1pdsuc") (.div (.inp n!"2pdsuc") (.rat 6 1))) (.mul (.rat 16 1) (.inp n!"3pdsuc"))) (.div (.mul (.rat 8 1) (.inp n!"4pdsuc")) (.rat 3 1))) (.div (.add (.div (.inp n!"2pdsuc") (.rat 2 1)) (.mul (.rat 8 1) (.inp n!"4pdsuc"))) (.rat 3 1))))),
  (n!"TedRR_3221", (.mul (.div (.mul (.rat 4 1) (.par n!"GF")) (.sqrt (.rat 2 1))) (.sub (.conj (.sub (.sub (.add (.div (.inp n!"7dsmutau") (.rat 2 1)) (.div (.inp n!"7pdsmutau") (.rat 2 1))) (.mul (.rat 8 1) (.inp n!"9dsmutau"))) (.mul (.rat 8 1) (.inp n!"9pdsmutau")))) (.conj (.add (.sub (.sub (.div (.inp n!"7dsmutau") (.rat 2 1)) (.div (.inp n!"7pdsmutau") (.rat 2 1))) (.mul (.rat 8 1) (.inp n!"9dsmutau"))) (.mul (.rat 8 1) (.inp n!"9pdsmutau"))))))),
  (n!"S1ddRR_1232", (.mul (.div (.mul (.rat 4 1) (.par n!"GF")) (.sqrt (.rat 2 1))) (.sub (.neg (.div (.mul (.rat 8 1) (.conj (.sub (.inp n!"7sbsd") (.mul (.rat 16 1) (.inp n!"9sbsd"))))) (.rat 3 1))) (.mul (.rat 8 1) (.conj (.add (.mul (.div (.rat (-1) 1) (.rat 8 1)) (.add (.inp n!"5sbsd") (.mul (.rat 64 1) (.inp n!"9sbsd")))) (.mul (.div (.rat 1 1) (.rat 2 1)) (.sub (.inp n!"7sbsd") (.mul (.rat 16 1) (.inp n!"9sbsd")))))))))),
  (n!"VnudLR_2223", (.mul (.div (.mul (.rat 4 1) (.par n!"GF")) (.sqrt (.rat 2 1))) (.inp n!"nu1psbmumu"))),
  (n!"SedRL_3132", (.mul (.div (.mul (.rat 4 1) (.par n!"GF")) (.sqrt (.rat 2 1))) (.add (.neg (.conj (.mul (.rat 24 1) (.inp n!"9sbetau")))) (.conj (.add (.inp n!"5sbetau") (.mul (.rat 40 1) (.inp n!"9sbetau"))))))),
  (n!"VdeLR_1221", (.mul (.div (.mul (.rat 4 1) (.par n!"GF")) (.sqrt (.rat 2 1))) (.add (.mul (.rat (-6) 1) (.inp n!"3dsmue")) (.add (.inp n!"1dsmue") (.mul (.rat 10 1) (.inp n!"3dsmue")))))),
  (n!"VnueduLL_2131", (.mul (.div (.mul (.rat 4 1) (.par n!"GF")) (.sqrt (.rat 2 1))) (.conj (.inp n!"1ubemu")))),
  (n!"S1udduRR_1321", (.mul (.div (.mul (.rat 4 1) (.par n!"GF")) (.sqrt (.rat 2 1))) (.sub (.neg (.div (.mul (.rat 8 1) (.sub (.sub (.add (.div (.mul (.rat 8 1) (.inp n!"10sbuu")) (.rat 3 1)) (.inp n!"7sbuu")) (.div (.inp n!"8sbuu") (.rat 6 1))) (.mul (.rat 16 1) (.inp n!"9sbuu")))) (.rat 3 1))) (.mul (.rat 8 1) (.add (.mul (.rat (-8) 1) (.inp n!"10sbuu")) (.div (.inp n!"8sbuu") (.rat 2 1))))))),
  (n!"VddLL_1232", (.mul (.div (.mul (.rat 4 1) (.par n!"GF")) (.sqrt (.rat 2 1))) (.conj (.add (.inp n!"1sbsd") (.mul (.rat 16 1) (.inp n!"3sbsd")))))),
  (n!"SnueduRL_2112", (.mul (.div (.mul (.rat 4 1) (.par n!"GF")) (.sqrt (.rat 2 1))) (.conj (.inp n!"5cdemu")))),
  (n!"VnudLL_1323", (.mul (.div (.mul (.rat 4 1) (.par n!"GF")) (.sqrt (.rat 2 1))) (.inp n!"nu1sbetau"))),
  (n!"VnueduLR_2221", (.mul (.div (.mul (.rat 4 1) (.par n!"GF")) (.sqrt (.rat 2 1))) (.conj (.inp n!"1pusmumu")))),
  (n!"V1ddLR_1313", (.mul (.div (.mul (.rat 4 1) (.par n!"GF")) (.sqrt (.rat 2 1))) (.sub (.div (.neg (.inp n!"4dbdb")) (.rat 6 1)) (.div (.inp n!"5dbdb") (.rat 2 1))))),
  (n!"TnueduRR_3322", (.mul (.div (.mul (.rat 4 1) (.par n!"GF")) (.sqrt (.rat 2 1))) (.conj (.inp n!"7pcstautau")))),
  (n!"V8udRR_2212", (.mul (.div (.mul (.rat 4 1) (.par n!"GF")) (.sqrt (.rat 2 1))) (.mul (.rat 2 1) (.add (.div (.inp n!"2pdscc") (.rat 2 1)) (.mul (.rat 8 1) (.inp n!"4pdscc")))))),
  (n!"S8ddRR_2232", (.mul (.div (.mul (.rat 4 1) (.par n!"GF")) (.sqrt (.rat 2 1))) (.mul (.rat (-16) 1) (.conj (.sub (.inp n!"7sbss") (.mul (.rat 16 1) (.inp n!"9sbss"))))))),
  (n!"VnueduLL_1321", (.mul (.div (.mul (.rat 4 1) (.par n!"GF")) (.sqrt (.rat 2 1))) (.conj (.inp n!"1ustaue")))),
  (n!"VedRR_1223", (.mul (.div (.mul (.rat 4 1) (.par n!"GF")) (.sqrt (.rat 2 1))) (.add (.mul (.rat 6 1) (.inp n!"3psbemu")) (.add (.inp n!"1psbemu") (.mul (.rat 10 1) (.inp n!"3psbemu")))))),
  (n!"V8ddLR_1231", (.mul (.div (.mul (.rat 4 1) (.par n!"GF")) (.sqrt (.rat 2 1))) (.conj (.neg (.add (.sub (.add (.neg (.div (.mul (.rat 8 1) (.inp n!"10sbdd")) (.rat 3 1))) (.inp n!"5sbdd")) (.div (.inp n!"6sbdd") (.rat 6 1))) (.mul (.rat 16 1) (.inp n!"9sbdd"))))))),
  (n!"TedRR_2131", (.mul (.div (.mul (.rat 4 1) (.par n!"GF")) (.sqrt (.rat 2 1))) (.sub (.conj (.sub (.sub (.add (.div (.inp n!"7dbemu") (.rat 2 1)) (.div (.inp n!"7pdbemu") (.rat 2 1))) (.mul (.rat 8 1) (.inp n!"9dbemu"))) (.mul (.rat 8 1) (.inp n!"9pdbemu")))) (.conj (.add (.sub (.sub (.div (.inp n!"7dbemu") (.rat 2 1)) (.div (.inp n!"7pdbemu") (.rat 2 1))) (.mul (.rat 8 1) (.inp n!"9dbemu"))) (.mul (.rat 8 1) (.inp n!"9pdbemu"))))))),
  (n!"TedRR_3213", (.mul (.div (.mul (.rat 4 1) (.par n!"GF")) (.sqrt (.rat 2 1))) (.add (.sub (.sub (.add (.div (.inp n!"7dbtaumu") (.rat 2 1)) (.div (.inp n!"7pdbtaumu") (.rat 2 1))) (.mul (.rat 8 1) (.inp n!"9dbtaumu"))) (.mul (.rat 8 1) (.inp n!"9pdbtaumu"))) (.add (.sub (.sub (.div (.inp n!"7dbtaumu") (.rat 2 1)) (.div (.inp n!"7pdbtaumu") (.rat 2 1))) (.mul (.rat 8 1) (.inp n!"9dbtaumu"))) (.mul (.rat 8 1) (.inp n!"9pdbtaumu")))))),
  (n!"VdeLR_1213", (.mul (.div (.mul (.rat 4 1) (.par n!"GF")) (.sqrt (.rat 2 1))) (.add (.mul (.rat (-6) 1) (.inp n!"3dsetau")) (.add (.inp n!"1dsetau") (.mul (.rat 10 1) (.inp n!"3dsetau")))))),
  (n!"SnueduRL_3231", (.mul (.div (.mul (.rat 4 1) (.par n!"GF")) (.sqrt (.rat 2 1))) (.conj (.inp n!"5ubmutau")))),
  (n!"SedRR_2132", (.mul (.div (.mul (.rat 4 1) (.par n!"GF")) (.sqrt (.rat 2 1))) (.add (.neg (.conj (.mul (.rat (-24) 1) (.inp n!"9psbemu")))) (.conj (.add (.inp n!"5psbemu") (.mul (.rat 40 1) (.inp n!"9psbemu"))))))),
  (n!"VnueduLR_1131", (.mul (.div (.mul (.rat 4 1) (.par n!"GF")) (.sqrt (.rat 2 1))) (.conj (.inp n!"1pubee")))),
  (n!"dG_32", (.mul (.div (.mul (.rat 4 1) (.par n!"GF")) (.sqrt (.rat 2 1))) (.conj (.div (.inp n!"8pgsb") (.div (.sqrt (.mul (.mul (.rat 4 1) .pi) (.par n!"alpha_s"))) (.par n!"m_b")))))),
  (n!"TnueduRR_2232", (.mul (.div (.mul (.rat 4 1) (.par n!"GF")) (.sqrt (.rat 2 1))) (.conj (.inp n!"7pcbmumu")))),
  (n!"SnueduRR_3321", (.mul (.div (.mul (.rat 4 1) (.par n!"GF")) (.sqrt (.rat 2 1))) (.conj (.inp n!"5pustautau")))),
  (n!"TedRR_1321", (.mul (.div (.mul (.rat 4 1) (.par n!"GF")) (.sqrt (.rat 2 1))) (.sub (.conj (.sub (.sub (.add (.div (.inp n!"7dstaue") (.rat 2 1)) (.div (.inp n!"7pdstaue") (.rat 2 1))) (.mul (.rat 8 1) (.inp n!"9dstaue"))) (.mul (.rat 8 1) (.inp n!"9pdstaue")))) (.conj (.add (.sub (.sub (.div (.inp n!"7dstaue") (.rat 2 1)) (.div (.inp n!"7pdstaue") (.rat 2 1))) (.mul (.rat 8 1) (.inp n!"9dstaue"))) (.mul (.rat 8 1) (.inp n!"9pdstaue")))))))]

def Bern_to_JMS_12 : List (ℕ × Sym) := [
  (n!"SnueduRR_1112", (.mul (.div (.mul (.rat 4 1) (.par n!"GF")) (.sqrt (.rat 2 1))) (.conj (.inp n!"5pcdee")))),
  (n!"SedRL_1232", (.mul (.div (.mul (.rat 4 1) (.par n!"GF")) (.sqrt (.rat 2 1))) (.add (.neg (.conj (.mul (.rat 24 1) (.inp n!"9sbmue")))) (.conj (.add (.inp n!"5sbmue") (.mul (.rat 40 1) (.inp n!"9sbmue"))))))),
  (n!"VedLR_3323", (.mul (.div (.mul (.rat 4 1) (.par n!"GF")) (.sqrt (.rat 2 1))) (.add (.neg (.mul (.rat 6 1) (.inp n!"3psbtautau"))) (.add (.inp n!"1psbtautau") (.mul (.rat 10 1) (.inp n!"3psbtautau")))))),
  (n!"S8udduRR_2122", (.mul (.div (.mul (.rat 4 1) (.par n!"GF")) (.sqrt (.rat 2 1))) (.mul (.rat (-16) 1) (.conj (.sub (.sub (.add (.div (.mul (.rat 8 1) (.inp n!"10pdscc")) (.rat 3 1)) (.inp n!"7pdscc")) (.div (.inp n!"8pdscc") (.rat 6 1))) (.mul (.rat 16 1) (.inp n!"9pdscc"))))))),
  (n!"S8udRR_1212", (.mul (.div (.mul (.rat 4 1) (.par n!"GF")) (.sqrt (.rat 2 1))) (.sub (.mul (.rat 2 1) (.add (.mul (.rat 32 1) (.inp n!"10dsuc")) (.div (.inp n!"6dsuc") (.rat 2 1)))) (.mul (.rat 8 1) (.add (.mul (.rat (-8) 1) (.inp n!"10dsuc")) (.div (.inp n!"8dsuc") (.rat 2 1))))))),
  (n!"S1ddRR_2122", (.mul (.div (.mul (.rat 4 1) (.par n!"GF")) (.sqrt (.rat 2 1))) (.sub (.neg (.div (.mul (.rat 8 1) (.conj (.sub (.inp n!"7pdsss") (.mul (.rat 16 1) (.inp n!"9pdsss"))))) (.rat 3 1))) (.mul (.rat 8 1) (.conj (.add (.mul (.div (.rat (-1) 1) (.rat 8 1)) (.add (.inp n!"5pdsss") (.mul (.rat 64 1) (.inp n!"9pdsss")))) (.mul (.div (.rat 1 1) (.rat 2 1)) (.sub (.inp n!"7pdsss") (.mul (.rat 16 1) (.inp n!"9pdsss")))))))))),
  (n!"V8ddLR_1223", (.mul (.div (.mul (.rat 4 1) (.par n!"GF")) (.sqrt (.rat 2 1))) (.neg (.add (.sub (.add (.neg (.div (.mul (.rat 8 1) (.inp n!"10dbss")) (.rat 3 1))) (.inp n!"5dbss")) (.div (.inp n!"6dbss") (.rat 6 1))) (.mul (.rat 16 1) (.inp n!"9dbss")))))),
  (n!"S1udduRR_2211", (.mul (.div (.mul (.rat 4 1) (.par n!"GF")) (.sqrt (.rat 2 1))) (.sub (.neg (.div (.mul (.rat 8 1) (.sub (.sub (.add (.div (.mul (.rat 8 1) (.inp n!"10dscu")) (.rat 3 1)) (.inp n!"7dscu")) (.div (.inp n!"8dscu") (.rat 6 1))) (.mul (.rat 16 1) (.inp n!"9dscu")))) (.rat 3 1))) (.mul (.rat 8 1) (.add (.mul (.rat (-8) 1) (.inp n!"10dscu")) (.div (.inp n!"8dscu") (.rat 2 1))))))),
  (n!"TedRR_2123", (.mul (.div (.mul (.rat 4 1) (.par n!"GF")) (.sqrt (.rat 2 1))) (.add (.sub (.sub (.add (.div (.inp n!"7sbmue") (.rat 2 1)) (.div (.inp n!"7psbmue") (.rat 2 1))) (.mul (.rat 8 1) (.inp n!"9sbmue"))) (.mul (.rat 8 1) (.inp n!"9psbmue"))) (.add (.sub (.sub (.div (.inp n!"7sbmue") (.rat 2 1)) (.div (.inp n!"7psbmue") (.rat 2 1))) (.mul (.rat 8 1) (.inp n!"9sbmue"))) (.mul (.rat 8 1) (.inp n!"9psbmue")))))),
  (n!"VdeLR_2332", (.mul (.div (.mul (.rat 4 1) (.par n!"GF")) (.sqrt (.rat 2 1))) (.add (.mul (.rat (-6) 1) (.inp n!"3sbtaumu")) (.add (.inp n!"1sbtaumu") (.mul (.rat 10 1) (.inp n!"3sbtaumu")))))),
  (n!"VnudLL_2213", (.mul (.div (.mul (.rat 4 1) (.par n!"GF")) (.sqrt (.rat 2 1))) (.inp n!"nu1dbmumu"))),
  (n!"VnueduLR_3111", (.mul (.div (.mul (.rat 4 1) (.par n!"GF")) (.sqrt (.rat 2 1))) (.conj (.inp n!"1pudetau")))),
  (n!"V8duLR_1211", (.mul (.div (.mul (.rat 4 1) (.par n!"GF")) (.sqrt (.rat 2 1))) (.mul (.rat 2 1) (.add (.div (.inp n!"2dsuu") (.rat 2 1)) (.mul (.rat 2 1) (.inp n!"4dsuu")))))),
  (n!"S8udduRR_1312", (.mul (.div (.mul (.rat 4 1) (.par n!"GF")) (.sqrt (.rat 2 1))) (.mul (.rat (-16) 1) (.sub (.sub (.add (.div (.mul (.rat 8 1) (.inp n!"10dbuc")) (.rat 3 1)) (.inp n!"7dbuc")) (.div (.inp n!"8dbuc") (.rat 6 1))) (.mul (.rat 16 1) (.inp n!"9dbuc")))))),
  (n!"VnudLR_1221", (.mul (.div (.mul (.rat 4 1) (.par n!"GF")) (.sqrt (.rat 2 1))) (.conj (.inp n!"nu1pdsmue")))),
  (n!"VddRR_1231", (.mul (.div (.mul (.rat 4 1) (.par n!"GF")) (.sqrt (.rat 2 1))) (.conj (.add (.div (.inp n!"2psbdd") (.rat 2 1)) (.mul (.rat 8 1) (.inp n!"4psbdd")))))),
  (n!"VnueduLR_3332", (.mul (.div (.mul (.rat 4 1) (.par n!"GF")) (.sqrt (.rat 2 1))) (.conj (.inp n!"1pcbtautau")))),
  (n!"SnueduRR_2231", (.mul (.div (.mul (.rat 4 1) (.par n!"GF")) (.sqrt (.rat 2 1))) (.conj (.inp n!"5pubmumu")))),
  (n!"SedRL_3212", (.mul (.div (.mul (.rat 4 1) (.par n!"GF")) (.sqrt (.rat 2 1))) (.add (.mul (.rat (-24) 1) (.inp n!"9pdstaumu")) (.add (.inp n!"5pdstaumu") (.mul (.rat 40 1) (.inp n!"9pdstaumu")))))),
  (n!"VnueduLL_2211", (.mul (.div (.mul (.rat 4 1) (.par n!"GF")) (.sqrt (.rat 2 1))) (.conj (.inp n!"1udmumu")))),
  (n!"TedRR_1313", (.mul (.div (.mul (.rat 4 1) (.par n!"GF")) (.sqrt (.rat 2 1))) (.add (.sub (.sub (.add (.div (.inp n!"7dbetau") (.rat 2 1)) (.div (.inp n!"7pdbetau") (.rat 2 1))) (.mul (.rat 8 1) (.inp n!"9dbetau"))) (.mul (.rat 8 1) (.inp n!"9pdbetau"))) (.add (.sub (.sub (.div (.inp n!"7dbetau") (.rat 2 1)) (.div (.inp n!"7pdbetau") (.rat 2 1))) (.mul (.rat 8 1) (.inp n!"9dbetau"))) (.mul (.rat 8 1) (.inp n!"9pdbetau")))))),
  (n!"VedLL_1112", (.mul (.div (.mul (.rat 4 1) (.par n!"GF")) (.sqrt (.rat 2 1))) (.add (.neg (.mul (.rat (-6) 1) (.inp n!"3dsee"))) (.add (.inp n!"1dsee") (.mul (.rat 10 1) (.inp n!"3dsee")))))),
  (n!"SnueduRL_1331", (.mul (.div (.mul (.rat 4 1) (.par n!"GF")) (.sqrt (.rat 2 1))) (.conj (.inp n!"5ubtaue")))),
  (n!"S1uuRR_2121", (.mul (.div (.mul (.rat 4 1) (.par n!"GF")) (.sqrt (.rat 2 1))) (.add (.inp n!"2pcucu") (.div (.inp n!"3pcucu") (.rat 3 1))))),
  (n!"S1udduRR_1121", (.mul (.div (.mul (.rat 4 1) (.par n!"GF")) (.sqrt (.rat 2 1))) (.sub (.neg (.div (.mul (.rat 8 1) (.conj (.sub (.sub (.add (.div (.mul (.rat 8 1) (.inp n!"10pdsuu")) (.rat 3 1)) (.inp n!"7pdsuu")) (.div (.inp n!"8pdsuu") (.rat 6 1))) (.mul (.rat 16 1) (.inp n!"9pdsuu"))))) (.rat 3 1))) (.mul (.rat 8 1) (.conj (.add (.mul (.rat (-8) 1) (.inp n!"10pdsuu")) (.div (.inp n!"8pdsuu") (.rat 2 1)))))))),
  (n!"VnudLL_1123", (.mul (.div (.mul (.rat 4 1) (.par n!"GF")) (.sqrt (.rat 2 1))) (.inp n!"nu1sbee"))),
  (n!"V1ddLR_1113", (.mul (.div (.mul (.rat 4 1) (.par n!"GF")) (.sqrt (.rat 2 1))) (.add (.add (.inp n!"1pdbdd") (.mul (.rat 4 1) (.inp n!"3pdbdd"))) (.div (.mul (.div (.rat (-1) 1) (.rat 2 1)) (.add (.inp n!"5pdbdd") (.mul (.rat 16 1) (.inp n!"9pdbdd")))) (.rat 3 1))))),
  (n!"TnueduRR_3122", (.mul (.div (.mul (.rat 4 1) (.par n!"GF")) (.sqrt (.rat 2 1))) (.conj (.inp n!"7pcsetau")))),
  (n!"V8ddLR_1311", (.mul (.div (.mul (.rat 4 1) (.par n!"GF")) (.sqrt (.rat 2 1))) (.neg (.add (.inp n!"5dbdd") (.mul (.rat 16 1) (.inp n!"9dbdd")))))),
  (n!"VnudLR_1213", (.mul (.div (.mul (.rat 4 1) (.par n!"GF")) (.sqrt (.rat 2 1))) (.inp n!"nu1pdbemu"))),
  (n!"VddRR_1223", (.mul (.div (.mul (.rat 4 1) (.par n!"GF")) (.sqrt (.rat 2 1))) (.add (.div (.inp n!"2pdbss") (.rat 2 1)) (.mul (.rat 8 1) (.inp n!"4pdbss"))))),
  (n!"VnueduLL_1121", (.mul (.div (.mul (.rat 4 1) (.par n!"GF")) (.sqrt (.rat 2 1))) (.conj (.inp n!"1usee")))),
  (n!"V1duLR_1322", (.mul (.div (.mul (.rat 4 1) (.par n!"GF")) (.sqrt (.rat 2 1))) (.add (.sub (.add (.sub (.inp n!"1dbcc") (.div (.inp n!"2dbcc") (.rat 6 1))) (.mul (.rat 4 1) (.inp n!"3dbcc"))) (.div (.mul (.rat 2 1) (.inp n!"4dbcc")) (.rat 3 1))) (.div (.add (.div (.inp n!"2dbcc") (.rat 2 1)) (.mul (.rat 2 1) (.inp n!"4dbcc"))) (.rat 3 1))))),
  (n!"SnueduRL_3311", (.mul (.div (.mul (.rat 4 1) (.par n!"GF")) (.sqrt (.rat 2 1))) (.conj (.inp n!"5udtautau")))),
  (n!"V8udLL_1232", (.mul (.div (.mul (.rat 4 1) (.par n!"GF")) (.sqrt (.rat 2 1))) (.conj (.mul (.rat 2 1) (.add (.div (.inp n!"2sbcu") (.rat 2 1)) (.mul (.rat 8 1) (.inp n!"4sbcu"))))))),
  (n!"SedRR_2212", (.mul (.div (.mul (.rat 4 1) (.par n!"GF")) (.sqrt (.rat 2 1))) (.add (.mul (.rat 24 1) (.inp n!"9dsmumu")) (.add (.inp n!"5dsmumu") (.mul (.rat 40 1) (.inp n!"9dsmumu")))))),
  (n!"VnueduLR_1211", (.mul (.div (.mul (.rat 4 1) (.par n!"GF")) (.sqrt (.rat 2 1))) (.conj (.inp n!"1pudmue")))),
  (n!"TnueduRR_2312", (.mul (.div (.mul (.rat 4 1) (.par n!"GF")) (.sqrt (.rat 2 1))) (.conj (.inp n!"7pcdtaumu")))),
  (n!"VedLL_3313", (.mul (.div (.mul (.rat 4 1) (.par n!"GF")) (.sqrt (.rat 2 1))) (.add (.neg (.mul (.rat (-6) 1) (.inp n!"3dbtautau"))) (.add (.inp n!"1dbtautau") (.mul (.rat 10 1) (.inp n!"3dbtautau")))))),
  (n!"V1udduLR_1132", (.mul (.div (.mul (.rat 4 1) (.par n!"GF")) (.sqrt (.rat 2 1))) (.sub (.neg (.div (.conj (.add (.sub (.add (.neg (.div (.mul (.rat 8 1) (.inp n!"10dbcu")) (.rat 3 1))) (.inp n!"5dbcu")) (.div (.inp n!"6dbcu") (.rat 6 1))) (.mul (.rat 16 1) (.inp n!"9dbcu")))) (.mul (.rat 2 1) (.rat 3 1)))) (.div (.conj (.add (.mul (.rat 8 1) (.inp n!"10dbcu")) (.div (.inp n!"6dbcu") (.rat 2 1)))) (.rat 2 1))))),
  (n!"VedLR_2321", (.mul (.div (.mul (.rat 4 1) (.par n!"GF")) (.sqrt (.rat 2 1))) (.conj (.add (.neg (.mul (.rat 6 1) (.inp n!"3pdstaumu"))) (.add (.inp n!"1pdstaumu") (.mul (.rat 10 1) (.inp n!"3pdstaumu"))))))),
  (n!"S1ddRR_3233", (.mul (.div (.mul (.rat 4 1) (.par n!"GF")) (.sqrt (.rat 2 1))) (.sub (.neg (.div (.mul (.rat 8 1) (.conj (.sub (.inp n!"7psbbb") (.mul (.rat 16 1) (.inp n!"9psbbb"))))) (.rat 3 1))) (.mul (.rat 8 1) (.conj (.add (.mul (.div (.rat (-1) 1) (.rat 8 1)) (.add (.inp n!"5psbbb") (.mul (.rat 64 1) (.inp n!"9psbbb")))) (.mul (.div (.rat 1 1) (.rat 2 1)) (.sub (.inp n!"7psbbb") (.mul (.rat 16 1) (.inp n!"9psbbb")))))))))),
  (n!"S1udRR_2221", (.mul (.div (.mul (.rat 4 1) (.par n!"GF")) (.sqrt (.rat 2 1))) (.sub (.sub (.add (.conj (.add (.sub (.add (.neg (.div (.mul (.rat 32 1) (.inp n!"10pdscc")) (.rat 3 1))) (.inp n!"5pdscc")) (.div (.inp n!"6pdscc") (.rat 6 1))) (.mul (.rat 64 1) (.inp n!"9pdscc")))) (.div (.conj (.add (.mul (.rat 32 1) (.inp n!"10pdscc")) (.div (.inp n!"6pdscc") (.rat 2 1)))) (.rat 3 1))) (.mul (.rat 4 1) (.conj (.sub (.sub (.add (.div (.mul (.rat 8 1) (.inp n!"10pdscc")) (.rat 3 1)) (.inp n!"7pdscc")) (.div (.inp n!"8pdscc") (.rat 6 1))) (.mul (.rat 16 1) (.inp n!"9pdscc")))))) (.div (.mul (.rat 4 1) (.conj (.add (.mul (.rat (-8) 1) (.inp n!"10pdscc")) (.div (.inp n!"8pdscc") (.rat 2 1))))) (.rat 3 1))))),
  (n!"V1udLL_2212", (.mul (.div (.mul (.rat 4 1) (.par n!"GF")) (.sqrt (.rat 2 1))) (.add (.sub (.add (.sub (.inp n!"1dscc") (.div (.inp n!"2dscc") (.rat 6 1))) (.mul (.rat 16 1) (.inp n!"3dscc"))) (.div (.mul (.rat 8 1) (.inp n!"4dscc")) (.rat 3 1))) (.div (.add (.div (.inp n!"2dscc") (.rat 2 1)) (.mul (.rat 8 1) (.inp n!"4dscc"))) (.rat 3 1))))),
  (n!"S8ddRR_1222", (.mul (.div (.mul (.rat 4 1) (.par n!"GF")) (.sqrt (.rat 2 1))) (.mul (.rat (-16) 1) (.sub (.inp n!"7dsss") (.mul (.rat 16 1) (.inp n!"9dsss")))))),
  (n!"SedRL_1312", (.mul (.div (.mul (.rat 4 1) (.par n!"GF")) (.sqrt (.rat 2 1))) (.add (.mul (.rat (-24) 1) (.inp n!"9pdsetau")) (.add (.inp n!"5pdsetau") (.mul (.rat 40 1) (.inp n!"9pdsetau")))))),
  (n!"V8duLR_2322", (.mul (.div (.mul (.rat 4 1) (.par n!"GF")) (.sqrt (.rat 2 1))) (.mul (.rat 2 1) (.add (.div (.inp n!"2sbcc") (.rat 2 1)) (.mul (.rat 2 1) (.inp n!"4sbcc")))))),
  (n!"SnueduRR_3121", (.mul (.div (.mul (.rat 4 1) (.par n!"GF")) (.sqrt (.rat 2 1))) (.conj (.inp n!"5pusetau")))),
  (n!"VnudLR_2332", (.mul (.div (.mul (.rat 4 1) (.par n!"GF")) (.sqrt (.rat 2 1))) (.conj (.inp n!"nu1psbtaumu")))),
  (n!"TedRR_1121", (.mul (.div (.mul (.rat 4 1) (.par n!"GF")) (.sqrt (.rat 2 1))) (.sub (.conj (.sub (.sub (.add (.div (.inp n!"7dsee") (.rat 2 1)) (.div (.inp n!"7pdsee") (.rat 2 1))) (.mul (.rat 8 1) (.inp n!"9dsee"))) (.mul (.rat 8 1) (.inp n!"9pdsee")))) (.conj (.add (.sub (.sub (.div (.inp n!"7dsee") (.rat 2 1)) (.div (.inp n!"7pdsee") (.rat 2 1))) (.mul (.rat 8 1) (.inp n!"9dsee"))) (.mul (.rat 8 1) (.inp n!"9pdsee")))))))]

def Bern_to_JMS_13 : List (ℕ × Sym) := [
  (n!"VnueduLL_3322", (.mul (.div (.mul (.rat 4 1) (.par n!"GF")) (.sqrt (.rat 2 1))) (.conj (.inp n!"1cstautau")))),
  (n!"SnueduRL_2221", (.mul (.div (.mul (.rat 4 1) (.par n!"GF")) (.sqrt (.rat 2 1))) (.conj (.inp n!"5usmumu")))),
  (n!"SedRR_3331", (.mul (.div (.mul (.rat 4 1) (.par n!"GF")) (.sqrt (.rat 2 1))) (.add (.neg (.conj (.mul (.rat (-24) 1) (.inp n!"9pdbtautau")))) (.conj (.add (.inp n!"5pdbtautau") (.mul (.rat 40 1) (.inp n!"9pdbtautau"))))))),
  (n!"TnueduRR_1222", (.mul (.div (.mul (.rat 4 1) (.par n!"GF")) (.sqrt (.rat 2 1))) (.conj (.inp n!"7pcsmue")))),
  (n!"VedLL_2223", (.mul (.div (.mul (.rat 4 1) (.par n!"GF")) (.sqrt (.rat 2 1))) (.add (.neg (.mul (.rat (-6) 1) (.inp n!"3sbmumu"))) (.add (.inp n!"1sbmumu") (.mul (.rat 10 1) (.inp n!"3sbmumu")))))),
  (n!"VedLR_1231", (.mul (.div (.mul (.rat 4 1) (.par n!"GF")) (.sqrt (.rat 2 1))) (.conj (.add (.neg (.mul (.rat 6 1) (.inp n!"3pdbmue"))) (.add (.inp n!"1pdbmue") (.mul (.rat 10 1) (.inp n!"3pdbmue"))))))),
  (n!"S1udRR_1131", (.mul (.div (.mul (.rat 4 1) (.par n!"GF")) (.sqrt (.rat 2 1))) (.sub (.sub (.add (.conj (.add (.sub (.add (.neg (.div (.mul (.rat 32 1) (.inp n!"10pdbuu")) (.rat 3 1))) (.inp n!"5pdbuu")) (.div (.inp n!"6pdbuu") (.rat 6 1))) (.mul (.rat 64 1) (.inp n!"9pdbuu")))) (.div (.conj (.add (.mul (.rat 32 1) (.inp n!"10pdbuu")) (.div (.inp n!"6pdbuu") (.rat 2 1)))) (.rat 3 1))) (.mul (.rat 4 1) (.conj (.sub (.sub (.add (.div (.mul (.rat 8 1) (.inp n!"10pdbuu")) (.rat 3 1)) (.inp n!"7pdbuu")) (.div (.inp n!"8pdbuu") (.rat 6 1))) (.mul (.rat 16 1) (.inp n!"9pdbuu")))))) (.div (.mul (.rat 4 1) (.conj (.add (.mul (.rat (-8) 1) (.inp n!"10pdbuu")) (.div (.inp n!"8pdbuu") (.rat 2 1))))) (.rat 3 1))))),
  (n!"V8udduLR_1131", (.mul (.div (.mul (.rat 4 1) (.par n!"GF")) (.sqrt (.rat 2 1))) (.neg (.conj (.add (.sub (.add (.neg (.div (.mul (.rat 8 1) (.inp n!"10dbuu")) (.rat 3 1))) (.inp n!"5dbuu")) (.div (.inp n!"6dbuu") (.rat 6 1))) (.mul (.rat 16 1) (.inp n!"9dbuu"))))))),
  (n!"SnueduRR_2311", (.mul (.div (.mul (.rat 4 1) (.par n!"GF")) (.sqrt (.rat 2 1))) (.conj (.inp n!"5pudtaumu")))),
  (n!"VedRR_1332", (.mul (.div (.mul (.rat 4 1) (.par n!"GF")) (.sqrt (.rat 2 1))) (.conj (.add (.mul (.rat 6 1) (.inp n!"3psbtaue")) (.add (.inp n!"1psbtaue") (.mul (.rat 10 1) (.inp n!"3psbtaue"))))))),
  (n!"S1udduRR_2232", (.mul (.div (.mul (.rat 4 1) (.par n!"GF")) (.sqrt (.rat 2 1))) (.sub (.neg (.div (.mul (.rat 8 1) (.conj (.sub (.sub (.add (.div (.mul (.rat 8 1) (.inp n!"10psbcc")) (.rat 3 1)) (.inp n!"7psbcc")) (.div (.inp n!"8psbcc") (.rat 6 1))) (.mul (.rat 16 1) (.inp n!"9psbcc"))))) (.rat 3 1))) (.mul (.rat 8 1) (.conj (.add (.mul (.rat (-8) 1) (.inp n!"10psbcc")) (.div (.inp n!"8psbcc") (.rat 2 1)))))))),
  (n!"VedLR_2313", (.mul (.div (.mul (.rat 4 1) (.par n!"GF")) (.sqrt (.rat 2 1))) (.add (.neg (.mul (.rat 6 1) (.inp n!"3pdbmutau"))) (.add (.inp n!"1pdbmutau") (.mul (.rat 10 1) (.inp n!"3pdbmutau")))))),
  (n!"S1udRR_2213", (.mul (.div (.mul (.rat 4 1) (.par n!"GF")) (.sqrt (.rat 2 1))) (.sub (.sub (.add (.add (.sub (.add (.neg (.div (.mul (.rat 32 1) (.inp n!"10dbcc")) (.rat 3 1))) (.inp n!"5dbcc")) (.div (.inp n!"6dbcc") (.rat 6 1))) (.mul (.rat 64 1) (.inp n!"9dbcc"))) (.div (.add (.mul (.rat 32 1) (.inp n!"10dbcc")) (.div (.inp n!"6dbcc") (.rat 2 1))) (.rat 3 1))) (.mul (.rat 4 1) (.sub (.sub (.add (.div (.mul (.rat 8 1) (.inp n!"10dbcc")) (.rat 3 1)) (.inp n!"7dbcc")) (.div (.inp n!"8dbcc") (.rat 6 1))) (.mul (.rat 16 1) (.inp n!"9dbcc"))))) (.div (.mul (.rat 4 1) (.add (.mul (.rat (-8) 1) (.inp n!"10dbcc")) (.div (.inp n!"8dbcc") (.rat 2 1)))) (.rat 3 1))))),
  (n!"VnueduLR_3132", (.mul (.div (.mul (.rat 4 1) (.par n!"GF")) (.sqrt (.rat 2 1))) (.conj (.inp n!"1pcbetau")))),
  (n!"V1udLR_1212", (.mul (.div (.mul (.rat 4 1) (.par n!"GF")) (.sqrt (.rat 2 1))) (.add (.sub (.add (.sub (.inp n!"1pdsuc") (.div (.inp n!"2pdsuc") (.rat 6 1))) (.mul (.rat 4 1) (.inp n!"3pdsuc"))) (.div (.mul (.rat 2 1) (.inp n!"4pdsuc")) (.rat 3 1))) (.div (.add (.div (.inp n!"2pdsuc") (.rat 2 1)) (.mul (.rat 2 1) (.inp n!"4pdsuc"))) (.rat 3 1))))),
  (n!"S1ddRR_1112", (.mul (.div (.mul (.rat 4 1) (.par n!"GF")) (.sqrt (.rat 2 1))) (.sub (.neg (.div (.mul (.rat 8 1) (.sub (.inp n!"7pdsdd") (.mul (.rat 16 1) (.inp n!"9pdsdd")))) (.rat 3 1))) (.mul (.rat 8 1) (.add (.mul (.div (.rat (-1) 1) (.rat 8 1)) (.add (.inp n!"5pdsdd") (.mul (.rat 64 1) (.inp n!"9pdsdd")))) (.mul (.div (.rat 1 1) (.rat 2 1)) (.sub (.inp n!"7pdsdd") (.mul (.rat 16 1) (.inp n!"9pdsdd"))))))))),
  (n!"S1ddRR_1333", (.mul (.div (.mul (.rat 4 1) (.par n!"GF")) (.sqrt (.rat 2 1))) (.sub (.neg (.div (.mul (.rat 8 1) (.sub (.inp n!"7dbbb") (.mul (.rat 16 1) (.inp n!"9dbbb")))) (.rat 3 1))) (.mul (.rat 8 1) (.add (.mul (.div (.rat (-1) 1) (.rat 8 1)) (.add (.inp n!"5dbbb") (.mul (.rat 64 1) (.inp n!"9dbbb")))) (.mul (.div (.rat 1 1) (.rat 2 1)) (.sub (.inp n!"7dbbb") (.mul (.rat 16 1) (.inp n!"9dbbb"))))))))),
  (n!"S8udRR_2131", (.mul (.div (.mul (.rat 4 1) (.par n!"GF")) (.sqrt (.rat 2 1))) (.sub (.mul (.rat 2 1) (.conj (.add (.mul (.rat 32 1) (.inp n!"10pdbuc")) (.div (.inp n!"6pdbuc") (.rat 2 1))))) (.mul (.rat 8 1) (.conj (.add (.mul (.rat (-8) 1) (.inp n!"10pdbuc")) (.div (.inp n!"8pdbuc") (.rat 2 1)))))))),
  (n!"TedRR_1113", (.mul (.div (.mul (.rat 4 1) (.par n!"GF")) (.sqrt (.rat 2 1))) (.add (.sub (.sub (.add (.div (.inp n!"7dbee") (.rat 2 1)) (.div (.inp n!"7pdbee") (.rat 2 1))) (.mul (.rat 8 1) (.inp n!"9dbee"))) (.mul (.rat 8 1) (.inp n!"9pdbee"))) (.add (.sub (.sub (.div (.inp n!"7dbee") (.rat 2 1)) (.div (.inp n!"7pdbee") (.rat 2 1))) (.mul (.rat 8 1) (.inp n!"9dbee"))) (.mul (.rat 8 1) (.inp n!"9pdbee")))))),
  (n!"VdeLR_1322", (.mul (.div (.mul (.rat 4 1) (.par n!"GF")) (.sqrt (.rat 2 1))) (.add (.mul (.rat (-6) 1) (.inp n!"3dbmumu")) (.add (.inp n!"1dbmumu") (.mul (.rat 10 1) (.inp n!"3dbmumu")))))),
  (n!"VnueduLL_2232", (.mul (.div (.mul (.rat 4 1) (.par n!"GF")) (.sqrt (.rat 2 1))) (.conj (.inp n!"1cbmumu")))),
  (n!"VddLL_1112", (.mul (.div (.mul (.rat 4 1) (.par n!"GF")) (.sqrt (.rat 2 1))) (.add (.inp n!"1dsdd") (.mul (.rat 16 1) (.inp n!"3dsdd"))))),
  (n!"SnueduRL_1131", (.mul (.div (.mul (.rat 4 1) (.par n!"GF")) (.sqrt (.rat 2 1))) (.conj (.inp n!"5ubee")))),
  (n!"VddLL_1333", (.mul (.div (.mul (.rat 4 1) (.par n!"GF")) (.sqrt (.rat 2 1))) (.add (.inp n!"1dbbb") (.mul (.rat 16 1) (.inp n!"3dbbb"))))),
  (n!"SedRR_3323", (.mul (.div (.mul (.rat 4 1) (.par n!"GF")) (.sqrt (.rat 2 1))) (.add (.mul (.rat 24 1) (.inp n!"9sbtautau")) (.add (.inp n!"5sbtautau") (.mul (.rat 40 1) (.inp n!"9sbtautau")))))),
  (n!"VnueduLR_2322", (.mul (.div (.mul (.rat 4 1) (.par n!"GF")) (.sqrt (.rat 2 1))) (.conj (.inp n!"1pcstaumu")))),
  (n!"V8udRR_1231", (.mul (.div (.mul (.rat 4 1) (.par n!"GF")) (.sqrt (.rat 2 1))) (.conj (.mul (.rat 2 1) (.add (.div (.inp n!"2pdbcu") (.rat 2 1)) (.mul (.rat 8 1) (.inp n!"4pdbcu"))))))),
  (n!"SnueduRR_1221", (.mul (.div (.mul (.rat 4 1) (.par n!"GF")) (.sqrt (.rat 2 1))) (.conj (.inp n!"5pusmue")))),
  (n!"V8udLR_2212", (.mul (.div (.mul (.rat 4 1) (.par n!"GF")) (.sqrt (.rat 2 1))) (.mul (.rat 2 1) (.add (.div (.inp n!"2pdscc") (.rat 2 1)) (.mul (.rat 2 1) (.inp n!"4pdscc")))))),
  (n!"VedRR_3312", (.mul (.div (.mul (.rat 4 1) (.par n!"GF")) (.sqrt (.rat 2 1))) (.add (.mul (.rat 6 1) (.inp n!"3pdstautau")) (.add (.inp n!"1pdstautau") (.mul (.rat 10 1) (.inp n!"3pdstautau")))))),
  (n!"VedLR_1223", (.mul (.div (.mul (.rat 4 1) (.par n!"GF")) (.sqrt (.rat 2 1))) (.add (.neg (.mul (.rat 6 1) (.inp n!"3psbemu"))) (.add (.inp n!"1psbemu") (.mul (.rat 10 1) (.inp n!"3psbemu")))))),
  (n!"S8udduRR_2231", (.mul (.div (.mul (.rat 4 1) (.par n!"GF")) (.sqrt (.rat 2 1))) (.mul (.rat (-16) 1) (.conj (.sub (.sub (.add (.div (.mul (.rat 8 1) (.inp n!"10psbuc")) (.rat 3 1)) (.inp n!"7psbuc")) (.div (.inp n!"8psbuc") (.rat 6 1))) (.mul (.rat 16 1) (.inp n!"9psbuc"))))))),
  (n!"S1udRR_1123", (.mul (.div (.mul (.rat 4 1) (.par n!"GF")) (.sqrt (.rat 2 1))) (.sub (.sub (.add (.add (.sub (.add (.neg (.div (.mul (.rat 32 1) (.inp n!"10sbuu")) (.rat 3 1))) (.inp n!"5sbuu")) (.div (.inp n!"6sbuu") (.rat 6 1))) (.mul (.rat 64 1) (.inp n!"9sbuu"))) (.div (.add (.mul (.rat 32 1) (.inp n!"10sbuu")) (.div (.inp n!"6sbuu") (.rat 2 1))) (.rat 3 1))) (.mul (.rat 4 1) (.sub (.sub (.add (.div (.mul (.rat 8 1) (.inp n!"10sbuu")) (.rat 3 1)) (.inp n!"7sbuu")) (.div (.inp n!"8sbuu") (.rat 6 1))) (.mul (.rat 16 1) (.inp n!"9sbuu"))))) (.div (.mul (.rat 4 1) (.add (.mul (.rat (-8) 1) (.inp n!"10sbuu")) (.div (.inp n!"8sbuu") (.rat 2 1)))) (.rat 3 1))))),
  (n!"S8ddRR_2333", (.mul (.div (.mul (.rat 4 1) (.par n!"GF")) (.sqrt (.rat 2 1))) (.mul (.rat (-16) 1) (.sub (.inp n!"7sbbb") (.mul (.rat 16 1) (.inp n!"9sbbb")))))),
  (n!"S1ddRR_2231", (.mul (.div (.mul (.rat 4 1) (.par n!"GF")) (.sqrt (.rat 2 1))) (.sub (.sub (.add (.conj (.add (.sub (.add (.neg (.div (.mul (.rat 32 1) (.inp n!"10pdbss")) (.rat 3 1))) (.inp n!"5pdbss")) (.div (.inp n!"6pdbss") (.rat 6 1))) (.mul (.rat 64 1) (.inp n!"9pdbss")))) (.div (.conj (.add (.mul (.rat 32 1) (.inp n!"10pdbss")) (.div (.inp n!"6pdbss") (.rat 2 1)))) (.rat 3 1))) (.mul (.rat 4 1) (.conj (.sub (.sub (.add (.div (.mul (.rat 8 1) (.inp n!"10pdbss")) (.rat 3 1)) (.inp n!"7pdbss")) (.div (.inp n!"8pdbss") (.rat 6 1))) (.mul (.rat 16 1) (.inp n!"9pdbss")))))) (.div (.mul (.rat 4 1) (.conj (.add (.mul (.rat (-8) 1) (.inp n!"10pdbss")) (.div (.inp n!"8pdbss") (.rat 2 1))))) (.rat 3 1))))),
  (n!"V8ddLR_1332", (.mul (.div (.mul (.rat 4 1) (.par n!"GF")) (.sqrt (.rat 2 1))) (.neg (.add (.sub (.add (.neg (.div (.mul (.rat 8 1) (.inp n!"10dsbb")) (.rat 3 1))) (.inp n!"5dsbb")) (.div (.inp n!"6dsbb") (.rat 6 1))) (.mul (.rat 16 1) (.inp n!"9dsbb")))))),
  (n!"V1udduLR_1212", (.mul (.div (.mul (.rat 4 1) (.par n!"GF")) (.sqrt (.rat 2 1))) (.sub (.neg (.div (.add (.sub (.add (.neg (.div (.mul (.rat 8 1) (.inp n!"10pdsuc")) (.rat 3 1))) (.inp n!"5pdsuc")) (.div (.inp n!"6pdsuc") (.rat 6 1))) (.mul (.rat 16 1) (.inp n!"9pdsuc"))) (.mul (.rat 2 1) (.rat 3 1)))) (.div (.add (.mul (.rat 8 1) (.inp n!"10pdsuc")) (.div (.inp n!"6pdsuc") (.rat 2 1))) (.rat 2 1))))),
  (n!"TedRR_2232", (.mul (.div (.mul (.rat 4 1) (.par n!"GF")) (.sqrt (.rat 2 1))) (.sub (.conj (.sub (.sub (.add (.div (.inp n!"7sbmumu") (.rat 2 1)) (.div (.inp n!"7psbmumu") (.rat 2 1))) (.mul (.rat 8 1) (.inp n!"9sbmumu"))) (.mul (.rat 8 1) (.inp n!"9psbmumu")))) (.conj (.add (.sub (.sub (.div (.inp n!"7sbmumu") (.rat 2 1)) (.div (.inp n!"7psbmumu") (.rat 2 1))) (.mul (.rat 8 1) (.inp n!"9sbmumu"))) (.mul (.rat 8 1) (.inp n!"9psbmumu"))))))),
  (n!"SnueduRL_3111", (.mul (.div (.mul (.rat 4 1) (.par n!"GF")) (.sqrt (.rat 2 1))) (.conj (.inp n!"5udetau")))),
  (n!"V1ddLR_2312", (.mul (.div (.mul (.rat 4 1) (.par n!"GF")) (.sqrt (.rat 2 1))) (.sub (.neg (.div (.add (.sub (.add (.neg (.div (.mul (.rat 8 1) (.inp n!"10pdbss")) (.rat 3 1))) (.inp n!"5pdbss")) (.div (.inp n!"6pdbss") (.rat 6 1))) (.mul (.rat 16 1) (.inp n!"9pdbss"))) (.mul (.rat 2 1) (.rat 3 1)))) (.div (.add (.mul (.rat 8 1) (.inp n!"10pdbss")) (.div (.inp n!"6pdbss") (.rat 2 1))) (.rat 2 1))))),
  (n!"S8udRR_2123", (.mul (.div (.mul (.rat 4 1) (.par n!"GF")) (.sqrt (.rat 2 1))) (.sub (.mul (.rat 2 1) (.add (.mul (.rat 32 1) (.inp n!"10sbcu")) (.div (.inp n!"6sbcu") (.rat 2 1)))) (.mul (.rat 8 1) (.add (.mul (.rat (-8) 1) (.inp n!"10sbcu")) (.div (.inp n!"8sbcu") (.rat 2 1))))))),
  (n!"TnueduRR_2112", (.mul (.div (.mul (.rat 4 1) (.par n!"GF")) (.sqrt (.rat 2 1))) (.conj (.inp n!"7pcdemu")))),
  (n!"SnueduRL_3332", (.mul (.div (.mul (.rat 4 1) (.par n!"GF")) (.sqrt (.rat 2 1))) (.conj (.inp n!"5cbtautau")))),
  (n!"VnueduLR_1232", (.mul (.div (.mul (.rat 4 1) (.par n!"GF")) (.sqrt (.rat 2 1))) (.conj (.inp n!"1pcbmue")))),
  (n!"SedRL_3321", (.mul (.div (.mul (.rat 4 1) (.par n!"GF")) (.sqrt (.rat 2 1))) (.add (.neg (.conj (.mul (.rat 24 1) (.inp n!"9dstautau")))) (.conj (.add (.inp n!"5dstautau") (.mul (.rat 40 1) (.inp n!"9dstautau"))))))),
  (n!"SedRL_1112", (.mul (.div (.mul (.rat 4 1) (.par n!"GF")) (.sqrt (.rat 2 1))) (.add (.mul (.rat (-24) 1) (.inp n!"9pdsee")) (.add (.inp n!"5pdsee") (.mul (.rat 40 1) (.inp n!"9pdsee")))))),
  (n!"V8udRR_1223", (.mul (.div (.mul (.rat 4 1) (.par n!"GF")) (.sqrt (.rat 2 1))) (.mul (.rat 2 1) (.add (.div (.inp n!"2psbuc") (.rat 2 1)) (.mul (.rat 8 1) (.inp n!"4psbuc")))))),
  (n!"VedLL_1221", (.mul (.div (.mul (.rat 4 1) (.par n!"GF")) (.sqrt (.rat 2 1))) (.conj (.add (.neg (.mul (.rat (-6) 1) (.inp n!"3dsmue"))) (.add (.inp n!"1dsmue") (.mul (.rat 10 1) (.inp n!"3dsmue"))))))),
  (n!"V8ddLR_3312", (.mul (.div (.mul (.rat 4 1) (.par n!"GF")) (.sqrt (.rat 2 1))) (.mul (.rat 2 1) (.add (.div (.inp n!"2pdsbb") (.rat 2 1)) (.mul (.rat 2 1) (.inp n!"4pdsbb")))))),
  (n!"S1ddRR_2223", (.mul (.div (.mul (.rat 4 1) (.par n!"GF")) (.sqrt (.rat 2 1))) (.sub (.neg (.div (.mul (.rat 8 1) (.sub (.inp n!"7psbss") (.mul (.rat 16 1) (.inp n!"9psbss")))) (.rat 3 1))) (.mul (.rat 8 1) (.add (.mul (.div (.rat (-1) 1) (.rat 8 1)) (.add (.inp n!"5psbss") (.mul (.rat 64 1) (.inp n!"9psbss")))) (.mul (.div (.rat 1 1) (.rat 2 1)) (.sub (.inp n!"7psbss") (.mul (.rat 16 1) (.inp n!"9psbss")))))))))]

def Bern_to_JMS_14 : List (ℕ × Sym) := [
  (n!"V8udduLR_1211", (.mul (.div (.mul (.rat 4 1) (.par n!"GF")) (.sqrt (.rat 2 1))) (.neg (.add (.sub (.add (.neg (.div (.mul (.rat 8 1) (.inp n!"10pdsuu")) (.rat 3 1))) (.inp n!"5pdsuu")) (.div (.inp n!"6pdsuu") (.rat 6 1))) (.mul (.rat 16 1) (.inp n!"9pdsuu")))))),
  (n!"VnueduLL_3122", (.mul (.div (.mul (.rat 4 1) (.par n!"GF")) (.sqrt (.rat 2 1))) (.conj (.inp n!"1csetau")))),
  (n!"S1udduRR_2312", (.mul (.div (.mul (.rat 4 1) (.par n!"GF")) (.sqrt (.rat 2 1))) (.sub (.neg (.div (.mul (.rat 8 1) (.sub (.sub (.add (.div (.mul (.rat 8 1) (.inp n!"10dbcc")) (.rat 3 1)) (.inp n!"7dbcc")) (.div (.inp n!"8dbcc") (.rat 6 1))) (.mul (.rat 16 1) (.inp n!"9dbcc")))) (.rat 3 1))) (.mul (.rat 8 1) (.add (.mul (.rat (-8) 1) (.inp n!"10dbcc")) (.div (.inp n!"8dbcc") (.rat 2 1))))))),
  (n!"VnudLL_1232", (.mul (.div (.mul (.rat 4 1) (.par n!"GF")) (.sqrt (.rat 2 1))) (.conj (.inp n!"nu1sbmue")))),
  (n!"SedRR_3131", (.mul (.div (.mul (.rat 4 1) (.par n!"GF")) (.sqrt (.rat 2 1))) (.add (.neg (.conj (.mul (.rat (-24) 1) (.inp n!"9pdbetau")))) (.conj (.add (.inp n!"5pdbetau") (.mul (.rat 40 1) (.inp n!"9pdbetau"))))))),
  (n!"V1ddLR_1222", (.mul (.div (.mul (.rat 4 1) (.par n!"GF")) (.sqrt (.rat 2 1))) (.sub (.neg (.div (.add (.inp n!"5dsss") (.mul (.rat 16 1) (.inp n!"9dsss"))) (.mul (.rat 2 1) (.rat 3 1)))) (.div (.mul (.rat (-2) 1) (.add (.inp n!"1dsss") (.mul (.rat 4 1) (.inp n!"3dsss")))) (.rat 2 1))))),
  (n!"TnueduRR_3231", (.mul (.div (.mul (.rat 4 1) (.par n!"GF")) (.sqrt (.rat 2 1))) (.conj (.inp n!"7pubmutau")))),
  (n!"VddLL_2223", (.mul (.div (.mul (.rat 4 1) (.par n!"GF")) (.sqrt (.rat 2 1))) (.add (.inp n!"1sbss") (.mul (.rat 16 1) (.inp n!"3sbss"))))),
  (n!"VnueduLR_3212", (.mul (.div (.mul (.rat 4 1) (.par n!"GF")) (.sqrt (.rat 2 1))) (.conj (.inp n!"1pcdmutau")))),
  (n!"V8duLR_1312", (.mul (.div (.mul (.rat 4 1) (.par n!"GF")) (.sqrt (.rat 2 1))) (.mul (.rat 2 1) (.add (.div (.inp n!"2dbuc") (.rat 2 1)) (.mul (.rat 2 1) (.inp n!"4dbuc")))))),
  (n!"SnueduRR_2111", (.mul (.div (.mul (.rat 4 1) (.par n!"GF")) (.sqrt (.rat 2 1))) (.conj (.inp n!"5pudemu")))),
  (n!"VddRR_1332", (.mul (.div (.mul (.rat 4 1) (.par n!"GF")) (.sqrt (.rat 2 1))) (.add (.div (.inp n!"2pdsbb") (.rat 2 1)) (.mul (.rat 8 1) (.inp n!"4pdsbb"))))),
  (n!"SedRL_2231", (.mul (.div (.mul (.rat 4 1) (.par n!"GF")) (.sqrt (.rat 2 1))) (.add (.neg (.conj (.mul (.rat 24 1) (.inp n!"9dbmumu")))) (.conj (.add (.inp n!"5dbmumu") (.mul (.rat 40 1) (.inp n!"9dbmumu"))))))),
  (n!"SnueduRR_2332", (.mul (.div (.mul (.rat 4 1) (.par n!"GF")) (.sqrt (.rat 2 1))) (.conj (.inp n!"5pcbtaumu")))),
  (n!"SedRL_3313", (.mul (.div (.mul (.rat 4 1) (.par n!"GF")) (.sqrt (.rat 2 1))) (.add (.mul (.rat (-24) 1) (.inp n!"9pdbtautau")) (.add (.inp n!"5pdbtautau") (.mul (.rat 40 1) (.inp n!"9pdbtautau")))))),
  (n!"VnueduLL_2312", (.mul (.div (.mul (.rat 4 1) (.par n!"GF")) (.sqrt (.rat 2 1))) (.conj (.inp n!"1cdtaumu")))),
  (n!"SnueduRL_1211", (.mul (.div (.mul (.rat 4 1) (.par n!"GF")) (.sqrt (.rat 2 1))) (.conj (.inp n!"5udmue")))),
  (n!"SedRR_2321", (.mul (.div (.mul (.rat 4 1) (.par n!"GF")) (.sqrt (.rat 2 1))) (.add (.neg (.conj (.mul (.rat (-24) 1) (.inp n!"9pdstaumu")))) (.conj (.add (.inp n!"5pdstaumu") (.mul (.rat 40 1) (.inp n!"9pdstaumu"))))))),
  (n!"VedLL_1213", (.mul (.div (.mul (.rat 4 1) (.par n!"GF")) (.sqrt (.rat 2 1))) (.add (.neg (.mul (.rat (-6) 1) (.inp n!"3dbemu"))) (.add (.inp n!"1dbemu") (.mul (.rat 10 1) (.inp n!"3dbemu")))))),
  (n!"V1udRR_1113", (.mul (.div (.mul (.rat 4 1) (.par n!"GF")) (.sqrt (.rat 2 1))) (.add (.sub (.add (.sub (.inp n!"1pdbuu") (.div (.inp n!"2pdbuu") (.rat 6 1))) (.mul (.rat 16 1) (.inp n!"3pdbuu"))) (.div (.mul (.rat 8 1) (.inp n!"4pdbuu")) (.rat 3 1))) (.div (.add (.div (.inp n!"2pdbuu") (.rat 2 1)) (.mul (.rat 8 1) (.inp n!"4pdbuu"))) (.rat 3 1))))),
  (n!"S8udduRR_2311", (.mul (.div (.mul (.rat 4 1) (.par n!"GF")) (.sqrt (.rat 2 1))) (.mul (.rat (-16) 1) (.sub (.sub (.add (.div (.mul (.rat 8 1) (.inp n!"10dbcu")) (.rat 3 1)) (.inp n!"7dbcu")) (.div (.inp n!"8dbcu") (.rat 6 1))) (.mul (.rat 16 1) (.inp n!"9dbcu")))))),
  (n!"SedRR_3123", (.mul (.div (.mul (.rat 4 1) (.par n!"GF")) (.sqrt (.rat 2 1))) (.add (.mul (.rat 24 1) (.inp n!"9sbtaue")) (.add (.inp n!"5sbtaue") (.mul (.rat 40 1) (.inp n!"9sbtaue")))))),
  (n!"VnueduLR_2122", (.mul (.div (.mul (.rat 4 1) (.par n!"GF")) (.sqrt (.rat 2 1))) (.conj (.inp n!"1pcsemu")))),
  (n!"TedRR_2312", (.mul (.div (.mul (.rat 4 1) (.par n!"GF")) (.sqrt (.rat 2 1))) (.add (.sub (.sub (.add (.div (.inp n!"7dsmutau") (.rat 2 1)) (.div (.inp n!"7pdsmutau") (.rat 2 1))) (.mul (.rat 8 1) (.inp n!"9dsmutau"))) (.mul (.rat 8 1) (.inp n!"9pdsmutau"))) (.add (.sub (.sub (.div (.inp n!"7dsmutau") (.rat 2 1)) (.div (.inp n!"7pdsmutau") (.rat 2 1))) (.mul (.rat 8 1) (.inp n!"9dsmutau"))) (.mul (.rat 8 1) (.inp n!"9pdsmutau")))))),
  (n!"S8ddRR_2133", (.mul (.div (.mul (.rat 4 1) (.par n!"GF")) (.sqrt (.rat 2 1))) (.sub (.mul (.rat 2 1) (.conj (.add (.mul (.rat 32 1) (.inp n!"10pdsbb")) (.div (.inp n!"6pdsbb") (.rat 2 1))))) (.mul (.rat 8 1) (.conj (.add (.mul (.rat (-8) 1) (.inp n!"10pdsbb")) (.div (.inp n!"8pdsbb") (.rat 2 1)))))))),
  (n!"S8udRR_1121", (.mul (.div (.mul (.rat 4 1) (.par n!"GF")) (.sqrt (.rat 2 1))) (.sub (.mul (.rat 2 1) (.conj (.add (.mul (.rat 32 1) (.inp n!"10pdsuu")) (.div (.inp n!"6pdsuu") (.rat 2 1))))) (.mul (.rat 8 1) (.conj (.add (.mul (.rat (-8) 1) (.inp n!"10pdsuu")) (.div (.inp n!"8pdsuu") (.rat 2 1)))))))),
  (n!"SedRL_2223", (.mul (.div (.mul (.rat 4 1) (.par n!"GF")) (.sqrt (.rat 2 1))) (.add (.mul (.rat (-24) 1) (.inp n!"9psbmumu")) (.add (.inp n!"5psbmumu") (.mul (.rat 40 1) (.inp n!"9psbmumu")))))),
  (n!"VnueduLL_1222", (.mul (.div (.mul (.rat 4 1) (.par n!"GF")) (.sqrt (.rat 2 1))) (.conj (.inp n!"1csmue")))),
  (n!"V8udLL_1112", (.mul (.div (.mul (.rat 4 1) (.par n!"GF")) (.sqrt (.rat 2 1))) (.mul (.rat 2 1) (.add (.div (.inp n!"2dsuu") (.rat 2 1)) (.mul (.rat 8 1) (.inp n!"4dsuu")))))),
  (n!"SedRR_1231", (.mul (.div (.mul (.rat 4 1) (.par n!"GF")) (.sqrt (.rat 2 1))) (.add (.neg (.conj (.mul (.rat (-24) 1) (.inp n!"9pdbmue")))) (.conj (.add (.inp n!"5pdbmue") (.mul (.rat 40 1) (.inp n!"9pdbmue"))))))),
  (n!"TnueduRR_1331", (.mul (.div (.mul (.rat 4 1) (.par n!"GF")) (.sqrt (.rat 2 1))) (.conj (.inp n!"7pubtaue")))),
  (n!"VedLL_2332", (.mul (.div (.mul (.rat 4 1) (.par n!"GF")) (.sqrt (.rat 2 1))) (.conj (.add (.neg (.mul (.rat (-6) 1) (.inp n!"3sbtaumu"))) (.add (.inp n!"1sbtaumu") (.mul (.rat 10 1) (.inp n!"3sbtaumu"))))))),
  (n!"SedRR_2313", (.mul (.div (.mul (.rat 4 1) (.par n!"GF")) (.sqrt (.rat 2 1))) (.add (.mul (.rat 24 1) (.inp n!"9dbmutau")) (.add (.inp n!"5dbmutau") (.mul (.rat 40 1) (.inp n!"9dbmutau")))))),
  (n!"VnueduLR_1312", (.mul (.div (.mul (.rat 4 1) (.par n!"GF")) (.sqrt (.rat 2 1))) (.conj (.inp n!"1pcdtaue")))),
  (n!"V1udLL_1231", (.mul (.div (.mul (.rat 4 1) (.par n!"GF")) (.sqrt (.rat 2 1))) (.conj (.add (.sub (.add (.sub (.inp n!"1dbcu") (.div (.inp n!"2dbcu") (.rat 6 1))) (.mul (.rat 16 1) (.inp n!"3dbcu"))) (.div (.mul (.rat 8 1) (.inp n!"4dbcu")) (.rat 3 1))) (.div (.add (.div (.inp n!"2dbcu") (.rat 2 1)) (.mul (.rat 8 1) (.inp n!"4dbcu"))) (.rat 3 1)))))),
  (n!"V8udduLR_2322", (.mul (.div (.mul (.rat 4 1) (.par n!"GF")) (.sqrt (.rat 2 1))) (.neg (.add (.sub (.add (.neg (.div (.mul (.rat 8 1) (.inp n!"10psbcc")) (.rat 3 1))) (.inp n!"5psbcc")) (.div (.inp n!"6psbcc") (.rat 6 1))) (.mul (.rat 16 1) (.inp n!"9psbcc")))))),
  (n!"SnueduRL_3132", (.mul (.div (.mul (.rat 4 1) (.par n!"GF")) (.sqrt (.rat 2 1))) (.conj (.inp n!"5cbetau")))),
  (n!"V1ddLR_2333", (.mul (.div (.mul (.rat 4 1) (.par n!"GF")) (.sqrt (.rat 2 1))) (.sub (.neg (.div (.add (.inp n!"5sbbb") (.mul (.rat 16 1) (.inp n!"9sbbb"))) (.mul (.rat 2 1) (.rat 3 1)))) (.div (.mul (.rat (-2) 1) (.add (.inp n!"1sbbb") (.mul (.rat 4 1) (.inp n!"3sbbb")))) (.rat 2 1))))),
  (n!"VnudLR_2212", (.mul (.div (.mul (.rat 4 1) (.par n!"GF")) (.sqrt (.rat 2 1))) (.inp n!"nu1pdsmumu"))),
  (n!"SedRL_3121", (.mul (.div (.mul (.rat 4 1) (.par n!"GF")) (.sqrt (.rat 2 1))) (.add (.neg (.conj (.mul (.rat 24 1) (.inp n!"9dsetau")))) (.conj (.add (.inp n!"5dsetau") (.mul (.rat 40 1) (.inp n!"9dsetau"))))))),
  (n!"SnueduRR_3222", (.mul (.div (.mul (.rat 4 1) (.par n!"GF")) (.sqrt (.rat 2 1))) (.conj (.inp n!"5pcsmutau")))),
  (n!"V1duLR_2321", (.mul (.div (.mul (.rat 4 1) (.par n!"GF")) (.sqrt (.rat 2 1))) (.add (.sub (.add (.sub (.inp n!"1sbcu") (.div (.inp n!"2sbcu") (.rat 6 1))) (.mul (.rat 4 1) (.inp n!"3sbcu"))) (.div (.mul (.rat 2 1) (.inp n!"4sbcu")) (.rat 3 1))) (.div (.add (.div (.inp n!"2sbcu") (.rat 2 1)) (.mul (.rat 2 1) (.inp n!"4sbcu"))) (.rat 3 1))))),
  (n!"VnudLL_1312", (.mul (.div (.mul (.rat 4 1) (.par n!"GF")) (.sqrt (.rat 2 1))) (.inp n!"nu1dsetau"))),
  (n!"TnueduRR_3311", (.mul (.div (.mul (.rat 4 1) (.par n!"GF")) (.sqrt (.rat 2 1))) (.conj (.inp n!"7pudtautau")))),
  (n!"S8udRR_1113", (.mul (.div (.mul (.rat 4 1) (.par n!"GF")) (.sqrt (.rat 2 1))) (.sub (.mul (.rat 2 1) (.add (.mul (.rat 32 1) (.inp n!"10dbuu")) (.div (.inp n!"6dbuu") (.rat 2 1)))) (.mul (.rat 8 1) (.add (.mul (.rat (-8) 1) (.inp n!"10dbuu")) (.div (.inp n!"8dbuu") (.rat 2 1))))))),
  (n!"SnueduRL_2322", (.mul (.div (.mul (.rat 4 1) (.par n!"GF")) (.sqrt (.rat 2 1))) (.conj (.inp n!"5cstaumu")))),
  (n!"V1udduLR_2131", (.mul (.div (.mul (.rat 4 1) (.par n!"GF")) (.sqrt (.rat 2 1))) (.sub (.neg (.div (.conj (.add (.sub (.add (.neg (.div (.mul (.rat 8 1) (.inp n!"10dbuc")) (.rat 3 1))) (.inp n!"5dbuc")) (.div (.inp n!"6dbuc") (.rat 6 1))) (.mul (.rat 16 1) (.inp n!"9dbuc")))) (.mul (.rat 2 1) (.rat 3 1)))) (.div (.conj (.add (.mul (.rat 8 1) (.inp n!"10dbuc")) (.div (.inp n!"6dbuc") (.rat 2 1)))) (.rat 2 1))))),
  (n!"SedRR_1223", (.mul (.div (.mul (.rat 4 1) (.par n!"GF")) (.sqrt (.rat 2 1))) (.add (.mul (.rat 24 1) (.inp n!"9sbemu")) (.add (.inp n!"5sbemu") (.mul (.rat 40 1) (.inp n!"9sbemu")))))),
  (n!"VedRR_1212", (.mul (.div (.mul (.rat 4 1) (.par n!"GF")) (.sqrt (.rat 2 1))) (.add (.mul (.rat 6 1) (.inp n!"3pdsemu")) (.add (.inp n!"1pdsemu") (.mul (.rat 10 1) (.inp n!"3pdsemu")))))),
  (n!"VedLR_1332", (.mul (.div (.mul (.rat 4 1) (.par n!"GF")) (.sqrt (.rat 2 1))) (.conj (.add (.neg (.mul (.rat 6 1) (.inp n!"3psbtaue"))) (.add (.inp n!"1psbtaue") (.mul (.rat 10 1) (.inp n!"3psbtaue")))))))]

def Bern_to_JMS_15 : List (ℕ × Sym) := [
  (n!"S1udRR_1232", (.mul (.div (.mul (.rat 4 1) (.par n!"GF")) (.sqrt (.rat 2 1))) (.sub (.sub (.add (.conj (.add (.sub (.add (.neg (.div (.mul (.rat 32 1) (.inp n!"10psbcu")) (.rat 3 1))) (.inp n!"5psbcu")) (.div (.inp n!"6psbcu") (.rat 6 1))) (.mul (.rat 64 1) (.inp n!"9psbcu")))) (.div (.conj (.add (.mul (.rat 32 1) (.inp n!"10psbcu")) (.div (.inp n!"6psbcu") (.rat 2 1)))) (.rat 3 1))) (.mul (.rat 4 1) (.conj (.sub (.sub (.add (.div (.mul (.rat 8 1) (.inp n!"10psbcu")) (.rat 3 1)) (.inp n!"7psbcu")) (.div (.inp n!"8psbcu") (.rat 6 1))) (.mul (.rat 16 1) (.inp n!"9psbcu")))))) (.div (.mul (.rat 4 1) (.conj (.add (.mul (.rat (-8) 1) (.inp n!"10psbcu")) (.div (.inp n!"8psbcu") (.rat 2 1))))) (.rat 3 1))))),
  (n!"V8udduLR_1232", (.mul (.div (.mul (.rat 4 1) (.par n!"GF")) (.sqrt (.rat 2 1))) (.neg (.conj (.add (.sub (.add (.neg (.div (.mul (.rat 8 1) (.inp n!"10sbcu")) (.rat 3 1))) (.inp n!"5sbcu")) (.div (.inp n!"6sbcu") (.rat 6 1))) (.mul (.rat 16 1) (.inp n!"9sbcu"))))))),
  (n!"V1udLL_1223", (.mul (.div (.mul (.rat 4 1) (.par n!"GF")) (.sqrt (.rat 2 1))) (.add (.sub (.add (.sub (.inp n!"1sbuc") (.div (.inp n!"2sbuc") (.rat 6 1))) (.mul (.rat 16 1) (.inp n!"3sbuc"))) (.div (.mul (.rat 8 1) (.inp n!"4sbuc")) (.rat 3 1))) (.div (.add (.div (.inp n!"2sbuc") (.rat 2 1)) (.mul (.rat 8 1) (.inp n!"4sbuc"))) (.rat 3 1))))),
  (n!"V1udduLR_1321", (.mul (.div (.mul (.rat 4 1) (.par n!"GF")) (.sqrt (.rat 2 1))) (.sub (.neg (.div (.add (.sub (.add (.neg (.div (.mul (.rat 8 1) (.inp n!"10psbuu")) (.rat 3 1))) (.inp n!"5psbuu")) (.div (.inp n!"6psbuu") (.rat 6 1))) (.mul (.rat 16 1) (.inp n!"9psbuu"))) (.mul (.rat 2 1) (.rat 3 1)))) (.div (.add (.mul (.rat 8 1) (.inp n!"10psbuu")) (.div (.inp n!"6psbuu") (.rat 2 1))) (.rat 2 1))))),
  (n!"S1ddRR_1213", (.mul (.div (.mul (.rat 4 1) (.par n!"GF")) (.sqrt (.rat 2 1))) (.sub (.neg (.div (.mul (.rat 8 1) (.sub (.inp n!"7pdbds") (.mul (.rat 16 1) (.inp n!"9pdbds")))) (.rat 3 1))) (.mul (.rat 8 1) (.add (.mul (.div (.rat (-1) 1) (.rat 8 1)) (.add (.inp n!"5pdbds") (.mul (.rat 64 1) (.inp n!"9pdbds")))) (.mul (.div (.rat 1 1) (.rat 2 1)) (.sub (.inp n!"7pdbds") (.mul (.rat 16 1) (.inp n!"9pdbds"))))))))),
  (n!"SnueduRR_2132", (.mul (.div (.mul (.rat 4 1) (.par n!"GF")) (.sqrt (.rat 2 1))) (.conj (.inp n!"5pcbemu")))),
  (n!"SedRL_3113", (.mul (.div (.mul (.rat 4 1) (.par n!"GF")) (.sqrt (.rat 2 1))) (.add (.mul (.rat (-24) 1) (.inp n!"9pdbtaue")) (.add (.inp n!"5pdbtaue") (.mul (.rat 40 1) (.inp n!"9pdbtaue")))))),
  (n!"VnueduLL_2112", (.mul (.div (.mul (.rat 4 1) (.par n!"GF")) (.sqrt (.rat 2 1))) (.conj (.inp n!"1cdemu")))),
  (n!"SedRR_2121", (.mul (.div (.mul (.rat 4 1) (.par n!"GF")) (.sqrt (.rat 2 1))) (.add (.neg (.conj (.mul (.rat (-24) 1) (.inp n!"9pdsemu")))) (.conj (.add (.inp n!"5pdsemu") (.mul (.rat 40 1) (.inp n!"9pdsemu"))))))),
  (n!"S8udRR_2232", (.mul (.div (.mul (.rat 4 1) (.par n!"GF")) (.sqrt (.rat 2 1))) (.sub (.mul (.rat 2 1) (.conj (.add (.mul (.rat 32 1) (.inp n!"10psbcc")) (.div (.inp n!"6psbcc") (.rat 2 1))))) (.mul (.rat 8 1) (.conj (.add (.mul (.rat (-8) 1) (.inp n!"10psbcc")) (.div (.inp n!"8psbcc") (.rat 2 1)))))))),
  (n!"dG_21", (.mul (.div (.mul (.rat 4 1) (.par n!"GF")) (.sqrt (.rat 2 1))) (.conj (.div (.inp n!"8pgds") (.div (.sqrt (.mul (.mul (.rat 4 1) .pi) (.par n!"alpha_s"))) (.par n!"m_s")))))),
  (n!"TnueduRR_2221", (.mul (.div (.mul (.rat 4 1) (.par n!"GF")) (.sqrt (.rat 2 1))) (.conj (.inp n!"7pusmumu")))),
  (n!"VddLL_1213", (.mul (.div (.mul (.rat 4 1) (.par n!"GF")) (.sqrt (.rat 2 1))) (.add (.inp n!"1dbds") (.mul (.rat 16 1) (.inp n!"3dbds"))))),
  (n!"SnueduRL_1232", (.mul (.div (.mul (.rat 4 1) (.par n!"GF")) (.sqrt (.rat 2 1))) (.conj (.inp n!"5cbmue")))),
  (n!"V8udLL_2223", (.mul (.div (.mul (.rat 4 1) (.par n!"GF")) (.sqrt (.rat 2 1))) (.mul (.rat 2 1) (.add (.div (.inp n!"2sbcc") (.rat 2 1)) (.mul (.rat 8 1) (.inp n!"4sbcc")))))),
  (n!"V8udLR_1231", (.mul (.div (.mul (.rat 4 1) (.par n!"GF")) (.sqrt (.rat 2 1))) (.conj (.mul (.rat 2 1) (.add (.div (.inp n!"2pdbcu") (.rat 2 1)) (.mul (.rat 2 1) (.inp n!"4pdbcu"))))))),
  (n!"VedRR_2331", (.mul (.div (.mul (.rat 4 1) (.par n!"GF")) (.sqrt (.rat 2 1))) (.conj (.add (.mul (.rat 6 1) (.inp n!"3pdbtaumu")) (.add (.inp n!"1pdbtaumu") (.mul (.rat 10 1) (.inp n!"3pdbtaumu"))))))),
  (n!"S8ddRR_1131", (.mul (.div (.mul (.rat 4 1) (.par n!"GF")) (.sqrt (.rat 2 1))) (.mul (.rat (-16) 1) (.conj (.sub (.inp n!"7dbdd") (.mul (.rat 16 1) (.inp n!"9dbdd"))))))),
  (n!"SedRL_1221", (.mul (.div (.mul (.rat 4 1) (.par n!"GF")) (.sqrt (.rat 2 1))) (.add (.neg (.conj (.mul (.rat 24 1) (.inp n!"9dsmue")))) (.conj (.add (.inp n!"5dsmue") (.mul (.rat 40 1) (.inp n!"9dsmue"))))))),
  (n!"VedLR_3312", (.mul (.div (.mul (.rat 4 1) (.par n!"GF")) (.sqrt (.rat 2 1))) (.add (.neg (.mul (.rat 6 1) (.inp n!"3pdstautau"))) (.add (.inp n!"1pdstautau") (.mul (.rat 10 1) (.inp n!"3pdstautau")))))),
  (n!"SnueduRR_1322", (.mul (.div (.mul (.rat 4 1) (.par n!"GF")) (.sqrt (.rat 2 1))) (.conj (.inp n!"5pcstaue")))),
  (n!"V8ddLR_1212", (.mul (.div (.mul (.rat 4 1) (.par n!"GF")) (.sqrt (.rat 2 1))) (.neg (.inp n!"4dsds")))),
  (n!"VnudLR_3323", (.mul (.div (.mul (.rat 4 1) (.par n!"GF")) (.sqrt (.rat 2 1))) (.inp n!"nu1psbtautau"))),
  (n!"TedRR_2112", (.mul (.div (.mul (.rat 4 1) (.par n!"GF")) (.sqrt (.rat 2 1))) (.add (.sub (.sub (.add (.div (.inp n!"7dsmue") (.rat 2 1)) (.div (.inp n!"7pdsmue") (.rat 2 1))) (.mul (.rat 8 1) (.inp n!"9dsmue"))) (.mul (.rat 8 1) (.inp n!"9pdsmue"))) (.add (.sub (.sub (.div (.inp n!"7dsmue") (.rat 2 1)) (.div (.inp n!"7pdsmue") (.rat 2 1))) (.mul (.rat 8 1) (.inp n!"9dsmue"))) (.mul (.rat 8 1) (.inp n!"9pdsmue")))))),
  (n!"VdeLR_2321", (.mul (.div (.mul (.rat 4 1) (.par n!"GF")) (.sqrt (.rat 2 1))) (.add (.mul (.rat (-6) 1) (.inp n!"3sbmue")) (.add (.inp n!"1sbmue") (.mul (.rat 10 1) (.inp n!"3sbmue")))))),
  (n!"S1uuRR_1212", (.mul (.div (.mul (.rat 4 1) (.par n!"GF")) (.sqrt (.rat 2 1))) (.add (.conj (.inp n!"2cucu")) (.div (.conj (.inp n!"3cucu")) (.rat 3 1))))),
  (n!"VnueduLL_3231", (.mul (.div (.mul (.rat 4 1) (.par n!"GF")) (.sqrt (.rat 2 1))) (.conj (.inp n!"1ubmutau")))),
  (n!"TnueduRR_1131", (.mul (.div (.mul (.rat 4 1) (.par n!"GF")) (.sqrt (.rat 2 1))) (.conj (.inp n!"7pubee")))),
  (n!"SnueduRL_3212", (.mul (.div (.mul (.rat 4 1) (.par n!"GF")) (.sqrt (.rat 2 1))) (.conj (.inp n!"5cdmutau")))),
  (n!"VuuLL_1212", (.mul (.div (.mul (.rat 4 1) (.par n!"GF")) (.sqrt (.rat 2 1))) (.conj (.inp n!"1cucu")))),
  (n!"VnueduLR_3321", (.mul (.div (.mul (.rat 4 1) (.par n!"GF")) (.sqrt (.rat 2 1))) (.conj (.inp n!"1pustautau")))),
  (n!"SedRR_2113", (.mul (.div (.mul (.rat 4 1) (.par n!"GF")) (.sqrt (.rat 2 1))) (.add (.mul (.rat 24 1) (.inp n!"9dbmue")) (.add (.inp n!"5dbmue") (.mul (.rat 40 1) (.inp n!"9dbmue")))))),
  (n!"VnueduLR_1112", (.mul (.div (.mul (.rat 4 1) (.par n!"GF")) (.sqrt (.rat 2 1))) (.conj (.inp n!"1pcdee")))),
  (n!"dG_13", (.mul (.div (.mul (.rat 4 1) (.par n!"GF")) (.sqrt (.rat 2 1))) (.div (.inp n!"8gdb") (.div (.sqrt (.mul (.mul (.rat 4 1) .pi) (.par n!"alpha_s"))) (.par n!"m_b"))))),
  (n!"V8udduLR_2122", (.mul (.div (.mul (.rat 4 1) (.par n!"GF")) (.sqrt (.rat 2 1))) (.neg (.conj (.add (.sub (.add (.neg (.div (.mul (.rat 8 1) (.inp n!"10dscc")) (.rat 3 1))) (.inp n!"5dscc")) (.div (.inp n!"6dscc") (.rat 6 1))) (.mul (.rat 16 1) (.inp n!"9dscc"))))))),
  (n!"V8udLR_1223", (.mul (.div (.mul (.rat 4 1) (.par n!"GF")) (.sqrt (.rat 2 1))) (.mul (.rat 2 1) (.add (.div (.inp n!"2psbuc") (.rat 2 1)) (.mul (.rat 2 1) (.inp n!"4psbuc")))))),
  (n!"VedRR_2323", (.mul (.div (.mul (.rat 4 1) (.par n!"GF")) (.sqrt (.rat 2 1))) (.add (.mul (.rat 6 1) (.inp n!"3psbmutau")) (.add (.inp n!"1psbmutau") (.mul (.rat 10 1) (.inp n!"3psbmutau")))))),
  (n!"S8ddRR_1123", (.mul (.div (.mul (.rat 4 1) (.par n!"GF")) (.sqrt (.rat 2 1))) (.sub (.mul (.rat 2 1) (.add (.mul (.rat 32 1) (.inp n!"10sbdd")) (.div (.inp n!"6sbdd") (.rat 2 1)))) (.mul (.rat 8 1) (.add (.mul (.rat (-8) 1) (.inp n!"10sbdd")) (.div (.inp n!"8sbdd") (.rat 2 1))))))),
  (n!"SedRL_1213", (.mul (.div (.mul (.rat 4 1) (.par n!"GF")) (.sqrt (.rat 2 1))) (.add (.mul (.rat (-24) 1) (.inp n!"9pdbemu")) (.add (.inp n!"5pdbemu") (.mul (.rat 40 1) (.inp n!"9pdbemu")))))),
  (n!"V8ddLR_2331", (.mul (.div (.mul (.rat 4 1) (.par n!"GF")) (.sqrt (.rat 2 1))) (.conj (.neg (.add (.sub (.add (.neg (.div (.mul (.rat 8 1) (.inp n!"10pdsbb")) (.rat 3 1))) (.inp n!"5pdsbb")) (.div (.inp n!"6pdsbb") (.rat 6 1))) (.mul (.rat 16 1) (.inp n!"9pdsbb"))))))),
  (n!"V1udduLR_2211", (.mul (.div (.mul (.rat 4 1) (.par n!"GF")) (.sqrt (.rat 2 1))) (.sub (.neg (.div (.add (.sub (.add (.neg (.div (.mul (.rat 8 1) (.inp n!"10pdscu")) (.rat 3 1))) (.inp n!"5pdscu")) (.div (.inp n!"6pdscu") (.rat 6 1))) (.mul (.rat 16 1) (.inp n!"9pdscu"))) (.mul (.rat 2 1) (.rat 3 1)))) (.div (.add (.mul (.rat 8 1) (.inp n!"10pdscu")) (.div (.inp n!"6pdscu") (.rat 2 1))) (.rat 2 1))))),
  (n!"TedRR_3231", (.mul (.div (.mul (.rat 4 1) (.par n!"GF")) (.sqrt (.rat 2 1))) (.sub (.conj (.sub (.sub (.add (.div (.inp n!"7dbmutau") (.rat 2 1)) (.div (.inp n!"7pdbmutau") (.rat 2 1))) (.mul (.rat 8 1) (.inp n!"9dbmutau"))) (.mul (.rat 8 1) (.inp n!"9pdbmutau")))) (.conj (.add (.sub (.sub (.div (.inp n!"7dbmutau") (.rat 2 1)) (.div (.inp n!"7pdbmutau") (.rat 2 1))) (.mul (.rat 8 1) (.inp n!"9dbmutau"))) (.mul (.rat 8 1) (.inp n!"9pdbmutau"))))))),
  (n!"VdeLR_1231", (.mul (.div (.mul (.rat 4 1) (.par n!"GF")) (.sqrt (.rat 2 1))) (.add (.mul (.rat (-6) 1) (.inp n!"3dstaue")) (.add (.inp n!"1dstaue") (.mul (.rat 10 1) (.inp n!"3dstaue")))))),
  (n!"V8udduLR_1312", (.mul (.div (.mul (.rat 4 1) (.par n!"GF")) (.sqrt (.rat 2 1))) (.neg (.add (.sub (.add (.neg (.div (.mul (.rat 8 1) (.inp n!"10pdbuc")) (.rat 3 1))) (.inp n!"5pdbuc")) (.div (.inp n!"6pdbuc") (.rat 6 1))) (.mul (.rat 16 1) (.inp n!"9pdbuc")))))),
  (n!"VnudLL_1112", (.mul (.div (.mul (.rat 4 1) (.par n!"GF")) (.sqrt (.rat 2 1))) (.inp n!"nu1dsee"))),
  (n!"VdeLR_2313", (.mul (.div (.mul (.rat 4 1) (.par n!"GF")) (.sqrt (.rat 2 1))) (.add (.mul (.rat (-6) 1) (.inp n!"3sbetau")) (.add (.inp n!"1sbetau") (.mul (.rat 10 1) (.inp n!"3sbetau")))))),
  (n!"TnueduRR_3111", (.mul (.div (.mul (.rat 4 1) (.par n!"GF")) (.sqrt (.rat 2 1))) (.conj (.inp n!"7pudetau")))),
  (n!"SnueduRL_2122", (.mul (.div (.mul (.rat 4 1) (.par n!"GF")) (.sqrt (.rat 2 1))) (.conj (.inp n!"5csemu")))),
  (n!"SedRR_3232", (.mul (.div (.mul (.rat 4 1) (.par n!"GF")) (.sqrt (.rat 2 1))) (.add (.neg (.conj (.mul (.rat (-24) 1) (.inp n!"9psbmutau")))) (.conj (.add (.inp n!"5psbmutau") (.mul (.rat 40 1) (.inp n!"9psbmutau"))))))),
  (n!"VnueduLR_2231", (.mul (.div (.mul (.rat 4 1) (.par n!"GF")) (.sqrt (.rat 2 1))) (.conj (.inp n!"1pubmumu"))))]

def Bern_to_JMS_16 : List (ℕ × Sym) := [
  (n!"TnueduRR_3332", (.mul (.div (.mul (.rat 4 1) (.par n!"GF")) (.sqrt (.rat 2 1))) (.conj (.inp n!"7pcbtautau")))),
  (n!"VddRR_1212", (.mul (.div (.mul (.rat 4 1) (.par n!"GF")) (.sqrt (.rat 2 1))) (.inp n!"1pdsds"))),
  (n!"SnueduRR_2212", (.mul (.div (.mul (.rat 4 1) (.par n!"GF")) (.sqrt (.rat 2 1))) (.conj (.inp n!"5pcdmumu")))),
  (n!"SedRL_2332", (.mul (.div (.mul (.rat 4 1) (.par n!"GF")) (.sqrt (.rat 2 1))) (.add (.neg (.conj (.mul (.rat 24 1) (.inp n!"9sbtaumu")))) (.conj (.add (.inp n!"5sbtaumu") (.mul (.rat 40 1) (.inp n!"9sbtaumu"))))))),
  (n!"V1duLR_1311", (.mul (.div (.mul (.rat 4 1) (.par n!"GF")) (.sqrt (.rat 2 1))) (.add (.sub (.add (.sub (.inp n!"1dbuu") (.div (.inp n!"2dbuu") (.rat 6 1))) (.mul (.rat 4 1) (.inp n!"3dbuu"))) (.div (.mul (.rat 2 1) (.inp n!"4dbuu")) (.rat 3 1))) (.div (.add (.div (.inp n!"2dbuu") (.rat 2 1)) (.mul (.rat 2 1) (.inp n!"4dbuu"))) (.rat 3 1))))),
  (n!"VnueduLL_1331", (.mul (.div (.mul (.rat 4 1) (.par n!"GF")) (.sqrt (.rat 2 1))) (.conj (.inp n!"1ubtaue")))),
  (n!"V8udLL_1221", (.mul (.div (.mul (.rat 4 1) (.par n!"GF")) (.sqrt (.rat 2 1))) (.conj (.mul (.rat 2 1) (.add (.div (.inp n!"2dscu") (.rat 2 1)) (.mul (.rat 8 1) (.inp n!"4dscu"))))))),
  (n!"SnueduRL_1312", (.mul (.div (.mul (.rat 4 1) (.par n!"GF")) (.sqrt (.rat 2 1))) (.conj (.inp n!"5cdtaue")))),
  (n!"V1udduLR_1121", (.mul (.div (.mul (.rat 4 1) (.par n!"GF")) (.sqrt (.rat 2 1))) (.sub (.neg (.div (.conj (.add (.sub (.add (.neg (.div (.mul (.rat 8 1) (.inp n!"10dsuu")) (.rat 3 1))) (.inp n!"5dsuu")) (.div (.inp n!"6dsuu") (.rat 6 1))) (.mul (.rat 16 1) (.inp n!"9dsuu")))) (.mul (.rat 2 1) (.rat 3 1)))) (.div (.conj (.add (.mul (.rat 8 1) (.inp n!"10dsuu")) (.div (.inp n!"6dsuu") (.rat 2 1)))) (.rat 2 1))))),
  (n!"V1udLR_1113", (.mul (.div (.mul (.rat 4 1) (.par n!"GF")) (.sqrt (.rat 2 1))) (.add (.sub (.add (.sub (.inp n!"1pdbuu") (.div (.inp n!"2pdbuu") (.rat 6 1))) (.mul (.rat 4 1) (.inp n!"3pdbuu"))) (.div (.mul (.rat 2 1) (.inp n!"4pdbuu")) (.rat 3 1))) (.div (.add (.div (.inp n!"2pdbuu") (.rat 2 1)) (.mul (.rat 2 1) (.inp n!"4pdbuu"))) (.rat 3 1))))),
  (n!"V8ddLR_2323", (.mul (.div (.mul (.rat 4 1) (.par n!"GF")) (.sqrt (.rat 2 1))) (.neg (.inp n!"4sbsb")))),
  (n!"TedRR_3223", (.mul (.div (.mul (.rat 4 1) (.par n!"GF")) (.sqrt (.rat 2 1))) (.add (.sub (.sub (.add (.div (.inp n!"7sbtaumu") (.rat 2 1)) (.div (.inp n!"7psbtaumu") (.rat 2 1))) (.mul (.rat 8 1) (.inp n!"9sbtaumu"))) (.mul (.rat 8 1) (.inp n!"9psbtaumu"))) (.add (.sub (.sub (.div (.inp n!"7sbtaumu") (.rat 2 1)) (.div (.inp n!"7psbtaumu") (.rat 2 1))) (.mul (.rat 8 1) (.inp n!"9sbtaumu"))) (.mul (.rat 8 1) (.inp n!"9psbtaumu")))))),
  (n!"VdeLR_1223", (.mul (.div (.mul (.rat 4 1) (.par n!"GF")) (.sqrt (.rat 2 1))) (.add (.mul (.rat (-6) 1) (.inp n!"3dsmutau")) (.add (.inp n!"1dsmutau") (.mul (.rat 10 1) (.inp n!"3dsmutau")))))),
  (n!"VnudLL_3313", (.mul (.div (.mul (.rat 4 1) (.par n!"GF")) (.sqrt (.rat 2 1))) (.inp n!"nu1dbtautau"))),
  (n!"V8duLR_2311", (.mul (.div (.mul (.rat 4 1) (.par n!"GF")) (.sqrt (.rat 2 1))) (.mul (.rat 2 1) (.add (.div (.inp n!"2sbuu") (.rat 2 1)) (.mul (.rat 2 1) (.inp n!"4sbuu")))))),
  (n!"VnudLR_2321", (.mul (.div (.mul (.rat 4 1) (.par n!"GF")) (.sqrt (.rat 2 1))) (.conj (.inp n!"nu1pdstaumu")))),
  (n!"SnueduRR_3331", (.mul (.div (.mul (.rat 4 1) (.par n!"GF")) (.sqrt (.rat 2 1))) (.conj (.inp n!"5pubtautau")))),
  (n!"TedRR_1331", (.mul (.div (.mul (.rat 4 1) (.par n!"GF")) (.sqrt (.rat 2 1))) (.sub (.conj (.sub (.sub (.add (.div (.inp n!"7dbtaue") (.rat 2 1)) (.div (.inp n!"7pdbtaue") (.rat 2 1))) (.mul (.rat 8 1) (.inp n!"9dbtaue"))) (.mul (.rat 8 1) (.inp n!"9pdbtaue")))) (.conj (.add (.sub (.sub (.div (.inp n!"7dbtaue") (.rat 2 1)) (.div (.inp n!"7pdbtaue") (.rat 2 1))) (.mul (.rat 8 1) (.inp n!"9dbtaue"))) (.mul (.rat 8 1) (.inp n!"9pdbtaue"))))))),
  (n!"SnueduRR_1122", (.mul (.div (.mul (.rat 4 1) (.par n!"GF")) (.sqrt (.rat 2 1))) (.conj (.inp n!"5pcsee")))),
  (n!"VnueduLL_3311", (.mul (.div (.mul (.rat 4 1) (.par n!"GF")) (.sqrt (.rat 2 1))) (.conj (.inp n!"1udtautau")))),
  (n!"S8udduRR_2132", (.mul (.div (.mul (.rat 4 1) (.par n!"GF")) (.sqrt (.rat 2 1))) (.mul (.rat (-16) 1) (.conj (.sub (.sub (.add (.div (.mul (.rat 8 1) (.inp n!"10pdbcc")) (.rat 3 1)) (.inp n!"7pdbcc")) (.div (.inp n!"8pdbcc") (.rat 6 1))) (.mul (.rat 16 1) (.inp n!"9pdbcc"))))))),
  (n!"TnueduRR_1211", (.mul (.div (.mul (.rat 4 1) (.par n!"GF")) (.sqrt (.rat 2 1))) (.conj (.inp n!"7pudmue")))),
  (n!"VedLL_2212", (.mul (.div (.mul (.rat 4 1) (.par n!"GF")) (.sqrt (.rat 2 1))) (.add (.neg (.mul (.rat (-6) 1) (.inp n!"3dsmumu"))) (.add (.inp n!"1dsmumu") (.mul (.rat 10 1) (.inp n!"3dsmumu")))))),
  (n!"V8udLL_1213", (.mul (.div (.mul (.rat 4 1) (.par n!"GF")) (.sqrt (.rat 2 1))) (.mul (.rat 2 1) (.add (.div (.inp n!"2dbuc") (.rat 2 1)) (.mul (.rat 8 1) (.inp n!"4dbuc")))))),
  (n!"SedRR_1332", (.mul (.div (.mul (.rat 4 1) (.par n!"GF")) (.sqrt (.rat 2 1))) (.add (.neg (.conj (.mul (.rat (-24) 1) (.inp n!"9psbtaue")))) (.conj (.add (.inp n!"5psbtaue") (.mul (.rat 40 1) (.inp n!"9psbtaue"))))))),
  (n!"S1ddRR_2132", (.mul (.div (.mul (.rat 4 1) (.par n!"GF")) (.sqrt (.rat 2 1))) (.sub (.neg (.div (.mul (.rat 8 1) (.conj (.sub (.sub (.add (.div (.mul (.rat 8 1) (.inp n!"10pdbss")) (.rat 3 1)) (.inp n!"7pdbss")) (.div (.inp n!"8pdbss") (.rat 6 1))) (.mul (.rat 16 1) (.inp n!"9pdbss"))))) (.rat 3 1))) (.mul (.rat 8 1) (.conj (.add (.mul (.rat (-8) 1) (.inp n!"10pdbss")) (.div (.inp n!"8pdbss") (.rat 2 1)))))))),
  (n!"V8ddLR_1233", (.mul (.div (.mul (.rat 4 1) (.par n!"GF")) (.sqrt (.rat 2 1))) (.mul (.rat 2 1) (.add (.div (.inp n!"2dsbb") (.rat 2 1)) (.mul (.rat 2 1) (.inp n!"4dsbb")))))),
  (n!"VedRR_1321", (.mul (.div (.mul (.rat 4 1) (.par n!"GF")) (.sqrt (.rat 2 1))) (.conj (.add (.mul (.rat 6 1) (.inp n!"3pdstaue")) (.add (.inp n!"1pdstaue") (.mul (.rat 10 1) (.inp n!"3pdstaue"))))))),
  (n!"VnudLL_2223", (.mul (.div (.mul (.rat 4 1) (.par n!"GF")) (.sqrt (.rat 2 1))) (.inp n!"nu1sbmumu"))),
  (n!"VnueduLR_3121", (.mul (.div (.mul (.rat 4 1) (.par n!"GF")) (.sqrt (.rat 2 1))) (.conj (.inp n!"1pusetau")))),
  (n!"V8duLR_1221", (.mul (.div (.mul (.rat 4 1) (.par n!"GF")) (.sqrt (.rat 2 1))) (.mul (.rat 2 1) (.add (.div (.inp n!"2dscu") (.rat 2 1)) (.mul (.rat 2 1) (.inp n!"4dscu")))))),
  (n!"V1ddLR_2213", (.mul (.div (.mul (.rat 4 1) (.par n!"GF")) (.sqrt (.rat 2 1))) (.add (.sub (.add (.sub (.inp n!"1pdbss") (.div (.inp n!"2pdbss") (.rat 6 1))) (.mul (.rat 4 1) (.inp n!"3pdbss"))) (.div (.mul (.rat 2 1) (.inp n!"4pdbss")) (.rat 3 1))) (.div (.add (.div (.inp n!"2pdbss") (.rat 2 1)) (.mul (.rat 2 1) (.inp n!"4pdbss"))) (.rat 3 1))))),
  (n!"S8udduRR_1322", (.mul (.div (.mul (.rat 4 1) (.par n!"GF")) (.sqrt (.rat 2 1))) (.mul (.rat (-16) 1) (.sub (.sub (.add (.div (.mul (.rat 8 1) (.inp n!"10sbuc")) (.rat 3 1)) (.inp n!"7sbuc")) (.div (.inp n!"8sbuc") (.rat 6 1))) (.mul (.rat 16 1) (.inp n!"9sbuc")))))),
  (n!"VnudLR_1231", (.mul (.div (.mul (.rat 4 1) (.par n!"GF")) (.sqrt (.rat 2 1))) (.conj (.inp n!"nu1pdbmue")))),
  (n!"S1ddRR_1322", (.mul (.div (.mul (.rat 4 1) (.par n!"GF")) (.sqrt (.rat 2 1))) (.sub (.sub (.add (.add (.sub (.add (.neg (.div (.mul (.rat 32 1) (.inp n!"10dbss")) (.rat 3 1))) (.inp n!"5dbss")) (.div (.inp n!"6dbss") (.rat 6 1))) (.mul (.rat 64 1) (.inp n!"9dbss"))) (.div (.add (.mul (.rat 32 1) (.inp n!"10dbss")) (.div (.inp n!"6dbss") (.rat 2 1))) (.rat 3 1))) (.mul (.rat 4 1) (.sub (.sub (.add (.div (.mul (.rat 8 1) (.inp n!"10dbss")) (.rat 3 1)) (.inp n!"7dbss")) (.div (.inp n!"8dbss") (.rat 6 1))) (.mul (.rat 16 1) (.inp n!"9dbss"))))) (.div (.mul (.rat 4 1) (.add (.mul (.rat (-8) 1) (.inp n!"10dbss")) (.div (.inp n!"8dbss") (.rat 2 1)))) (.rat 3 1))))),
  (n!"VnudLR_2313", (.mul (.div (.mul (.rat 4 1) (.par n!"GF")) (.sqrt (.rat 2 1))) (.inp n!"nu1pdbmutau"))),
  (n!"VddRR_2323", (.mul (.div (.mul (.rat 4 1) (.par n!"GF")) (.sqrt (.rat 2 1))) (.inp n!"1psbsb"))),
  (n!"VdeLR_1311", (.mul (.div (.mul (.rat 4 1) (.par n!"GF")) (.sqrt (.rat 2 1))) (.add (.mul (.rat (-6) 1) (.inp n!"3dbee")) (.add (.inp n!"1dbee") (.mul (.rat 10 1) (.inp n!"3dbee")))))),
  (n!"VnueduLL_2221", (.mul (.div (.mul (.rat 4 1) (.par n!"GF")) (.sqrt (.rat 2 1))) (.conj (.inp n!"1usmumu")))),
  (n!"TedRR_1323", (.mul (.div (.mul (.rat 4 1) (.par n!"GF")) (.sqrt (.rat 2 1))) (.add (.sub (.sub (.add (.div (.inp n!"7sbetau") (.rat 2 1)) (.div (.inp n!"7psbetau") (.rat 2 1))) (.mul (.rat 8 1) (.inp n!"9sbetau"))) (.mul (.rat 8 1) (.inp n!"9psbetau"))) (.add (.sub (.sub (.div (.inp n!"7sbetau") (.rat 2 1)) (.div (.inp n!"7psbetau") (.rat 2 1))) (.mul (.rat 8 1) (.inp n!"9sbetau"))) (.mul (.rat 8 1) (.inp n!"9psbetau")))))),
  (n!"VddLL_1322", (.mul (.div (.mul (.rat 4 1) (.par n!"GF")) (.sqrt (.rat 2 1))) (.sub (.add (.sub (.inp n!"1dbss") (.div (.inp n!"2dbss") (.rat 6 1))) (.mul (.rat 16 1) (.inp n!"3dbss"))) (.div (.mul (.rat 8 1) (.inp n!"4dbss")) (.rat 3 1))))),
  (n!"SedRR_3312", (.mul (.div (.mul (.rat 4 1) (.par n!"GF")) (.sqrt (.rat 2 1))) (.add (.mul (.rat 24 1) (.inp n!"9dstautau")) (.add (.inp n!"5dstautau") (.mul (.rat 40 1) (.inp n!"9dstautau")))))),
  (n!"VnueduLR_2311", (.mul (.div (.mul (.rat 4 1) (.par n!"GF")) (.sqrt (.rat 2 1))) (.conj (.inp n!"1pudtaumu")))),
  (n!"V1udduLR_2232", (.mul (.div (.mul (.rat 4 1) (.par n!"GF")) (.sqrt (.rat 2 1))) (.sub (.neg (.div (.conj (.add (.sub (.add (.neg (.div (.mul (.rat 8 1) (.inp n!"10sbcc")) (.rat 3 1))) (.inp n!"5sbcc")) (.div (.inp n!"6sbcc") (.rat 6 1))) (.mul (.rat 16 1) (.inp n!"9sbcc")))) (.mul (.rat 2 1) (.rat 3 1)))) (.div (.conj (.add (.mul (.rat 8 1) (.inp n!"10sbcc")) (.div (.inp n!"6sbcc") (.rat 2 1)))) (.rat 2 1))))),
  (n!"S1udduRR_1131", (.mul (.div (.mul (.rat 4 1) (.par n!"GF")) (.sqrt (.rat 2 1))) (.sub (.neg (.div (.mul (.rat 8 1) (.conj (.sub (.sub (.add (.div (.mul (.rat 8 1) (.inp n!"10pdbuu")) (.rat 3 1)) (.inp n!"7pdbuu")) (.div (.inp n!"8pdbuu") (.rat 6 1))) (.mul (.rat 16 1) (.inp n!"9pdbuu"))))) (.rat 3 1))) (.mul (.rat 8 1) (.conj (.add (.mul (.rat (-8) 1) (.inp n!"10pdbuu")) (.div (.inp n!"8pdbuu") (.rat 2 1)))))))),
  (n!"VedLR_1212", (.mul (.div (.mul (.rat 4 1) (.par n!"GF")) (.sqrt (.rat 2 1))) (.add (.neg (.mul (.rat 6 1) (.inp n!"3pdsemu"))) (.add (.inp n!"1pdsemu") (.mul (.rat 10 1) (.inp n!"3pdsemu")))))),
  (n!"S1udRR_1112", (.mul (.div (.mul (.rat 4 1) (.par n!"GF")) (.sqrt (.rat 2 1))) (.sub (.sub (.add (.add (.sub (.add (.neg (.div (.mul (.rat 32 1) (.inp n!"10dsuu")) (.rat 3 1))) (.inp n!"5dsuu")) (.div (.inp n!"6dsuu") (.rat 6 1))) (.mul (.rat 64 1) (.inp n!"9dsuu"))) (.div (.add (.mul (.rat 32 1) (.inp n!"10dsuu")) (.div (.inp n!"6dsuu") (.rat 2 1))) (.rat 3 1))) (.mul (.rat 4 1) (.sub (.sub (.add (.div (.mul (.rat 8 1) (.inp n!"10dsuu")) (.rat 3 1)) (.inp n!"7dsuu")) (.div (.inp n!"8dsuu") (.rat 6 1))) (.mul (.rat 16 1) (.inp n!"9dsuu"))))) (.div (.mul (.rat 4 1) (.add (.mul (.rat (-8) 1) (.inp n!"10dsuu")) (.div (.inp n!"8dsuu") (.rat 2 1)))) (.rat 3 1))))),
  (n!"VedRR_1313", (.mul (.div (.mul (.rat 4 1) (.par n!"GF")) (.sqrt (.rat 2 1))) (.add (.mul (.rat 6 1) (.inp n!"3pdbetau")) (.add (.inp n!"1pdbetau") (.mul (.rat 10 1) (.inp n!"3pdbetau")))))),
  (n!"V1ddLR_1123", (.mul (.div (.mul (.rat 4 1) (.par n!"GF")) (.sqrt (.rat 2 1))) (.add (.sub (.add (.sub (.inp n!"1psbdd") (.div (.inp n!"2psbdd") (.rat 6 1))) (.mul (.rat 4 1) (.inp n!"3psbdd"))) (.div (.mul (.rat 2 1) (.inp n!"4psbdd")) (.rat 3 1))) (.div (.add (.div (.inp n!"2psbdd") (.rat 2 1)) (.mul (.rat 2 1) (.inp n!"4psbdd"))) (.rat 3 1))))),
  (n!"TnueduRR_3132", (.mul (.div (.mul (.rat 4 1) (.par n!"GF")) (.sqrt (.rat 2 1))) (.conj (.inp n!"7pcbetau"))))]

def Bern_to_JMS_17 : List (ℕ × Sym) := [
  (n!"V8ddLR_1321", (.mul (.div (.mul (.rat 4 1) (.par n!"GF")) (.sqrt (.rat 2 1))) (.neg (.add (.sub (.add (.neg (.div (.mul (.rat 8 1) (.inp n!"10psbdd")) (.rat 3 1))) (.inp n!"5psbdd")) (.div (.inp n!"6psbdd") (.rat 6 1))) (.mul (.rat 16 1) (.inp n!"9psbdd")))))),
  (n!"TedRR_2221", (.mul (.div (.mul (.rat 4 1) (.par n!"GF")) (.sqrt (.rat 2 1))) (.sub (.conj (.sub (.sub (.add (.div (.inp n!"7dsmumu") (.rat 2 1)) (.div (.inp n!"7pdsmumu") (.rat 2 1))) (.mul (.rat 8 1) (.inp n!"9dsmumu"))) (.mul (.rat 8 1) (.inp n!"9pdsmumu")))) (.conj (.add (.sub (.sub (.div (.inp n!"7dsmumu") (.rat 2 1)) (.div (.inp n!"7pdsmumu") (.rat 2 1))) (.mul (.rat 8 1) (.inp n!"9dsmumu"))) (.mul (.rat 8 1) (.inp n!"9pdsmumu"))))))),
  (n!"VnudLR_1223", (.mul (.div (.mul (.rat 4 1) (.par n!"GF")) (.sqrt (.rat 2 1))) (.inp n!"nu1psbemu"))),
  (n!"VddRR_1233", (.mul (.div (.mul (.rat 4 1) (.par n!"GF")) (.sqrt (.rat 2 1))) (.sub (.add (.sub (.inp n!"1pdsbb") (.div (.inp n!"2pdsbb") (.rat 6 1))) (.mul (.rat 16 1) (.inp n!"3pdsbb"))) (.div (.mul (.rat 8 1) (.inp n!"4pdsbb")) (.rat 3 1))))),
  (n!"SedRL_2132", (.mul (.div (.mul (.rat 4 1) (.par n!"GF")) (.sqrt (.rat 2 1))) (.add (.neg (.conj (.mul (.rat 24 1) (.inp n!"9sbemu")))) (.conj (.add (.inp n!"5sbemu") (.mul (.rat 40 1) (.inp n!"9sbemu"))))))),
  (n!"VnueduLL_1131", (.mul (.div (.mul (.rat 4 1) (.par n!"GF")) (.sqrt (.rat 2 1))) (.conj (.inp n!"1ubee")))),
  (n!"S8udRR_2112", (.mul (.div (.mul (.rat 4 1) (.par n!"GF")) (.sqrt (.rat 2 1))) (.sub (.mul (.rat 2 1) (.add (.mul (.rat 32 1) (.inp n!"10dscu")) (.div (.inp n!"6dscu") (.rat 2 1)))) (.mul (.rat 8 1) (.add (.mul (.rat (-8) 1) (.inp n!"10dscu")) (.div (.inp n!"8dscu") (.rat 2 1))))))),
  (n!"SnueduRL_3321", (.mul (.div (.mul (.rat 4 1) (.par n!"GF")) (.sqrt (.rat 2 1))) (.conj (.inp n!"5ustautau")))),
  (n!"SnueduRL_1112", (.mul (.div (.mul (.rat 4 1) (.par n!"GF")) (.sqrt (.rat 2 1))) (.conj (.inp n!"5cdee")))),
  (n!"VnueduLR_1221", (.mul (.div (.mul (.rat 4 1) (.par n!"GF")) (.sqrt (.rat 2 1))) (.conj (.inp n!"1pusmue")))),
  (n!"TnueduRR_2322", (.mul (.div (.mul (.rat 4 1) (.par n!"GF")) (.sqrt (.rat 2 1))) (.conj (.inp n!"7pcstaumu")))),
  (n!"VedLL_3323", (.mul (.div (.mul (.rat 4 1) (.par n!"GF")) (.sqrt (.rat 2 1))) (.add (.neg (.mul (.rat (-6) 1) (.inp n!"3sbtautau"))) (.add (.inp n!"1sbtautau") (.mul (.rat 10 1) (.inp n!"3sbtautau")))))),
  (n!"VedLR_2331", (.mul (.div (.mul (.rat 4 1) (.par n!"GF")) (.sqrt (.rat 2 1))) (.conj (.add (.neg (.mul (.rat 6 1) (.inp n!"3pdbtaumu"))) (.add (.inp n!"1pdbtaumu") (.mul (.rat 10 1) (.inp n!"3pdbtaumu"))))))),
  (n!"S1udRR_2231", (.mul (.div (.mul (.rat 4 1) (.par n!"GF")) (.sqrt (.rat 2 1))) (.sub (.sub (.add (.conj (.add (.sub (.add (.neg (.div (.mul (.rat 32 1) (.inp n!"10pdbcc")) (.rat 3 1))) (.inp n!"5pdbcc")) (.div (.inp n!"6pdbcc") (.rat 6 1))) (.mul (.rat 64 1) (.inp n!"9pdbcc")))) (.div (.conj (.add (.mul (.rat 32 1) (.inp n!"10pdbcc")) (.div (.inp n!"6pdbcc") (.rat 2 1)))) (.rat 3 1))) (.mul (.rat 4 1) (.conj (.sub (.sub (.add (.div (.mul (.rat 8 1) (.inp n!"10pdbcc")) (.rat 3 1)) (.inp n!"7pdbcc")) (.div (.inp n!"8pdbcc") (.rat 6 1))) (.mul (.rat 16 1) (.inp n!"9pdbcc")))))) (.div (.mul (.rat 4 1) (.conj (.add (.mul (.rat (-8) 1) (.inp n!"10pdbcc")) (.div (.inp n!"8pdbcc") (.rat 2 1))))) (.rat 3 1))))),
  (n!"V8udduLR_2231", (.mul (.div (.mul (.rat 4 1) (.par n!"GF")) (.sqrt (.rat 2 1))) (.neg (.conj (.add (.sub (.add (.neg (.div (.mul (.rat 8 1) (.inp n!"10sbuc")) (.rat 3 1))) (.inp n!"5sbuc")) (.div (.inp n!"6sbuc") (.rat 6 1))) (.mul (.rat 16 1) (.inp n!"9sbuc"))))))),
  (n!"V8udRR_1212", (.mul (.div (.mul (.rat 4 1) (.par n!"GF")) (.sqrt (.rat 2 1))) (.mul (.rat 2 1) (.add (.div (.inp n!"2pdsuc") (.rat 2 1)) (.mul (.rat 8 1) (.inp n!"4pdsuc")))))),
  (n!"S8ddRR_1232", (.mul (.div (.mul (.rat 4 1) (.par n!"GF")) (.sqrt (.rat 2 1))) (.mul (.rat (-16) 1) (.conj (.sub (.inp n!"7sbsd") (.mul (.rat 16 1) (.inp n!"9sbsd"))))))),
  (n!"S8udduRR_2212", (.mul (.div (.mul (.rat 4 1) (.par n!"GF")) (.sqrt (.rat 2 1))) (.mul (.rat (-16) 1) (.sub (.sub (.add (.div (.mul (.rat 8 1) (.inp n!"10dscc")) (.rat 3 1)) (.inp n!"7dscc")) (.div (.inp n!"8dscc") (.rat 6 1))) (.mul (.rat 16 1) (.inp n!"9dscc")))))),
  (n!"SnueduRR_3131", (.mul (.div (.mul (.rat 4 1) (.par n!"GF")) (.sqrt (.rat 2 1))) (.conj (.inp n!"5pubetau")))),
  (n!"TedRR_1131", (.mul (.div (.mul (.rat 4 1) (.par n!"GF")) (.sqrt (.rat 2 1))) (.sub (.conj (.sub (.sub (.add (.div (.inp n!"7dbee") (.rat 2 1)) (.div (.inp n!"7pdbee") (.rat 2 1))) (.mul (.rat 8 1) (.inp n!"9dbee"))) (.mul (.rat 8 1) (.inp n!"9pdbee")))) (.conj (.add (.sub (.sub (.div (.inp n!"7dbee") (.rat 2 1)) (.div (.inp n!"7pdbee") (.rat 2 1))) (.mul (.rat 8 1) (.inp n!"9dbee"))) (.mul (.rat 8 1) (.inp n!"9pdbee"))))))),
  (n!"V8ddLR_1313", (.mul (.div (.mul (.rat 4 1) (.par n!"GF")) (.sqrt (.rat 2 1))) (.neg (.inp n!"4dbdb")))),
  (n!"VnueduLL_3111", (.mul (.div (.mul (.rat 4 1) (.par n!"GF")) (.sqrt (.rat 2 1))) (.conj (.inp n!"1udetau")))),
  (n!"VnudLL_1221", (.mul (.div (.mul (.rat 4 1) (.par n!"GF")) (.sqrt (.rat 2 1))) (.conj (.inp n!"nu1dsmue")))),
  (n!"V1ddLR_1211", (.mul (.div (.mul (.rat 4 1) (.par n!"GF")) (.sqrt (.rat 2 1))) (.sub (.neg (.div (.add (.inp n!"5dsdd") (.mul (.rat 16 1) (.inp n!"9dsdd"))) (.mul (.rat 2 1) (.rat 3 1)))) (.div (.mul (.rat (-2) 1) (.add (.inp n!"1dsdd") (.mul (.rat 4 1) (.inp n!"3dsdd")))) (.rat 2 1))))),
  (n!"TedRR_2213", (.mul (.div (.mul (.rat 4 1) (.par n!"GF")) (.sqrt (.rat 2 1))) (.add (.sub (.sub (.add (.div (.inp n!"7dbmumu") (.rat 2 1)) (.div (.inp n!"7pdbmumu") (.rat 2 1))) (.mul (.rat 8 1) (.inp n!"9dbmumu"))) (.mul (.rat 8 1) (.inp n!"9pdbmumu"))) (.add (.sub (.sub (.div (.inp n!"7dbmumu") (.rat 2 1)) (.div (.inp n!"7pdbmumu") (.rat 2 1))) (.mul (.rat 8 1) (.inp n!"9dbmumu"))) (.mul (.rat 8 1) (.inp n!"9pdbmumu")))))),
  (n!"VnueduLL_3332", (.mul (.div (.mul (.rat 4 1) (.par n!"GF")) (.sqrt (.rat 2 1))) (.conj (.inp n!"1cbtautau")))),
  (n!"SnueduRL_2231", (.mul (.div (.mul (.rat 4 1) (.par n!"GF")) (.sqrt (.rat 2 1))) (.conj (.inp n!"5ubmumu")))),
  (n!"SedRR_1132", (.mul (.div (.mul (.rat 4 1) (.par n!"GF")) (.sqrt (.rat 2 1))) (.add (.neg (.conj (.mul (.rat (-24) 1) (.inp n!"9psbee")))) (.conj (.add (.inp n!"5psbee") (.mul (.rat 40 1) (.inp n!"9psbee"))))))),
  (n!"TnueduRR_1232", (.mul (.div (.mul (.rat 4 1) (.par n!"GF")) (.sqrt (.rat 2 1))) (.conj (.inp n!"7pcbmue")))),
  (n!"SnueduRR_2321", (.mul (.div (.mul (.rat 4 1) (.par n!"GF")) (.sqrt (.rat 2 1))) (.conj (.inp n!"5pustaumu")))),
  (n!"VedLR_2323", (.mul (.div (.mul (.rat 4 1) (.par n!"GF")) (.sqrt (.rat 2 1))) (.add (.neg (.mul (.rat 6 1) (.inp n!"3psbmutau"))) (.add (.inp n!"1psbmutau") (.mul (.rat 10 1) (.inp n!"3psbmutau")))))),
  (n!"S1udRR_2223", (.mul (.div (.mul (.rat 4 1) (.par n!"GF")) (.sqrt (.rat 2 1))) (.sub (.sub (.add (.add (.sub (.add (.neg (.div (.mul (.rat 32 1) (.inp n!"10sbcc")) (.rat 3 1))) (.inp n!"5sbcc")) (.div (.inp n!"6sbcc") (.rat 6 1))) (.mul (.rat 64 1) (.inp n!"9sbcc"))) (.div (.add (.mul (.rat 32 1) (.inp n!"10sbcc")) (.div (.inp n!"6sbcc") (.rat 2 1))) (.rat 3 1))) (.mul (.rat 4 1) (.sub (.sub (.add (.div (.mul (.rat 8 1) (.inp n!"10sbcc")) (.rat 3 1)) (.inp n!"7sbcc")) (.div (.inp n!"8sbcc") (.rat 6 1))) (.mul (.rat 16 1) (.inp n!"9sbcc"))))) (.div (.mul (.rat 4 1) (.add (.mul (.rat (-8) 1) (.inp n!"10sbcc")) (.div (.inp n!"8sbcc") (.rat 2 1)))) (.rat 3 1))))),
  (n!"S8udduRR_1122", (.mul (.div (.mul (.rat 4 1) (.par n!"GF")) (.sqrt (.rat 2 1))) (.mul (.rat (-16) 1) (.conj (.sub (.sub (.add (.div (.mul (.rat 8 1) (.inp n!"10pdscu")) (.rat 3 1)) (.inp n!"7pdscu")) (.div (.inp n!"8pdscu") (.rat 6 1))) (.mul (.rat 16 1) (.inp n!"9pdscu"))))))),
  (n!"V1udduLR_2312", (.mul (.div (.mul (.rat 4 1) (.par n!"GF")) (.sqrt (.rat 2 1))) (.sub (.neg (.div (.add (.sub (.add (.neg (.div (.mul (.rat 8 1) (.inp n!"10pdbcc")) (.rat 3 1))) (.inp n!"5pdbcc")) (.div (.inp n!"6pdbcc") (.rat 6 1))) (.mul (.rat 16 1) (.inp n!"9pdbcc"))) (.mul (.rat 2 1) (.rat 3 1)))) (.div (.add (.mul (.rat 8 1) (.inp n!"10pdbcc")) (.div (.inp n!"6pdbcc") (.rat 2 1))) (.rat 2 1))))),
  (n!"TedRR_3332", (.mul (.div (.mul (.rat 4 1) (.par n!"GF")) (.sqrt (.rat 2 1))) (.sub (.conj (.sub (.sub (.add (.div (.inp n!"7sbtautau") (.rat 2 1)) (.div (.inp n!"7psbtautau") (.rat 2 1))) (.mul (.rat 8 1) (.inp n!"9sbtautau"))) (.mul (.rat 8 1) (.inp n!"9psbtautau")))) (.conj (.add (.sub (.sub (.div (.inp n!"7sbtautau") (.rat 2 1)) (.div (.inp n!"7psbtautau") (.rat 2 1))) (.mul (.rat 8 1) (.inp n!"9sbtautau"))) (.mul (.rat 8 1) (.inp n!"9psbtautau"))))))),
  (n!"S1udduRR_1211", (.mul (.div (.mul (.rat 4 1) (.par n!"GF")) (.sqrt (.rat 2 1))) (.sub (.neg (.div (.mul (.rat 8 1) (.sub (.sub (.add (.div (.mul (.rat 8 1) (.inp n!"10dsuu")) (.rat 3 1)) (.inp n!"7dsuu")) (.div (.inp n!"8dsuu") (.rat 6 1))) (.mul (.rat 16 1) (.inp n!"9dsuu")))) (.rat 3 1))) (.mul (.rat 8 1) (.add (.mul (.rat (-8) 1) (.inp n!"10dsuu")) (.div (.inp n!"8dsuu") (.rat 2 1))))))),
  (n!"TedRR_1123", (.mul (.div (.mul (.rat 4 1) (.par n!"GF")) (.sqrt (.rat 2 1))) (.add (.sub (.sub (.add (.div (.inp n!"7sbee") (.rat 2 1)) (.div (.inp n!"7psbee") (.rat 2 1))) (.mul (.rat 8 1) (.inp n!"9sbee"))) (.mul (.rat 8 1) (.inp n!"9psbee"))) (.add (.sub (.sub (.div (.inp n!"7sbee") (.rat 2 1)) (.div (.inp n!"7psbee") (.rat 2 1))) (.mul (.rat 8 1) (.inp n!"9sbee"))) (.mul (.rat 8 1) (.inp n!"9psbee")))))),
  (n!"VdeLR_1332", (.mul (.div (.mul (.rat 4 1) (.par n!"GF")) (.sqrt (.rat 2 1))) (.add (.mul (.rat (-6) 1) (.inp n!"3dbtaumu")) (.add (.inp n!"1dbtaumu") (.mul (.rat 10 1) (.inp n!"3dbtaumu")))))),
  (n!"VnudLL_1213", (.mul (.div (.mul (.rat 4 1) (.par n!"GF")) (.sqrt (.rat 2 1))) (.inp n!"nu1dbemu"))),
  (n!"SedRR_3112", (.mul (.div (.mul (.rat 4 1) (.par n!"GF")) (.sqrt (.rat 2 1))) (.add (.mul (.rat 24 1) (.inp n!"9dstaue")) (.add (.inp n!"5dstaue") (.mul (.rat 40 1) (.inp n!"9dstaue")))))),
  (n!"VnueduLR_2111", (.mul (.div (.mul (.rat 4 1) (.par n!"GF")) (.sqrt (.rat 2 1))) (.conj (.inp n!"1pudemu")))),
  (n!"TnueduRR_3212", (.mul (.div (.mul (.rat 4 1) (.par n!"GF")) (.sqrt (.rat 2 1))) (.conj (.inp n!"7pcdmutau")))),
  (n!"VnueduLR_2332", (.mul (.div (.mul (.rat 4 1) (.par n!"GF")) (.sqrt (.rat 2 1))) (.conj (.inp n!"1pcbtaumu")))),
  (n!"SnueduRR_1231", (.mul (.div (.mul (.rat 4 1) (.par n!"GF")) (.sqrt (.rat 2 1))) (.conj (.inp n!"5pubmue")))),
  (n!"S8ddRR_2122", (.mul (.div (.mul (.rat 4 1) (.par n!"GF")) (.sqrt (.rat 2 1))) (.mul (.rat (-16) 1) (.conj (.sub (.inp n!"7pdsss") (.mul (.rat 16 1) (.inp n!"9pdsss"))))))),
  (n!"VddRR_1313", (.mul (.div (.mul (.rat 4 1) (.par n!"GF")) (.sqrt (.rat 2 1))) (.inp n!"1pdbdb"))),
  (n!"SedRL_2212", (.mul (.div (.mul (.rat 4 1) (.par n!"GF")) (.sqrt (.rat 2 1))) (.add (.mul (.rat (-24) 1) (.inp n!"9pdsmumu")) (.add (.inp n!"5pdsmumu") (.mul (.rat 40 1) (.inp n!"9pdsmumu")))))),
  (n!"VnueduLL_1211", (.mul (.div (.mul (.rat 4 1) (.par n!"GF")) (.sqrt (.rat 2 1))) (.conj (.inp n!"1udmue")))),
  (n!"VedRR_1113", (.mul (.div (.mul (.rat 4 1) (.par n!"GF")) (.sqrt (.rat 2 1))) (.add (.mul (.rat 6 1) (.inp n!"3pdbee")) (.add (.inp n!"1pdbee") (.mul (.rat 10 1) (.inp n!"3pdbee")))))),
  (n!"VedLL_2321", (.mul (.div (.mul (.rat 4 1) (.par n!"GF")) (.sqrt (.rat 2 1))) (.conj (.add (.neg (.mul (.rat (-6) 1) (.inp n!"3dstaumu"))) (.add (.inp n!"1dstaumu") (.mul (.rat 10 1) (.inp n!"3dstaumu")))))))]

def Bern_to_JMS_18 : List (ℕ × Sym) := [
  (n!"V8udduLR_2311", (.mul (.div (.mul (.rat 4 1) (.par n!"GF")) (.sqrt (.rat 2 1))) (.neg (.add (.sub (.add (.neg (.div (.mul (.rat 8 1) (.inp n!"10pdbcu")) (.rat 3 1))) (.inp n!"5pdbcu")) (.div (.inp n!"6pdbcu") (.rat 6 1))) (.mul (.rat 16 1) (.inp n!"9pdbcu")))))),
  (n!"SnueduRL_3121", (.mul (.div (.mul (.rat 4 1) (.par n!"GF")) (.sqrt (.rat 2 1))) (.conj (.inp n!"5usetau")))),
  (n!"VnudLL_2332", (.mul (.div (.mul (.rat 4 1) (.par n!"GF")) (.sqrt (.rat 2 1))) (.conj (.inp n!"nu1sbtaumu")))),
  (n!"V1ddLR_2322", (.mul (.div (.mul (.rat 4 1) (.par n!"GF")) (.sqrt (.rat 2 1))) (.sub (.neg (.div (.add (.inp n!"5sbss") (.mul (.rat 16 1) (.inp n!"9sbss"))) (.mul (.rat 2 1) (.rat 3 1)))) (.div (.mul (.rat (-2) 1) (.add (.inp n!"1sbss") (.mul (.rat 4 1) (.inp n!"3sbss")))) (.rat 2 1))))),
  (n!"TnueduRR_2122", (.mul (.div (.mul (.rat 4 1) (.par n!"GF")) (.sqrt (.rat 2 1))) (.conj (.inp n!"7pcsemu")))),
  (n!"SnueduRR_3211", (.mul (.div (.mul (.rat 4 1) (.par n!"GF")) (.sqrt (.rat 2 1))) (.conj (.inp n!"5pudmutau")))),
  (n!"SedRL_3331", (.mul (.div (.mul (.rat 4 1) (.par n!"GF")) (.sqrt (.rat 2 1))) (.add (.neg (.conj (.mul (.rat 24 1) (.inp n!"9dbtautau")))) (.conj (.add (.inp n!"5dbtautau") (.mul (.rat 40 1) (.inp n!"9dbtautau"))))))),
  (n!"S8uuRR_2121", (.mul (.div (.mul (.rat 4 1) (.par n!"GF")) (.sqrt (.rat 2 1))) (.mul (.rat 2 1) (.inp n!"3pcucu")))),
  (n!"VedLL_1231", (.mul (.div (.mul (.rat 4 1) (.par n!"GF")) (.sqrt (.rat 2 1))) (.conj (.add (.neg (.mul (.rat (-6) 1) (.inp n!"3dbmue"))) (.add (.inp n!"1dbmue") (.mul (.rat 10 1) (.inp n!"3dbmue"))))))),
  (n!"SnueduRL_2311", (.mul (.div (.mul (.rat 4 1) (.par n!"GF")) (.sqrt (.rat 2 1))) (.conj (.inp n!"5udtaumu")))),
  (n!"SedRR_1212", (.mul (.div (.mul (.rat 4 1) (.par n!"GF")) (.sqrt (.rat 2 1))) (.add (.mul (.rat 24 1) (.inp n!"9dsemu")) (.add (.inp n!"5dsemu") (.mul (.rat 40 1) (.inp n!"9dsemu")))))),
  (n!"TnueduRR_1312", (.mul (.div (.mul (.rat 4 1) (.par n!"GF")) (.sqrt (.rat 2 1))) (.conj (.inp n!"7pcdtaue")))),
  (n!"VedLL_2313", (.mul (.div (.mul (.rat 4 1) (.par n!"GF")) (.sqrt (.rat 2 1))) (.add (.neg (.mul (.rat (-6) 1) (.inp n!"3dbmutau"))) (.add (.inp n!"1dbmutau") (.mul (.rat 10 1) (.inp n!"3dbmutau")))))),
  (n!"V1udRR_2213", (.mul (.div (.mul (.rat 4 1) (.par n!"GF")) (.sqrt (.rat 2 1))) (.add (.sub (.add (.sub (.inp n!"1pdbcc") (.div (.inp n!"2pdbcc") (.rat 6 1))) (.mul (.rat 16 1) (.inp n!"3pdbcc"))) (.div (.mul (.rat 8 1) (.inp n!"4pdbcc")) (.rat 3 1))) (.div (.add (.div (.inp n!"2pdbcc") (.rat 2 1)) (.mul (.rat 8 1) (.inp n!"4pdbcc"))) (.rat 3 1))))),
  (n!"V8ddLR_1113", (.mul (.div (.mul (.rat 4 1) (.par n!"GF")) (.sqrt (.rat 2 1))) (.mul (.rat 2 1) (.mul (.div (.rat (-1) 1) (.rat 2 1)) (.add (.inp n!"5pdbdd") (.mul (.rat 16 1) (.inp n!"9pdbdd"))))))),
  (n!"VedLR_1321", (.mul (.div (.mul (.rat 4 1) (.par n!"GF")) (.sqrt (.rat 2 1))) (.conj (.add (.neg (.mul (.rat 6 1) (.inp n!"3pdstaue"))) (.add (.inp n!"1pdstaue") (.mul (.rat 10 1) (.inp n!"3pdstaue"))))))),
  (n!"S1udRR_1221", (.mul (.div (.mul (.rat 4 1) (.par n!"GF")) (.sqrt (.rat 2 1))) (.sub (.sub (.add (.conj (.add (.sub (.add (.neg (.div (.mul (.rat 32 1) (.inp n!"10pdscu")) (.rat 3 1))) (.inp n!"5pdscu")) (.div (.inp n!"6pdscu") (.rat 6 1))) (.mul (.rat 64 1) (.inp n!"9pdscu")))) (.div (.conj (.add (.mul (.rat 32 1) (.inp n!"10pdscu")) (.div (.inp n!"6pdscu") (.rat 2 1)))) (.rat 3 1))) (.mul (.rat 4 1) (.conj (.sub (.sub (.add (.div (.mul (.rat 8 1) (.inp n!"10pdscu")) (.rat 3 1)) (.inp n!"7pdscu")) (.div (.inp n!"8pdscu") (.rat 6 1))) (.mul (.rat 16 1) (.inp n!"9pdscu")))))) (.div (.mul (.rat 4 1) (.conj (.add (.mul (.rat (-8) 1) (.inp n!"10pdscu")) (.div (.inp n!"8pdscu") (.rat 2 1))))) (.rat 3 1))))),
  (n!"VnueduLL_3132", (.mul (.div (.mul (.rat 4 1) (.par n!"GF")) (.sqrt (.rat 2 1))) (.conj (.inp n!"1cbetau")))),
  (n!"V1udLL_1212", (.mul (.div (.mul (.rat 4 1) (.par n!"GF")) (.sqrt (.rat 2 1))) (.add (.sub (.add (.sub (.inp n!"1dsuc") (.div (.inp n!"2dsuc") (.rat 6 1))) (.mul (.rat 16 1) (.inp n!"3dsuc"))) (.div (.mul (.rat 8 1) (.inp n!"4dsuc")) (.rat 3 1))) (.div (.add (.div (.inp n!"2dsuc") (.rat 2 1)) (.mul (.rat 8 1) (.inp n!"4dsuc"))) (.rat 3 1))))),
  (n!"S1udduRR_2322", (.mul (.div (.mul (.rat 4 1) (.par n!"GF")) (.sqrt (.rat 2 1))) (.sub (.neg (.div (.mul (.rat 8 1) (.sub (.sub (.add (.div (.mul (.rat 8 1) (.inp n!"10sbcc")) (.rat 3 1)) (.inp n!"7sbcc")) (.div (.inp n!"8sbcc") (.rat 6 1))) (.mul (.rat 16 1) (.inp n!"9sbcc")))) (.rat 3 1))) (.mul (.rat 8 1) (.add (.mul (.rat (-8) 1) (.inp n!"10sbcc")) (.div (.inp n!"8sbcc") (.rat 2 1))))))),
  (n!"V1ddLR_1232", (.mul (.div (.mul (.rat 4 1) (.par n!"GF")) (.sqrt (.rat 2 1))) (.conj (.add (.add (.inp n!"1psbsd") (.mul (.rat 4 1) (.inp n!"3psbsd"))) (.div (.mul (.div (.rat (-1) 1) (.rat 2 1)) (.add (.inp n!"5psbsd") (.mul (.rat 16 1) (.inp n!"9psbsd")))) (.rat 3 1)))))),
  (n!"VnueduLR_3222", (.mul (.div (.mul (.rat 4 1) (.par n!"GF")) (.sqrt (.rat 2 1))) (.conj (.inp n!"1pcsmutau")))),
  (n!"V8duLR_1322", (.mul (.div (.mul (.rat 4 1) (.par n!"GF")) (.sqrt (.rat 2 1))) (.mul (.rat 2 1) (.add (.div (.inp n!"2dbcc") (.rat 2 1)) (.mul (.rat 2 1) (.inp n!"4dbcc")))))),
  (n!"SnueduRR_2121", (.mul (.div (.mul (.rat 4 1) (.par n!"GF")) (.sqrt (.rat 2 1))) (.conj (.inp n!"5pusemu")))),
  (n!"VnudLR_1332", (.mul (.div (.mul (.rat 4 1) (.par n!"GF")) (.sqrt (.rat 2 1))) (.conj (.inp n!"nu1psbtaue")))),
  (n!"S8ddRR_3233", (.mul (.div (.mul (.rat 4 1) (.par n!"GF")) (.sqrt (.rat 2 1))) (.mul (.rat (-16) 1) (.conj (.sub (.inp n!"7psbbb") (.mul (.rat 16 1) (.inp n!"9psbbb"))))))),
  (n!"S8udRR_2221", (.mul (.div (.mul (.rat 4 1) (.par n!"GF")) (.sqrt (.rat 2 1))) (.sub (.mul (.rat 2 1) (.conj (.add (.mul (.rat 32 1) (.inp n!"10pdscc")) (.div (.inp n!"6pdscc") (.rat 2 1))))) (.mul (.rat 8 1) (.conj (.add (.mul (.rat (-8) 1) (.inp n!"10pdscc")) (.div (.inp n!"8pdscc") (.rat 2 1)))))))),
  (n!"SedRL_3323", (.mul (.div (.mul (.rat 4 1) (.par n!"GF")) (.sqrt (.rat 2 1))) (.add (.mul (.rat (-24) 1) (.inp n!"9psbtautau")) (.add (.inp n!"5psbtautau") (.mul (.rat 40 1) (.inp n!"9psbtautau")))))),
  (n!"VnueduLL_2322", (.mul (.div (.mul (.rat 4 1) (.par n!"GF")) (.sqrt (.rat 2 1))) (.conj (.inp n!"1cstaumu")))),
  (n!"SnueduRL_1221", (.mul (.div (.mul (.rat 4 1) (.par n!"GF")) (.sqrt (.rat 2 1))) (.conj (.inp n!"5usmue")))),
  (n!"V8udLL_2212", (.mul (.div (.mul (.rat 4 1) (.par n!"GF")) (.sqrt (.rat 2 1))) (.mul (.rat 2 1) (.add (.div (.inp n!"2dscc") (.rat 2 1)) (.mul (.rat 8 1) (.inp n!"4dscc")))))),
  (n!"SedRR_2331", (.mul (.div (.mul (.rat 4 1) (.par n!"GF")) (.sqrt (.rat 2 1))) (.add (.neg (.conj (.mul (.rat (-24) 1) (.inp n!"9pdbtaumu")))) (.conj (.add (.inp n!"5pdbtaumu") (.mul (.rat 40 1) (.inp n!"9pdbtaumu"))))))),
  (n!"S1ddRR_3131", (.mul (.div (.mul (.rat 4 1) (.par n!"GF")) (.sqrt (.rat 2 1))) (.add (.conj (.inp n!"2dbdb")) (.div (.conj (.inp n!"3dbdb")) (.rat 3 1))))),
  (n!"VedLL_1223", (.mul (.div (.mul (.rat 4 1) (.par n!"GF")) (.sqrt (.rat 2 1))) (.add (.neg (.mul (.rat (-6) 1) (.inp n!"3sbemu"))) (.add (.inp n!"1sbemu") (.mul (.rat 10 1) (.inp n!"3sbemu")))))),
  (n!"V1udRR_1123", (.mul (.div (.mul (.rat 4 1) (.par n!"GF")) (.sqrt (.rat 2 1))) (.add (.sub (.add (.sub (.inp n!"1psbuu") (.div (.inp n!"2psbuu") (.rat 6 1))) (.mul (.rat 16 1) (.inp n!"3psbuu"))) (.div (.mul (.rat 8 1) (.inp n!"4psbuu")) (.rat 3 1))) (.div (.add (.div (.inp n!"2psbuu") (.rat 2 1)) (.mul (.rat 8 1) (.inp n!"4psbuu"))) (.rat 3 1))))),
  (n!"TedRR_3132", (.mul (.div (.mul (.rat 4 1) (.par n!"GF")) (.sqrt (.rat 2 1))) (.sub (.conj (.sub (.sub (.add (.div (.inp n!"7sbetau") (.rat 2 1)) (.div (.inp n!"7psbetau") (.rat 2 1))) (.mul (.rat 8 1) (.inp n!"9sbetau"))) (.mul (.rat 8 1) (.inp n!"9psbetau")))) (.conj (.add (.sub (.sub (.div (.inp n!"7sbetau") (.rat 2 1)) (.div (.inp n!"7psbetau") (.rat 2 1))) (.mul (.rat 8 1) (.inp n!"9sbetau"))) (.mul (.rat 8 1) (.inp n!"9psbetau"))))))),
  (n!"SnueduRR_1311", (.mul (.div (.mul (.rat 4 1) (.par n!"GF")) (.sqrt (.rat 2 1))) (.conj (.inp n!"5pudtaue")))),
  (n!"S1udduRR_1232", (.mul (.div (.mul (.rat 4 1) (.par n!"GF")) (.sqrt (.rat 2 1))) (.sub (.neg (.div (.mul (.rat 8 1) (.conj (.sub (.sub (.add (.div (.mul (.rat 8 1) (.inp n!"10psbcu")) (.rat 3 1)) (.inp n!"7psbcu")) (.div (.inp n!"8psbcu") (.rat 6 1))) (.mul (.rat 16 1) (.inp n!"9psbcu"))))) (.rat 3 1))) (.mul (.rat 8 1) (.conj (.add (.mul (.rat (-8) 1) (.inp n!"10psbcu")) (.div (.inp n!"8psbcu") (.rat 2 1)))))))),
  (n!"VedLR_1313", (.mul (.div (.mul (.rat 4 1) (.par n!"GF")) (.sqrt (.rat 2 1))) (.add (.neg (.mul (.rat 6 1) (.inp n!"3pdbetau"))) (.add (.inp n!"1pdbetau") (.mul (.rat 10 1) (.inp n!"3pdbetau")))))),
  (n!"S8udduRR_2321", (.mul (.div (.mul (.rat 4 1) (.par n!"GF")) (.sqrt (.rat 2 1))) (.mul (.rat (-16) 1) (.sub (.sub (.add (.div (.mul (.rat 8 1) (.inp n!"10sbcu")) (.rat 3 1)) (.inp n!"7sbcu")) (.div (.inp n!"8sbcu") (.rat 6 1))) (.mul (.rat 16 1) (.inp n!"9sbcu")))))),
  (n!"S1udRR_1213", (.mul (.div (.mul (.rat 4 1) (.par n!"GF")) (.sqrt (.rat 2 1))) (.sub (.sub (.add (.add (.sub (.add (.neg (.div (.mul (.rat 32 1) (.inp n!"10dbuc")) (.rat 3 1))) (.inp n!"5dbuc")) (.div (.inp n!"6dbuc") (.rat 6 1))) (.mul (.rat 64 1) (.inp n!"9dbuc"))) (.div (.add (.mul (.rat 32 1) (.inp n!"10dbuc")) (.div (.inp n!"6dbuc") (.rat 2 1))) (.rat 3 1))) (.mul (.rat 4 1) (.sub (.sub (.add (.div (.mul (.rat 8 1) (.inp n!"10dbuc")) (.rat 3 1)) (.inp n!"7dbuc")) (.div (.inp n!"8dbuc") (.rat 6 1))) (.mul (.rat 16 1) (.inp n!"9dbuc"))))) (.div (.mul (.rat 4 1) (.add (.mul (.rat (-8) 1) (.inp n!"10dbuc")) (.div (.inp n!"8dbuc") (.rat 2 1)))) (.rat 3 1))))),
  (n!"VnueduLR_2132", (.mul (.div (.mul (.rat 4 1) (.par n!"GF")) (.sqrt (.rat 2 1))) (.conj (.inp n!"1pcbemu")))),
  (n!"VnudLR_3312", (.mul (.div (.mul (.rat 4 1) (.par n!"GF")) (.sqrt (.rat 2 1))) (.inp n!"nu1pdstautau"))),
  (n!"VddRR_1113", (.mul (.div (.mul (.rat 4 1) (.par n!"GF")) (.sqrt (.rat 2 1))) (.add (.inp n!"1pdbdd") (.mul (.rat 16 1) (.inp n!"3pdbdd"))))),
  (n!"S8udRR_1131", (.mul (.div (.mul (.rat 4 1) (.par n!"GF")) (.sqrt (.rat 2 1))) (.sub (.mul (.rat 2 1) (.conj (.add (.mul (.rat 32 1) (.inp n!"10pdbuu")) (.div (.inp n!"6pdbuu") (.rat 2 1))))) (.mul (.rat 8 1) (.conj (.add (.mul (.rat (-8) 1) (.inp n!"10pdbuu")) (.div (.inp n!"8pdbuu") (.rat 2 1)))))))),
  (n!"V1duLR_1212", (.mul (.div (.mul (.rat 4 1) (.par n!"GF")) (.sqrt (.rat 2 1))) (.add (.sub (.add (.sub (.inp n!"1dsuc") (.div (.inp n!"2dsuc") (.rat 6 1))) (.mul (.rat 4 1) (.inp n!"3dsuc"))) (.div (.mul (.rat 2 1) (.inp n!"4dsuc")) (.rat 3 1))) (.div (.add (.div (.inp n!"2dsuc") (.rat 2 1)) (.mul (.rat 2 1) (.inp n!"4dsuc"))) (.rat 3 1))))),
  (n!"VnueduLL_1232", (.mul (.div (.mul (.rat 4 1) (.par n!"GF")) (.sqrt (.rat 2 1))) (.conj (.inp n!"1cbmue")))),
  (n!"S8udRR_2213", (.mul (.div (.mul (.rat 4 1) (.par n!"GF")) (.sqrt (.rat 2 1))) (.sub (.mul (.rat 2 1) (.add (.mul (.rat 32 1) (.inp n!"10dbcc")) (.div (.inp n!"6dbcc") (.rat 2 1)))) (.mul (.rat 8 1) (.add (.mul (.rat (-8) 1) (.inp n!"10dbcc")) (.div (.inp n!"8dbcc") (.rat 2 1))))))),
  (n!"SedRR_2323", (.mul (.div (.mul (.rat 4 1) (.par n!"GF")) (.sqrt (.rat 2 1))) (.add (.mul (.rat 24 1) (.inp n!"9sbmutau")) (.add (.inp n!"5sbmutau") (.mul (.rat 40 1) (.inp n!"9sbmutau")))))),
  (n!"VnueduLR_1322", (.mul (.div (.mul (.rat 4 1) (.par n!"GF")) (.sqrt (.rat 2 1))) (.conj (.inp n!"1pcstaue"))))]

def Bern_to_JMS_19 : List (ℕ × Sym) := [
  (n!"V8udLR_1212", (.mul (.div (.mul (.rat 4 1) (.par n!"GF")) (.sqrt (.rat 2 1))) (.mul (.rat 2 1) (.add (.div (.inp n!"2pdsuc") (.rat 2 1)) (.mul (.rat 2 1) (.inp n!"4pdsuc")))))),
  (n!"VedRR_2312", (.mul (.div (.mul (.rat 4 1) (.par n!"GF")) (.sqrt (.rat 2 1))) (.add (.mul (.rat 6 1) (.inp n!"3pdsmutau")) (.add (.inp n!"1pdsmutau") (.mul (.rat 10 1) (.inp n!"3pdsmutau")))))),
  (n!"S8ddRR_1112", (.mul (.div (.mul (.rat 4 1) (.par n!"GF")) (.sqrt (.rat 2 1))) (.mul (.rat (-16) 1) (.sub (.inp n!"7pdsdd") (.mul (.rat 16 1) (.inp n!"9pdsdd")))))),
  (n!"S8udduRR_1231", (.mul (.div (.mul (.rat 4 1) (.par n!"GF")) (.sqrt (.rat 2 1))) (.mul (.rat (-16) 1) (.conj (.sub (.sub (.add (.div (.mul (.rat 8 1) (.inp n!"10psbuu")) (.rat 3 1)) (.inp n!"7psbuu")) (.div (.inp n!"8psbuu") (.rat 6 1))) (.mul (.rat 16 1) (.inp n!"9psbuu"))))))),
  (n!"S8ddRR_1333", (.mul (.div (.mul (.rat 4 1) (.par n!"GF")) (.sqrt (.rat 2 1))) (.mul (.rat (-16) 1) (.sub (.inp n!"7dbbb") (.mul (.rat 16 1) (.inp n!"9dbbb")))))),
  (n!"S1ddRR_1231", (.mul (.div (.mul (.rat 4 1) (.par n!"GF")) (.sqrt (.rat 2 1))) (.sub (.neg (.div (.mul (.rat 8 1) (.conj (.sub (.sub (.add (.div (.mul (.rat 8 1) (.inp n!"10psbdd")) (.rat 3 1)) (.inp n!"7psbdd")) (.div (.inp n!"8psbdd") (.rat 6 1))) (.mul (.rat 16 1) (.inp n!"9psbdd"))))) (.rat 3 1))) (.mul (.rat 8 1) (.conj (.add (.mul (.rat (-8) 1) (.inp n!"10psbdd")) (.div (.inp n!"8psbdd") (.rat 2 1)))))))),
  (n!"SedRL_3131", (.mul (.div (.mul (.rat 4 1) (.par n!"GF")) (.sqrt (.rat 2 1))) (.add (.neg (.conj (.mul (.rat 24 1) (.inp n!"9dbetau")))) (.conj (.add (.inp n!"5dbetau") (.mul (.rat 40 1) (.inp n!"9dbetau"))))))),
  (n!"dgamma_32", (.mul (.div (.mul (.rat 4 1) (.par n!"GF")) (.sqrt (.rat 2 1))) (.conj (.div (.inp n!"7pgammasb") (.div (.div (.mul (.sqrt (.mul (.mul (.rat 4 1) .pi) (.par n!"alpha_s"))) (.sqrt (.mul (.mul (.rat 4 1) .pi) (.par n!"alpha_s")))) (.sqrt (.mul (.mul (.rat 4 1) .pi) (.par n!"alpha_e")))) (.par n!"m_b")))))),
  (n!"SnueduRR_3232", (.mul (.div (.mul (.rat 4 1) (.par n!"GF")) (.sqrt (.rat 2 1))) (.conj (.inp n!"5pcbmutau")))),
  (n!"TedRR_1232", (.mul (.div (.mul (.rat 4 1) (.par n!"GF")) (.sqrt (.rat 2 1))) (.sub (.conj (.sub (.sub (.add (.div (.inp n!"7sbmue") (.rat 2 1)) (.div (.inp n!"7psbmue") (.rat 2 1))) (.mul (.rat 8 1) (.inp n!"9sbmue"))) (.mul (.rat 8 1) (.inp n!"9psbmue")))) (.conj (.add (.sub (.sub (.div (.inp n!"7sbmue") (.rat 2 1)) (.div (.inp n!"7psbmue") (.rat 2 1))) (.mul (.rat 8 1) (.inp n!"9sbmue"))) (.mul (.rat 8 1) (.inp n!"9psbmue"))))))),
  (n!"VnueduLL_3212", (.mul (.div (.mul (.rat 4 1) (.par n!"GF")) (.sqrt (.rat 2 1))) (.conj (.inp n!"1cdmutau")))),
  (n!"VddLL_1231", (.mul (.div (.mul (.rat 4 1) (.par n!"GF")) (.sqrt (.rat 2 1))) (.conj (.add (.div (.inp n!"2sbdd") (.rat 2 1)) (.mul (.rat 8 1) (.inp n!"4sbdd")))))),
  (n!"SnueduRL_2111", (.mul (.div (.mul (.rat 4 1) (.par n!"GF")) (.sqrt (.rat 2 1))) (.conj (.inp n!"5udemu")))),
  (n!"SedRR_3221", (.mul (.div (.mul (.rat 4 1) (.par n!"GF")) (.sqrt (.rat 2 1))) (.add (.neg (.conj (.mul (.rat (-24) 1) (.inp n!"9pdsmutau")))) (.conj (.add (.inp n!"5pdsmutau") (.mul (.rat 40 1) (.inp n!"9pdsmutau"))))))),
  (n!"V1ddLR_1312", (.mul (.div (.mul (.rat 4 1) (.par n!"GF")) (.sqrt (.rat 2 1))) (.sub (.neg (.div (.add (.inp n!"5dbds") (.mul (.rat 16 1) (.inp n!"9dbds"))) (.mul (.rat 2 1) (.rat 3 1)))) (.div (.mul (.rat (-2) 1) (.add (.inp n!"1dbds") (.mul (.rat 4 1) (.inp n!"3dbds")))) (.rat 2 1))))),
  (n!"TnueduRR_3321", (.mul (.div (.mul (.rat 4 1) (.par n!"GF")) (.sqrt (.rat 2 1))) (.conj (.inp n!"7pustautau")))),
  (n!"S8udRR_1123", (.mul (.div (.mul (.rat 4 1) (.par n!"GF")) (.sqrt (.rat 2 1))) (.sub (.mul (.rat 2 1) (.add (.mul (.rat 32 1) (.inp n!"10sbuu")) (.div (.inp n!"6sbuu") (.rat 2 1)))) (.mul (.rat 8 1) (.add (.mul (.rat (-8) 1) (.inp n!"10sbuu")) (.div (.inp n!"8sbuu") (.rat 2 1))))))),
  (n!"TnueduRR_1112", (.mul (.div (.mul (.rat 4 1) (.par n!"GF")) (.sqrt (.rat 2 1))) (.conj (.inp n!"7pcdee")))),
  (n!"SnueduRL_2332", (.mul (.div (.mul (.rat 4 1) (.par n!"GF")) (.sqrt (.rat 2 1))) (.conj (.inp n!"5cbtaumu")))),
  (n!"S8ddRR_2231", (.mul (.div (.mul (.rat 4 1) (.par n!"GF")) (.sqrt (.rat 2 1))) (.sub (.mul (.rat 2 1) (.conj (.add (.mul (.rat 32 1) (.inp n!"10pdbss")) (.div (.inp n!"6pdbss") (.rat 2 1))))) (.mul (.rat 8 1) (.conj (.add (.mul (.rat (-8) 1) (.inp n!"10pdbss")) (.div (.inp n!"8pdbss") (.rat 2 1)))))))),
  (n!"SedRL_2321", (.mul (.div (.mul (.rat 4 1) (.par n!"GF")) (.sqrt (.rat 2 1))) (.add (.neg (.conj (.mul (.rat 24 1) (.inp n!"9dstaumu")))) (.conj (.add (.inp n!"5dstaumu") (.mul (.rat 40 1) (.inp n!"9dstaumu"))))))),
  (n!"S1udduRR_2122", (.mul (.div (.mul (.rat 4 1) (.par n!"GF")) (.sqrt (.rat 2 1))) (.sub (.neg (.div (.mul (.rat 8 1) (.conj (.sub (.sub (.add (.div (.mul (.rat 8 1) (.inp n!"10pdscc")) (.rat 3 1)) (.inp n!"7pdscc")) (.div (.inp n!"8pdscc") (.rat 6 1))) (.mul (.rat 16 1) (.inp n!"9pdscc"))))) (.rat 3 1))) (.mul (.rat 8 1) (.conj (.add (.mul (.rat (-8) 1) (.inp n!"10pdscc")) (.div (.inp n!"8pdscc") (.rat 2 1)))))))),
  (n!"V8ddLR_2312", (.mul (.div (.mul (.rat 4 1) (.par n!"GF")) (.sqrt (.rat 2 1))) (.neg (.add (.sub (.add (.neg (.div (.mul (.rat 8 1) (.inp n!"10pdbss")) (.rat 3 1))) (.inp n!"5pdbss")) (.div (.inp n!"6pdbss") (.rat 6 1))) (.mul (.rat 16 1) (.inp n!"9pdbss")))))),
  (n!"TedRR_3212", (.mul (.div (.mul (.rat 4 1) (.par n!"GF")) (.sqrt (.rat 2 1))) (.add (.sub (.sub (.add (.div (.inp n!"7dstaumu") (.rat 2 1)) (.div (.inp n!"7pdstaumu") (.rat 2 1))) (.mul (.rat 8 1) (.inp n!"9dstaumu"))) (.mul (.rat 8 1) (.inp n!"9pdstaumu"))) (.add (.sub (.sub (.div (.inp n!"7dstaumu") (.rat 2 1)) (.div (.inp n!"7pdstaumu") (.rat 2 1))) (.mul (.rat 8 1) (.inp n!"9dstaumu"))) (.mul (.rat 8 1) (.inp n!"9pdstaumu")))))),
  (n!"S1ddRR_1223", (.mul (.div (.mul (.rat 4 1) (.par n!"GF")) (.sqrt (.rat 2 1))) (.sub (.neg (.div (.mul (.rat 8 1) (.sub (.sub (.add (.div (.mul (.rat 8 1) (.inp n!"10dbss")) (.rat 3 1)) (.inp n!"7dbss")) (.div (.inp n!"8dbss") (.rat 6 1))) (.mul (.rat 16 1) (.inp n!"9dbss")))) (.rat 3 1))) (.mul (.rat 8 1) (.add (.mul (.rat (-8) 1) (.inp n!"10dbss")) (.div (.inp n!"8dbss") (.rat 2 1))))))),
  (n!"SedRL_3123", (.mul (.div (.mul (.rat 4 1) (.par n!"GF")) (.sqrt (.rat 2 1))) (.add (.mul (.rat (-24) 1) (.inp n!"9psbtaue")) (.add (.inp n!"5psbtaue") (.mul (.rat 40 1) (.inp n!"9psbtaue")))))),
  (n!"VdeLR_1212", (.mul (.div (.mul (.rat 4 1) (.par n!"GF")) (.sqrt (.rat 2 1))) (.add (.mul (.rat (-6) 1) (.inp n!"3dsemu")) (.add (.inp n!"1dsemu") (.mul (.rat 10 1) (.inp n!"3dsemu")))))),
  (n!"VnueduLL_2122", (.mul (.div (.mul (.rat 4 1) (.par n!"GF")) (.sqrt (.rat 2 1))) (.conj (.inp n!"1csemu")))),
  (n!"S1udduRR_1312", (.mul (.div (.mul (.rat 4 1) (.par n!"GF")) (.sqrt (.rat 2 1))) (.sub (.neg (.div (.mul (.rat 8 1) (.sub (.sub (.add (.div (.mul (.rat 8 1) (.inp n!"10dbuc")) (.rat 3 1)) (.inp n!"7dbuc")) (.div (.inp n!"8dbuc") (.rat 6 1))) (.mul (.rat 16 1) (.inp n!"9dbuc")))) (.rat 3 1))) (.mul (.rat 8 1) (.add (.mul (.rat (-8) 1) (.inp n!"10dbuc")) (.div (.inp n!"8dbuc") (.rat 2 1))))))),
  (n!"SedRR_2131", (.mul (.div (.mul (.rat 4 1) (.par n!"GF")) (.sqrt (.rat 2 1))) (.add (.neg (.conj (.mul (.rat (-24) 1) (.inp n!"9pdbemu")))) (.conj (.add (.inp n!"5pdbemu") (.mul (.rat 40 1) (.inp n!"9pdbemu"))))))),
  (n!"dG_31", (.mul (.div (.mul (.rat 4 1) (.par n!"GF")) (.sqrt (.rat 2 1))) (.conj (.div (.inp n!"8pgdb") (.div (.sqrt (.mul (.mul (.rat 4 1) .pi) (.par n!"alpha_s"))) (.par n!"m_b")))))),
  (n!"TnueduRR_2231", (.mul (.div (.mul (.rat 4 1) (.par n!"GF")) (.sqrt (.rat 2 1))) (.conj (.inp n!"7pubmumu")))),
  (n!"VddLL_1223", (.mul (.div (.mul (.rat 4 1) (.par n!"GF")) (.sqrt (.rat 2 1))) (.add (.div (.inp n!"2dbss") (.rat 2 1)) (.mul (.rat 8 1) (.inp n!"4dbss"))))),
  (n!"SedRR_3213", (.mul (.div (.mul (.rat 4 1) (.par n!"GF")) (.sqrt (.rat 2 1))) (.add (.mul (.rat 24 1) (.inp n!"9dbtaumu")) (.add (.inp n!"5dbtaumu") (.mul (.rat 40 1) (.inp n!"9dbtaumu")))))),
  (n!"VnueduLR_2212", (.mul (.div (.mul (.rat 4 1) (.par n!"GF")) (.sqrt (.rat 2 1))) (.conj (.inp n!"1pcdmumu")))),
  (n!"SnueduRR_1111", (.mul (.div (.mul (.rat 4 1) (.par n!"GF")) (.sqrt (.rat 2 1))) (.conj (.inp n!"5pudee")))),
  (n!"SedRL_1231", (.mul (.div (.mul (.rat 4 1) (.par n!"GF")) (.sqrt (.rat 2 1))) (.add (.neg (.conj (.mul (.rat 24 1) (.inp n!"9dbmue")))) (.conj (.add (.inp n!"5dbmue") (.mul (.rat 40 1) (.inp n!"9dbmue"))))))),
  (n!"VedLR_1113", (.mul (.div (.mul (.rat 4 1) (.par n!"GF")) (.sqrt (.rat 2 1))) (.add (.neg (.mul (.rat 6 1) (.inp n!"3pdbee"))) (.add (.inp n!"1pdbee") (.mul (.rat 10 1) (.inp n!"3pdbee")))))),
  (n!"SnueduRR_1332", (.mul (.div (.mul (.rat 4 1) (.par n!"GF")) (.sqrt (.rat 2 1))) (.conj (.inp n!"5pcbtaue")))),
  (n!"S8udduRR_2121", (.mul (.div (.mul (.rat 4 1) (.par n!"GF")) (.sqrt (.rat 2 1))) (.mul (.rat (-16) 1) (.conj (.sub (.sub (.add (.div (.mul (.rat 8 1) (.inp n!"10pdsuc")) (.rat 3 1)) (.inp n!"7pdsuc")) (.div (.inp n!"8pdsuc") (.rat 6 1))) (.mul (.rat 16 1) (.inp n!"9pdsuc"))))))),
  (n!"S8ddRR_2223", (.mul (.div (.mul (.rat 4 1) (.par n!"GF")) (.sqrt (.rat 2 1))) (.mul (.rat (-16) 1) (.sub (.inp n!"7psbss") (.mul (.rat 16 1) (.inp n!"9psbss")))))),
  (n!"SedRL_2313", (.mul (.div (.mul (.rat 4 1) (.par n!"GF")) (.sqrt (.rat 2 1))) (.add (.mul (.rat (-24) 1) (.inp n!"9pdbmutau")) (.add (.inp n!"5pdbmutau") (.mul (.rat 40 1) (.inp n!"9pdbmutau")))))),
  (n!"VnueduLL_1312", (.mul (.div (.mul (.rat 4 1) (.par n!"GF")) (.sqrt (.rat 2 1))) (.conj (.inp n!"1cdtaue")))),
  (n!"SedRR_1321", (.mul (.div (.mul (.rat 4 1) (.par n!"GF")) (.sqrt (.rat 2 1))) (.add (.neg (.conj (.mul (.rat (-24) 1) (.inp n!"9pdstaue")))) (.conj (.add (.inp n!"5pdstaue") (.mul (.rat 40 1) (.inp n!"9pdstaue"))))))),
  (n!"S1ddRR_2121", (.mul (.div (.mul (.rat 4 1) (.par n!"GF")) (.sqrt (.rat 2 1))) (.add (.conj (.inp n!"2dsds")) (.div (.conj (.inp n!"3dsds")) (.rat 3 1))))),
  (n!"V8ddLR_1222", (.mul (.div (.mul (.rat 4 1) (.par n!"GF")) (.sqrt (.rat 2 1))) (.neg (.add (.inp n!"5dsss") (.mul (.rat 16 1) (.inp n!"9dsss")))))),
  (n!"VdeLR_2331", (.mul (.div (.mul (.rat 4 1) (.par n!"GF")) (.sqrt (.rat 2 1))) (.add (.mul (.rat (-6) 1) (.inp n!"3sbtaue")) (.add (.inp n!"1sbtaue") (.mul (.rat 10 1) (.inp n!"3sbtaue")))))),
  (n!"VnudLL_2212", (.mul (.div (.mul (.rat 4 1) (.par n!"GF")) (.sqrt (.rat 2 1))) (.inp n!"nu1dsmumu"))),
  (n!"S8udduRR_1311", (.mul (.div (.mul (.rat 4 1) (.par n!"GF")) (.sqrt (.rat 2 1))) (.mul (.rat (-16) 1) (.sub (.sub (.add (.div (.mul (.rat 8 1) (.inp n!"10dbuu")) (.rat 3 1)) (.inp n!"7dbuu")) (.div (.inp n!"8dbuu") (.rat 6 1))) (.mul (.rat 16 1) (.inp n!"9dbuu")))))),
  (n!"SnueduRL_3222", (.mul (.div (.mul (.rat 4 1) (.par n!"GF")) (.sqrt (.rat 2 1))) (.conj (.inp n!"5csmutau"))))]

def Bern_to_JMS_20 : List (ℕ × Sym) := [
  (n!"VnueduLR_3331", (.mul (.div (.mul (.rat 4 1) (.par n!"GF")) (.sqrt (.rat 2 1))) (.conj (.inp n!"1pubtautau")))),
  (n!"SedRR_2123", (.mul (.div (.mul (.rat 4 1) (.par n!"GF")) (.sqrt (.rat 2 1))) (.add (.mul (.rat 24 1) (.inp n!"9sbmue")) (.add (.inp n!"5sbmue") (.mul (.rat 40 1) (.inp n!"9sbmue")))))),
  (n!"VnueduLR_1122", (.mul (.div (.mul (.rat 4 1) (.par n!"GF")) (.sqrt (.rat 2 1))) (.conj (.inp n!"1pcsee")))),
  (n!"dG_23", (.mul (.div (.mul (.rat 4 1) (.par n!"GF")) (.sqrt (.rat 2 1))) (.div (.inp n!"8gsb") (.div (.sqrt (.mul (.mul (.rat 4 1) .pi) (.par n!"alpha_s"))) (.par n!"m_b"))))),
  (n!"S1udRR_2132", (.mul (.div (.mul (.rat 4 1) (.par n!"GF")) (.sqrt (.rat 2 1))) (.sub (.sub (.add (.conj (.add (.sub (.add (.neg (.div (.mul (.rat 32 1) (.inp n!"10psbuc")) (.rat 3 1))) (.inp n!"5psbuc")) (.div (.inp n!"6psbuc") (.rat 6 1))) (.mul (.rat 64 1) (.inp n!"9psbuc")))) (.div (.conj (.add (.mul (.rat 32 1) (.inp n!"10psbuc")) (.div (.inp n!"6psbuc") (.rat 2 1)))) (.rat 3 1))) (.mul (.rat 4 1) (.conj (.sub (.sub (.add (.div (.mul (.rat 8 1) (.inp n!"10psbuc")) (.rat 3 1)) (.inp n!"7psbuc")) (.div (.inp n!"8psbuc") (.rat 6 1))) (.mul (.rat 16 1) (.inp n!"9psbuc")))))) (.div (.mul (.rat 4 1) (.conj (.add (.mul (.rat (-8) 1) (.inp n!"10psbuc")) (.div (.inp n!"8psbuc") (.rat 2 1))))) (.rat 3 1))))),
  (n!"V8udduLR_2132", (.mul (.div (.mul (.rat 4 1) (.par n!"GF")) (.sqrt (.rat 2 1))) (.neg (.conj (.add (.sub (.add (.neg (.div (.mul (.rat 8 1) (.inp n!"10dbcc")) (.rat 3 1))) (.inp n!"5dbcc")) (.div (.inp n!"6dbcc") (.rat 6 1))) (.mul (.rat 16 1) (.inp n!"9dbcc"))))))),
  (n!"SnueduRR_3312", (.mul (.div (.mul (.rat 4 1) (.par n!"GF")) (.sqrt (.rat 2 1))) (.conj (.inp n!"5pcdtautau")))),
  (n!"V8udRR_1113", (.mul (.div (.mul (.rat 4 1) (.par n!"GF")) (.sqrt (.rat 2 1))) (.mul (.rat 2 1) (.add (.div (.inp n!"2pdbuu") (.rat 2 1)) (.mul (.rat 8 1) (.inp n!"4pdbuu")))))),
  (n!"TedRR_1312", (.mul (.div (.mul (.rat 4 1) (.par n!"GF")) (.sqrt (.rat 2 1))) (.add (.sub (.sub (.add (.div (.inp n!"7dsetau") (.rat 2 1)) (.div (.inp n!"7pdsetau") (.rat 2 1))) (.mul (.rat 8 1) (.inp n!"9dsetau"))) (.mul (.rat 8 1) (.inp n!"9pdsetau"))) (.add (.sub (.sub (.div (.inp n!"7dsetau") (.rat 2 1)) (.div (.inp n!"7pdsetau") (.rat 2 1))) (.mul (.rat 8 1) (.inp n!"9dsetau"))) (.mul (.rat 8 1) (.inp n!"9pdsetau")))))),
  (n!"SedRL_1223", (.mul (.div (.mul (.rat 4 1) (.par n!"GF")) (.sqrt (.rat 2 1))) (.add (.mul (.rat (-24) 1) (.inp n!"9psbemu")) (.add (.inp n!"5psbemu") (.mul (.rat 40 1) (.inp n!"9psbemu")))))),
  (n!"VedLL_1332", (.mul (.div (.mul (.rat 4 1) (.par n!"GF")) (.sqrt (.rat 2 1))) (.conj (.add (.neg (.mul (.rat (-6) 1) (.inp n!"3sbtaue"))) (.add (.inp n!"1sbtaue") (.mul (.rat 10 1) (.inp n!"3sbtaue"))))))),
  (n!"V1udRR_1232", (.mul (.div (.mul (.rat 4 1) (.par n!"GF")) (.sqrt (.rat 2 1))) (.conj (.add (.sub (.add (.sub (.inp n!"1psbcu") (.div (.inp n!"2psbcu") (.rat 6 1))) (.mul (.rat 16 1) (.inp n!"3psbcu"))) (.div (.mul (.rat 8 1) (.inp n!"4psbcu")) (.rat 3 1))) (.div (.add (.div (.inp n!"2psbcu") (.rat 2 1)) (.mul (.rat 8 1) (.inp n!"4psbcu"))) (.rat 3 1)))))),
  (n!"V1udLR_2213", (.mul (.div (.mul (.rat 4 1) (.par n!"GF")) (.sqrt (.rat 2 1))) (.add (.sub (.add (.sub (.inp n!"1pdbcc") (.div (.inp n!"2pdbcc") (.rat 6 1))) (.mul (.rat 4 1) (.inp n!"3pdbcc"))) (.div (.mul (.rat 2 1) (.inp n!"4pdbcc")) (.rat 3 1))) (.div (.add (.div (.inp n!"2pdbcc") (.rat 2 1)) (.mul (.rat 2 1) (.inp n!"4pdbcc"))) (.rat 3 1))))),
  (n!"SedRR_1313", (.mul (.div (.mul (.rat 4 1) (.par n!"GF")) (.sqrt (.rat 2 1))) (.add (.mul (.rat 24 1) (.inp n!"9dbetau")) (.add (.inp n!"5dbetau") (.mul (.rat 40 1) (.inp n!"9dbetau")))))),
  (n!"V8udduLR_1322", (.mul (.div (.mul (.rat 4 1) (.par n!"GF")) (.sqrt (.rat 2 1))) (.neg (.add (.sub (.add (.neg (.div (.mul (.rat 8 1) (.inp n!"10psbuc")) (.rat 3 1))) (.inp n!"5psbuc")) (.div (.inp n!"6psbuc") (.rat 6 1))) (.mul (.rat 16 1) (.inp n!"9psbuc")))))),
  (n!"V1ddLR_1112", (.mul (.div (.mul (.rat 4 1) (.par n!"GF")) (.sqrt (.rat 2 1))) (.add (.add (.inp n!"1pdsdd") (.mul (.rat 4 1) (.inp n!"3pdsdd"))) (.div (.mul (.div (.rat (-1) 1) (.rat 2 1)) (.add (.inp n!"5pdsdd") (.mul (.rat 16 1) (.inp n!"9pdsdd")))) (.rat 3 1))))),
  (n!"VdeLR_2323", (.mul (.div (.mul (.rat 4 1) (.par n!"GF")) (.sqrt (.rat 2 1))) (.add (.mul (.rat (-6) 1) (.inp n!"3sbmutau")) (.add (.inp n!"1sbmutau") (.mul (.rat 10 1) (.inp n!"3sbmutau")))))),
  (n!"TnueduRR_3121", (.mul (.div (.mul (.rat 4 1) (.par n!"GF")) (.sqrt (.rat 2 1))) (.conj (.inp n!"7pusetau"))))]

/-- the items returned by `Bern_to_JMS` (in the order of the search tree of the model) -/
def Bern_to_JMS : List (ℕ × Sym) :=
  Bern_to_JMS_0 ++ (Bern_to_JMS_1 ++ (Bern_to_JMS_2 ++ (Bern_to_JMS_3 ++ (Bern_to_JMS_4 ++ (Bern_to_JMS_5 ++ (Bern_to_JMS_6 ++ (Bern_to_JMS_7 ++ (Bern_to_JMS_8 ++ (Bern_to_JMS_9 ++ (Bern_to_JMS_10 ++ (Bern_to_JMS_11 ++ (Bern_to_JMS_12 ++ (Bern_to_JMS_13 ++ (Bern_to_JMS_14 ++ (Bern_to_JMS_15 ++ (Bern_to_JMS_16 ++ (Bern_to_JMS_17 ++ (Bern_to_JMS_18 ++ (Bern_to_JMS_19 ++ (Bern_to_JMS_20))))))))))))))))))))

end Verif.Gen.WetOut
