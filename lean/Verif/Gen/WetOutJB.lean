import Verif.Model.Py

/-!
# The dictionary returned by `JMS_to_Bern`

GENERATED by tools/gen_wetout.lean; that this is what the translator returns is proved in
`Lemmas/WetRunsJB`.
-/

set_option autoImplicit false
set_option maxRecDepth 20000

namespace Verif.Gen.WetOut
open Verif.Py

def JMS_to_Bern_0 : List (ℕ × Sym) := [
  (n!"4pdbcc", (.mul (.div (.div (.sqrt (.rat 2 1)) (.par n!"GF")) (.rat 4 1)) (.sub (.div (.div (.inp n!"V8udRR_2213") (.rat 2 1)) (.rat 6 1)) (.div (.div (.inp n!"V8udLR_2213") (.rat 2 1)) (.rat 6 1))))),
  (n!"7pdbmutau", (.mul (.div (.div (.sqrt (.rat 2 1)) (.par n!"GF")) (.rat 4 1)) (.sub (.add (.div (.mul (.rat (-2) 1) (.sub (.div (.inp n!"SedRL_2313") (.rat 2 1)) (.div (.conj (.inp n!"SedRR_3231")) (.rat 2 1)))) (.rat 3 1)) (.add (.div (.inp n!"TedRR_2313") (.rat 2 1)) (.div (.conj (.inp n!"TedRR_3231")) (.rat 2 1)))) (.sub (.div (.inp n!"TedRR_2313") (.rat 2 1)) (.div (.conj (.inp n!"TedRR_3231")) (.rat 2 1)))))),
  (n!"5pcdemu", (.mul (.div (.div (.sqrt (.rat 2 1)) (.par n!"GF")) (.rat 4 1)) (.conj (.inp n!"SnueduRR_2112")))),
  (n!"5dstaue", (.mul (.div (.div (.sqrt (.rat 2 1)) (.par n!"GF")) (.rat 4 1)) (.sub (.add (.div (.conj (.inp n!"SedRL_1321")) (.rat 2 1)) (.div (.inp n!"SedRR_3112") (.rat 2 1))) (.div (.mul (.rat 5 1) (.add (.div (.neg (.conj (.inp n!"SedRL_1321"))) (.rat 2 1)) (.div (.inp n!"SedRR_3112") (.rat 2 1)))) (.rat 3 1))))),
  (n!"7dbee", (.mul (.div (.div (.sqrt (.rat 2 1)) (.par n!"GF")) (.rat 4 1)) (.add (.add (.div (.mul (.rat 2 1) (.add (.div (.neg (.conj (.inp n!"SedRL_1131"))) (.rat 2 1)) (.div (.inp n!"SedRR_1113") (.rat 2 1)))) (.rat 3 1)) (.add (.div (.inp n!"TedRR_1113") (.rat 2 1)) (.div (.conj (.inp n!"TedRR_1131")) (.rat 2 1)))) (.sub (.div (.inp n!"TedRR_1113") (.rat 2 1)) (.div (.conj (.inp n!"TedRR_1131")) (.rat 2 1)))))),
  (n!"nu1dsmue", (.mul (.div (.div (.sqrt (.rat 2 1)) (.par n!"GF")) (.rat 4 1)) (.conj (.inp n!"VnudLL_1221")))),
  (n!"5dbtaumu", (.mul (.div (.div (.sqrt (.rat 2 1)) (.par n!"GF")) (.rat 4 1)) (.sub (.add (.div (.conj (.inp n!"SedRL_2331")) (.rat 2 1)) (.div (.inp n!"SedRR_3213") (.rat 2 1))) (.div (.mul (.rat 5 1) (.add (.div (.neg (.conj (.inp n!"SedRL_2331"))) (.rat 2 1)) (.div (.inp n!"SedRR_3213") (.rat 2 1)))) (.rat 3 1))))),
  (n!"10sbdd", (.mul (.div (.div (.sqrt (.rat 2 1)) (.par n!"GF")) (.rat 4 1)) (.sub (.div (.add (.add (.div (.neg (.inp n!"S1ddRR_1321")) (.rat 2 1)) (.div (.inp n!"S8ddRR_1321") (.mul (.rat 4 1) (.rat 3 1)))) (.div (.inp n!"S8ddRR_1123") (.rat 2 1))) (.rat 24 1)) (.div (.add (.mul (.rat (-2) 1) (.conj (.inp n!"V1ddLR_1231"))) (.div (.conj (.inp n!"V8ddLR_1231")) (.rat 3 1))) (.rat 24 1))))),
  (n!"5dbee", (.mul (.div (.div (.sqrt (.rat 2 1)) (.par n!"GF")) (.rat 4 1)) (.sub (.add (.div (.conj (.inp n!"SedRL_1131")) (.rat 2 1)) (.div (.inp n!"SedRR_1113") (.rat 2 1))) (.div (.mul (.rat 5 1) (.add (.div (.neg (.conj (.inp n!"SedRL_1131"))) (.rat 2 1)) (.div (.inp n!"SedRR_1113") (.rat 2 1)))) (.rat 3 1))))),
  (n!"8pgds", (.mul (.div (.div (.sqrt (.rat 2 1)) (.par n!"GF")) (.rat 4 1)) (.mul (.div (.sqrt (.mul (.mul (.rat 4 1) .pi) (.par n!"alpha_s"))) (.par n!"m_s")) (.conj (.inp n!"dG_21"))))),
  (n!"1ustaue", (.mul (.div (.div (.sqrt (.rat 2 1)) (.par n!"GF")) (.rat 4 1)) (.conj (.inp n!"VnueduLL_1321")))),
  (n!"3dbemu", (.mul (.div (.div (.sqrt (.rat 2 1)) (.par n!"GF")) (.rat 4 1)) (.div (.neg (.sub (.div (.inp n!"VdeLR_1312") (.rat 2 1)) (.div (.inp n!"VedLL_1213") (.rat 2 1)))) (.rat 6 1)))),
  (n!"5pdstaue", (.mul (.div (.div (.sqrt (.rat 2 1)) (.par n!"GF")) (.rat 4 1)) (.add (.div (.mul (.rat 5 1) (.sub (.div (.inp n!"SedRL_3112") (.rat 2 1)) (.div (.conj (.inp n!"SedRR_1321")) (.rat 2 1)))) (.rat 3 1)) (.add (.div (.inp n!"SedRL_3112") (.rat 2 1)) (.div (.conj (.inp n!"SedRR_1321")) (.rat 2 1)))))),
  (n!"7pdstaumu", (.mul (.div (.div (.sqrt (.rat 2 1)) (.par n!"GF")) (.rat 4 1)) (.sub (.add (.div (.mul (.rat (-2) 1) (.sub (.div (.inp n!"SedRL_3212") (.rat 2 1)) (.div (.conj (.inp n!"SedRR_2321")) (.rat 2 1)))) (.rat 3 1)) (.add (.div (.inp n!"TedRR_3212") (.rat 2 1)) (.div (.conj (.inp n!"TedRR_2321")) (.rat 2 1)))) (.sub (.div (.inp n!"TedRR_3212") (.rat 2 1)) (.div (.conj (.inp n!"TedRR_2321")) (.rat 2 1)))))),
  (n!"5usmue", (.mul (.div (.div (.sqrt (.rat 2 1)) (.par n!"GF")) (.rat 4 1)) (.conj (.inp n!"SnueduRL_1221")))),
  (n!"1pudemu", (.mul (.div (.div (.sqrt (.rat 2 1)) (.par n!"GF")) (.rat 4 1)) (.conj (.inp n!"VnueduLR_2111")))),
  (n!"3dbee", (.mul (.div (.div (.sqrt (.rat 2 1)) (.par n!"GF")) (.rat 4 1)) (.div (.neg (.sub (.div (.inp n!"VdeLR_1311") (.rat 2 1)) (.div (.inp n!"VedLL_1113") (.rat 2 1)))) (.rat 6 1)))),
  (n!"2pdbdb", (.mul (.div (.div (.sqrt (.rat 2 1)) (.par n!"GF")) (.rat 4 1)) (.sub (.inp n!"S1ddRR_1313") (.div (.inp n!"S8ddRR_1313") (.mul (.rat 2 1) (.rat 3 1)))))),
  (n!"5pdsmue", (.mul (.div (.div (.sqrt (.rat 2 1)) (.par n!"GF")) (.rat 4 1)) (.add (.div (.mul (.rat 5 1) (.sub (.div (.inp n!"SedRL_2112") (.rat 2 1)) (.div (.conj (.inp n!"SedRR_1221")) (.rat 2 1)))) (.rat 3 1)) (.add (.div (.inp n!"SedRL_2112") (.rat 2 1)) (.div (.conj (.inp n!"SedRR_1221")) (.rat 2 1)))))),
  (n!"7pdbemu", (.mul (.div (.div (.sqrt (.rat 2 1)) (.par n!"GF")) (.rat 4 1)) (.sub (.add (.div (.mul (.rat (-2) 1) (.sub (.div (.inp n!"SedRL_1213") (.rat 2 1)) (.div (.conj (.inp n!"SedRR_2131")) (.rat 2 1)))) (.rat 3 1)) (.add (.div (.inp n!"TedRR_1213") (.rat 2 1)) (.div (.conj (.inp n!"TedRR_2131")) (.rat 2 1)))) (.sub (.div (.inp n!"TedRR_1213") (.rat 2 1)) (.div (.conj (.inp n!"TedRR_2131")) (.rat 2 1)))))),
  (n!"nu1dsetau", (.mul (.div (.div (.sqrt (.rat 2 1)) (.par n!"GF")) (.rat 4 1)) (.inp n!"VnudLL_1312"))),
  (n!"1dbee", (.mul (.div (.div (.sqrt (.rat 2 1)) (.par n!"GF")) (.rat 4 1)) (.add (.div (.mul (.rat 5 1) (.sub (.div (.inp n!"VdeLR_1311") (.rat 2 1)) (.div (.inp n!"VedLL_1113") (.rat 2 1)))) (.rat 3 1)) (.add (.div (.inp n!"VdeLR_1311") (.rat 2 1)) (.div (.inp n!"VedLL_1113") (.rat 2 1)))))),
  (n!"5pcbtautau", (.mul (.div (.div (.sqrt (.rat 2 1)) (.par n!"GF")) (.rat 4 1)) (.conj (.inp n!"SnueduRR_3332")))),
  (n!"1psbuu", (.mul (.div (.div (.sqrt (.rat 2 1)) (.par n!"GF")) (.rat 4 1)) (.add (.sub (.add (.div (.neg (.sub (.inp n!"V1udRR_1123") (.div (.inp n!"V8udRR_1123") (.mul (.rat 2 1) (.rat 3 1))))) (.rat 3 1)) (.div (.mul (.rat 4 1) (.sub (.inp n!"V1udLR_1123") (.div (.inp n!"V8udLR_1123") (.mul (.rat 2 1) (.rat 3 1))))) (.rat 3 1))) (.div (.div (.inp n!"V8udRR_1123") (.rat 2 1)) (.mul (.rat 3 1) (.rat 3 1)))) (.div (.mul (.rat 4 1) (.div (.inp n!"V8udLR_1123") (.rat 2 1))) (.mul (.rat 3 1) (.rat 3 1)))))),
  (n!"1ubtautau", (.mul (.div (.div (.sqrt (.rat 2 1)) (.par n!"GF")) (.rat 4 1)) (.conj (.inp n!"VnueduLL_3331")))),
  (n!"1pcdee", (.mul (.div (.div (.sqrt (.rat 2 1)) (.par n!"GF")) (.rat 4 1)) (.conj (.inp n!"VnueduLR_1112")))),
  (n!"4pdbuu", (.mul (.div (.div (.sqrt (.rat 2 1)) (.par n!"GF")) (.rat 4 1)) (.sub (.div (.div (.inp n!"V8udRR_1113") (.rat 2 1)) (.rat 6 1)) (.div (.div (.inp n!"V8udLR_1113") (.rat 2 1)) (.rat 6 1))))),
  (n!"7pcdmumu", (.mul (.div (.div (.sqrt (.rat 2 1)) (.par n!"GF")) (.rat 4 1)) (.conj (.inp n!"TnueduRR_2212")))),
  (n!"1pdbuc", (.mul (.div (.div (.sqrt (.rat 2 1)) (.par n!"GF")) (.rat 4 1)) (.add (.sub (.add (.div (.neg (.sub (.inp n!"V1udRR_1213") (.div (.inp n!"V8udRR_1213") (.mul (.rat 2 1) (.rat 3 1))))) (.rat 3 1)) (.div (.mul (.rat 4 1) (.sub (.inp n!"V1udLR_1213") (.div (.inp n!"V8udLR_1213") (.mul (.rat 2 1) (.rat 3 1))))) (.rat 3 1))) (.div (.div (.inp n!"V8udRR_1213") (.rat 2 1)) (.mul (.rat 3 1) (.rat 3 1)))) (.div (.mul (.rat 4 1) (.div (.inp n!"V8udLR_1213") (.rat 2 1))) (.mul (.rat 3 1) (.rat 3 1)))))),
  (n!"7pustautau", (.mul (.div (.div (.sqrt (.rat 2 1)) (.par n!"GF")) (.rat 4 1)) (.conj (.inp n!"TnueduRR_3321")))),
  (n!"1cdmue", (.mul (.div (.div (.sqrt (.rat 2 1)) (.par n!"GF")) (.rat 4 1)) (.conj (.inp n!"VnueduLL_1212")))),
  (n!"4dsds", (.mul (.div (.div (.sqrt (.rat 2 1)) (.par n!"GF")) (.rat 4 1)) (.neg (.inp n!"V8ddLR_1212")))),
  (n!"7pcbmumu", (.mul (.div (.div (.sqrt (.rat 2 1)) (.par n!"GF")) (.rat 4 1)) (.conj (.inp n!"TnueduRR_2232")))),
  (n!"9sbdd", (.mul (.div (.div (.sqrt (.rat 2 1)) (.par n!"GF")) (.rat 4 1)) (.sub (.add (.sub (.div (.sub (.sub (.inp n!"S1ddRR_1123") (.div (.inp n!"S8ddRR_1321") (.rat 4 1))) (.div (.inp n!"S8ddRR_1123") (.mul (.rat 2 1) (.rat 3 1)))) (.rat 48 1)) (.div (.neg (.conj (.inp n!"V8ddLR_1231"))) (.rat 48 1))) (.div (.add (.add (.div (.neg (.inp n!"S1ddRR_1321")) (.rat 2 1)) (.div (.inp n!"S8ddRR_1321") (.mul (.rat 4 1) (.rat 3 1)))) (.div (.inp n!"S8ddRR_1123") (.rat 2 1))) (.mul (.rat 48 1) (.rat 3 1)))) (.div (.add (.mul (.rat (-2) 1) (.conj (.inp n!"V1ddLR_1231"))) (.div (.conj (.inp n!"V8ddLR_1231")) (.rat 3 1))) (.mul (.rat 48 1) (.rat 3 1)))))),
  (n!"8psbcc", (.mul (.div (.div (.sqrt (.rat 2 1)) (.par n!"GF")) (.rat 4 1)) (.sub (.add (.mul (.rat 2 1) (.add (.div (.neg (.conj (.inp n!"S1udduRR_2232"))) (.rat 8 1)) (.div (.div (.conj (.inp n!"S8udduRR_2232")) (.rat 16 1)) (.rat 3 1)))) (.div (.mul (.rat 2 1) (.add (.add (.div (.neg (.conj (.inp n!"S1udduRR_2232"))) (.rat 2 1)) (.div (.conj (.inp n!"S8udduRR_2232")) (.mul (.rat 4 1) (.rat 3 1)))) (.div (.conj (.inp n!"S8udRR_2232")) (.rat 2 1)))) (.rat 3 1))) (.div (.mul (.rat 2 1) (.add (.mul (.rat (-2) 1) (.inp n!"V1udduLR_2322")) (.div (.inp n!"V8udduLR_2322") (.rat 3 1)))) (.rat 3 1))))),
  (n!"3dstaue", (.mul (.div (.div (.sqrt (.rat 2 1)) (.par n!"GF")) (.rat 4 1)) (.div (.neg (.sub (.div (.inp n!"VdeLR_1231") (.rat 2 1)) (.div (.conj (.inp n!"VedLL_1321")) (.rat 2 1)))) (.rat 6 1)))),
  (n!"1cdetau", (.mul (.div (.div (.sqrt (.rat 2 1)) (.par n!"GF")) (.rat 4 1)) (.conj (.inp n!"VnueduLL_3112")))),
  (n!"2dsds", (.mul (.div (.div (.sqrt (.rat 2 1)) (.par n!"GF")) (.rat 4 1)) (.sub (.conj (.inp n!"S1ddRR_2121")) (.div (.conj (.inp n!"S8ddRR_2121")) (.mul (.rat 2 1) (.rat 3 1)))))),
  (n!"7sbdd", (.mul (.div (.div (.sqrt (.rat 2 1)) (.par n!"GF")) (.rat 4 1)) (.sub (.add (.add (.add (.sub (.div (.sub (.sub (.inp n!"S1ddRR_1123") (.div (.inp n!"S8ddRR_1321") (.rat 4 1))) (.div (.inp n!"S8ddRR_1123") (.mul (.rat 2 1) (.rat 3 1)))) (.rat 3 1)) (.div (.neg (.conj (.inp n!"V8ddLR_1231"))) (.rat 3 1))) (.div (.neg (.inp n!"S8ddRR_1321")) (.rat 16 1))) (.div (.add (.div (.neg (.inp n!"S1ddRR_1321")) (.rat 8 1)) (.div (.inp n!"S8ddRR_1321") (.mul (.rat 16 1) (.rat 3 1)))) (.rat 3 1))) (.div (.add (.add (.div (.neg (.inp n!"S1ddRR_1321")) (.rat 2 1)) (.div (.inp n!"S8ddRR_1321") (.mul (.rat 4 1) (.rat 3 1)))) (.div (.inp n!"S8ddRR_1123") (.rat 2 1))) (.mul (.rat 3 1) (.rat 3 1)))) (.div (.add (.mul (.rat (-2) 1) (.conj (.inp n!"V1ddLR_1231"))) (.div (.conj (.inp n!"V8ddLR_1231")) (.rat 3 1))) (.mul (.rat 3 1) (.rat 3 1)))))),
  (n!"7pdbbb", (.mul (.div (.div (.sqrt (.rat 2 1)) (.par n!"GF")) (.rat 4 1)) (.add (.sub (.div (.sub (.sub (.conj (.inp n!"S1ddRR_3133")) (.div (.conj (.inp n!"S8ddRR_3133")) (.rat 4 1))) (.div (.div (.conj (.inp n!"S8ddRR_3133")) (.rat 2 1)) (.rat 3 1))) (.rat 3 1)) (.div (.neg (.inp n!"V8ddLR_3313")) (.rat 3 1))) (.div (.neg (.conj (.inp n!"S8ddRR_3133"))) (.rat 16 1))))),
  (n!"nu1dsmutau", (.mul (.div (.div (.sqrt (.rat 2 1)) (.par n!"GF")) (.rat 4 1)) (.inp n!"VnudLL_2312"))),
  (n!"8dscu", (.mul (.div (.div (.sqrt (.rat 2 1)) (.par n!"GF")) (.rat 4 1)) (.sub (.add (.mul (.rat 2 1) (.add (.div (.neg (.inp n!"S1udduRR_2211")) (.rat 8 1)) (.div (.inp n!"S8udduRR_2211") (.mul (.rat 16 1) (.rat 3 1))))) (.div (.mul (.rat 2 1) (.add (.add (.div (.neg (.inp n!"S1udduRR_2211")) (.rat 2 1)) (.div (.inp n!"S8udduRR_2211") (.mul (.rat 4 1) (.rat 3 1)))) (.div (.inp n!"S8udRR_2112") (.rat 2 1)))) (.rat 3 1))) (.div (.mul (.rat 2 1) (.add (.mul (.rat (-2) 1) (.conj (.inp n!"V1udduLR_1122"))) (.div (.conj (.inp n!"V8udduLR_1122")) (.rat 3 1)))) (.rat 3 1))))),
  (n!"nu1dbemu", (.mul (.div (.div (.sqrt (.rat 2 1)) (.par n!"GF")) (.rat 4 1)) (.inp n!"VnudLL_1213"))),
  (n!"1cbetau", (.mul (.div (.div (.sqrt (.rat 2 1)) (.par n!"GF")) (.rat 4 1)) (.conj (.inp n!"VnueduLL_3132")))),
  (n!"5cdmutau", (.mul (.div (.div (.sqrt (.rat 2 1)) (.par n!"GF")) (.rat 4 1)) (.conj (.inp n!"SnueduRL_3212")))),
  (n!"3sbmutau", (.mul (.div (.div (.sqrt (.rat 2 1)) (.par n!"GF")) (.rat 4 1)) (.div (.neg (.sub (.div (.inp n!"VdeLR_2323") (.rat 2 1)) (.div (.inp n!"VedLL_2323") (.rat 2 1)))) (.rat 6 1)))),
  (n!"5sbdd", (.mul (.div (.div (.sqrt (.rat 2 1)) (.par n!"GF")) (.rat 4 1)) (.add (.sub (.add (.div (.neg (.sub (.sub (.inp n!"S1ddRR_1123") (.div (.inp n!"S8ddRR_1321") (.rat 4 1))) (.div (.inp n!"S8ddRR_1123") (.mul (.rat 2 1) (.rat 3 1))))) (.rat 3 1)) (.div (.mul (.rat 4 1) (.neg (.conj (.inp n!"V8ddLR_1231")))) (.rat 3 1))) (.div (.add (.add (.div (.neg (.inp n!"S1ddRR_1321")) (.rat 2 1)) (.div (.inp n!"S8ddRR_1321") (.mul (.rat 4 1) (.rat 3 1)))) (.div (.inp n!"S8ddRR_1123") (.rat 2 1))) (.mul (.rat 3 1) (.rat 3 1)))) (.div (.mul (.rat 4 1) (.add (.mul (.rat (-2) 1) (.conj (.inp n!"V1ddLR_1231"))) (.div (.conj (.inp n!"V8ddLR_1231")) (.rat 3 1)))) (.mul (.rat 3 1) (.rat 3 1)))))),
  (n!"5pdsee", (.mul (.div (.div (.sqrt (.rat 2 1)) (.par n!"GF")) (.rat 4 1)) (.add (.div (.mul (.rat 5 1) (.sub (.div (.inp n!"SedRL_1112") (.rat 2 1)) (.div (.conj (.inp n!"SedRR_1121")) (.rat 2 1)))) (.rat 3 1)) (.add (.div (.inp n!"SedRL_1112") (.rat 2 1)) (.div (.conj (.inp n!"SedRR_1121")) (.rat 2 1)))))),
  (n!"nu1sbee", (.mul (.div (.div (.sqrt (.rat 2 1)) (.par n!"GF")) (.rat 4 1)) (.inp n!"VnudLL_1123"))),
  (n!"5pdsmutau", (.mul (.div (.div (.sqrt (.rat 2 1)) (.par n!"GF")) (.rat 4 1)) (.add (.div (.mul (.rat 5 1) (.sub (.div (.inp n!"SedRL_2312") (.rat 2 1)) (.div (.conj (.inp n!"SedRR_3221")) (.rat 2 1)))) (.rat 3 1)) (.add (.div (.inp n!"SedRL_2312") (.rat 2 1)) (.div (.conj (.inp n!"SedRR_3221")) (.rat 2 1))))))]

def JMS_to_Bern_1 : List (ℕ × Sym) := [
  (n!"6dscu", (.mul (.div (.div (.sqrt (.rat 2 1)) (.par n!"GF")) (.rat 4 1)) (.add (.div (.mul (.rat (-2) 1) (.add (.add (.div (.neg (.inp n!"S1udduRR_2211")) (.rat 2 1)) (.div (.inp n!"S8udduRR_2211") (.mul (.rat 4 1) (.rat 3 1)))) (.div (.inp n!"S8udRR_2112") (.rat 2 1)))) (.rat 3 1)) (.div (.mul (.rat 8 1) (.add (.mul (.rat (-2) 1) (.conj (.inp n!"V1udduLR_1122"))) (.div (.conj (.inp n!"V8udduLR_1122")) (.rat 3 1)))) (.rat 3 1))))),
  (n!"1pdsdd", (.mul (.div (.div (.sqrt (.rat 2 1)) (.par n!"GF")) (.rat 4 1)) (.add (.div (.neg (.inp n!"VddRR_1112")) (.rat 3 1)) (.div (.mul (.rat 4 1) (.sub (.inp n!"V1ddLR_1112") (.div (.inp n!"V8ddLR_1112") (.mul (.rat 2 1) (.rat 3 1))))) (.rat 3 1))))),
  (n!"5ubemu", (.mul (.div (.div (.sqrt (.rat 2 1)) (.par n!"GF")) (.rat 4 1)) (.conj (.inp n!"SnueduRL_2131")))),
  (n!"3pdsmue", (.mul (.div (.div (.sqrt (.rat 2 1)) (.par n!"GF")) (.rat 4 1)) (.div (.add (.div (.neg (.conj (.inp n!"VedLR_1221"))) (.rat 2 1)) (.div (.conj (.inp n!"VedRR_1221")) (.rat 2 1))) (.rat 6 1)))),
  (n!"3sbdd", (.mul (.div (.div (.sqrt (.rat 2 1)) (.par n!"GF")) (.rat 4 1)) (.sub (.add (.sub (.div (.inp n!"VddLL_1123") (.rat 12 1)) (.div (.sub (.inp n!"V1ddLR_2311") (.div (.inp n!"V8ddLR_2311") (.mul (.rat 2 1) (.rat 3 1)))) (.rat 12 1))) (.div (.conj (.inp n!"VddLL_1231")) (.mul (.rat 12 1) (.rat 3 1)))) (.div (.div (.inp n!"V8ddLR_2311") (.rat 2 1)) (.mul (.rat 12 1) (.rat 3 1)))))),
  (n!"5pdbemu", (.mul (.div (.div (.sqrt (.rat 2 1)) (.par n!"GF")) (.rat 4 1)) (.add (.div (.mul (.rat 5 1) (.sub (.div (.inp n!"SedRL_1213") (.rat 2 1)) (.div (.conj (.inp n!"SedRR_2131")) (.rat 2 1)))) (.rat 3 1)) (.add (.div (.inp n!"SedRL_1213") (.rat 2 1)) (.div (.conj (.inp n!"SedRR_2131")) (.rat 2 1)))))),
  (n!"4dscu", (.mul (.div (.div (.sqrt (.rat 2 1)) (.par n!"GF")) (.rat 4 1)) (.sub (.div (.div (.conj (.inp n!"V8udLL_1221")) (.rat 2 1)) (.rat 6 1)) (.div (.div (.inp n!"V8duLR_1221") (.rat 2 1)) (.rat 6 1))))),
  (n!"5sbemu", (.mul (.div (.div (.sqrt (.rat 2 1)) (.par n!"GF")) (.rat 4 1)) (.sub (.add (.div (.conj (.inp n!"SedRL_2132")) (.rat 2 1)) (.div (.inp n!"SedRR_1223") (.rat 2 1))) (.div (.mul (.rat 5 1) (.add (.div (.neg (.conj (.inp n!"SedRL_2132"))) (.rat 2 1)) (.div (.inp n!"SedRR_1223") (.rat 2 1)))) (.rat 3 1))))),
  (n!"1sbdd", (.mul (.div (.div (.sqrt (.rat 2 1)) (.par n!"GF")) (.rat 4 1)) (.add (.sub (.add (.div (.neg (.inp n!"VddLL_1123")) (.rat 3 1)) (.div (.mul (.rat 4 1) (.sub (.inp n!"V1ddLR_2311") (.div (.inp n!"V8ddLR_2311") (.mul (.rat 2 1) (.rat 3 1))))) (.rat 3 1))) (.div (.conj (.inp n!"VddLL_1231")) (.mul (.rat 3 1) (.rat 3 1)))) (.div (.mul (.rat 4 1) (.div (.inp n!"V8ddLR_2311") (.rat 2 1))) (.mul (.rat 3 1) (.rat 3 1)))))),
  (n!"2dscu", (.mul (.div (.div (.sqrt (.rat 2 1)) (.par n!"GF")) (.rat 4 1)) (.add (.div (.mul (.rat (-2) 1) (.div (.conj (.inp n!"V8udLL_1221")) (.rat 2 1))) (.rat 3 1)) (.div (.mul (.rat 8 1) (.div (.inp n!"V8duLR_1221") (.rat 2 1))) (.rat 3 1))))),
  (n!"10psbcc", (.mul (.div (.div (.sqrt (.rat 2 1)) (.par n!"GF")) (.rat 4 1)) (.sub (.div (.add (.add (.div (.neg (.conj (.inp n!"S1udduRR_2232"))) (.rat 2 1)) (.div (.conj (.inp n!"S8udduRR_2232")) (.mul (.rat 4 1) (.rat 3 1)))) (.div (.conj (.inp n!"S8udRR_2232")) (.rat 2 1))) (.rat 24 1)) (.div (.add (.mul (.rat (-2) 1) (.inp n!"V1udduLR_2322")) (.div (.inp n!"V8udduLR_2322") (.rat 3 1))) (.rat 24 1))))),
  (n!"8psbuu", (.mul (.div (.div (.sqrt (.rat 2 1)) (.par n!"GF")) (.rat 4 1)) (.sub (.add (.mul (.rat 2 1) (.add (.div (.neg (.conj (.inp n!"S1udduRR_1231"))) (.rat 8 1)) (.div (.div (.conj (.inp n!"S8udduRR_1231")) (.rat 16 1)) (.rat 3 1)))) (.div (.mul (.rat 2 1) (.add (.add (.div (.neg (.conj (.inp n!"S1udduRR_1231"))) (.rat 2 1)) (.div (.conj (.inp n!"S8udduRR_1231")) (.mul (.rat 4 1) (.rat 3 1)))) (.div (.conj (.inp n!"S8udRR_1132")) (.rat 2 1)))) (.rat 3 1))) (.div (.mul (.rat 2 1) (.add (.mul (.rat (-2) 1) (.inp n!"V1udduLR_1321")) (.div (.inp n!"V8udduLR_1321") (.rat 3 1)))) (.rat 3 1))))),
  (n!"5sbsb", (.mul (.div (.div (.sqrt (.rat 2 1)) (.par n!"GF")) (.rat 4 1)) (.add (.mul (.rat (-2) 1) (.inp n!"V1ddLR_2323")) (.div (.inp n!"V8ddLR_2323") (.rat 3 1))))),
  (n!"5psbuc", (.mul (.div (.div (.sqrt (.rat 2 1)) (.par n!"GF")) (.rat 4 1)) (.add (.sub (.add (.div (.neg (.sub (.sub (.conj (.inp n!"S1udRR_2132")) (.div (.conj (.inp n!"S8udduRR_2231")) (.rat 4 1))) (.div (.conj (.inp n!"S8udRR_2132")) (.mul (.rat 2 1) (.rat 3 1))))) (.rat 3 1)) (.div (.mul (.rat 4 1) (.neg (.inp n!"V8udduLR_1322"))) (.rat 3 1))) (.div (.add (.add (.div (.neg (.conj (.inp n!"S1udduRR_2231"))) (.rat 2 1)) (.div (.conj (.inp n!"S8udduRR_2231")) (.mul (.rat 4 1) (.rat 3 1)))) (.div (.conj (.inp n!"S8udRR_2132")) (.rat 2 1))) (.mul (.rat 3 1) (.rat 3 1)))) (.div (.mul (.rat 4 1) (.add (.mul (.rat (-2) 1) (.inp n!"V1udduLR_1322")) (.div (.inp n!"V8udduLR_1322") (.rat 3 1)))) (.mul (.rat 3 1) (.rat 3 1)))))),
  (n!"7dsmutau", (.mul (.div (.div (.sqrt (.rat 2 1)) (.par n!"GF")) (.rat 4 1)) (.add (.add (.div (.mul (.rat 2 1) (.add (.div (.neg (.conj (.inp n!"SedRL_3221"))) (.rat 2 1)) (.div (.inp n!"SedRR_2312") (.rat 2 1)))) (.rat 3 1)) (.add (.div (.inp n!"TedRR_2312") (.rat 2 1)) (.div (.conj (.inp n!"TedRR_3221")) (.rat 2 1)))) (.sub (.div (.inp n!"TedRR_2312") (.rat 2 1)) (.div (.conj (.inp n!"TedRR_3221")) (.rat 2 1)))))),
  (n!"1csmutau", (.mul (.div (.div (.sqrt (.rat 2 1)) (.par n!"GF")) (.rat 4 1)) (.conj (.inp n!"VnueduLL_3222")))),
  (n!"5csmue", (.mul (.div (.div (.sqrt (.rat 2 1)) (.par n!"GF")) (.rat 4 1)) (.conj (.inp n!"SnueduRL_1222")))),
  (n!"1pcdemu", (.mul (.div (.div (.sqrt (.rat 2 1)) (.par n!"GF")) (.rat 4 1)) (.conj (.inp n!"VnueduLR_2112")))),
  (n!"3sbsb", (.mul (.div (.div (.sqrt (.rat 2 1)) (.par n!"GF")) (.rat 4 1)) (.div (.conj (.inp n!"S8ddRR_3232")) (.rat 2 1)))),
  (n!"1dstaue", (.mul (.div (.div (.sqrt (.rat 2 1)) (.par n!"GF")) (.rat 4 1)) (.add (.div (.mul (.rat 5 1) (.sub (.div (.inp n!"VdeLR_1231") (.rat 2 1)) (.div (.conj (.inp n!"VedLL_1321")) (.rat 2 1)))) (.rat 3 1)) (.add (.div (.inp n!"VdeLR_1231") (.rat 2 1)) (.div (.conj (.inp n!"VedLL_1321")) (.rat 2 1)))))),
  (n!"8pdbuc", (.mul (.div (.div (.sqrt (.rat 2 1)) (.par n!"GF")) (.rat 4 1)) (.sub (.add (.mul (.rat 2 1) (.add (.div (.neg (.conj (.inp n!"S1udduRR_2131"))) (.rat 8 1)) (.div (.div (.conj (.inp n!"S8udduRR_2131")) (.rat 16 1)) (.rat 3 1)))) (.div (.mul (.rat 2 1) (.add (.add (.div (.neg (.conj (.inp n!"S1udduRR_2131"))) (.rat 2 1)) (.div (.conj (.inp n!"S8udduRR_2131")) (.mul (.rat 4 1) (.rat 3 1)))) (.div (.conj (.inp n!"S8udRR_2131")) (.rat 2 1)))) (.rat 3 1))) (.div (.mul (.rat 2 1) (.add (.mul (.rat (-2) 1) (.inp n!"V1udduLR_1312")) (.div (.inp n!"V8udduLR_1312") (.rat 3 1)))) (.rat 3 1))))),
  (n!"3pdbss", (.mul (.div (.div (.sqrt (.rat 2 1)) (.par n!"GF")) (.rat 4 1)) (.sub (.add (.sub (.div (.inp n!"VddRR_1322") (.rat 12 1)) (.div (.sub (.inp n!"V1ddLR_2213") (.div (.inp n!"V8ddLR_2213") (.mul (.rat 2 1) (.rat 3 1)))) (.rat 12 1))) (.div (.inp n!"VddRR_1223") (.mul (.rat 12 1) (.rat 3 1)))) (.div (.div (.inp n!"V8ddLR_2213") (.rat 2 1)) (.mul (.rat 12 1) (.rat 3 1)))))),
  (n!"1pudee", (.mul (.div (.div (.sqrt (.rat 2 1)) (.par n!"GF")) (.rat 4 1)) (.conj (.inp n!"VnueduLR_1111")))),
  (n!"7pdbtaumu", (.mul (.div (.div (.sqrt (.rat 2 1)) (.par n!"GF")) (.rat 4 1)) (.sub (.add (.div (.mul (.rat (-2) 1) (.sub (.div (.inp n!"SedRL_3213") (.rat 2 1)) (.div (.conj (.inp n!"SedRR_2331")) (.rat 2 1)))) (.rat 3 1)) (.add (.div (.inp n!"TedRR_3213") (.rat 2 1)) (.div (.conj (.inp n!"TedRR_2331")) (.rat 2 1)))) (.sub (.div (.inp n!"TedRR_3213") (.rat 2 1)) (.div (.conj (.inp n!"TedRR_2331")) (.rat 2 1)))))),
  (n!"5ustautau", (.mul (.div (.div (.sqrt (.rat 2 1)) (.par n!"GF")) (.rat 4 1)) (.conj (.inp n!"SnueduRL_3321")))),
  (n!"1sbsb", (.mul (.div (.div (.sqrt (.rat 2 1)) (.par n!"GF")) (.rat 4 1)) (.inp n!"VddLL_2323"))),
  (n!"1pcbee", (.mul (.div (.div (.sqrt (.rat 2 1)) (.par n!"GF")) (.rat 4 1)) (.conj (.inp n!"VnueduLR_1132")))),
  (n!"nu1psbtaue", (.mul (.div (.div (.sqrt (.rat 2 1)) (.par n!"GF")) (.rat 4 1)) (.conj (.inp n!"VnudLR_1332")))),
  (n!"10sbuc", (.mul (.div (.div (.sqrt (.rat 2 1)) (.par n!"GF")) (.rat 4 1)) (.sub (.div (.add (.add (.div (.neg (.inp n!"S1udduRR_1322")) (.rat 2 1)) (.div (.inp n!"S8udduRR_1322") (.mul (.rat 4 1) (.rat 3 1)))) (.div (.inp n!"S8udRR_1223") (.rat 2 1))) (.rat 24 1)) (.div (.add (.mul (.rat (-2) 1) (.conj (.inp n!"V1udduLR_2231"))) (.div (.conj (.inp n!"V8udduLR_2231")) (.rat 3 1))) (.rat 24 1))))),
  (n!"9pdsetau", (.mul (.div (.div (.sqrt (.rat 2 1)) (.par n!"GF")) (.rat 4 1)) (.div (.neg (.sub (.div (.inp n!"SedRL_1312") (.rat 2 1)) (.div (.conj (.inp n!"SedRR_3121")) (.rat 2 1)))) (.rat 24 1)))),
  (n!"9dsemu", (.mul (.div (.div (.sqrt (.rat 2 1)) (.par n!"GF")) (.rat 4 1)) (.div (.add (.div (.neg (.conj (.inp n!"SedRL_2121"))) (.rat 2 1)) (.div (.inp n!"SedRR_1212") (.rat 2 1))) (.rat 24 1)))),
  (n!"1dbmue", (.mul (.div (.div (.sqrt (.rat 2 1)) (.par n!"GF")) (.rat 4 1)) (.add (.div (.mul (.rat 5 1) (.sub (.div (.inp n!"VdeLR_1321") (.rat 2 1)) (.div (.conj (.inp n!"VedLL_1231")) (.rat 2 1)))) (.rat 3 1)) (.add (.div (.inp n!"VdeLR_1321") (.rat 2 1)) (.div (.conj (.inp n!"VedLL_1231")) (.rat 2 1)))))),
  (n!"1pdsmue", (.mul (.div (.div (.sqrt (.rat 2 1)) (.par n!"GF")) (.rat 4 1)) (.sub (.add (.div (.conj (.inp n!"VedLR_1221")) (.rat 2 1)) (.div (.conj (.inp n!"VedRR_1221")) (.rat 2 1))) (.div (.mul (.rat 5 1) (.add (.div (.neg (.conj (.inp n!"VedLR_1221"))) (.rat 2 1)) (.div (.conj (.inp n!"VedRR_1221")) (.rat 2 1)))) (.rat 3 1))))),
  (n!"8dsbb", (.mul (.div (.div (.sqrt (.rat 2 1)) (.par n!"GF")) (.rat 4 1)) (.sub (.add (.mul (.rat 2 1) (.add (.div (.neg (.inp n!"S1ddRR_1332")) (.rat 8 1)) (.div (.inp n!"S8ddRR_1332") (.mul (.rat 16 1) (.rat 3 1))))) (.div (.mul (.rat 2 1) (.add (.add (.div (.neg (.inp n!"S1ddRR_1332")) (.rat 2 1)) (.div (.inp n!"S8ddRR_1332") (.mul (.rat 4 1) (.rat 3 1)))) (.div (.inp n!"S8ddRR_1233") (.rat 2 1)))) (.rat 3 1))) (.div (.mul (.rat 2 1) (.add (.mul (.rat (-2) 1) (.inp n!"V1ddLR_1332")) (.div (.inp n!"V8ddLR_1332") (.rat 3 1)))) (.rat 3 1))))),
  (n!"3pdbemu", (.mul (.div (.div (.sqrt (.rat 2 1)) (.par n!"GF")) (.rat 4 1)) (.div (.add (.div (.neg (.inp n!"VedLR_1213")) (.rat 2 1)) (.div (.inp n!"VedRR_1213") (.rat 2 1))) (.rat 6 1)))),
  (n!"7pdscu", (.mul (.div (.div (.sqrt (.rat 2 1)) (.par n!"GF")) (.rat 4 1)) (.sub (.add (.add (.add (.sub (.div (.sub (.sub (.conj (.inp n!"S1udRR_1221")) (.div (.conj (.inp n!"S8udduRR_1122")) (.rat 4 1))) (.div (.conj (.inp n!"S8udRR_1221")) (.mul (.rat 2 1) (.rat 3 1)))) (.rat 3 1)) (.div (.neg (.inp n!"V8udduLR_2211")) (.rat 3 1))) (.div (.neg (.conj (.inp n!"S8udduRR_1122"))) (.rat 16 1))) (.div (.add (.div (.neg (.conj (.inp n!"S1udduRR_1122"))) (.rat 8 1)) (.div (.div (.conj (.inp n!"S8udduRR_1122")) (.rat 16 1)) (.rat 3 1))) (.rat 3 1))) (.div (.add (.add (.div (.neg (.conj (.inp n!"S1udduRR_1122"))) (.rat 2 1)) (.div (.conj (.inp n!"S8udduRR_1122")) (.mul (.rat 4 1) (.rat 3 1)))) (.div (.conj (.inp n!"S8udRR_1221")) (.rat 2 1))) (.mul (.rat 3 1) (.rat 3 1)))) (.div (.add (.mul (.rat (-2) 1) (.inp n!"V1udduLR_2211")) (.div (.inp n!"V8udduLR_2211") (.rat 3 1))) (.mul (.rat 3 1) (.rat 3 1)))))),
  (n!"1psbsd", (.mul (.div (.div (.sqrt (.rat 2 1)) (.par n!"GF")) (.rat 4 1)) (.add (.div (.neg (.conj (.inp n!"VddRR_1232"))) (.rat 3 1)) (.div (.mul (.rat 4 1) (.sub (.conj (.inp n!"V1ddLR_1232")) (.div (.conj (.inp n!"V8ddLR_1232")) (.mul (.rat 2 1) (.rat 3 1))))) (.rat 3 1))))),
  (n!"9dbmumu", (.mul (.div (.div (.sqrt (.rat 2 1)) (.par n!"GF")) (.rat 4 1)) (.div (.add (.div (.neg (.conj (.inp n!"SedRL_2231"))) (.rat 2 1)) (.div (.inp n!"SedRR_2213") (.rat 2 1))) (.rat 24 1)))),
  (n!"9dsee", (.mul (.div (.div (.sqrt (.rat 2 1)) (.par n!"GF")) (.rat 4 1)) (.div (.add (.div (.neg (.conj (.inp n!"SedRL_1121"))) (.rat 2 1)) (.div (.inp n!"SedRR_1112") (.rat 2 1))) (.rat 24 1)))),
  (n!"10psbuu", (.mul (.div (.div (.sqrt (.rat 2 1)) (.par n!"GF")) (.rat 4 1)) (.sub (.div (.add (.add (.div (.neg (.conj (.inp n!"S1udduRR_1231"))) (.rat 2 1)) (.div (.conj (.inp n!"S8udduRR_1231")) (.mul (.rat 4 1) (.rat 3 1)))) (.div (.conj (.inp n!"S8udRR_1132")) (.rat 2 1))) (.rat 24 1)) (.div (.add (.mul (.rat (-2) 1) (.inp n!"V1udduLR_1321")) (.div (.inp n!"V8udduLR_1321") (.rat 3 1))) (.rat 24 1))))),
  (n!"4pdscc", (.mul (.div (.div (.sqrt (.rat 2 1)) (.par n!"GF")) (.rat 4 1)) (.sub (.div (.div (.inp n!"V8udRR_2212") (.rat 2 1)) (.rat 6 1)) (.div (.div (.inp n!"V8udLR_2212") (.rat 2 1)) (.rat 6 1))))),
  (n!"5udmumu", (.mul (.div (.div (.sqrt (.rat 2 1)) (.par n!"GF")) (.rat 4 1)) (.conj (.inp n!"SnueduRL_2211")))),
  (n!"1pudtautau", (.mul (.div (.div (.sqrt (.rat 2 1)) (.par n!"GF")) (.rat 4 1)) (.conj (.inp n!"VnueduLR_3311")))),
  (n!"6dsbb", (.mul (.div (.div (.sqrt (.rat 2 1)) (.par n!"GF")) (.rat 4 1)) (.add (.div (.mul (.rat (-2) 1) (.add (.add (.div (.neg (.inp n!"S1ddRR_1332")) (.rat 2 1)) (.div (.inp n!"S8ddRR_1332") (.mul (.rat 4 1) (.rat 3 1)))) (.div (.inp n!"S8ddRR_1233") (.rat 2 1)))) (.rat 3 1)) (.div (.mul (.rat 8 1) (.add (.mul (.rat (-2) 1) (.inp n!"V1ddLR_1332")) (.div (.inp n!"V8ddLR_1332") (.rat 3 1)))) (.rat 3 1))))),
  (n!"7dsee", (.mul (.div (.div (.sqrt (.rat 2 1)) (.par n!"GF")) (.rat 4 1)) (.add (.add (.div (.mul (.rat 2 1) (.add (.div (.neg (.conj (.inp n!"SedRL_1121"))) (.rat 2 1)) (.div (.inp n!"SedRR_1112") (.rat 2 1)))) (.rat 3 1)) (.add (.div (.inp n!"TedRR_1112") (.rat 2 1)) (.div (.conj (.inp n!"TedRR_1121")) (.rat 2 1)))) (.sub (.div (.inp n!"TedRR_1112") (.rat 2 1)) (.div (.conj (.inp n!"TedRR_1121")) (.rat 2 1)))))),
  (n!"10pdbuc", (.mul (.div (.div (.sqrt (.rat 2 1)) (.par n!"GF")) (.rat 4 1)) (.sub (.div (.add (.add (.div (.neg (.conj (.inp n!"S1udduRR_2131"))) (.rat 2 1)) (.div (.conj (.inp n!"S8udduRR_2131")) (.mul (.rat 4 1) (.rat 3 1)))) (.div (.conj (.inp n!"S8udRR_2131")) (.rat 2 1))) (.rat 24 1)) (.div (.add (.mul (.rat (-2) 1) (.inp n!"V1udduLR_1312")) (.div (.inp n!"V8udduLR_1312") (.rat 3 1))) (.rat 24 1))))),
  (n!"5ubmumu", (.mul (.div (.div (.sqrt (.rat 2 1)) (.par n!"GF")) (.rat 4 1)) (.conj (.inp n!"SnueduRL_2231")))),
  (n!"4dsbb", (.mul (.div (.div (.sqrt (.rat 2 1)) (.par n!"GF")) (.rat 4 1)) (.sub (.div (.inp n!"VddLL_1332") (.rat 6 1)) (.div (.div (.inp n!"V8ddLR_1233") (.rat 2 1)) (.rat 6 1))))),
  (n!"5pudmumu", (.mul (.div (.div (.sqrt (.rat 2 1)) (.par n!"GF")) (.rat 4 1)) (.conj (.inp n!"SnueduRR_2211")))),
  (n!"nu1dbmutau", (.mul (.div (.div (.sqrt (.rat 2 1)) (.par n!"GF")) (.rat 4 1)) (.inp n!"VnudLL_2313")))]

def JMS_to_Bern_2 : List (ℕ × Sym) := [
  (n!"5dsee", (.mul (.div (.div (.sqrt (.rat 2 1)) (.par n!"GF")) (.rat 4 1)) (.sub (.add (.div (.conj (.inp n!"SedRL_1121")) (.rat 2 1)) (.div (.inp n!"SedRR_1112") (.rat 2 1))) (.div (.mul (.rat 5 1) (.add (.div (.neg (.conj (.inp n!"SedRL_1121"))) (.rat 2 1)) (.div (.inp n!"SedRR_1112") (.rat 2 1)))) (.rat 3 1))))),
  (n!"7psbtaue", (.mul (.div (.div (.sqrt (.rat 2 1)) (.par n!"GF")) (.rat 4 1)) (.sub (.add (.div (.mul (.rat (-2) 1) (.sub (.div (.inp n!"SedRL_3123") (.rat 2 1)) (.div (.conj (.inp n!"SedRR_1332")) (.rat 2 1)))) (.rat 3 1)) (.add (.div (.inp n!"TedRR_3123") (.rat 2 1)) (.div (.conj (.inp n!"TedRR_1332")) (.rat 2 1)))) (.sub (.div (.inp n!"TedRR_3123") (.rat 2 1)) (.div (.conj (.inp n!"TedRR_1332")) (.rat 2 1)))))),
  (n!"5cbemu", (.mul (.div (.div (.sqrt (.rat 2 1)) (.par n!"GF")) (.rat 4 1)) (.conj (.inp n!"SnueduRL_2132")))),
  (n!"9psbmue", (.mul (.div (.div (.sqrt (.rat 2 1)) (.par n!"GF")) (.rat 4 1)) (.div (.neg (.sub (.div (.inp n!"SedRL_2123") (.rat 2 1)) (.div (.conj (.inp n!"SedRR_1232")) (.rat 2 1)))) (.rat 24 1)))),
  (n!"2dsbb", (.mul (.div (.div (.sqrt (.rat 2 1)) (.par n!"GF")) (.rat 4 1)) (.add (.div (.mul (.rat (-2) 1) (.inp n!"VddLL_1332")) (.rat 3 1)) (.div (.mul (.rat 8 1) (.div (.inp n!"V8ddLR_1233") (.rat 2 1))) (.rat 3 1))))),
  (n!"5pubmumu", (.mul (.div (.div (.sqrt (.rat 2 1)) (.par n!"GF")) (.rat 4 1)) (.conj (.inp n!"SnueduRR_2231")))),
  (n!"1pcsetau", (.mul (.div (.div (.sqrt (.rat 2 1)) (.par n!"GF")) (.rat 4 1)) (.conj (.inp n!"VnueduLR_3122")))),
  (n!"7psbss", (.mul (.div (.div (.sqrt (.rat 2 1)) (.par n!"GF")) (.rat 4 1)) (.add (.sub (.div (.sub (.sub (.inp n!"S1ddRR_2223") (.div (.inp n!"S8ddRR_2223") (.rat 4 1))) (.div (.inp n!"S8ddRR_2223") (.mul (.rat 2 1) (.rat 3 1)))) (.rat 3 1)) (.div (.neg (.inp n!"V8ddLR_2223")) (.rat 3 1))) (.div (.neg (.inp n!"S8ddRR_2223")) (.rat 16 1))))),
  (n!"5pdbmutau", (.mul (.div (.div (.sqrt (.rat 2 1)) (.par n!"GF")) (.rat 4 1)) (.add (.div (.mul (.rat 5 1) (.sub (.div (.inp n!"SedRL_2313") (.rat 2 1)) (.div (.conj (.inp n!"SedRR_3231")) (.rat 2 1)))) (.rat 3 1)) (.add (.div (.inp n!"SedRL_2313") (.rat 2 1)) (.div (.conj (.inp n!"SedRR_3231")) (.rat 2 1)))))),
  (n!"3dsee", (.mul (.div (.div (.sqrt (.rat 2 1)) (.par n!"GF")) (.rat 4 1)) (.div (.neg (.sub (.div (.inp n!"VdeLR_1211") (.rat 2 1)) (.div (.inp n!"VedLL_1112") (.rat 2 1)))) (.rat 6 1)))),
  (n!"9sbuc", (.mul (.div (.div (.sqrt (.rat 2 1)) (.par n!"GF")) (.rat 4 1)) (.sub (.add (.sub (.div (.sub (.sub (.inp n!"S1udRR_1223") (.div (.inp n!"S8udduRR_1322") (.rat 4 1))) (.div (.inp n!"S8udRR_1223") (.mul (.rat 2 1) (.rat 3 1)))) (.rat 48 1)) (.div (.neg (.conj (.inp n!"V8udduLR_2231"))) (.rat 48 1))) (.div (.add (.add (.div (.neg (.inp n!"S1udduRR_1322")) (.rat 2 1)) (.div (.inp n!"S8udduRR_1322") (.mul (.rat 4 1) (.rat 3 1)))) (.div (.inp n!"S8udRR_1223") (.rat 2 1))) (.mul (.rat 48 1) (.rat 3 1)))) (.div (.add (.mul (.rat (-2) 1) (.conj (.inp n!"V1udduLR_2231"))) (.div (.conj (.inp n!"V8udduLR_2231")) (.rat 3 1))) (.mul (.rat 48 1) (.rat 3 1)))))),
  (n!"7pcdmutau", (.mul (.div (.div (.sqrt (.rat 2 1)) (.par n!"GF")) (.rat 4 1)) (.conj (.inp n!"TnueduRR_3212")))),
  (n!"nu1dstaumu", (.mul (.div (.div (.sqrt (.rat 2 1)) (.par n!"GF")) (.rat 4 1)) (.conj (.inp n!"VnudLL_2321")))),
  (n!"1dsee", (.mul (.div (.div (.sqrt (.rat 2 1)) (.par n!"GF")) (.rat 4 1)) (.add (.div (.mul (.rat 5 1) (.sub (.div (.inp n!"VdeLR_1211") (.rat 2 1)) (.div (.inp n!"VedLL_1112") (.rat 2 1)))) (.rat 3 1)) (.add (.div (.inp n!"VdeLR_1211") (.rat 2 1)) (.div (.inp n!"VedLL_1112") (.rat 2 1)))))),
  (n!"7sbuc", (.mul (.div (.div (.sqrt (.rat 2 1)) (.par n!"GF")) (.rat 4 1)) (.sub (.add (.add (.add (.sub (.div (.sub (.sub (.inp n!"S1udRR_1223") (.div (.inp n!"S8udduRR_1322") (.rat 4 1))) (.div (.inp n!"S8udRR_1223") (.mul (.rat 2 1) (.rat 3 1)))) (.rat 3 1)) (.div (.neg (.conj (.inp n!"V8udduLR_2231"))) (.rat 3 1))) (.div (.neg (.inp n!"S8udduRR_1322")) (.rat 16 1))) (.div (.add (.div (.neg (.inp n!"S1udduRR_1322")) (.rat 8 1)) (.div (.inp n!"S8udduRR_1322") (.mul (.rat 16 1) (.rat 3 1)))) (.rat 3 1))) (.div (.add (.add (.div (.neg (.inp n!"S1udduRR_1322")) (.rat 2 1)) (.div (.inp n!"S8udduRR_1322") (.mul (.rat 4 1) (.rat 3 1)))) (.div (.inp n!"S8udRR_1223") (.rat 2 1))) (.mul (.rat 3 1) (.rat 3 1)))) (.div (.add (.mul (.rat (-2) 1) (.conj (.inp n!"V1udduLR_2231"))) (.div (.conj (.inp n!"V8udduLR_2231")) (.rat 3 1))) (.mul (.rat 3 1) (.rat 3 1)))))),
  (n!"5cdtaumu", (.mul (.div (.div (.sqrt (.rat 2 1)) (.par n!"GF")) (.rat 4 1)) (.conj (.inp n!"SnueduRL_2312")))),
  (n!"3sbtaumu", (.mul (.div (.div (.sqrt (.rat 2 1)) (.par n!"GF")) (.rat 4 1)) (.div (.neg (.sub (.div (.inp n!"VdeLR_2332") (.rat 2 1)) (.div (.conj (.inp n!"VedLL_2332")) (.rat 2 1)))) (.rat 6 1)))),
  (n!"3pdbetau", (.mul (.div (.div (.sqrt (.rat 2 1)) (.par n!"GF")) (.rat 4 1)) (.div (.add (.div (.neg (.inp n!"VedLR_1313")) (.rat 2 1)) (.div (.inp n!"VedRR_1313") (.rat 2 1))) (.rat 6 1)))),
  (n!"5pdbtautau", (.mul (.div (.div (.sqrt (.rat 2 1)) (.par n!"GF")) (.rat 4 1)) (.add (.div (.mul (.rat 5 1) (.sub (.div (.inp n!"SedRL_3313") (.rat 2 1)) (.div (.conj (.inp n!"SedRR_3331")) (.rat 2 1)))) (.rat 3 1)) (.add (.div (.inp n!"SedRL_3313") (.rat 2 1)) (.div (.conj (.inp n!"SedRR_3331")) (.rat 2 1)))))),
  (n!"4pdsuu", (.mul (.div (.div (.sqrt (.rat 2 1)) (.par n!"GF")) (.rat 4 1)) (.sub (.div (.div (.inp n!"V8udRR_1112") (.rat 2 1)) (.rat 6 1)) (.div (.div (.inp n!"V8udLR_1112") (.rat 2 1)) (.rat 6 1))))),
  (n!"5pdstaumu", (.mul (.div (.div (.sqrt (.rat 2 1)) (.par n!"GF")) (.rat 4 1)) (.add (.div (.mul (.rat 5 1) (.sub (.div (.inp n!"SedRL_3212") (.rat 2 1)) (.div (.conj (.inp n!"SedRR_2321")) (.rat 2 1)))) (.rat 3 1)) (.add (.div (.inp n!"SedRL_3212") (.rat 2 1)) (.div (.conj (.inp n!"SedRR_2321")) (.rat 2 1)))))),
  (n!"5sbuc", (.mul (.div (.div (.sqrt (.rat 2 1)) (.par n!"GF")) (.rat 4 1)) (.add (.sub (.add (.div (.neg (.sub (.sub (.inp n!"S1udRR_1223") (.div (.inp n!"S8udduRR_1322") (.rat 4 1))) (.div (.inp n!"S8udRR_1223") (.mul (.rat 2 1) (.rat 3 1))))) (.rat 3 1)) (.div (.mul (.rat 4 1) (.neg (.conj (.inp n!"V8udduLR_2231")))) (.rat 3 1))) (.div (.add (.add (.div (.neg (.inp n!"S1udduRR_1322")) (.rat 2 1)) (.div (.inp n!"S8udduRR_1322") (.mul (.rat 4 1) (.rat 3 1)))) (.div (.inp n!"S8udRR_1223") (.rat 2 1))) (.mul (.rat 3 1) (.rat 3 1)))) (.div (.mul (.rat 4 1) (.add (.mul (.rat (-2) 1) (.conj (.inp n!"V1udduLR_2231"))) (.div (.conj (.inp n!"V8udduLR_2231")) (.rat 3 1)))) (.mul (.rat 3 1) (.rat 3 1)))))),
  (n!"1pdsuc", (.mul (.div (.div (.sqrt (.rat 2 1)) (.par n!"GF")) (.rat 4 1)) (.add (.sub (.add (.div (.neg (.sub (.inp n!"V1udRR_1212") (.div (.inp n!"V8udRR_1212") (.mul (.rat 2 1) (.rat 3 1))))) (.rat 3 1)) (.div (.mul (.rat 4 1) (.sub (.inp n!"V1udLR_1212") (.div (.inp n!"V8udLR_1212") (.mul (.rat 2 1) (.rat 3 1))))) (.rat 3 1))) (.div (.div (.inp n!"V8udRR_1212") (.rat 2 1)) (.mul (.rat 3 1) (.rat 3 1)))) (.div (.mul (.rat 4 1) (.div (.inp n!"V8udLR_1212") (.rat 2 1))) (.mul (.rat 3 1) (.rat 3 1)))))),
  (n!"1pdbemu", (.mul (.div (.div (.sqrt (.rat 2 1)) (.par n!"GF")) (.rat 4 1)) (.sub (.add (.div (.inp n!"VedLR_1213") (.rat 2 1)) (.div (.inp n!"VedRR_1213") (.rat 2 1))) (.div (.mul (.rat 5 1) (.add (.div (.neg (.inp n!"VedLR_1213")) (.rat 2 1)) (.div (.inp n!"VedRR_1213") (.rat 2 1)))) (.rat 3 1))))),
  (n!"7dbmumu", (.mul (.div (.div (.sqrt (.rat 2 1)) (.par n!"GF")) (.rat 4 1)) (.add (.add (.div (.mul (.rat 2 1) (.add (.div (.neg (.conj (.inp n!"SedRL_2231"))) (.rat 2 1)) (.div (.inp n!"SedRR_2213") (.rat 2 1)))) (.rat 3 1)) (.add (.div (.inp n!"TedRR_2213") (.rat 2 1)) (.div (.conj (.inp n!"TedRR_2231")) (.rat 2 1)))) (.sub (.div (.inp n!"TedRR_2213") (.rat 2 1)) (.div (.conj (.inp n!"TedRR_2231")) (.rat 2 1)))))),
  (n!"1pudmutau", (.mul (.div (.div (.sqrt (.rat 2 1)) (.par n!"GF")) (.rat 4 1)) (.conj (.inp n!"VnueduLR_3211")))),
  (n!"7dbmutau", (.mul (.div (.div (.sqrt (.rat 2 1)) (.par n!"GF")) (.rat 4 1)) (.add (.add (.div (.mul (.rat 2 1) (.add (.div (.neg (.conj (.inp n!"SedRL_3231"))) (.rat 2 1)) (.div (.inp n!"SedRR_2313") (.rat 2 1)))) (.rat 3 1)) (.add (.div (.inp n!"TedRR_2313") (.rat 2 1)) (.div (.conj (.inp n!"TedRR_3231")) (.rat 2 1)))) (.sub (.div (.inp n!"TedRR_2313") (.rat 2 1)) (.div (.conj (.inp n!"TedRR_3231")) (.rat 2 1)))))),
  (n!"1pubee", (.mul (.div (.div (.sqrt (.rat 2 1)) (.par n!"GF")) (.rat 4 1)) (.conj (.inp n!"VnueduLR_1131")))),
  (n!"3sbuc", (.mul (.div (.div (.sqrt (.rat 2 1)) (.par n!"GF")) (.rat 4 1)) (.sub (.add (.sub (.div (.sub (.inp n!"V1udLL_1223") (.div (.inp n!"V8udLL_1223") (.mul (.rat 2 1) (.rat 3 1)))) (.rat 12 1)) (.div (.sub (.inp n!"V1duLR_2312") (.div (.inp n!"V8duLR_2312") (.mul (.rat 2 1) (.rat 3 1)))) (.rat 12 1))) (.div (.div (.inp n!"V8udLL_1223") (.rat 2 1)) (.mul (.rat 12 1) (.rat 3 1)))) (.div (.div (.inp n!"V8duLR_2312") (.rat 2 1)) (.mul (.rat 12 1) (.rat 3 1)))))),
  (n!"1cbmutau", (.mul (.div (.div (.sqrt (.rat 2 1)) (.par n!"GF")) (.rat 4 1)) (.conj (.inp n!"VnueduLL_3232")))),
  (n!"1pubtautau", (.mul (.div (.div (.sqrt (.rat 2 1)) (.par n!"GF")) (.rat 4 1)) (.conj (.inp n!"VnueduLR_3331")))),
  (n!"3sbmue", (.mul (.div (.div (.sqrt (.rat 2 1)) (.par n!"GF")) (.rat 4 1)) (.div (.neg (.sub (.div (.inp n!"VdeLR_2321") (.rat 2 1)) (.div (.conj (.inp n!"VedLL_1232")) (.rat 2 1)))) (.rat 6 1)))),
  (n!"1sbuc", (.mul (.div (.div (.sqrt (.rat 2 1)) (.par n!"GF")) (.rat 4 1)) (.add (.sub (.add (.div (.neg (.sub (.inp n!"V1udLL_1223") (.div (.inp n!"V8udLL_1223") (.mul (.rat 2 1) (.rat 3 1))))) (.rat 3 1)) (.div (.mul (.rat 4 1) (.sub (.inp n!"V1duLR_2312") (.div (.inp n!"V8duLR_2312") (.mul (.rat 2 1) (.rat 3 1))))) (.rat 3 1))) (.div (.div (.inp n!"V8udLL_1223") (.rat 2 1)) (.mul (.rat 3 1) (.rat 3 1)))) (.div (.mul (.rat 4 1) (.div (.inp n!"V8duLR_2312") (.rat 2 1))) (.mul (.rat 3 1) (.rat 3 1)))))),
  (n!"1psbcu", (.mul (.div (.div (.sqrt (.rat 2 1)) (.par n!"GF")) (.rat 4 1)) (.add (.sub (.add (.div (.neg (.sub (.conj (.inp n!"V1udRR_1232")) (.div (.conj (.inp n!"V8udRR_1232")) (.mul (.rat 2 1) (.rat 3 1))))) (.rat 3 1)) (.div (.mul (.rat 4 1) (.sub (.conj (.inp n!"V1udLR_1232")) (.div (.conj (.inp n!"V8udLR_1232")) (.mul (.rat 2 1) (.rat 3 1))))) (.rat 3 1))) (.div (.div (.conj (.inp n!"V8udRR_1232")) (.rat 2 1)) (.mul (.rat 3 1) (.rat 3 1)))) (.div (.mul (.rat 4 1) (.div (.conj (.inp n!"V8udLR_1232")) (.rat 2 1))) (.mul (.rat 3 1) (.rat 3 1)))))),
  (n!"7pdsbb", (.mul (.div (.div (.sqrt (.rat 2 1)) (.par n!"GF")) (.rat 4 1)) (.sub (.add (.add (.add (.sub (.div (.sub (.sub (.conj (.inp n!"S1ddRR_2133")) (.div (.conj (.inp n!"S8ddRR_2331")) (.rat 4 1))) (.div (.div (.conj (.inp n!"S8ddRR_2133")) (.rat 2 1)) (.rat 3 1))) (.rat 3 1)) (.div (.neg (.conj (.inp n!"V8ddLR_2331"))) (.rat 3 1))) (.div (.neg (.conj (.inp n!"S8ddRR_2331"))) (.rat 16 1))) (.div (.add (.div (.neg (.conj (.inp n!"S1ddRR_2331"))) (.rat 8 1)) (.div (.div (.conj (.inp n!"S8ddRR_2331")) (.rat 16 1)) (.rat 3 1))) (.rat 3 1))) (.div (.add (.add (.div (.neg (.conj (.inp n!"S1ddRR_2331"))) (.rat 2 1)) (.div (.div (.conj (.inp n!"S8ddRR_2331")) (.rat 4 1)) (.rat 3 1))) (.div (.conj (.inp n!"S8ddRR_2133")) (.rat 2 1))) (.mul (.rat 3 1) (.rat 3 1)))) (.div (.add (.mul (.rat (-2) 1) (.conj (.inp n!"V1ddLR_2331"))) (.div (.conj (.inp n!"V8ddLR_2331")) (.rat 3 1))) (.mul (.rat 3 1) (.rat 3 1)))))),
  (n!"7pubmue", (.mul (.div (.div (.sqrt (.rat 2 1)) (.par n!"GF")) (.rat 4 1)) (.conj (.inp n!"TnueduRR_1231")))),
  (n!"2psbdd", (.mul (.div (.div (.sqrt (.rat 2 1)) (.par n!"GF")) (.rat 4 1)) (.add (.div (.mul (.rat (-2) 1) (.conj (.inp n!"VddRR_1231"))) (.rat 3 1)) (.div (.mul (.rat 8 1) (.div (.inp n!"V8ddLR_1123") (.rat 2 1))) (.rat 3 1))))),
  (n!"3pdstautau", (.mul (.div (.div (.sqrt (.rat 2 1)) (.par n!"GF")) (.rat 4 1)) (.div (.add (.div (.neg (.inp n!"VedLR_3312")) (.rat 2 1)) (.div (.inp n!"VedRR_3312") (.rat 2 1))) (.rat 6 1)))),
  (n!"9pdbee", (.mul (.div (.div (.sqrt (.rat 2 1)) (.par n!"GF")) (.rat 4 1)) (.div (.neg (.sub (.div (.inp n!"SedRL_1113") (.rat 2 1)) (.div (.conj (.inp n!"SedRR_1131")) (.rat 2 1)))) (.rat 24 1)))),
  (n!"4pdbcu", (.mul (.div (.div (.sqrt (.rat 2 1)) (.par n!"GF")) (.rat 4 1)) (.sub (.div (.div (.conj (.inp n!"V8udRR_1231")) (.rat 2 1)) (.rat 6 1)) (.div (.div (.conj (.inp n!"V8udLR_1231")) (.rat 2 1)) (.rat 6 1))))),
  (n!"7dstaumu", (.mul (.div (.div (.sqrt (.rat 2 1)) (.par n!"GF")) (.rat 4 1)) (.add (.add (.div (.mul (.rat 2 1) (.add (.div (.neg (.conj (.inp n!"SedRL_2321"))) (.rat 2 1)) (.div (.inp n!"SedRR_3212") (.rat 2 1)))) (.rat 3 1)) (.add (.div (.inp n!"TedRR_3212") (.rat 2 1)) (.div (.conj (.inp n!"TedRR_2321")) (.rat 2 1)))) (.sub (.div (.inp n!"TedRR_3212") (.rat 2 1)) (.div (.conj (.inp n!"TedRR_2321")) (.rat 2 1)))))),
  (n!"5pdbdd", (.mul (.div (.div (.sqrt (.rat 2 1)) (.par n!"GF")) (.rat 4 1)) (.add (.div (.neg (.sub (.sub (.inp n!"S1ddRR_1113") (.div (.inp n!"S8ddRR_1113") (.rat 4 1))) (.div (.inp n!"S8ddRR_1113") (.mul (.rat 2 1) (.rat 3 1))))) (.rat 3 1)) (.div (.mul (.rat 4 1) (.neg (.inp n!"V8ddLR_1113"))) (.rat 3 1))))),
  (n!"1cstaumu", (.mul (.div (.div (.sqrt (.rat 2 1)) (.par n!"GF")) (.rat 4 1)) (.conj (.inp n!"VnueduLL_2322")))),
  (n!"7psbmue", (.mul (.div (.div (.sqrt (.rat 2 1)) (.par n!"GF")) (.rat 4 1)) (.sub (.add (.div (.mul (.rat (-2) 1) (.sub (.div (.inp n!"SedRL_2123") (.rat 2 1)) (.div (.conj (.inp n!"SedRR_1232")) (.rat 2 1)))) (.rat 3 1)) (.add (.div (.inp n!"TedRR_2123") (.rat 2 1)) (.div (.conj (.inp n!"TedRR_1232")) (.rat 2 1)))) (.sub (.div (.inp n!"TedRR_2123") (.rat 2 1)) (.div (.conj (.inp n!"TedRR_1232")) (.rat 2 1)))))),
  (n!"1pdbcc", (.mul (.div (.div (.sqrt (.rat 2 1)) (.par n!"GF")) (.rat 4 1)) (.add (.sub (.add (.div (.neg (.sub (.inp n!"V1udRR_2213") (.div (.inp n!"V8udRR_2213") (.mul (.rat 2 1) (.rat 3 1))))) (.rat 3 1)) (.div (.mul (.rat 4 1) (.sub (.inp n!"V1udLR_2213") (.div (.inp n!"V8udLR_2213") (.mul (.rat 2 1) (.rat 3 1))))) (.rat 3 1))) (.div (.div (.inp n!"V8udRR_2213") (.rat 2 1)) (.mul (.rat 3 1) (.rat 3 1)))) (.div (.mul (.rat 4 1) (.div (.inp n!"V8udLR_2213") (.rat 2 1))) (.mul (.rat 3 1) (.rat 3 1)))))),
  (n!"7pustaue", (.mul (.div (.div (.sqrt (.rat 2 1)) (.par n!"GF")) (.rat 4 1)) (.conj (.inp n!"TnueduRR_1321")))),
  (n!"5usmutau", (.mul (.div (.div (.sqrt (.rat 2 1)) (.par n!"GF")) (.rat 4 1)) (.conj (.inp n!"SnueduRL_3221")))),
  (n!"2psbsb", (.mul (.div (.div (.sqrt (.rat 2 1)) (.par n!"GF")) (.rat 4 1)) (.sub (.inp n!"S1ddRR_2323") (.div (.inp n!"S8ddRR_2323") (.mul (.rat 2 1) (.rat 3 1)))))),
  (n!"3pdsmutau", (.mul (.div (.div (.sqrt (.rat 2 1)) (.par n!"GF")) (.rat 4 1)) (.div (.add (.div (.neg (.inp n!"VedLR_2312")) (.rat 2 1)) (.div (.inp n!"VedRR_2312") (.rat 2 1))) (.rat 6 1)))),
  (n!"7dsmue", (.mul (.div (.div (.sqrt (.rat 2 1)) (.par n!"GF")) (.rat 4 1)) (.add (.add (.div (.mul (.rat 2 1) (.add (.div (.neg (.conj (.inp n!"SedRL_1221"))) (.rat 2 1)) (.div (.inp n!"SedRR_2112") (.rat 2 1)))) (.rat 3 1)) (.add (.div (.inp n!"TedRR_2112") (.rat 2 1)) (.div (.conj (.inp n!"TedRR_1221")) (.rat 2 1)))) (.sub (.div (.inp n!"TedRR_2112") (.rat 2 1)) (.div (.conj (.inp n!"TedRR_1221")) (.rat 2 1))))))]

def JMS_to_Bern_3 : List (ℕ × Sym) := [
  (n!"5dbmumu", (.mul (.div (.div (.sqrt (.rat 2 1)) (.par n!"GF")) (.rat 4 1)) (.sub (.add (.div (.conj (.inp n!"SedRL_2231")) (.rat 2 1)) (.div (.inp n!"SedRR_2213") (.rat 2 1))) (.div (.mul (.rat 5 1) (.add (.div (.neg (.conj (.inp n!"SedRL_2231"))) (.rat 2 1)) (.div (.inp n!"SedRR_2213") (.rat 2 1)))) (.rat 3 1))))),
  (n!"3pcucu", (.mul (.div (.div (.sqrt (.rat 2 1)) (.par n!"GF")) (.rat 4 1)) (.div (.inp n!"S8uuRR_2121") (.rat 2 1)))),
  (n!"5udmue", (.mul (.div (.div (.sqrt (.rat 2 1)) (.par n!"GF")) (.rat 4 1)) (.conj (.inp n!"SnueduRL_1211")))),
  (n!"1udmumu", (.mul (.div (.div (.sqrt (.rat 2 1)) (.par n!"GF")) (.rat 4 1)) (.conj (.inp n!"VnueduLL_2211")))),
  (n!"nu1sbmue", (.mul (.div (.div (.sqrt (.rat 2 1)) (.par n!"GF")) (.rat 4 1)) (.conj (.inp n!"VnudLL_1232")))),
  (n!"8pdsuc", (.mul (.div (.div (.sqrt (.rat 2 1)) (.par n!"GF")) (.rat 4 1)) (.sub (.add (.mul (.rat 2 1) (.add (.div (.neg (.conj (.inp n!"S1udduRR_2121"))) (.rat 8 1)) (.div (.div (.conj (.inp n!"S8udduRR_2121")) (.rat 16 1)) (.rat 3 1)))) (.div (.mul (.rat 2 1) (.add (.add (.div (.neg (.conj (.inp n!"S1udduRR_2121"))) (.rat 2 1)) (.div (.conj (.inp n!"S8udduRR_2121")) (.mul (.rat 4 1) (.rat 3 1)))) (.div (.conj (.inp n!"S8udRR_2121")) (.rat 2 1)))) (.rat 3 1))) (.div (.mul (.rat 2 1) (.add (.mul (.rat (-2) 1) (.inp n!"V1udduLR_1212")) (.div (.inp n!"V8udduLR_1212") (.rat 3 1)))) (.rat 3 1))))),
  (n!"3pdsss", (.mul (.div (.div (.sqrt (.rat 2 1)) (.par n!"GF")) (.rat 4 1)) (.sub (.div (.inp n!"VddRR_1222") (.rat 12 1)) (.div (.sub (.inp n!"V1ddLR_2212") (.div (.inp n!"V8ddLR_2212") (.mul (.rat 2 1) (.rat 3 1)))) (.rat 12 1))))),
  (n!"1ubmumu", (.mul (.div (.div (.sqrt (.rat 2 1)) (.par n!"GF")) (.rat 4 1)) (.conj (.inp n!"VnueduLL_2231")))),
  (n!"5pdbmumu", (.mul (.div (.div (.sqrt (.rat 2 1)) (.par n!"GF")) (.rat 4 1)) (.add (.div (.mul (.rat 5 1) (.sub (.div (.inp n!"SedRL_2213") (.rat 2 1)) (.div (.conj (.inp n!"SedRR_2231")) (.rat 2 1)))) (.rat 3 1)) (.add (.div (.inp n!"SedRL_2213") (.rat 2 1)) (.div (.conj (.inp n!"SedRR_2231")) (.rat 2 1)))))),
  (n!"5pubmue", (.mul (.div (.div (.sqrt (.rat 2 1)) (.par n!"GF")) (.rat 4 1)) (.conj (.inp n!"SnueduRR_1231")))),
  (n!"1pdbuu", (.mul (.div (.div (.sqrt (.rat 2 1)) (.par n!"GF")) (.rat 4 1)) (.add (.sub (.add (.div (.neg (.sub (.inp n!"V1udRR_1113") (.div (.inp n!"V8udRR_1113") (.mul (.rat 2 1) (.rat 3 1))))) (.rat 3 1)) (.div (.mul (.rat 4 1) (.sub (.inp n!"V1udLR_1113") (.div (.inp n!"V8udLR_1113") (.mul (.rat 2 1) (.rat 3 1))))) (.rat 3 1))) (.div (.div (.inp n!"V8udRR_1113") (.rat 2 1)) (.mul (.rat 3 1) (.rat 3 1)))) (.div (.mul (.rat 4 1) (.div (.inp n!"V8udLR_1113") (.rat 2 1))) (.mul (.rat 3 1) (.rat 3 1)))))),
  (n!"7pcdetau", (.mul (.div (.div (.sqrt (.rat 2 1)) (.par n!"GF")) (.rat 4 1)) (.conj (.inp n!"TnueduRR_3112")))),
  (n!"1pcsee", (.mul (.div (.div (.sqrt (.rat 2 1)) (.par n!"GF")) (.rat 4 1)) (.conj (.inp n!"VnueduLR_1122")))),
  (n!"1pudtaue", (.mul (.div (.div (.sqrt (.rat 2 1)) (.par n!"GF")) (.rat 4 1)) (.conj (.inp n!"VnueduLR_1311")))),
  (n!"nu1dbtaumu", (.mul (.div (.div (.sqrt (.rat 2 1)) (.par n!"GF")) (.rat 4 1)) (.conj (.inp n!"VnudLL_2331")))),
  (n!"8psbcu", (.mul (.div (.div (.sqrt (.rat 2 1)) (.par n!"GF")) (.rat 4 1)) (.sub (.add (.mul (.rat 2 1) (.add (.div (.neg (.conj (.inp n!"S1udduRR_1232"))) (.rat 8 1)) (.div (.div (.conj (.inp n!"S8udduRR_1232")) (.rat 16 1)) (.rat 3 1)))) (.div (.mul (.rat 2 1) (.add (.add (.div (.neg (.conj (.inp n!"S1udduRR_1232"))) (.rat 2 1)) (.div (.conj (.inp n!"S8udduRR_1232")) (.mul (.rat 4 1) (.rat 3 1)))) (.div (.conj (.inp n!"S8udRR_1232")) (.rat 2 1)))) (.rat 3 1))) (.div (.mul (.rat 2 1) (.add (.mul (.rat (-2) 1) (.inp n!"V1udduLR_2321")) (.div (.inp n!"V8udduLR_2321") (.rat 3 1)))) (.rat 3 1))))),
  (n!"5psbmue", (.mul (.div (.div (.sqrt (.rat 2 1)) (.par n!"GF")) (.rat 4 1)) (.add (.div (.mul (.rat 5 1) (.sub (.div (.inp n!"SedRL_2123") (.rat 2 1)) (.div (.conj (.inp n!"SedRR_1232")) (.rat 2 1)))) (.rat 3 1)) (.add (.div (.inp n!"SedRL_2123") (.rat 2 1)) (.div (.conj (.inp n!"SedRR_1232")) (.rat 2 1)))))),
  (n!"9psbdd", (.mul (.div (.div (.sqrt (.rat 2 1)) (.par n!"GF")) (.rat 4 1)) (.sub (.add (.sub (.div (.sub (.sub (.conj (.inp n!"S1ddRR_1132")) (.div (.conj (.inp n!"S8ddRR_1231")) (.rat 4 1))) (.div (.div (.conj (.inp n!"S8ddRR_1132")) (.rat 2 1)) (.rat 3 1))) (.rat 48 1)) (.div (.neg (.inp n!"V8ddLR_1321")) (.rat 48 1))) (.div (.add (.add (.div (.neg (.conj (.inp n!"S1ddRR_1231"))) (.rat 2 1)) (.div (.div (.conj (.inp n!"S8ddRR_1231")) (.rat 4 1)) (.rat 3 1))) (.div (.conj (.inp n!"S8ddRR_1132")) (.rat 2 1))) (.mul (.rat 48 1) (.rat 3 1)))) (.div (.add (.mul (.rat (-2) 1) (.inp n!"V1ddLR_1321")) (.div (.inp n!"V8ddLR_1321") (.rat 3 1))) (.mul (.rat 48 1) (.rat 3 1)))))),
  (n!"7pcbetau", (.mul (.div (.div (.sqrt (.rat 2 1)) (.par n!"GF")) (.rat 4 1)) (.conj (.inp n!"TnueduRR_3132")))),
  (n!"5psbcc", (.mul (.div (.div (.sqrt (.rat 2 1)) (.par n!"GF")) (.rat 4 1)) (.add (.sub (.add (.div (.neg (.sub (.sub (.conj (.inp n!"S1udRR_2232")) (.div (.conj (.inp n!"S8udduRR_2232")) (.rat 4 1))) (.div (.conj (.inp n!"S8udRR_2232")) (.mul (.rat 2 1) (.rat 3 1))))) (.rat 3 1)) (.div (.mul (.rat 4 1) (.neg (.inp n!"V8udduLR_2322"))) (.rat 3 1))) (.div (.add (.add (.div (.neg (.conj (.inp n!"S1udduRR_2232"))) (.rat 2 1)) (.div (.conj (.inp n!"S8udduRR_2232")) (.mul (.rat 4 1) (.rat 3 1)))) (.div (.conj (.inp n!"S8udRR_2232")) (.rat 2 1))) (.mul (.rat 3 1) (.rat 3 1)))) (.div (.mul (.rat 4 1) (.add (.mul (.rat (-2) 1) (.inp n!"V1udduLR_2322")) (.div (.inp n!"V8udduLR_2322") (.rat 3 1)))) (.mul (.rat 3 1) (.rat 3 1)))))),
  (n!"nu1pdstaue", (.mul (.div (.div (.sqrt (.rat 2 1)) (.par n!"GF")) (.rat 4 1)) (.conj (.inp n!"VnudLR_1321")))),
  (n!"1psbbb", (.mul (.div (.div (.sqrt (.rat 2 1)) (.par n!"GF")) (.rat 4 1)) (.add (.div (.neg (.inp n!"VddRR_2333")) (.rat 3 1)) (.div (.mul (.rat 4 1) (.sub (.inp n!"V1ddLR_3323") (.div (.inp n!"V8ddLR_3323") (.mul (.rat 2 1) (.rat 3 1))))) (.rat 3 1))))),
  (n!"1pubtaue", (.mul (.div (.div (.sqrt (.rat 2 1)) (.par n!"GF")) (.rat 4 1)) (.conj (.inp n!"VnueduLR_1331")))),
  (n!"5pdbtaumu", (.mul (.div (.div (.sqrt (.rat 2 1)) (.par n!"GF")) (.rat 4 1)) (.add (.div (.mul (.rat 5 1) (.sub (.div (.inp n!"SedRL_3213") (.rat 2 1)) (.div (.conj (.inp n!"SedRR_2331")) (.rat 2 1)))) (.rat 3 1)) (.add (.div (.inp n!"SedRL_3213") (.rat 2 1)) (.div (.conj (.inp n!"SedRR_2331")) (.rat 2 1)))))),
  (n!"7pcdtaumu", (.mul (.div (.div (.sqrt (.rat 2 1)) (.par n!"GF")) (.rat 4 1)) (.conj (.inp n!"TnueduRR_2312")))),
  (n!"9dbdd", (.mul (.div (.div (.sqrt (.rat 2 1)) (.par n!"GF")) (.rat 4 1)) (.sub (.div (.sub (.sub (.conj (.inp n!"S1ddRR_1131")) (.div (.conj (.inp n!"S8ddRR_1131")) (.rat 4 1))) (.div (.div (.conj (.inp n!"S8ddRR_1131")) (.rat 2 1)) (.rat 3 1))) (.rat 48 1)) (.div (.neg (.inp n!"V8ddLR_1311")) (.rat 48 1))))),
  (n!"8pdbcc", (.mul (.div (.div (.sqrt (.rat 2 1)) (.par n!"GF")) (.rat 4 1)) (.sub (.add (.mul (.rat 2 1) (.add (.div (.neg (.conj (.inp n!"S1udduRR_2132"))) (.rat 8 1)) (.div (.div (.conj (.inp n!"S8udduRR_2132")) (.rat 16 1)) (.rat 3 1)))) (.div (.mul (.rat 2 1) (.add (.add (.div (.neg (.conj (.inp n!"S1udduRR_2132"))) (.rat 2 1)) (.div (.conj (.inp n!"S8udduRR_2132")) (.mul (.rat 4 1) (.rat 3 1)))) (.div (.conj (.inp n!"S8udRR_2231")) (.rat 2 1)))) (.rat 3 1))) (.div (.mul (.rat 2 1) (.add (.mul (.rat (-2) 1) (.inp n!"V1udduLR_2312")) (.div (.inp n!"V8udduLR_2312") (.rat 3 1)))) (.rat 3 1))))),
  (n!"3psbtautau", (.mul (.div (.div (.sqrt (.rat 2 1)) (.par n!"GF")) (.rat 4 1)) (.div (.add (.div (.neg (.inp n!"VedLR_3323")) (.rat 2 1)) (.div (.inp n!"VedRR_3323") (.rat 2 1))) (.rat 6 1)))),
  (n!"7dbdd", (.mul (.div (.div (.sqrt (.rat 2 1)) (.par n!"GF")) (.rat 4 1)) (.add (.sub (.div (.sub (.sub (.conj (.inp n!"S1ddRR_1131")) (.div (.conj (.inp n!"S8ddRR_1131")) (.rat 4 1))) (.div (.div (.conj (.inp n!"S8ddRR_1131")) (.rat 2 1)) (.rat 3 1))) (.rat 3 1)) (.div (.neg (.inp n!"V8ddLR_1311")) (.rat 3 1))) (.div (.neg (.conj (.inp n!"S8ddRR_1131"))) (.rat 16 1))))),
  (n!"7pcbmue", (.mul (.div (.div (.sqrt (.rat 2 1)) (.par n!"GF")) (.rat 4 1)) (.conj (.inp n!"TnueduRR_1232")))),
  (n!"10pdsuc", (.mul (.div (.div (.sqrt (.rat 2 1)) (.par n!"GF")) (.rat 4 1)) (.sub (.div (.add (.add (.div (.neg (.conj (.inp n!"S1udduRR_2121"))) (.rat 2 1)) (.div (.conj (.inp n!"S8udduRR_2121")) (.mul (.rat 4 1) (.rat 3 1)))) (.div (.conj (.inp n!"S8udRR_2121")) (.rat 2 1))) (.rat 24 1)) (.div (.add (.mul (.rat (-2) 1) (.inp n!"V1udduLR_1212")) (.div (.inp n!"V8udduLR_1212") (.rat 3 1))) (.rat 24 1))))),
  (n!"1psbmumu", (.mul (.div (.div (.sqrt (.rat 2 1)) (.par n!"GF")) (.rat 4 1)) (.sub (.add (.div (.inp n!"VedLR_2223") (.rat 2 1)) (.div (.inp n!"VedRR_2223") (.rat 2 1))) (.div (.mul (.rat 5 1) (.add (.div (.neg (.inp n!"VedLR_2223")) (.rat 2 1)) (.div (.inp n!"VedRR_2223") (.rat 2 1)))) (.rat 3 1))))),
  (n!"3dbmumu", (.mul (.div (.div (.sqrt (.rat 2 1)) (.par n!"GF")) (.rat 4 1)) (.div (.neg (.sub (.div (.inp n!"VdeLR_1322") (.rat 2 1)) (.div (.inp n!"VedLL_2213") (.rat 2 1)))) (.rat 6 1)))),
  (n!"10sbcc", (.mul (.div (.div (.sqrt (.rat 2 1)) (.par n!"GF")) (.rat 4 1)) (.sub (.div (.add (.add (.div (.neg (.inp n!"S1udduRR_2322")) (.rat 2 1)) (.div (.inp n!"S8udduRR_2322") (.mul (.rat 4 1) (.rat 3 1)))) (.div (.inp n!"S8udRR_2223") (.rat 2 1))) (.rat 24 1)) (.div (.add (.mul (.rat (-2) 1) (.conj (.inp n!"V1udduLR_2232"))) (.div (.conj (.inp n!"V8udduLR_2232")) (.rat 3 1))) (.rat 24 1))))),
  (n!"5dbdd", (.mul (.div (.div (.sqrt (.rat 2 1)) (.par n!"GF")) (.rat 4 1)) (.add (.div (.neg (.sub (.sub (.conj (.inp n!"S1ddRR_1131")) (.div (.conj (.inp n!"S8ddRR_1131")) (.rat 4 1))) (.div (.div (.conj (.inp n!"S8ddRR_1131")) (.rat 2 1)) (.rat 3 1)))) (.rat 3 1)) (.div (.mul (.rat 4 1) (.neg (.inp n!"V8ddLR_1311"))) (.rat 3 1))))),
  (n!"7dbemu", (.mul (.div (.div (.sqrt (.rat 2 1)) (.par n!"GF")) (.rat 4 1)) (.add (.add (.div (.mul (.rat 2 1) (.add (.div (.neg (.conj (.inp n!"SedRL_2131"))) (.rat 2 1)) (.div (.inp n!"SedRR_1213") (.rat 2 1)))) (.rat 3 1)) (.add (.div (.inp n!"TedRR_1213") (.rat 2 1)) (.div (.conj (.inp n!"TedRR_2131")) (.rat 2 1)))) (.sub (.div (.inp n!"TedRR_1213") (.rat 2 1)) (.div (.conj (.inp n!"TedRR_2131")) (.rat 2 1)))))),
  (n!"nu1dbee", (.mul (.div (.div (.sqrt (.rat 2 1)) (.par n!"GF")) (.rat 4 1)) (.inp n!"VnudLL_1113"))),
  (n!"9psbmutau", (.mul (.div (.div (.sqrt (.rat 2 1)) (.par n!"GF")) (.rat 4 1)) (.div (.neg (.sub (.div (.inp n!"SedRL_2323") (.rat 2 1)) (.div (.conj (.inp n!"SedRR_3232")) (.rat 2 1)))) (.rat 24 1)))),
  (n!"9dbtautau", (.mul (.div (.div (.sqrt (.rat 2 1)) (.par n!"GF")) (.rat 4 1)) (.div (.add (.div (.neg (.conj (.inp n!"SedRL_3331"))) (.rat 2 1)) (.div (.inp n!"SedRR_3313") (.rat 2 1))) (.rat 24 1)))),
  (n!"1pudtaumu", (.mul (.div (.div (.sqrt (.rat 2 1)) (.par n!"GF")) (.rat 4 1)) (.conj (.inp n!"VnueduLR_2311")))),
  (n!"7dbtaumu", (.mul (.div (.div (.sqrt (.rat 2 1)) (.par n!"GF")) (.rat 4 1)) (.add (.add (.div (.mul (.rat 2 1) (.add (.div (.neg (.conj (.inp n!"SedRL_2331"))) (.rat 2 1)) (.div (.inp n!"SedRR_3213") (.rat 2 1)))) (.rat 3 1)) (.add (.div (.inp n!"TedRR_3213") (.rat 2 1)) (.div (.conj (.inp n!"TedRR_2331")) (.rat 2 1)))) (.sub (.div (.inp n!"TedRR_3213") (.rat 2 1)) (.div (.conj (.inp n!"TedRR_2331")) (.rat 2 1)))))),
  (n!"1cbtaumu", (.mul (.div (.div (.sqrt (.rat 2 1)) (.par n!"GF")) (.rat 4 1)) (.conj (.inp n!"VnueduLL_2332")))),
  (n!"3dbdd", (.mul (.div (.div (.sqrt (.rat 2 1)) (.par n!"GF")) (.rat 4 1)) (.sub (.div (.inp n!"VddLL_1113") (.rat 12 1)) (.div (.sub (.inp n!"V1ddLR_1311") (.div (.inp n!"V8ddLR_1311") (.mul (.rat 2 1) (.rat 3 1)))) (.rat 12 1))))),
  (n!"10psbcu", (.mul (.div (.div (.sqrt (.rat 2 1)) (.par n!"GF")) (.rat 4 1)) (.sub (.div (.add (.add (.div (.neg (.conj (.inp n!"S1udduRR_1232"))) (.rat 2 1)) (.div (.conj (.inp n!"S8udduRR_1232")) (.mul (.rat 4 1) (.rat 3 1)))) (.div (.conj (.inp n!"S8udRR_1232")) (.rat 2 1))) (.rat 24 1)) (.div (.add (.mul (.rat (-2) 1) (.inp n!"V1udduLR_2321")) (.div (.inp n!"V8udduLR_2321") (.rat 3 1))) (.rat 24 1))))),
  (n!"7pdstaue", (.mul (.div (.div (.sqrt (.rat 2 1)) (.par n!"GF")) (.rat 4 1)) (.sub (.add (.div (.mul (.rat (-2) 1) (.sub (.div (.inp n!"SedRL_3112") (.rat 2 1)) (.div (.conj (.inp n!"SedRR_1321")) (.rat 2 1)))) (.rat 3 1)) (.add (.div (.inp n!"TedRR_3112") (.rat 2 1)) (.div (.conj (.inp n!"TedRR_1321")) (.rat 2 1)))) (.sub (.div (.inp n!"TedRR_3112") (.rat 2 1)) (.div (.conj (.inp n!"TedRR_1321")) (.rat 2 1)))))),
  (n!"5ubmutau", (.mul (.div (.div (.sqrt (.rat 2 1)) (.par n!"GF")) (.rat 4 1)) (.conj (.inp n!"SnueduRL_3231")))),
  (n!"5psbuu", (.mul (.div (.div (.sqrt (.rat 2 1)) (.par n!"GF")) (.rat 4 1)) (.add (.sub (.add (.div (.neg (.sub (.sub (.conj (.inp n!"S1udRR_1132")) (.div (.conj (.inp n!"S8udduRR_1231")) (.rat 4 1))) (.div (.conj (.inp n!"S8udRR_1132")) (.mul (.rat 2 1) (.rat 3 1))))) (.rat 3 1)) (.div (.mul (.rat 4 1) (.neg (.inp n!"V8udduLR_1321"))) (.rat 3 1))) (.div (.add (.add (.div (.neg (.conj (.inp n!"S1udduRR_1231"))) (.rat 2 1)) (.div (.conj (.inp n!"S8udduRR_1231")) (.mul (.rat 4 1) (.rat 3 1)))) (.div (.conj (.inp n!"S8udRR_1132")) (.rat 2 1))) (.mul (.rat 3 1) (.rat 3 1)))) (.div (.mul (.rat 4 1) (.add (.mul (.rat (-2) 1) (.inp n!"V1udduLR_1321")) (.div (.inp n!"V8udduLR_1321") (.rat 3 1)))) (.mul (.rat 3 1) (.rat 3 1)))))),
  (n!"1dbdd", (.mul (.div (.div (.sqrt (.rat 2 1)) (.par n!"GF")) (.rat 4 1)) (.add (.div (.neg (.inp n!"VddLL_1113")) (.rat 3 1)) (.div (.mul (.rat 4 1) (.sub (.inp n!"V1ddLR_1311") (.div (.inp n!"V8ddLR_1311") (.mul (.rat 2 1) (.rat 3 1))))) (.rat 3 1))))),
  (n!"5pcdee", (.mul (.div (.div (.sqrt (.rat 2 1)) (.par n!"GF")) (.rat 4 1)) (.conj (.inp n!"SnueduRR_1112")))),
  (n!"8dbss", (.mul (.div (.div (.sqrt (.rat 2 1)) (.par n!"GF")) (.rat 4 1)) (.sub (.add (.mul (.rat 2 1) (.add (.div (.neg (.inp n!"S1ddRR_1223")) (.rat 8 1)) (.div (.inp n!"S8ddRR_1223") (.mul (.rat 16 1) (.rat 3 1))))) (.div (.mul (.rat 2 1) (.add (.add (.div (.neg (.inp n!"S1ddRR_1223")) (.rat 2 1)) (.div (.inp n!"S8ddRR_1223") (.mul (.rat 4 1) (.rat 3 1)))) (.div (.inp n!"S8ddRR_1322") (.rat 2 1)))) (.rat 3 1))) (.div (.mul (.rat 2 1) (.add (.mul (.rat (-2) 1) (.inp n!"V1ddLR_1223")) (.div (.inp n!"V8ddLR_1223") (.rat 3 1)))) (.rat 3 1)))))]

def JMS_to_Bern_4 : List (ℕ × Sym) := [
  (n!"2psbuc", (.mul (.div (.div (.sqrt (.rat 2 1)) (.par n!"GF")) (.rat 4 1)) (.add (.div (.mul (.rat (-2) 1) (.div (.inp n!"V8udRR_1223") (.rat 2 1))) (.rat 3 1)) (.div (.mul (.rat 8 1) (.div (.inp n!"V8udLR_1223") (.rat 2 1))) (.rat 3 1))))),
  (n!"7pusmutau", (.mul (.div (.div (.sqrt (.rat 2 1)) (.par n!"GF")) (.rat 4 1)) (.conj (.inp n!"TnueduRR_3221")))),
  (n!"10pdbcc", (.mul (.div (.div (.sqrt (.rat 2 1)) (.par n!"GF")) (.rat 4 1)) (.sub (.div (.add (.add (.div (.neg (.conj (.inp n!"S1udduRR_2132"))) (.rat 2 1)) (.div (.conj (.inp n!"S8udduRR_2132")) (.mul (.rat 4 1) (.rat 3 1)))) (.div (.conj (.inp n!"S8udRR_2231")) (.rat 2 1))) (.rat 24 1)) (.div (.add (.mul (.rat (-2) 1) (.inp n!"V1udduLR_2312")) (.div (.inp n!"V8udduLR_2312") (.rat 3 1))) (.rat 24 1))))),
  (n!"3psbmue", (.mul (.div (.div (.sqrt (.rat 2 1)) (.par n!"GF")) (.rat 4 1)) (.div (.add (.div (.neg (.conj (.inp n!"VedLR_1232"))) (.rat 2 1)) (.div (.conj (.inp n!"VedRR_1232")) (.rat 2 1))) (.rat 6 1)))),
  (n!"8pdbuu", (.mul (.div (.div (.sqrt (.rat 2 1)) (.par n!"GF")) (.rat 4 1)) (.sub (.add (.mul (.rat 2 1) (.add (.div (.neg (.conj (.inp n!"S1udduRR_1131"))) (.rat 8 1)) (.div (.div (.conj (.inp n!"S8udduRR_1131")) (.rat 16 1)) (.rat 3 1)))) (.div (.mul (.rat 2 1) (.add (.add (.div (.neg (.conj (.inp n!"S1udduRR_1131"))) (.rat 2 1)) (.div (.conj (.inp n!"S8udduRR_1131")) (.mul (.rat 4 1) (.rat 3 1)))) (.div (.conj (.inp n!"S8udRR_1131")) (.rat 2 1)))) (.rat 3 1))) (.div (.mul (.rat 2 1) (.add (.mul (.rat (-2) 1) (.inp n!"V1udduLR_1311")) (.div (.inp n!"V8udduLR_1311") (.rat 3 1)))) (.rat 3 1))))),
  (n!"5pdbuc", (.mul (.div (.div (.sqrt (.rat 2 1)) (.par n!"GF")) (.rat 4 1)) (.add (.sub (.add (.div (.neg (.sub (.sub (.conj (.inp n!"S1udRR_2131")) (.div (.conj (.inp n!"S8udduRR_2131")) (.rat 4 1))) (.div (.conj (.inp n!"S8udRR_2131")) (.mul (.rat 2 1) (.rat 3 1))))) (.rat 3 1)) (.div (.mul (.rat 4 1) (.neg (.inp n!"V8udduLR_1312"))) (.rat 3 1))) (.div (.add (.add (.div (.neg (.conj (.inp n!"S1udduRR_2131"))) (.rat 2 1)) (.div (.conj (.inp n!"S8udduRR_2131")) (.mul (.rat 4 1) (.rat 3 1)))) (.div (.conj (.inp n!"S8udRR_2131")) (.rat 2 1))) (.mul (.rat 3 1) (.rat 3 1)))) (.div (.mul (.rat 4 1) (.add (.mul (.rat (-2) 1) (.inp n!"V1udduLR_1312")) (.div (.inp n!"V8udduLR_1312") (.rat 3 1)))) (.mul (.rat 3 1) (.rat 3 1)))))),
  (n!"6dbss", (.mul (.div (.div (.sqrt (.rat 2 1)) (.par n!"GF")) (.rat 4 1)) (.add (.div (.mul (.rat (-2) 1) (.add (.add (.div (.neg (.inp n!"S1ddRR_1223")) (.rat 2 1)) (.div (.inp n!"S8ddRR_1223") (.mul (.rat 4 1) (.rat 3 1)))) (.div (.inp n!"S8ddRR_1322") (.rat 2 1)))) (.rat 3 1)) (.div (.mul (.rat 8 1) (.add (.mul (.rat (-2) 1) (.inp n!"V1ddLR_1223")) (.div (.inp n!"V8ddLR_1223") (.rat 3 1)))) (.rat 3 1))))),
  (n!"5ustaumu", (.mul (.div (.div (.sqrt (.rat 2 1)) (.par n!"GF")) (.rat 4 1)) (.conj (.inp n!"SnueduRL_2321")))),
  (n!"5cdmue", (.mul (.div (.div (.sqrt (.rat 2 1)) (.par n!"GF")) (.rat 4 1)) (.conj (.inp n!"SnueduRL_1212")))),
  (n!"3pdbmutau", (.mul (.div (.div (.sqrt (.rat 2 1)) (.par n!"GF")) (.rat 4 1)) (.div (.add (.div (.neg (.inp n!"VedLR_2313")) (.rat 2 1)) (.div (.inp n!"VedRR_2313") (.rat 2 1))) (.rat 6 1)))),
  (n!"5pcdmutau", (.mul (.div (.div (.sqrt (.rat 2 1)) (.par n!"GF")) (.rat 4 1)) (.conj (.inp n!"SnueduRR_3212")))),
  (n!"9sbcc", (.mul (.div (.div (.sqrt (.rat 2 1)) (.par n!"GF")) (.rat 4 1)) (.sub (.add (.sub (.div (.sub (.sub (.inp n!"S1udRR_2223") (.div (.inp n!"S8udduRR_2322") (.rat 4 1))) (.div (.inp n!"S8udRR_2223") (.mul (.rat 2 1) (.rat 3 1)))) (.rat 48 1)) (.div (.neg (.conj (.inp n!"V8udduLR_2232"))) (.rat 48 1))) (.div (.add (.add (.div (.neg (.inp n!"S1udduRR_2322")) (.rat 2 1)) (.div (.inp n!"S8udduRR_2322") (.mul (.rat 4 1) (.rat 3 1)))) (.div (.inp n!"S8udRR_2223") (.rat 2 1))) (.mul (.rat 48 1) (.rat 3 1)))) (.div (.add (.mul (.rat (-2) 1) (.conj (.inp n!"V1udduLR_2232"))) (.div (.conj (.inp n!"V8udduLR_2232")) (.rat 3 1))) (.mul (.rat 48 1) (.rat 3 1)))))),
  (n!"1pusee", (.mul (.div (.div (.sqrt (.rat 2 1)) (.par n!"GF")) (.rat 4 1)) (.conj (.inp n!"VnueduLR_1121")))),
  (n!"4dbss", (.mul (.div (.div (.sqrt (.rat 2 1)) (.par n!"GF")) (.rat 4 1)) (.sub (.div (.inp n!"VddLL_1223") (.rat 6 1)) (.div (.div (.inp n!"V8ddLR_1322") (.rat 2 1)) (.rat 6 1))))),
  (n!"10sbuu", (.mul (.div (.div (.sqrt (.rat 2 1)) (.par n!"GF")) (.rat 4 1)) (.sub (.div (.add (.add (.div (.neg (.inp n!"S1udduRR_1321")) (.rat 2 1)) (.div (.inp n!"S8udduRR_1321") (.mul (.rat 4 1) (.rat 3 1)))) (.div (.inp n!"S8udRR_1123") (.rat 2 1))) (.rat 24 1)) (.div (.add (.mul (.rat (-2) 1) (.conj (.inp n!"V1udduLR_1231"))) (.div (.conj (.inp n!"V8udduLR_1231")) (.rat 3 1))) (.rat 24 1))))),
  (n!"1usemu", (.mul (.div (.div (.sqrt (.rat 2 1)) (.par n!"GF")) (.rat 4 1)) (.conj (.inp n!"VnueduLL_2121")))),
  (n!"5pcbmue", (.mul (.div (.div (.sqrt (.rat 2 1)) (.par n!"GF")) (.rat 4 1)) (.conj (.inp n!"SnueduRR_1232")))),
  (n!"7sbcc", (.mul (.div (.div (.sqrt (.rat 2 1)) (.par n!"GF")) (.rat 4 1)) (.sub (.add (.add (.add (.sub (.div (.sub (.sub (.inp n!"S1udRR_2223") (.div (.inp n!"S8udduRR_2322") (.rat 4 1))) (.div (.inp n!"S8udRR_2223") (.mul (.rat 2 1) (.rat 3 1)))) (.rat 3 1)) (.div (.neg (.conj (.inp n!"V8udduLR_2232"))) (.rat 3 1))) (.div (.neg (.inp n!"S8udduRR_2322")) (.rat 16 1))) (.div (.add (.div (.neg (.inp n!"S1udduRR_2322")) (.rat 8 1)) (.div (.inp n!"S8udduRR_2322") (.mul (.rat 16 1) (.rat 3 1)))) (.rat 3 1))) (.div (.add (.add (.div (.neg (.inp n!"S1udduRR_2322")) (.rat 2 1)) (.div (.inp n!"S8udduRR_2322") (.mul (.rat 4 1) (.rat 3 1)))) (.div (.inp n!"S8udRR_2223") (.rat 2 1))) (.mul (.rat 3 1) (.rat 3 1)))) (.div (.add (.mul (.rat (-2) 1) (.conj (.inp n!"V1udduLR_2232"))) (.div (.conj (.inp n!"V8udduLR_2232")) (.rat 3 1))) (.mul (.rat 3 1) (.rat 3 1)))))),
  (n!"1dbmumu", (.mul (.div (.div (.sqrt (.rat 2 1)) (.par n!"GF")) (.rat 4 1)) (.add (.div (.mul (.rat 5 1) (.sub (.div (.inp n!"VdeLR_1322") (.rat 2 1)) (.div (.inp n!"VedLL_2213") (.rat 2 1)))) (.rat 3 1)) (.add (.div (.inp n!"VdeLR_1322") (.rat 2 1)) (.div (.inp n!"VedLL_2213") (.rat 2 1)))))),
  (n!"2dbss", (.mul (.div (.div (.sqrt (.rat 2 1)) (.par n!"GF")) (.rat 4 1)) (.add (.div (.mul (.rat (-2) 1) (.inp n!"VddLL_1223")) (.rat 3 1)) (.div (.mul (.rat 8 1) (.div (.inp n!"V8ddLR_1322") (.rat 2 1))) (.rat 3 1))))),
  (n!"10dbuc", (.mul (.div (.div (.sqrt (.rat 2 1)) (.par n!"GF")) (.rat 4 1)) (.sub (.div (.add (.add (.div (.neg (.inp n!"S1udduRR_1312")) (.rat 2 1)) (.div (.inp n!"S8udduRR_1312") (.mul (.rat 4 1) (.rat 3 1)))) (.div (.inp n!"S8udRR_1213") (.rat 2 1))) (.rat 24 1)) (.div (.add (.mul (.rat (-2) 1) (.conj (.inp n!"V1udduLR_2131"))) (.div (.conj (.inp n!"V8udduLR_2131")) (.rat 3 1))) (.rat 24 1))))),
  (n!"3pdstaumu", (.mul (.div (.div (.sqrt (.rat 2 1)) (.par n!"GF")) (.rat 4 1)) (.div (.add (.div (.neg (.conj (.inp n!"VedLR_2321"))) (.rat 2 1)) (.div (.conj (.inp n!"VedRR_2321")) (.rat 2 1))) (.rat 6 1)))),
  (n!"1pusmumu", (.mul (.div (.div (.sqrt (.rat 2 1)) (.par n!"GF")) (.rat 4 1)) (.conj (.inp n!"VnueduLR_2221")))),
  (n!"9pdsee", (.mul (.div (.div (.sqrt (.rat 2 1)) (.par n!"GF")) (.rat 4 1)) (.div (.neg (.sub (.div (.inp n!"SedRL_1112") (.rat 2 1)) (.div (.conj (.inp n!"SedRR_1121")) (.rat 2 1)))) (.rat 24 1)))),
  (n!"4pdscu", (.mul (.div (.div (.sqrt (.rat 2 1)) (.par n!"GF")) (.rat 4 1)) (.sub (.div (.div (.conj (.inp n!"V8udRR_1221")) (.rat 2 1)) (.rat 6 1)) (.div (.div (.conj (.inp n!"V8udLR_1221")) (.rat 2 1)) (.rat 6 1))))),
  (n!"9dbetau", (.mul (.div (.div (.sqrt (.rat 2 1)) (.par n!"GF")) (.rat 4 1)) (.div (.add (.div (.neg (.conj (.inp n!"SedRL_3131"))) (.rat 2 1)) (.div (.inp n!"SedRR_1313") (.rat 2 1))) (.rat 24 1)))),
  (n!"5sbcc", (.mul (.div (.div (.sqrt (.rat 2 1)) (.par n!"GF")) (.rat 4 1)) (.add (.sub (.add (.div (.neg (.sub (.sub (.inp n!"S1udRR_2223") (.div (.inp n!"S8udduRR_2322") (.rat 4 1))) (.div (.inp n!"S8udRR_2223") (.mul (.rat 2 1) (.rat 3 1))))) (.rat 3 1)) (.div (.mul (.rat 4 1) (.neg (.conj (.inp n!"V8udduLR_2232")))) (.rat 3 1))) (.div (.add (.add (.div (.neg (.inp n!"S1udduRR_2322")) (.rat 2 1)) (.div (.inp n!"S8udduRR_2322") (.mul (.rat 4 1) (.rat 3 1)))) (.div (.inp n!"S8udRR_2223") (.rat 2 1))) (.mul (.rat 3 1) (.rat 3 1)))) (.div (.mul (.rat 4 1) (.add (.mul (.rat (-2) 1) (.conj (.inp n!"V1udduLR_2232"))) (.div (.conj (.inp n!"V8udduLR_2232")) (.rat 3 1)))) (.mul (.rat 3 1) (.rat 3 1)))))),
  (n!"5pdsdd", (.mul (.div (.div (.sqrt (.rat 2 1)) (.par n!"GF")) (.rat 4 1)) (.add (.div (.neg (.sub (.sub (.inp n!"S1ddRR_1112") (.div (.inp n!"S8ddRR_1112") (.rat 4 1))) (.div (.inp n!"S8ddRR_1112") (.mul (.rat 2 1) (.rat 3 1))))) (.rat 3 1)) (.div (.mul (.rat 4 1) (.neg (.inp n!"V8ddLR_1112"))) (.rat 3 1))))),
  (n!"1pdscc", (.mul (.div (.div (.sqrt (.rat 2 1)) (.par n!"GF")) (.rat 4 1)) (.add (.sub (.add (.div (.neg (.sub (.inp n!"V1udRR_2212") (.div (.inp n!"V8udRR_2212") (.mul (.rat 2 1) (.rat 3 1))))) (.rat 3 1)) (.div (.mul (.rat 4 1) (.sub (.inp n!"V1udLR_2212") (.div (.inp n!"V8udLR_2212") (.mul (.rat 2 1) (.rat 3 1))))) (.rat 3 1))) (.div (.div (.inp n!"V8udRR_2212") (.rat 2 1)) (.mul (.rat 3 1) (.rat 3 1)))) (.div (.mul (.rat 4 1) (.div (.inp n!"V8udLR_2212") (.rat 2 1))) (.mul (.rat 3 1) (.rat 3 1)))))),
  (n!"5udetau", (.mul (.div (.div (.sqrt (.rat 2 1)) (.par n!"GF")) (.rat 4 1)) (.conj (.inp n!"SnueduRL_3111")))),
  (n!"nu1sbtaue", (.mul (.div (.div (.sqrt (.rat 2 1)) (.par n!"GF")) (.rat 4 1)) (.conj (.inp n!"VnudLL_1332")))),
  (n!"1pubmue", (.mul (.div (.div (.sqrt (.rat 2 1)) (.par n!"GF")) (.rat 4 1)) (.conj (.inp n!"VnueduLR_1231")))),
  (n!"10pdbuu", (.mul (.div (.div (.sqrt (.rat 2 1)) (.par n!"GF")) (.rat 4 1)) (.sub (.div (.add (.add (.div (.neg (.conj (.inp n!"S1udduRR_1131"))) (.rat 2 1)) (.div (.conj (.inp n!"S8udduRR_1131")) (.mul (.rat 4 1) (.rat 3 1)))) (.div (.conj (.inp n!"S8udRR_1131")) (.rat 2 1))) (.rat 24 1)) (.div (.add (.mul (.rat (-2) 1) (.inp n!"V1udduLR_1311")) (.div (.inp n!"V8udduLR_1311") (.rat 3 1))) (.rat 24 1))))),
  (n!"5sbmutau", (.mul (.div (.div (.sqrt (.rat 2 1)) (.par n!"GF")) (.rat 4 1)) (.sub (.add (.div (.conj (.inp n!"SedRL_3232")) (.rat 2 1)) (.div (.inp n!"SedRR_2323") (.rat 2 1))) (.div (.mul (.rat 5 1) (.add (.div (.neg (.conj (.inp n!"SedRL_3232"))) (.rat 2 1)) (.div (.inp n!"SedRR_2323") (.rat 2 1)))) (.rat 3 1))))),
  (n!"3sbcc", (.mul (.div (.div (.sqrt (.rat 2 1)) (.par n!"GF")) (.rat 4 1)) (.sub (.add (.sub (.div (.sub (.inp n!"V1udLL_2223") (.div (.inp n!"V8udLL_2223") (.mul (.rat 2 1) (.rat 3 1)))) (.rat 12 1)) (.div (.sub (.inp n!"V1duLR_2322") (.div (.inp n!"V8duLR_2322") (.mul (.rat 2 1) (.rat 3 1)))) (.rat 12 1))) (.div (.div (.inp n!"V8udLL_2223") (.rat 2 1)) (.mul (.rat 12 1) (.rat 3 1)))) (.div (.div (.inp n!"V8duLR_2322") (.rat 2 1)) (.mul (.rat 12 1) (.rat 3 1)))))),
  (n!"7pcdtautau", (.mul (.div (.div (.sqrt (.rat 2 1)) (.par n!"GF")) (.rat 4 1)) (.conj (.inp n!"TnueduRR_3312")))),
  (n!"9sbemu", (.mul (.div (.div (.sqrt (.rat 2 1)) (.par n!"GF")) (.rat 4 1)) (.div (.add (.div (.neg (.conj (.inp n!"SedRL_2132"))) (.rat 2 1)) (.div (.inp n!"SedRR_1223") (.rat 2 1))) (.rat 24 1)))),
  (n!"1pdbtaue", (.mul (.div (.div (.sqrt (.rat 2 1)) (.par n!"GF")) (.rat 4 1)) (.sub (.add (.div (.conj (.inp n!"VedLR_1331")) (.rat 2 1)) (.div (.conj (.inp n!"VedRR_1331")) (.rat 2 1))) (.div (.mul (.rat 5 1) (.add (.div (.neg (.conj (.inp n!"VedLR_1331"))) (.rat 2 1)) (.div (.conj (.inp n!"VedRR_1331")) (.rat 2 1)))) (.rat 3 1))))),
  (n!"5ubetau", (.mul (.div (.div (.sqrt (.rat 2 1)) (.par n!"GF")) (.rat 4 1)) (.conj (.inp n!"SnueduRL_3131")))),
  (n!"1psbmue", (.mul (.div (.div (.sqrt (.rat 2 1)) (.par n!"GF")) (.rat 4 1)) (.sub (.add (.div (.conj (.inp n!"VedLR_1232")) (.rat 2 1)) (.div (.conj (.inp n!"VedRR_1232")) (.rat 2 1))) (.div (.mul (.rat 5 1) (.add (.div (.neg (.conj (.inp n!"VedLR_1232"))) (.rat 2 1)) (.div (.conj (.inp n!"VedRR_1232")) (.rat 2 1)))) (.rat 3 1))))),
  (n!"5pudetau", (.mul (.div (.div (.sqrt (.rat 2 1)) (.par n!"GF")) (.rat 4 1)) (.conj (.inp n!"SnueduRR_3111")))),
  (n!"1sbcc", (.mul (.div (.div (.sqrt (.rat 2 1)) (.par n!"GF")) (.rat 4 1)) (.add (.sub (.add (.div (.neg (.sub (.inp n!"V1udLL_2223") (.div (.inp n!"V8udLL_2223") (.mul (.rat 2 1) (.rat 3 1))))) (.rat 3 1)) (.div (.mul (.rat 4 1) (.sub (.inp n!"V1duLR_2322") (.div (.inp n!"V8duLR_2322") (.mul (.rat 2 1) (.rat 3 1))))) (.rat 3 1))) (.div (.div (.inp n!"V8udLL_2223") (.rat 2 1)) (.mul (.rat 3 1) (.rat 3 1)))) (.div (.mul (.rat 4 1) (.div (.inp n!"V8duLR_2322") (.rat 2 1))) (.mul (.rat 3 1) (.rat 3 1)))))),
  (n!"9sbuu", (.mul (.div (.div (.sqrt (.rat 2 1)) (.par n!"GF")) (.rat 4 1)) (.sub (.add (.sub (.div (.sub (.sub (.inp n!"S1udRR_1123") (.div (.inp n!"S8udduRR_1321") (.rat 4 1))) (.div (.inp n!"S8udRR_1123") (.mul (.rat 2 1) (.rat 3 1)))) (.rat 48 1)) (.div (.neg (.conj (.inp n!"V8udduLR_1231"))) (.rat 48 1))) (.div (.add (.add (.div (.neg (.inp n!"S1udduRR_1321")) (.rat 2 1)) (.div (.inp n!"S8udduRR_1321") (.mul (.rat 4 1) (.rat 3 1)))) (.div (.inp n!"S8udRR_1123") (.rat 2 1))) (.mul (.rat 48 1) (.rat 3 1)))) (.div (.add (.mul (.rat (-2) 1) (.conj (.inp n!"V1udduLR_1231"))) (.div (.conj (.inp n!"V8udduLR_1231")) (.rat 3 1))) (.mul (.rat 48 1) (.rat 3 1)))))),
  (n!"9psbuc", (.mul (.div (.div (.sqrt (.rat 2 1)) (.par n!"GF")) (.rat 4 1)) (.sub (.add (.sub (.div (.sub (.sub (.conj (.inp n!"S1udRR_2132")) (.div (.conj (.inp n!"S8udduRR_2231")) (.rat 4 1))) (.div (.conj (.inp n!"S8udRR_2132")) (.mul (.rat 2 1) (.rat 3 1)))) (.rat 48 1)) (.div (.neg (.inp n!"V8udduLR_1322")) (.rat 48 1))) (.div (.add (.add (.div (.neg (.conj (.inp n!"S1udduRR_2231"))) (.rat 2 1)) (.div (.conj (.inp n!"S8udduRR_2231")) (.mul (.rat 4 1) (.rat 3 1)))) (.div (.conj (.inp n!"S8udRR_2132")) (.rat 2 1))) (.mul (.rat 48 1) (.rat 3 1)))) (.div (.add (.mul (.rat (-2) 1) (.inp n!"V1udduLR_1322")) (.div (.inp n!"V8udduLR_1322") (.rat 3 1))) (.mul (.rat 48 1) (.rat 3 1)))))),
  (n!"5pubetau", (.mul (.div (.div (.sqrt (.rat 2 1)) (.par n!"GF")) (.rat 4 1)) (.conj (.inp n!"SnueduRR_3131")))),
  (n!"7sbuu", (.mul (.div (.div (.sqrt (.rat 2 1)) (.par n!"GF")) (.rat 4 1)) (.sub (.add (.add (.add (.sub (.div (.sub (.sub (.inp n!"S1udRR_1123") (.div (.inp n!"S8udduRR_1321") (.rat 4 1))) (.div (.inp n!"S8udRR_1123") (.mul (.rat 2 1) (.rat 3 1)))) (.rat 3 1)) (.div (.neg (.conj (.inp n!"V8udduLR_1231"))) (.rat 3 1))) (.div (.neg (.inp n!"S8udduRR_1321")) (.rat 16 1))) (.div (.add (.div (.neg (.inp n!"S1udduRR_1321")) (.rat 8 1)) (.div (.inp n!"S8udduRR_1321") (.mul (.rat 16 1) (.rat 3 1)))) (.rat 3 1))) (.div (.add (.add (.div (.neg (.inp n!"S1udduRR_1321")) (.rat 2 1)) (.div (.inp n!"S8udduRR_1321") (.mul (.rat 4 1) (.rat 3 1)))) (.div (.inp n!"S8udRR_1123") (.rat 2 1))) (.mul (.rat 3 1) (.rat 3 1)))) (.div (.add (.mul (.rat (-2) 1) (.conj (.inp n!"V1udduLR_1231"))) (.div (.conj (.inp n!"V8udduLR_1231")) (.rat 3 1))) (.mul (.rat 3 1) (.rat 3 1)))))),
  (n!"7pdbss", (.mul (.div (.div (.sqrt (.rat 2 1)) (.par n!"GF")) (.rat 4 1)) (.sub (.add (.add (.add (.sub (.div (.sub (.sub (.conj (.inp n!"S1ddRR_2231")) (.div (.conj (.inp n!"S8ddRR_2132")) (.rat 4 1))) (.div (.div (.conj (.inp n!"S8ddRR_2231")) (.rat 2 1)) (.rat 3 1))) (.rat 3 1)) (.div (.neg (.inp n!"V8ddLR_2312")) (.rat 3 1))) (.div (.neg (.conj (.inp n!"S8ddRR_2132"))) (.rat 16 1))) (.div (.add (.div (.neg (.conj (.inp n!"S1ddRR_2132"))) (.rat 8 1)) (.div (.div (.conj (.inp n!"S8ddRR_2132")) (.rat 16 1)) (.rat 3 1))) (.rat 3 1))) (.div (.add (.add (.div (.neg (.conj (.inp n!"S1ddRR_2132"))) (.rat 2 1)) (.div (.div (.conj (.inp n!"S8ddRR_2132")) (.rat 4 1)) (.rat 3 1))) (.div (.conj (.inp n!"S8ddRR_2231")) (.rat 2 1))) (.mul (.rat 3 1) (.rat 3 1)))) (.div (.add (.mul (.rat (-2) 1) (.inp n!"V1ddLR_2312")) (.div (.inp n!"V8ddLR_2312") (.rat 3 1))) (.mul (.rat 3 1) (.rat 3 1)))))),
  (n!"9dbuc", (.mul (.div (.div (.sqrt (.rat 2 1)) (.par n!"GF")) (.rat 4 1)) (.sub (.add (.sub (.div (.sub (.sub (.inp n!"S1udRR_1213") (.div (.inp n!"S8udduRR_1312") (.rat 4 1))) (.div (.inp n!"S8udRR_1213") (.mul (.rat 2 1) (.rat 3 1)))) (.rat 48 1)) (.div (.neg (.conj (.inp n!"V8udduLR_2131"))) (.rat 48 1))) (.div (.add (.add (.div (.neg (.inp n!"S1udduRR_1312")) (.rat 2 1)) (.div (.inp n!"S8udduRR_1312") (.mul (.rat 4 1) (.rat 3 1)))) (.div (.inp n!"S8udRR_1213") (.rat 2 1))) (.mul (.rat 48 1) (.rat 3 1)))) (.div (.add (.mul (.rat (-2) 1) (.conj (.inp n!"V1udduLR_2131"))) (.div (.conj (.inp n!"V8udduLR_2131")) (.rat 3 1))) (.mul (.rat 48 1) (.rat 3 1)))))),
  (n!"5pudee", (.mul (.div (.div (.sqrt (.rat 2 1)) (.par n!"GF")) (.rat 4 1)) (.conj (.inp n!"SnueduRR_1111")))),
  (n!"9dsmutau", (.mul (.div (.div (.sqrt (.rat 2 1)) (.par n!"GF")) (.rat 4 1)) (.div (.add (.div (.neg (.conj (.inp n!"SedRL_3221"))) (.rat 2 1)) (.div (.inp n!"SedRR_2312") (.rat 2 1))) (.rat 24 1))))]

def JMS_to_Bern_5 : List (ℕ × Sym) := [
  (n!"1pdbds", (.mul (.div (.div (.sqrt (.rat 2 1)) (.par n!"GF")) (.rat 4 1)) (.add (.div (.neg (.inp n!"VddRR_1213")) (.rat 3 1)) (.div (.mul (.rat 4 1) (.sub (.inp n!"V1ddLR_1213") (.div (.inp n!"V8ddLR_1213") (.mul (.rat 2 1) (.rat 3 1))))) (.rat 3 1))))),
  (n!"5sbuu", (.mul (.div (.div (.sqrt (.rat 2 1)) (.par n!"GF")) (.rat 4 1)) (.add (.sub (.add (.div (.neg (.sub (.sub (.inp n!"S1udRR_1123") (.div (.inp n!"S8udduRR_1321") (.rat 4 1))) (.div (.inp n!"S8udRR_1123") (.mul (.rat 2 1) (.rat 3 1))))) (.rat 3 1)) (.div (.mul (.rat 4 1) (.neg (.conj (.inp n!"V8udduLR_1231")))) (.rat 3 1))) (.div (.add (.add (.div (.neg (.inp n!"S1udduRR_1321")) (.rat 2 1)) (.div (.inp n!"S8udduRR_1321") (.mul (.rat 4 1) (.rat 3 1)))) (.div (.inp n!"S8udRR_1123") (.rat 2 1))) (.mul (.rat 3 1) (.rat 3 1)))) (.div (.mul (.rat 4 1) (.add (.mul (.rat (-2) 1) (.conj (.inp n!"V1udduLR_1231"))) (.div (.conj (.inp n!"V8udduLR_1231")) (.rat 3 1)))) (.mul (.rat 3 1) (.rat 3 1)))))),
  (n!"7dbuc", (.mul (.div (.div (.sqrt (.rat 2 1)) (.par n!"GF")) (.rat 4 1)) (.sub (.add (.add (.add (.sub (.div (.sub (.sub (.inp n!"S1udRR_1213") (.div (.inp n!"S8udduRR_1312") (.rat 4 1))) (.div (.inp n!"S8udRR_1213") (.mul (.rat 2 1) (.rat 3 1)))) (.rat 3 1)) (.div (.neg (.conj (.inp n!"V8udduLR_2131"))) (.rat 3 1))) (.div (.neg (.inp n!"S8udduRR_1312")) (.rat 16 1))) (.div (.add (.div (.neg (.inp n!"S1udduRR_1312")) (.rat 8 1)) (.div (.inp n!"S8udduRR_1312") (.mul (.rat 16 1) (.rat 3 1)))) (.rat 3 1))) (.div (.add (.add (.div (.neg (.inp n!"S1udduRR_1312")) (.rat 2 1)) (.div (.inp n!"S8udduRR_1312") (.mul (.rat 4 1) (.rat 3 1)))) (.div (.inp n!"S8udRR_1213") (.rat 2 1))) (.mul (.rat 3 1) (.rat 3 1)))) (.div (.add (.mul (.rat (-2) 1) (.conj (.inp n!"V1udduLR_2131"))) (.div (.conj (.inp n!"V8udduLR_2131")) (.rat 3 1))) (.mul (.rat 3 1) (.rat 3 1)))))),
  (n!"1pdsuu", (.mul (.div (.div (.sqrt (.rat 2 1)) (.par n!"GF")) (.rat 4 1)) (.add (.sub (.add (.div (.neg (.sub (.inp n!"V1udRR_1112") (.div (.inp n!"V8udRR_1112") (.mul (.rat 2 1) (.rat 3 1))))) (.rat 3 1)) (.div (.mul (.rat 4 1) (.sub (.inp n!"V1udLR_1112") (.div (.inp n!"V8udLR_1112") (.mul (.rat 2 1) (.rat 3 1))))) (.rat 3 1))) (.div (.div (.inp n!"V8udRR_1112") (.rat 2 1)) (.mul (.rat 3 1) (.rat 3 1)))) (.div (.mul (.rat 4 1) (.div (.inp n!"V8udLR_1112") (.rat 2 1))) (.mul (.rat 3 1) (.rat 3 1)))))),
  (n!"5cdee", (.mul (.div (.div (.sqrt (.rat 2 1)) (.par n!"GF")) (.rat 4 1)) (.conj (.inp n!"SnueduRL_1112")))),
  (n!"5pcbee", (.mul (.div (.div (.sqrt (.rat 2 1)) (.par n!"GF")) (.rat 4 1)) (.conj (.inp n!"SnueduRR_1132")))),
  (n!"1pdsmutau", (.mul (.div (.div (.sqrt (.rat 2 1)) (.par n!"GF")) (.rat 4 1)) (.sub (.add (.div (.inp n!"VedLR_2312") (.rat 2 1)) (.div (.inp n!"VedRR_2312") (.rat 2 1))) (.div (.mul (.rat 5 1) (.add (.div (.neg (.inp n!"VedLR_2312")) (.rat 2 1)) (.div (.inp n!"VedRR_2312") (.rat 2 1)))) (.rat 3 1))))),
  (n!"7dbetau", (.mul (.div (.div (.sqrt (.rat 2 1)) (.par n!"GF")) (.rat 4 1)) (.add (.add (.div (.mul (.rat 2 1) (.add (.div (.neg (.conj (.inp n!"SedRL_3131"))) (.rat 2 1)) (.div (.inp n!"SedRR_1313") (.rat 2 1)))) (.rat 3 1)) (.add (.div (.inp n!"TedRR_1313") (.rat 2 1)) (.div (.conj (.inp n!"TedRR_3131")) (.rat 2 1)))) (.sub (.div (.inp n!"TedRR_1313") (.rat 2 1)) (.div (.conj (.inp n!"TedRR_3131")) (.rat 2 1)))))),
  (n!"3sbuu", (.mul (.div (.div (.sqrt (.rat 2 1)) (.par n!"GF")) (.rat 4 1)) (.sub (.add (.sub (.div (.sub (.inp n!"V1udLL_1123") (.div (.inp n!"V8udLL_1123") (.mul (.rat 2 1) (.rat 3 1)))) (.rat 12 1)) (.div (.sub (.inp n!"V1duLR_2311") (.div (.inp n!"V8duLR_2311") (.mul (.rat 2 1) (.rat 3 1)))) (.rat 12 1))) (.div (.div (.inp n!"V8udLL_1123") (.rat 2 1)) (.mul (.rat 12 1) (.rat 3 1)))) (.div (.div (.inp n!"V8duLR_2311") (.rat 2 1)) (.mul (.rat 12 1) (.rat 3 1)))))),
  (n!"9psbtaumu", (.mul (.div (.div (.sqrt (.rat 2 1)) (.par n!"GF")) (.rat 4 1)) (.div (.neg (.sub (.div (.inp n!"SedRL_3223") (.rat 2 1)) (.div (.conj (.inp n!"SedRR_2332")) (.rat 2 1)))) (.rat 24 1)))),
  (n!"5dbuc", (.mul (.div (.div (.sqrt (.rat 2 1)) (.par n!"GF")) (.rat 4 1)) (.add (.sub (.add (.div (.neg (.sub (.sub (.inp n!"S1udRR_1213") (.div (.inp n!"S8udduRR_1312") (.rat 4 1))) (.div (.inp n!"S8udRR_1213") (.mul (.rat 2 1) (.rat 3 1))))) (.rat 3 1)) (.div (.mul (.rat 4 1) (.neg (.conj (.inp n!"V8udduLR_2131")))) (.rat 3 1))) (.div (.add (.add (.div (.neg (.inp n!"S1udduRR_1312")) (.rat 2 1)) (.div (.inp n!"S8udduRR_1312") (.mul (.rat 4 1) (.rat 3 1)))) (.div (.inp n!"S8udRR_1213") (.rat 2 1))) (.mul (.rat 3 1) (.rat 3 1)))) (.div (.mul (.rat 4 1) (.add (.mul (.rat (-2) 1) (.conj (.inp n!"V1udduLR_2131"))) (.div (.conj (.inp n!"V8udduLR_2131")) (.rat 3 1)))) (.mul (.rat 3 1) (.rat 3 1)))))),
  (n!"7pgammadb", (.mul (.div (.div (.sqrt (.rat 2 1)) (.par n!"GF")) (.rat 4 1)) (.mul (.div (.div (.mul (.sqrt (.mul (.mul (.rat 4 1) .pi) (.par n!"alpha_s"))) (.sqrt (.mul (.mul (.rat 4 1) .pi) (.par n!"alpha_s")))) (.sqrt (.mul (.mul (.rat 4 1) .pi) (.par n!"alpha_e")))) (.par n!"m_b")) (.conj (.inp n!"dgamma_31"))))),
  (n!"7pubmutau", (.mul (.div (.div (.sqrt (.rat 2 1)) (.par n!"GF")) (.rat 4 1)) (.conj (.inp n!"TnueduRR_3231")))),
  (n!"5dbmue", (.mul (.div (.div (.sqrt (.rat 2 1)) (.par n!"GF")) (.rat 4 1)) (.sub (.add (.div (.conj (.inp n!"SedRL_1231")) (.rat 2 1)) (.div (.inp n!"SedRR_2113") (.rat 2 1))) (.div (.mul (.rat 5 1) (.add (.div (.neg (.conj (.inp n!"SedRL_1231"))) (.rat 2 1)) (.div (.inp n!"SedRR_2113") (.rat 2 1)))) (.rat 3 1))))),
  (n!"5psbsd", (.mul (.div (.div (.sqrt (.rat 2 1)) (.par n!"GF")) (.rat 4 1)) (.add (.div (.neg (.sub (.sub (.inp n!"S1ddRR_2123") (.div (.inp n!"S8ddRR_2123") (.rat 4 1))) (.div (.inp n!"S8ddRR_2123") (.mul (.rat 2 1) (.rat 3 1))))) (.rat 3 1)) (.div (.mul (.rat 4 1) (.neg (.conj (.inp n!"V8ddLR_1232")))) (.rat 3 1))))),
  (n!"1sbuu", (.mul (.div (.div (.sqrt (.rat 2 1)) (.par n!"GF")) (.rat 4 1)) (.add (.sub (.add (.div (.neg (.sub (.inp n!"V1udLL_1123") (.div (.inp n!"V8udLL_1123") (.mul (.rat 2 1) (.rat 3 1))))) (.rat 3 1)) (.div (.mul (.rat 4 1) (.sub (.inp n!"V1duLR_2311") (.div (.inp n!"V8duLR_2311") (.mul (.rat 2 1) (.rat 3 1))))) (.rat 3 1))) (.div (.div (.inp n!"V8udLL_1123") (.rat 2 1)) (.mul (.rat 3 1) (.rat 3 1)))) (.div (.mul (.rat 4 1) (.div (.inp n!"V8duLR_2311") (.rat 2 1))) (.mul (.rat 3 1) (.rat 3 1)))))),
  (n!"7pcbtautau", (.mul (.div (.div (.sqrt (.rat 2 1)) (.par n!"GF")) (.rat 4 1)) (.conj (.inp n!"TnueduRR_3332")))),
  (n!"3dbuc", (.mul (.div (.div (.sqrt (.rat 2 1)) (.par n!"GF")) (.rat 4 1)) (.sub (.add (.sub (.div (.sub (.inp n!"V1udLL_1213") (.div (.inp n!"V8udLL_1213") (.mul (.rat 2 1) (.rat 3 1)))) (.rat 12 1)) (.div (.sub (.inp n!"V1duLR_1312") (.div (.inp n!"V8duLR_1312") (.mul (.rat 2 1) (.rat 3 1)))) (.rat 12 1))) (.div (.div (.inp n!"V8udLL_1213") (.rat 2 1)) (.mul (.rat 12 1) (.rat 3 1)))) (.div (.div (.inp n!"V8duLR_1312") (.rat 2 1)) (.mul (.rat 12 1) (.rat 3 1)))))),
  (n!"1cdee", (.mul (.div (.div (.sqrt (.rat 2 1)) (.par n!"GF")) (.rat 4 1)) (.conj (.inp n!"VnueduLL_1112")))),
  (n!"9dsdd", (.mul (.div (.div (.sqrt (.rat 2 1)) (.par n!"GF")) (.rat 4 1)) (.sub (.div (.sub (.sub (.conj (.inp n!"S1ddRR_1121")) (.div (.conj (.inp n!"S8ddRR_1121")) (.rat 4 1))) (.div (.div (.conj (.inp n!"S8ddRR_1121")) (.rat 2 1)) (.rat 3 1))) (.rat 48 1)) (.div (.neg (.inp n!"V8ddLR_1211")) (.rat 48 1))))),
  (n!"8pdscc", (.mul (.div (.div (.sqrt (.rat 2 1)) (.par n!"GF")) (.rat 4 1)) (.sub (.add (.mul (.rat 2 1) (.add (.div (.neg (.conj (.inp n!"S1udduRR_2122"))) (.rat 8 1)) (.div (.div (.conj (.inp n!"S8udduRR_2122")) (.rat 16 1)) (.rat 3 1)))) (.div (.mul (.rat 2 1) (.add (.add (.div (.neg (.conj (.inp n!"S1udduRR_2122"))) (.rat 2 1)) (.div (.conj (.inp n!"S8udduRR_2122")) (.mul (.rat 4 1) (.rat 3 1)))) (.div (.conj (.inp n!"S8udRR_2221")) (.rat 2 1)))) (.rat 3 1))) (.div (.mul (.rat 2 1) (.add (.mul (.rat (-2) 1) (.inp n!"V1udduLR_2212")) (.div (.inp n!"V8udduLR_2212") (.rat 3 1)))) (.rat 3 1))))),
  (n!"3psbee", (.mul (.div (.div (.sqrt (.rat 2 1)) (.par n!"GF")) (.rat 4 1)) (.div (.add (.div (.neg (.inp n!"VedLR_1123")) (.rat 2 1)) (.div (.inp n!"VedRR_1123") (.rat 2 1))) (.rat 6 1)))),
  (n!"5ubtaumu", (.mul (.div (.div (.sqrt (.rat 2 1)) (.par n!"GF")) (.rat 4 1)) (.conj (.inp n!"SnueduRL_2331")))),
  (n!"4pdsbb", (.mul (.div (.div (.sqrt (.rat 2 1)) (.par n!"GF")) (.rat 4 1)) (.sub (.div (.inp n!"VddRR_1332") (.rat 6 1)) (.div (.div (.inp n!"V8ddLR_3312") (.rat 2 1)) (.rat 6 1))))),
  (n!"1csemu", (.mul (.div (.div (.sqrt (.rat 2 1)) (.par n!"GF")) (.rat 4 1)) (.conj (.inp n!"VnueduLL_2122")))),
  (n!"1dbuc", (.mul (.div (.div (.sqrt (.rat 2 1)) (.par n!"GF")) (.rat 4 1)) (.add (.sub (.add (.div (.neg (.sub (.inp n!"V1udLL_1213") (.div (.inp n!"V8udLL_1213") (.mul (.rat 2 1) (.rat 3 1))))) (.rat 3 1)) (.div (.mul (.rat 4 1) (.sub (.inp n!"V1duLR_1312") (.div (.inp n!"V8duLR_1312") (.mul (.rat 2 1) (.rat 3 1))))) (.rat 3 1))) (.div (.div (.inp n!"V8udLL_1213") (.rat 2 1)) (.mul (.rat 3 1) (.rat 3 1)))) (.div (.mul (.rat 4 1) (.div (.inp n!"V8duLR_1312") (.rat 2 1))) (.mul (.rat 3 1) (.rat 3 1)))))),
  (n!"1pdbcu", (.mul (.div (.div (.sqrt (.rat 2 1)) (.par n!"GF")) (.rat 4 1)) (.add (.sub (.add (.div (.neg (.sub (.conj (.inp n!"V1udRR_1231")) (.div (.conj (.inp n!"V8udRR_1231")) (.mul (.rat 2 1) (.rat 3 1))))) (.rat 3 1)) (.div (.mul (.rat 4 1) (.sub (.conj (.inp n!"V1udLR_1231")) (.div (.conj (.inp n!"V8udLR_1231")) (.mul (.rat 2 1) (.rat 3 1))))) (.rat 3 1))) (.div (.div (.conj (.inp n!"V8udRR_1231")) (.rat 2 1)) (.mul (.rat 3 1) (.rat 3 1)))) (.div (.mul (.rat 4 1) (.div (.conj (.inp n!"V8udLR_1231")) (.rat 2 1))) (.mul (.rat 3 1) (.rat 3 1)))))),
  (n!"7pustaumu", (.mul (.div (.div (.sqrt (.rat 2 1)) (.par n!"GF")) (.rat 4 1)) (.conj (.inp n!"TnueduRR_2321")))),
  (n!"7dsdd", (.mul (.div (.div (.sqrt (.rat 2 1)) (.par n!"GF")) (.rat 4 1)) (.add (.sub (.div (.sub (.sub (.conj (.inp n!"S1ddRR_1121")) (.div (.conj (.inp n!"S8ddRR_1121")) (.rat 4 1))) (.div (.div (.conj (.inp n!"S8ddRR_1121")) (.rat 2 1)) (.rat 3 1))) (.rat 3 1)) (.div (.neg (.inp n!"V8ddLR_1211")) (.rat 3 1))) (.div (.neg (.conj (.inp n!"S8ddRR_1121"))) (.rat 16 1))))),
  (n!"5cdtaue", (.mul (.div (.div (.sqrt (.rat 2 1)) (.par n!"GF")) (.rat 4 1)) (.conj (.inp n!"SnueduRL_1312")))),
  (n!"5cdtautau", (.mul (.div (.div (.sqrt (.rat 2 1)) (.par n!"GF")) (.rat 4 1)) (.conj (.inp n!"SnueduRL_3312")))),
  (n!"5dsdd", (.mul (.div (.div (.sqrt (.rat 2 1)) (.par n!"GF")) (.rat 4 1)) (.add (.div (.neg (.sub (.sub (.conj (.inp n!"S1ddRR_1121")) (.div (.conj (.inp n!"S8ddRR_1121")) (.rat 4 1))) (.div (.div (.conj (.inp n!"S8ddRR_1121")) (.rat 2 1)) (.rat 3 1)))) (.rat 3 1)) (.div (.mul (.rat 4 1) (.neg (.inp n!"V8ddLR_1211"))) (.rat 3 1))))),
  (n!"nu1dsee", (.mul (.div (.div (.sqrt (.rat 2 1)) (.par n!"GF")) (.rat 4 1)) (.inp n!"VnudLL_1112"))),
  (n!"5cbtaue", (.mul (.div (.div (.sqrt (.rat 2 1)) (.par n!"GF")) (.rat 4 1)) (.conj (.inp n!"SnueduRL_1332")))),
  (n!"3pdbtaumu", (.mul (.div (.div (.sqrt (.rat 2 1)) (.par n!"GF")) (.rat 4 1)) (.div (.add (.div (.neg (.conj (.inp n!"VedLR_2331"))) (.rat 2 1)) (.div (.conj (.inp n!"VedRR_2331")) (.rat 2 1))) (.rat 6 1)))),
  (n!"5pcdtaumu", (.mul (.div (.div (.sqrt (.rat 2 1)) (.par n!"GF")) (.rat 4 1)) (.conj (.inp n!"SnueduRR_2312")))),
  (n!"1pdsmumu", (.mul (.div (.div (.sqrt (.rat 2 1)) (.par n!"GF")) (.rat 4 1)) (.sub (.add (.div (.inp n!"VedLR_2212") (.rat 2 1)) (.div (.inp n!"VedRR_2212") (.rat 2 1))) (.div (.mul (.rat 5 1) (.add (.div (.neg (.inp n!"VedLR_2212")) (.rat 2 1)) (.div (.inp n!"VedRR_2212") (.rat 2 1)))) (.rat 3 1))))),
  (n!"5pcstautau", (.mul (.div (.div (.sqrt (.rat 2 1)) (.par n!"GF")) (.rat 4 1)) (.conj (.inp n!"SnueduRR_3322")))),
  (n!"1ustautau", (.mul (.div (.div (.sqrt (.rat 2 1)) (.par n!"GF")) (.rat 4 1)) (.conj (.inp n!"VnueduLL_3321")))),
  (n!"5pcdtaue", (.mul (.div (.div (.sqrt (.rat 2 1)) (.par n!"GF")) (.rat 4 1)) (.conj (.inp n!"SnueduRR_1312")))),
  (n!"1pcbmue", (.mul (.div (.div (.sqrt (.rat 2 1)) (.par n!"GF")) (.rat 4 1)) (.conj (.inp n!"VnueduLR_1232")))),
  (n!"7pudmumu", (.mul (.div (.div (.sqrt (.rat 2 1)) (.par n!"GF")) (.rat 4 1)) (.conj (.inp n!"TnueduRR_2211")))),
  (n!"3dsdd", (.mul (.div (.div (.sqrt (.rat 2 1)) (.par n!"GF")) (.rat 4 1)) (.sub (.div (.inp n!"VddLL_1112") (.rat 12 1)) (.div (.sub (.inp n!"V1ddLR_1211") (.div (.inp n!"V8ddLR_1211") (.mul (.rat 2 1) (.rat 3 1)))) (.rat 12 1))))),
  (n!"9psbtaue", (.mul (.div (.div (.sqrt (.rat 2 1)) (.par n!"GF")) (.rat 4 1)) (.div (.neg (.sub (.div (.inp n!"SedRL_3123") (.rat 2 1)) (.div (.conj (.inp n!"SedRR_1332")) (.rat 2 1)))) (.rat 24 1)))),
  (n!"5pcbtaue", (.mul (.div (.div (.sqrt (.rat 2 1)) (.par n!"GF")) (.rat 4 1)) (.conj (.inp n!"SnueduRR_1332")))),
  (n!"7pubmumu", (.mul (.div (.div (.sqrt (.rat 2 1)) (.par n!"GF")) (.rat 4 1)) (.conj (.inp n!"TnueduRR_2231")))),
  (n!"1dsdd", (.mul (.div (.div (.sqrt (.rat 2 1)) (.par n!"GF")) (.rat 4 1)) (.add (.div (.neg (.inp n!"VddLL_1112")) (.rat 3 1)) (.div (.mul (.rat 4 1) (.sub (.inp n!"V1ddLR_1211") (.div (.inp n!"V8ddLR_1211") (.mul (.rat 2 1) (.rat 3 1))))) (.rat 3 1))))),
  (n!"5dbetau", (.mul (.div (.div (.sqrt (.rat 2 1)) (.par n!"GF")) (.rat 4 1)) (.sub (.add (.div (.conj (.inp n!"SedRL_3131")) (.rat 2 1)) (.div (.inp n!"SedRR_1313") (.rat 2 1))) (.div (.mul (.rat 5 1) (.add (.div (.neg (.conj (.inp n!"SedRL_3131"))) (.rat 2 1)) (.div (.inp n!"SedRR_1313") (.rat 2 1)))) (.rat 3 1))))),
  (n!"10pdscc", (.mul (.div (.div (.sqrt (.rat 2 1)) (.par n!"GF")) (.rat 4 1)) (.sub (.div (.add (.add (.div (.neg (.conj (.inp n!"S1udduRR_2122"))) (.rat 2 1)) (.div (.conj (.inp n!"S8udduRR_2122")) (.mul (.rat 4 1) (.rat 3 1)))) (.div (.conj (.inp n!"S8udRR_2221")) (.rat 2 1))) (.rat 24 1)) (.div (.add (.mul (.rat (-2) 1) (.inp n!"V1udduLR_2212")) (.div (.inp n!"V8udduLR_2212") (.rat 3 1))) (.rat 24 1))))),
  (n!"1udetau", (.mul (.div (.div (.sqrt (.rat 2 1)) (.par n!"GF")) (.rat 4 1)) (.conj (.inp n!"VnueduLL_3111"))))]

def JMS_to_Bern_6 : List (ℕ × Sym) := [
  (n!"7psbmutau", (.mul (.div (.div (.sqrt (.rat 2 1)) (.par n!"GF")) (.rat 4 1)) (.sub (.add (.div (.mul (.rat (-2) 1) (.sub (.div (.inp n!"SedRL_2323") (.rat 2 1)) (.div (.conj (.inp n!"SedRR_3232")) (.rat 2 1)))) (.rat 3 1)) (.add (.div (.inp n!"TedRR_2323") (.rat 2 1)) (.div (.conj (.inp n!"TedRR_3232")) (.rat 2 1)))) (.sub (.div (.inp n!"TedRR_2323") (.rat 2 1)) (.div (.conj (.inp n!"TedRR_3232")) (.rat 2 1)))))),
  (n!"8pdsuu", (.mul (.div (.div (.sqrt (.rat 2 1)) (.par n!"GF")) (.rat 4 1)) (.sub (.add (.mul (.rat 2 1) (.add (.div (.neg (.conj (.inp n!"S1udduRR_1121"))) (.rat 8 1)) (.div (.div (.conj (.inp n!"S8udduRR_1121")) (.rat 16 1)) (.rat 3 1)))) (.div (.mul (.rat 2 1) (.add (.add (.div (.neg (.conj (.inp n!"S1udduRR_1121"))) (.rat 2 1)) (.div (.conj (.inp n!"S8udduRR_1121")) (.mul (.rat 4 1) (.rat 3 1)))) (.div (.conj (.inp n!"S8udRR_1121")) (.rat 2 1)))) (.rat 3 1))) (.div (.mul (.rat 2 1) (.add (.mul (.rat (-2) 1) (.inp n!"V1udduLR_1211")) (.div (.inp n!"V8udduLR_1211") (.rat 3 1)))) (.rat 3 1))))),
  (n!"7dbtautau", (.mul (.div (.div (.sqrt (.rat 2 1)) (.par n!"GF")) (.rat 4 1)) (.add (.add (.div (.mul (.rat 2 1) (.add (.div (.neg (.conj (.inp n!"SedRL_3331"))) (.rat 2 1)) (.div (.inp n!"SedRR_3313") (.rat 2 1)))) (.rat 3 1)) (.add (.div (.inp n!"TedRR_3313") (.rat 2 1)) (.div (.conj (.inp n!"TedRR_3331")) (.rat 2 1)))) (.sub (.div (.inp n!"TedRR_3313") (.rat 2 1)) (.div (.conj (.inp n!"TedRR_3331")) (.rat 2 1)))))),
  (n!"5pdsuc", (.mul (.div (.div (.sqrt (.rat 2 1)) (.par n!"GF")) (.rat 4 1)) (.add (.sub (.add (.div (.neg (.sub (.sub (.conj (.inp n!"S1udRR_2121")) (.div (.conj (.inp n!"S8udduRR_2121")) (.rat 4 1))) (.div (.conj (.inp n!"S8udRR_2121")) (.mul (.rat 2 1) (.rat 3 1))))) (.rat 3 1)) (.div (.mul (.rat 4 1) (.neg (.inp n!"V8udduLR_1212"))) (.rat 3 1))) (.div (.add (.add (.div (.neg (.conj (.inp n!"S1udduRR_2121"))) (.rat 2 1)) (.div (.conj (.inp n!"S8udduRR_2121")) (.mul (.rat 4 1) (.rat 3 1)))) (.div (.conj (.inp n!"S8udRR_2121")) (.rat 2 1))) (.mul (.rat 3 1) (.rat 3 1)))) (.div (.mul (.rat 4 1) (.add (.mul (.rat (-2) 1) (.inp n!"V1udduLR_1212")) (.div (.inp n!"V8udduLR_1212") (.rat 3 1)))) (.mul (.rat 3 1) (.rat 3 1)))))),
  (n!"nu1psbee", (.mul (.div (.div (.sqrt (.rat 2 1)) (.par n!"GF")) (.rat 4 1)) (.inp n!"VnudLR_1123"))),
  (n!"4cucu", (.mul (.div (.div (.sqrt (.rat 2 1)) (.par n!"GF")) (.rat 4 1)) (.neg (.conj (.inp n!"V8uuLR_1212"))))),
  (n!"1ubetau", (.mul (.div (.div (.sqrt (.rat 2 1)) (.par n!"GF")) (.rat 4 1)) (.conj (.inp n!"VnueduLL_3131")))),
  (n!"5sbtaumu", (.mul (.div (.div (.sqrt (.rat 2 1)) (.par n!"GF")) (.rat 4 1)) (.sub (.add (.div (.conj (.inp n!"SedRL_2332")) (.rat 2 1)) (.div (.inp n!"SedRR_3223") (.rat 2 1))) (.div (.mul (.rat 5 1) (.add (.div (.neg (.conj (.inp n!"SedRL_2332"))) (.rat 2 1)) (.div (.inp n!"SedRR_3223") (.rat 2 1)))) (.rat 3 1))))),
  (n!"5pdbetau", (.mul (.div (.div (.sqrt (.rat 2 1)) (.par n!"GF")) (.rat 4 1)) (.add (.div (.mul (.rat 5 1) (.sub (.div (.inp n!"SedRL_1313") (.rat 2 1)) (.div (.conj (.inp n!"SedRR_3131")) (.rat 2 1)))) (.rat 3 1)) (.add (.div (.inp n!"SedRL_1313") (.rat 2 1)) (.div (.conj (.inp n!"SedRR_3131")) (.rat 2 1)))))),
  (n!"5udee", (.mul (.div (.div (.sqrt (.rat 2 1)) (.par n!"GF")) (.rat 4 1)) (.conj (.inp n!"SnueduRL_1111")))),
  (n!"5pubee", (.mul (.div (.div (.sqrt (.rat 2 1)) (.par n!"GF")) (.rat 4 1)) (.conj (.inp n!"SnueduRR_1131")))),
  (n!"7sbmue", (.mul (.div (.div (.sqrt (.rat 2 1)) (.par n!"GF")) (.rat 4 1)) (.add (.add (.div (.mul (.rat 2 1) (.add (.div (.neg (.conj (.inp n!"SedRL_1232"))) (.rat 2 1)) (.div (.inp n!"SedRR_2123") (.rat 2 1)))) (.rat 3 1)) (.add (.div (.inp n!"TedRR_2123") (.rat 2 1)) (.div (.conj (.inp n!"TedRR_1232")) (.rat 2 1)))) (.sub (.div (.inp n!"TedRR_2123") (.rat 2 1)) (.div (.conj (.inp n!"TedRR_1232")) (.rat 2 1)))))),
  (n!"2cucu", (.mul (.div (.div (.sqrt (.rat 2 1)) (.par n!"GF")) (.rat 4 1)) (.sub (.conj (.inp n!"S1uuRR_1212")) (.div (.conj (.inp n!"S8uuRR_1212")) (.mul (.rat 2 1) (.rat 3 1)))))),
  (n!"9sbsd", (.mul (.div (.div (.sqrt (.rat 2 1)) (.par n!"GF")) (.rat 4 1)) (.sub (.div (.sub (.sub (.conj (.inp n!"S1ddRR_1232")) (.div (.conj (.inp n!"S8ddRR_1232")) (.rat 4 1))) (.div (.div (.conj (.inp n!"S8ddRR_1232")) (.rat 2 1)) (.rat 3 1))) (.rat 48 1)) (.div (.neg (.inp n!"V8ddLR_2321")) (.rat 48 1))))),
  (n!"5cbtautau", (.mul (.div (.div (.sqrt (.rat 2 1)) (.par n!"GF")) (.rat 4 1)) (.conj (.inp n!"SnueduRL_3332")))),
  (n!"5pusmutau", (.mul (.div (.div (.sqrt (.rat 2 1)) (.par n!"GF")) (.rat 4 1)) (.conj (.inp n!"SnueduRR_3221")))),
  (n!"5psbcu", (.mul (.div (.div (.sqrt (.rat 2 1)) (.par n!"GF")) (.rat 4 1)) (.add (.sub (.add (.div (.neg (.sub (.sub (.conj (.inp n!"S1udRR_1232")) (.div (.conj (.inp n!"S8udduRR_1232")) (.rat 4 1))) (.div (.conj (.inp n!"S8udRR_1232")) (.mul (.rat 2 1) (.rat 3 1))))) (.rat 3 1)) (.div (.mul (.rat 4 1) (.neg (.inp n!"V8udduLR_2321"))) (.rat 3 1))) (.div (.add (.add (.div (.neg (.conj (.inp n!"S1udduRR_1232"))) (.rat 2 1)) (.div (.conj (.inp n!"S8udduRR_1232")) (.mul (.rat 4 1) (.rat 3 1)))) (.div (.conj (.inp n!"S8udRR_1232")) (.rat 2 1))) (.mul (.rat 3 1) (.rat 3 1)))) (.div (.mul (.rat 4 1) (.add (.mul (.rat (-2) 1) (.inp n!"V1udduLR_2321")) (.div (.inp n!"V8udduLR_2321") (.rat 3 1)))) (.mul (.rat 3 1) (.rat 3 1)))))),
  (n!"5cbee", (.mul (.div (.div (.sqrt (.rat 2 1)) (.par n!"GF")) (.rat 4 1)) (.conj (.inp n!"SnueduRL_1132")))),
  (n!"6psbdd", (.mul (.div (.div (.sqrt (.rat 2 1)) (.par n!"GF")) (.rat 4 1)) (.add (.div (.mul (.rat (-2) 1) (.add (.add (.div (.neg (.conj (.inp n!"S1ddRR_1231"))) (.rat 2 1)) (.div (.div (.conj (.inp n!"S8ddRR_1231")) (.rat 4 1)) (.rat 3 1))) (.div (.conj (.inp n!"S8ddRR_1132")) (.rat 2 1)))) (.rat 3 1)) (.div (.mul (.rat 8 1) (.add (.mul (.rat (-2) 1) (.inp n!"V1ddLR_1321")) (.div (.inp n!"V8ddLR_1321") (.rat 3 1)))) (.rat 3 1))))),
  (n!"9dbmutau", (.mul (.div (.div (.sqrt (.rat 2 1)) (.par n!"GF")) (.rat 4 1)) (.div (.add (.div (.neg (.conj (.inp n!"SedRL_3231"))) (.rat 2 1)) (.div (.inp n!"SedRR_2313") (.rat 2 1))) (.rat 24 1)))),
  (n!"8gdb", (.mul (.div (.div (.sqrt (.rat 2 1)) (.par n!"GF")) (.rat 4 1)) (.mul (.div (.sqrt (.mul (.mul (.rat 4 1) .pi) (.par n!"alpha_s"))) (.par n!"m_b")) (.inp n!"dG_13")))),
  (n!"2psbcc", (.mul (.div (.div (.sqrt (.rat 2 1)) (.par n!"GF")) (.rat 4 1)) (.add (.div (.mul (.rat (-2) 1) (.div (.inp n!"V8udRR_2223") (.rat 2 1))) (.rat 3 1)) (.div (.mul (.rat 8 1) (.div (.inp n!"V8udLR_2223") (.rat 2 1))) (.rat 3 1))))),
  (n!"10dsuc", (.mul (.div (.div (.sqrt (.rat 2 1)) (.par n!"GF")) (.rat 4 1)) (.sub (.div (.add (.add (.div (.neg (.inp n!"S1udduRR_1212")) (.rat 2 1)) (.div (.inp n!"S8udduRR_1212") (.mul (.rat 4 1) (.rat 3 1)))) (.div (.inp n!"S8udRR_1212") (.rat 2 1))) (.rat 24 1)) (.div (.add (.mul (.rat (-2) 1) (.conj (.inp n!"V1udduLR_2121"))) (.div (.conj (.inp n!"V8udduLR_2121")) (.rat 3 1))) (.rat 24 1))))),
  (n!"8pdbcu", (.mul (.div (.div (.sqrt (.rat 2 1)) (.par n!"GF")) (.rat 4 1)) (.sub (.add (.mul (.rat 2 1) (.add (.div (.neg (.conj (.inp n!"S1udduRR_1132"))) (.rat 8 1)) (.div (.div (.conj (.inp n!"S8udduRR_1132")) (.rat 16 1)) (.rat 3 1)))) (.div (.mul (.rat 2 1) (.add (.add (.div (.neg (.conj (.inp n!"S1udduRR_1132"))) (.rat 2 1)) (.div (.conj (.inp n!"S8udduRR_1132")) (.mul (.rat 4 1) (.rat 3 1)))) (.div (.conj (.inp n!"S8udRR_1231")) (.rat 2 1)))) (.rat 3 1))) (.div (.mul (.rat 2 1) (.add (.mul (.rat (-2) 1) (.inp n!"V1udduLR_2311")) (.div (.inp n!"V8udduLR_2311") (.rat 3 1)))) (.rat 3 1))))),
  (n!"7sbsd", (.mul (.div (.div (.sqrt (.rat 2 1)) (.par n!"GF")) (.rat 4 1)) (.add (.sub (.div (.sub (.sub (.conj (.inp n!"S1ddRR_1232")) (.div (.conj (.inp n!"S8ddRR_1232")) (.rat 4 1))) (.div (.div (.conj (.inp n!"S8ddRR_1232")) (.rat 2 1)) (.rat 3 1))) (.rat 3 1)) (.div (.neg (.inp n!"V8ddLR_2321")) (.rat 3 1))) (.div (.neg (.conj (.inp n!"S8ddRR_1232"))) (.rat 16 1))))),
  (n!"9pdbdd", (.mul (.div (.div (.sqrt (.rat 2 1)) (.par n!"GF")) (.rat 4 1)) (.sub (.div (.sub (.sub (.inp n!"S1ddRR_1113") (.div (.inp n!"S8ddRR_1113") (.rat 4 1))) (.div (.inp n!"S8ddRR_1113") (.mul (.rat 2 1) (.rat 3 1)))) (.rat 48 1)) (.div (.neg (.inp n!"V8ddLR_1113")) (.rat 48 1))))),
  (n!"1udee", (.mul (.div (.div (.sqrt (.rat 2 1)) (.par n!"GF")) (.rat 4 1)) (.conj (.inp n!"VnueduLL_1111")))),
  (n!"5pdbcc", (.mul (.div (.div (.sqrt (.rat 2 1)) (.par n!"GF")) (.rat 4 1)) (.add (.sub (.add (.div (.neg (.sub (.sub (.conj (.inp n!"S1udRR_2231")) (.div (.conj (.inp n!"S8udduRR_2132")) (.rat 4 1))) (.div (.conj (.inp n!"S8udRR_2231")) (.mul (.rat 2 1) (.rat 3 1))))) (.rat 3 1)) (.div (.mul (.rat 4 1) (.neg (.inp n!"V8udduLR_2312"))) (.rat 3 1))) (.div (.add (.add (.div (.neg (.conj (.inp n!"S1udduRR_2132"))) (.rat 2 1)) (.div (.conj (.inp n!"S8udduRR_2132")) (.mul (.rat 4 1) (.rat 3 1)))) (.div (.conj (.inp n!"S8udRR_2231")) (.rat 2 1))) (.mul (.rat 3 1) (.rat 3 1)))) (.div (.mul (.rat 4 1) (.add (.mul (.rat (-2) 1) (.inp n!"V1udduLR_2312")) (.div (.inp n!"V8udduLR_2312") (.rat 3 1)))) (.mul (.rat 3 1) (.rat 3 1)))))),
  (n!"1pdbmutau", (.mul (.div (.div (.sqrt (.rat 2 1)) (.par n!"GF")) (.rat 4 1)) (.sub (.add (.div (.inp n!"VedLR_2313") (.rat 2 1)) (.div (.inp n!"VedRR_2313") (.rat 2 1))) (.div (.mul (.rat 5 1) (.add (.div (.neg (.inp n!"VedLR_2313")) (.rat 2 1)) (.div (.inp n!"VedRR_2313") (.rat 2 1)))) (.rat 3 1))))),
  (n!"1pdbbb", (.mul (.div (.div (.sqrt (.rat 2 1)) (.par n!"GF")) (.rat 4 1)) (.add (.div (.neg (.inp n!"VddRR_1333")) (.rat 3 1)) (.div (.mul (.rat 4 1) (.sub (.inp n!"V1ddLR_3313") (.div (.inp n!"V8ddLR_3313") (.mul (.rat 2 1) (.rat 3 1))))) (.rat 3 1))))),
  (n!"5sbsd", (.mul (.div (.div (.sqrt (.rat 2 1)) (.par n!"GF")) (.rat 4 1)) (.add (.div (.neg (.sub (.sub (.conj (.inp n!"S1ddRR_1232")) (.div (.conj (.inp n!"S8ddRR_1232")) (.rat 4 1))) (.div (.div (.conj (.inp n!"S8ddRR_1232")) (.rat 2 1)) (.rat 3 1)))) (.rat 3 1)) (.div (.mul (.rat 4 1) (.neg (.inp n!"V8ddLR_2321"))) (.rat 3 1))))),
  (n!"1cbee", (.mul (.div (.div (.sqrt (.rat 2 1)) (.par n!"GF")) (.rat 4 1)) (.conj (.inp n!"VnueduLL_1132")))),
  (n!"10pdsuu", (.mul (.div (.div (.sqrt (.rat 2 1)) (.par n!"GF")) (.rat 4 1)) (.sub (.div (.add (.add (.div (.neg (.conj (.inp n!"S1udduRR_1121"))) (.rat 2 1)) (.div (.conj (.inp n!"S8udduRR_1121")) (.mul (.rat 4 1) (.rat 3 1)))) (.div (.conj (.inp n!"S8udRR_1121")) (.rat 2 1))) (.rat 24 1)) (.div (.add (.mul (.rat (-2) 1) (.inp n!"V1udduLR_1211")) (.div (.inp n!"V8udduLR_1211") (.rat 3 1))) (.rat 24 1))))),
  (n!"9dstaumu", (.mul (.div (.div (.sqrt (.rat 2 1)) (.par n!"GF")) (.rat 4 1)) (.div (.add (.div (.neg (.conj (.inp n!"SedRL_2321"))) (.rat 2 1)) (.div (.inp n!"SedRR_3212") (.rat 2 1))) (.rat 24 1)))),
  (n!"10sbcu", (.mul (.div (.div (.sqrt (.rat 2 1)) (.par n!"GF")) (.rat 4 1)) (.sub (.div (.add (.add (.div (.neg (.inp n!"S1udduRR_2321")) (.rat 2 1)) (.div (.inp n!"S8udduRR_2321") (.mul (.rat 4 1) (.rat 3 1)))) (.div (.inp n!"S8udRR_2123") (.rat 2 1))) (.rat 24 1)) (.div (.add (.mul (.rat (-2) 1) (.conj (.inp n!"V1udduLR_1232"))) (.div (.conj (.inp n!"V8udduLR_1232")) (.rat 3 1))) (.rat 24 1))))),
  (n!"1psbetau", (.mul (.div (.div (.sqrt (.rat 2 1)) (.par n!"GF")) (.rat 4 1)) (.sub (.add (.div (.inp n!"VedLR_1323") (.rat 2 1)) (.div (.inp n!"VedRR_1323") (.rat 2 1))) (.div (.mul (.rat 5 1) (.add (.div (.neg (.inp n!"VedLR_1323")) (.rat 2 1)) (.div (.inp n!"VedRR_1323") (.rat 2 1)))) (.rat 3 1))))),
  (n!"3sbsd", (.mul (.div (.div (.sqrt (.rat 2 1)) (.par n!"GF")) (.rat 4 1)) (.sub (.div (.conj (.inp n!"VddLL_1232")) (.rat 12 1)) (.div (.sub (.inp n!"V1ddLR_2321") (.div (.inp n!"V8ddLR_2321") (.mul (.rat 2 1) (.rat 3 1)))) (.rat 12 1))))),
  (n!"nu1pdbmumu", (.mul (.div (.div (.sqrt (.rat 2 1)) (.par n!"GF")) (.rat 4 1)) (.inp n!"VnudLR_2213"))),
  (n!"3dbetau", (.mul (.div (.div (.sqrt (.rat 2 1)) (.par n!"GF")) (.rat 4 1)) (.div (.neg (.sub (.div (.inp n!"VdeLR_1313") (.rat 2 1)) (.div (.inp n!"VedLL_1313") (.rat 2 1)))) (.rat 6 1)))),
  (n!"nu1dstaue", (.mul (.div (.div (.sqrt (.rat 2 1)) (.par n!"GF")) (.rat 4 1)) (.conj (.inp n!"VnudLL_1321")))),
  (n!"1pdstaumu", (.mul (.div (.div (.sqrt (.rat 2 1)) (.par n!"GF")) (.rat 4 1)) (.sub (.add (.div (.conj (.inp n!"VedLR_2321")) (.rat 2 1)) (.div (.conj (.inp n!"VedRR_2321")) (.rat 2 1))) (.div (.mul (.rat 5 1) (.add (.div (.neg (.conj (.inp n!"VedLR_2321"))) (.rat 2 1)) (.div (.conj (.inp n!"VedRR_2321")) (.rat 2 1)))) (.rat 3 1))))),
  (n!"nu1pdsmutau", (.mul (.div (.div (.sqrt (.rat 2 1)) (.par n!"GF")) (.rat 4 1)) (.inp n!"VnudLR_2312"))),
  (n!"10dbcc", (.mul (.div (.div (.sqrt (.rat 2 1)) (.par n!"GF")) (.rat 4 1)) (.sub (.div (.add (.add (.div (.neg (.inp n!"S1udduRR_2312")) (.rat 2 1)) (.div (.inp n!"S8udduRR_2312") (.mul (.rat 4 1) (.rat 3 1)))) (.div (.inp n!"S8udRR_2213") (.rat 2 1))) (.rat 24 1)) (.div (.add (.mul (.rat (-2) 1) (.conj (.inp n!"V1udduLR_2132"))) (.div (.conj (.inp n!"V8udduLR_2132")) (.rat 3 1))) (.rat 24 1))))),
  (n!"5csmumu", (.mul (.div (.div (.sqrt (.rat 2 1)) (.par n!"GF")) (.rat 4 1)) (.conj (.inp n!"SnueduRL_2222")))),
  (n!"1sbsd", (.mul (.div (.div (.sqrt (.rat 2 1)) (.par n!"GF")) (.rat 4 1)) (.add (.div (.neg (.conj (.inp n!"VddLL_1232"))) (.rat 3 1)) (.div (.mul (.rat 4 1) (.sub (.inp n!"V1ddLR_2321") (.div (.inp n!"V8ddLR_2321") (.mul (.rat 2 1) (.rat 3 1))))) (.rat 3 1))))),
  (n!"7pubtaumu", (.mul (.div (.div (.sqrt (.rat 2 1)) (.par n!"GF")) (.rat 4 1)) (.conj (.inp n!"TnueduRR_2331")))),
  (n!"9pdsemu", (.mul (.div (.div (.sqrt (.rat 2 1)) (.par n!"GF")) (.rat 4 1)) (.div (.neg (.sub (.div (.inp n!"SedRL_1212") (.rat 2 1)) (.div (.conj (.inp n!"SedRR_2121")) (.rat 2 1)))) (.rat 24 1)))),
  (n!"3pdbdb", (.mul (.div (.div (.sqrt (.rat 2 1)) (.par n!"GF")) (.rat 4 1)) (.div (.inp n!"S8ddRR_1313") (.rat 2 1)))),
  (n!"7pdsss", (.mul (.div (.div (.sqrt (.rat 2 1)) (.par n!"GF")) (.rat 4 1)) (.add (.sub (.div (.sub (.sub (.conj (.inp n!"S1ddRR_2122")) (.div (.conj (.inp n!"S8ddRR_2122")) (.rat 4 1))) (.div (.div (.conj (.inp n!"S8ddRR_2122")) (.rat 2 1)) (.rat 3 1))) (.rat 3 1)) (.div (.neg (.inp n!"V8ddLR_2212")) (.rat 3 1))) (.div (.neg (.conj (.inp n!"S8ddRR_2122"))) (.rat 16 1))))),
  (n!"2psbuu", (.mul (.div (.div (.sqrt (.rat 2 1)) (.par n!"GF")) (.rat 4 1)) (.add (.div (.mul (.rat (-2) 1) (.div (.inp n!"V8udRR_1123") (.rat 2 1))) (.rat 3 1)) (.div (.mul (.rat 8 1) (.div (.inp n!"V8udLR_1123") (.rat 2 1))) (.rat 3 1)))))]

def JMS_to_Bern_7 : List (ℕ × Sym) := [
  (n!"10pdbcu", (.mul (.div (.div (.sqrt (.rat 2 1)) (.par n!"GF")) (.rat 4 1)) (.sub (.div (.add (.add (.div (.neg (.conj (.inp n!"S1udduRR_1132"))) (.rat 2 1)) (.div (.conj (.inp n!"S8udduRR_1132")) (.mul (.rat 4 1) (.rat 3 1)))) (.div (.conj (.inp n!"S8udRR_1231")) (.rat 2 1))) (.rat 24 1)) (.div (.add (.mul (.rat (-2) 1) (.inp n!"V1udduLR_2311")) (.div (.inp n!"V8udduLR_2311") (.rat 3 1))) (.rat 24 1))))),
  (n!"9dsuc", (.mul (.div (.div (.sqrt (.rat 2 1)) (.par n!"GF")) (.rat 4 1)) (.sub (.add (.sub (.div (.sub (.sub (.inp n!"S1udRR_1212") (.div (.inp n!"S8udduRR_1212") (.rat 4 1))) (.div (.inp n!"S8udRR_1212") (.mul (.rat 2 1) (.rat 3 1)))) (.rat 48 1)) (.div (.neg (.conj (.inp n!"V8udduLR_2121"))) (.rat 48 1))) (.div (.add (.add (.div (.neg (.inp n!"S1udduRR_1212")) (.rat 2 1)) (.div (.inp n!"S8udduRR_1212") (.mul (.rat 4 1) (.rat 3 1)))) (.div (.inp n!"S8udRR_1212") (.rat 2 1))) (.mul (.rat 48 1) (.rat 3 1)))) (.div (.add (.mul (.rat (-2) 1) (.conj (.inp n!"V1udduLR_2121"))) (.div (.conj (.inp n!"V8udduLR_2121")) (.rat 3 1))) (.mul (.rat 48 1) (.rat 3 1)))))),
  (n!"5pcsmumu", (.mul (.div (.div (.sqrt (.rat 2 1)) (.par n!"GF")) (.rat 4 1)) (.conj (.inp n!"SnueduRR_2222")))),
  (n!"nu1pdsmue", (.mul (.div (.div (.sqrt (.rat 2 1)) (.par n!"GF")) (.rat 4 1)) (.conj (.inp n!"VnudLR_1221")))),
  (n!"1cdtaue", (.mul (.div (.div (.sqrt (.rat 2 1)) (.par n!"GF")) (.rat 4 1)) (.conj (.inp n!"VnueduLL_1312")))),
  (n!"1pdsds", (.mul (.div (.div (.sqrt (.rat 2 1)) (.par n!"GF")) (.rat 4 1)) (.inp n!"VddRR_1212"))),
  (n!"5pdbuu", (.mul (.div (.div (.sqrt (.rat 2 1)) (.par n!"GF")) (.rat 4 1)) (.add (.sub (.add (.div (.neg (.sub (.sub (.conj (.inp n!"S1udRR_1131")) (.div (.conj (.inp n!"S8udduRR_1131")) (.rat 4 1))) (.div (.conj (.inp n!"S8udRR_1131")) (.mul (.rat 2 1) (.rat 3 1))))) (.rat 3 1)) (.div (.mul (.rat 4 1) (.neg (.inp n!"V8udduLR_1311"))) (.rat 3 1))) (.div (.add (.add (.div (.neg (.conj (.inp n!"S1udduRR_1131"))) (.rat 2 1)) (.div (.conj (.inp n!"S8udduRR_1131")) (.mul (.rat 4 1) (.rat 3 1)))) (.div (.conj (.inp n!"S8udRR_1131")) (.rat 2 1))) (.mul (.rat 3 1) (.rat 3 1)))) (.div (.mul (.rat 4 1) (.add (.mul (.rat (-2) 1) (.inp n!"V1udduLR_1311")) (.div (.inp n!"V8udduLR_1311") (.rat 3 1)))) (.mul (.rat 3 1) (.rat 3 1)))))),
  (n!"7dsuc", (.mul (.div (.div (.sqrt (.rat 2 1)) (.par n!"GF")) (.rat 4 1)) (.sub (.add (.add (.add (.sub (.div (.sub (.sub (.inp n!"S1udRR_1212") (.div (.inp n!"S8udduRR_1212") (.rat 4 1))) (.div (.inp n!"S8udRR_1212") (.mul (.rat 2 1) (.rat 3 1)))) (.rat 3 1)) (.div (.neg (.conj (.inp n!"V8udduLR_2121"))) (.rat 3 1))) (.div (.neg (.inp n!"S8udduRR_1212")) (.rat 16 1))) (.div (.add (.div (.neg (.inp n!"S1udduRR_1212")) (.rat 8 1)) (.div (.inp n!"S8udduRR_1212") (.mul (.rat 16 1) (.rat 3 1)))) (.rat 3 1))) (.div (.add (.add (.div (.neg (.inp n!"S1udduRR_1212")) (.rat 2 1)) (.div (.inp n!"S8udduRR_1212") (.mul (.rat 4 1) (.rat 3 1)))) (.div (.inp n!"S8udRR_1212") (.rat 2 1))) (.mul (.rat 3 1) (.rat 3 1)))) (.div (.add (.mul (.rat (-2) 1) (.conj (.inp n!"V1udduLR_2121"))) (.div (.conj (.inp n!"V8udduLR_2121")) (.rat 3 1))) (.mul (.rat 3 1) (.rat 3 1)))))),
  (n!"2pdbuc", (.mul (.div (.div (.sqrt (.rat 2 1)) (.par n!"GF")) (.rat 4 1)) (.add (.div (.mul (.rat (-2) 1) (.div (.inp n!"V8udRR_1213") (.rat 2 1))) (.rat 3 1)) (.div (.mul (.rat 8 1) (.div (.inp n!"V8udLR_1213") (.rat 2 1))) (.rat 3 1))))),
  (n!"5pcsee", (.mul (.div (.div (.sqrt (.rat 2 1)) (.par n!"GF")) (.rat 4 1)) (.conj (.inp n!"SnueduRR_1122")))),
  (n!"1cbtaue", (.mul (.div (.div (.sqrt (.rat 2 1)) (.par n!"GF")) (.rat 4 1)) (.conj (.inp n!"VnueduLL_1332")))),
  (n!"9sbcu", (.mul (.div (.div (.sqrt (.rat 2 1)) (.par n!"GF")) (.rat 4 1)) (.sub (.add (.sub (.div (.sub (.sub (.inp n!"S1udRR_2123") (.div (.inp n!"S8udduRR_2321") (.rat 4 1))) (.div (.inp n!"S8udRR_2123") (.mul (.rat 2 1) (.rat 3 1)))) (.rat 48 1)) (.div (.neg (.conj (.inp n!"V8udduLR_1232"))) (.rat 48 1))) (.div (.add (.add (.div (.neg (.inp n!"S1udduRR_2321")) (.rat 2 1)) (.div (.inp n!"S8udduRR_2321") (.mul (.rat 4 1) (.rat 3 1)))) (.div (.inp n!"S8udRR_2123") (.rat 2 1))) (.mul (.rat 48 1) (.rat 3 1)))) (.div (.add (.mul (.rat (-2) 1) (.conj (.inp n!"V1udduLR_1232"))) (.div (.conj (.inp n!"V8udduLR_1232")) (.rat 3 1))) (.mul (.rat 48 1) (.rat 3 1)))))),
  (n!"7pdbmumu", (.mul (.div (.div (.sqrt (.rat 2 1)) (.par n!"GF")) (.rat 4 1)) (.sub (.add (.div (.mul (.rat (-2) 1) (.sub (.div (.inp n!"SedRL_2213") (.rat 2 1)) (.div (.conj (.inp n!"SedRR_2231")) (.rat 2 1)))) (.rat 3 1)) (.add (.div (.inp n!"TedRR_2213") (.rat 2 1)) (.div (.conj (.inp n!"TedRR_2231")) (.rat 2 1)))) (.sub (.div (.inp n!"TedRR_2213") (.rat 2 1)) (.div (.conj (.inp n!"TedRR_2231")) (.rat 2 1)))))),
  (n!"9psbcc", (.mul (.div (.div (.sqrt (.rat 2 1)) (.par n!"GF")) (.rat 4 1)) (.sub (.add (.sub (.div (.sub (.sub (.conj (.inp n!"S1udRR_2232")) (.div (.conj (.inp n!"S8udduRR_2232")) (.rat 4 1))) (.div (.conj (.inp n!"S8udRR_2232")) (.mul (.rat 2 1) (.rat 3 1)))) (.rat 48 1)) (.div (.neg (.inp n!"V8udduLR_2322")) (.rat 48 1))) (.div (.add (.add (.div (.neg (.conj (.inp n!"S1udduRR_2232"))) (.rat 2 1)) (.div (.conj (.inp n!"S8udduRR_2232")) (.mul (.rat 4 1) (.rat 3 1)))) (.div (.conj (.inp n!"S8udRR_2232")) (.rat 2 1))) (.mul (.rat 48 1) (.rat 3 1)))) (.div (.add (.mul (.rat (-2) 1) (.inp n!"V1udduLR_2322")) (.div (.inp n!"V8udduLR_2322") (.rat 3 1))) (.mul (.rat 48 1) (.rat 3 1)))))),
  (n!"5dsuc", (.mul (.div (.div (.sqrt (.rat 2 1)) (.par n!"GF")) (.rat 4 1)) (.add (.sub (.add (.div (.neg (.sub (.sub (.inp n!"S1udRR_1212") (.div (.inp n!"S8udduRR_1212") (.rat 4 1))) (.div (.inp n!"S8udRR_1212") (.mul (.rat 2 1) (.rat 3 1))))) (.rat 3 1)) (.div (.mul (.rat 4 1) (.neg (.conj (.inp n!"V8udduLR_2121")))) (.rat 3 1))) (.div (.add (.add (.div (.neg (.inp n!"S1udduRR_1212")) (.rat 2 1)) (.div (.inp n!"S8udduRR_1212") (.mul (.rat 4 1) (.rat 3 1)))) (.div (.inp n!"S8udRR_1212") (.rat 2 1))) (.mul (.rat 3 1) (.rat 3 1)))) (.div (.mul (.rat 4 1) (.add (.mul (.rat (-2) 1) (.conj (.inp n!"V1udduLR_2121"))) (.div (.conj (.inp n!"V8udduLR_2121")) (.rat 3 1)))) (.mul (.rat 3 1) (.rat 3 1)))))),
  (n!"5psbbb", (.mul (.div (.div (.sqrt (.rat 2 1)) (.par n!"GF")) (.rat 4 1)) (.add (.div (.neg (.sub (.sub (.conj (.inp n!"S1ddRR_3233")) (.div (.conj (.inp n!"S8ddRR_3233")) (.rat 4 1))) (.div (.div (.conj (.inp n!"S8ddRR_3233")) (.rat 2 1)) (.rat 3 1)))) (.rat 3 1)) (.div (.mul (.rat 4 1) (.neg (.inp n!"V8ddLR_3323"))) (.rat 3 1))))),
  (n!"5ubee", (.mul (.div (.div (.sqrt (.rat 2 1)) (.par n!"GF")) (.rat 4 1)) (.conj (.inp n!"SnueduRL_1131")))),
  (n!"7sbcu", (.mul (.div (.div (.sqrt (.rat 2 1)) (.par n!"GF")) (.rat 4 1)) (.sub (.add (.add (.add (.sub (.div (.sub (.sub (.inp n!"S1udRR_2123") (.div (.inp n!"S8udduRR_2321") (.rat 4 1))) (.div (.inp n!"S8udRR_2123") (.mul (.rat 2 1) (.rat 3 1)))) (.rat 3 1)) (.div (.neg (.conj (.inp n!"V8udduLR_1232"))) (.rat 3 1))) (.div (.neg (.inp n!"S8udduRR_2321")) (.rat 16 1))) (.div (.add (.div (.neg (.inp n!"S1udduRR_2321")) (.rat 8 1)) (.div (.inp n!"S8udduRR_2321") (.mul (.rat 16 1) (.rat 3 1)))) (.rat 3 1))) (.div (.add (.add (.div (.neg (.inp n!"S1udduRR_2321")) (.rat 2 1)) (.div (.inp n!"S8udduRR_2321") (.mul (.rat 4 1) (.rat 3 1)))) (.div (.inp n!"S8udRR_2123") (.rat 2 1))) (.mul (.rat 3 1) (.rat 3 1)))) (.div (.add (.mul (.rat (-2) 1) (.conj (.inp n!"V1udduLR_1232"))) (.div (.conj (.inp n!"V8udduLR_1232")) (.rat 3 1))) (.mul (.rat 3 1) (.rat 3 1)))))),
  (n!"9dbcc", (.mul (.div (.div (.sqrt (.rat 2 1)) (.par n!"GF")) (.rat 4 1)) (.sub (.add (.sub (.div (.sub (.sub (.inp n!"S1udRR_2213") (.div (.inp n!"S8udduRR_2312") (.rat 4 1))) (.div (.inp n!"S8udRR_2213") (.mul (.rat 2 1) (.rat 3 1)))) (.rat 48 1)) (.div (.neg (.conj (.inp n!"V8udduLR_2132"))) (.rat 48 1))) (.div (.add (.add (.div (.neg (.inp n!"S1udduRR_2312")) (.rat 2 1)) (.div (.inp n!"S8udduRR_2312") (.mul (.rat 4 1) (.rat 3 1)))) (.div (.inp n!"S8udRR_2213") (.rat 2 1))) (.mul (.rat 48 1) (.rat 3 1)))) (.div (.add (.mul (.rat (-2) 1) (.conj (.inp n!"V1udduLR_2132"))) (.div (.conj (.inp n!"V8udduLR_2132")) (.rat 3 1))) (.mul (.rat 48 1) (.rat 3 1)))))),
  (n!"3dsemu", (.mul (.div (.div (.sqrt (.rat 2 1)) (.par n!"GF")) (.rat 4 1)) (.div (.neg (.sub (.div (.inp n!"VdeLR_1212") (.rat 2 1)) (.div (.inp n!"VedLL_1212") (.rat 2 1)))) (.rat 6 1)))),
  (n!"3dsuc", (.mul (.div (.div (.sqrt (.rat 2 1)) (.par n!"GF")) (.rat 4 1)) (.sub (.add (.sub (.div (.sub (.inp n!"V1udLL_1212") (.div (.inp n!"V8udLL_1212") (.mul (.rat 2 1) (.rat 3 1)))) (.rat 12 1)) (.div (.sub (.inp n!"V1duLR_1212") (.div (.inp n!"V8duLR_1212") (.mul (.rat 2 1) (.rat 3 1)))) (.rat 12 1))) (.div (.div (.inp n!"V8udLL_1212") (.rat 2 1)) (.mul (.rat 12 1) (.rat 3 1)))) (.div (.div (.inp n!"V8duLR_1212") (.rat 2 1)) (.mul (.rat 12 1) (.rat 3 1)))))),
  (n!"10dbuu", (.mul (.div (.div (.sqrt (.rat 2 1)) (.par n!"GF")) (.rat 4 1)) (.sub (.div (.add (.add (.div (.neg (.inp n!"S1udduRR_1311")) (.rat 2 1)) (.div (.inp n!"S8udduRR_1311") (.mul (.rat 4 1) (.rat 3 1)))) (.div (.inp n!"S8udRR_1113") (.rat 2 1))) (.rat 24 1)) (.div (.add (.mul (.rat (-2) 1) (.conj (.inp n!"V1udduLR_1131"))) (.div (.conj (.inp n!"V8udduLR_1131")) (.rat 3 1))) (.rat 24 1))))),
  (n!"1dbetau", (.mul (.div (.div (.sqrt (.rat 2 1)) (.par n!"GF")) (.rat 4 1)) (.add (.div (.mul (.rat 5 1) (.sub (.div (.inp n!"VdeLR_1313") (.rat 2 1)) (.div (.inp n!"VedLL_1313") (.rat 2 1)))) (.rat 3 1)) (.add (.div (.inp n!"VdeLR_1313") (.rat 2 1)) (.div (.inp n!"VedLL_1313") (.rat 2 1)))))),
  (n!"1udemu", (.mul (.div (.div (.sqrt (.rat 2 1)) (.par n!"GF")) (.rat 4 1)) (.conj (.inp n!"VnueduLL_2111")))),
  (n!"7pdbtautau", (.mul (.div (.div (.sqrt (.rat 2 1)) (.par n!"GF")) (.rat 4 1)) (.sub (.add (.div (.mul (.rat (-2) 1) (.sub (.div (.inp n!"SedRL_3313") (.rat 2 1)) (.div (.conj (.inp n!"SedRR_3331")) (.rat 2 1)))) (.rat 3 1)) (.add (.div (.inp n!"TedRR_3313") (.rat 2 1)) (.div (.conj (.inp n!"TedRR_3331")) (.rat 2 1)))) (.sub (.div (.inp n!"TedRR_3313") (.rat 2 1)) (.div (.conj (.inp n!"TedRR_3331")) (.rat 2 1)))))),
  (n!"5sbcu", (.mul (.div (.div (.sqrt (.rat 2 1)) (.par n!"GF")) (.rat 4 1)) (.add (.sub (.add (.div (.neg (.sub (.sub (.inp n!"S1udRR_2123") (.div (.inp n!"S8udduRR_2321") (.rat 4 1))) (.div (.inp n!"S8udRR_2123") (.mul (.rat 2 1) (.rat 3 1))))) (.rat 3 1)) (.div (.mul (.rat 4 1) (.neg (.conj (.inp n!"V8udduLR_1232")))) (.rat 3 1))) (.div (.add (.add (.div (.neg (.inp n!"S1udduRR_2321")) (.rat 2 1)) (.div (.inp n!"S8udduRR_2321") (.mul (.rat 4 1) (.rat 3 1)))) (.div (.inp n!"S8udRR_2123") (.rat 2 1))) (.mul (.rat 3 1) (.rat 3 1)))) (.div (.mul (.rat 4 1) (.add (.mul (.rat (-2) 1) (.conj (.inp n!"V1udduLR_1232"))) (.div (.conj (.inp n!"V8udduLR_1232")) (.rat 3 1)))) (.mul (.rat 3 1) (.rat 3 1)))))),
  (n!"7dbcc", (.mul (.div (.div (.sqrt (.rat 2 1)) (.par n!"GF")) (.rat 4 1)) (.sub (.add (.add (.add (.sub (.div (.sub (.sub (.inp n!"S1udRR_2213") (.div (.inp n!"S8udduRR_2312") (.rat 4 1))) (.div (.inp n!"S8udRR_2213") (.mul (.rat 2 1) (.rat 3 1)))) (.rat 3 1)) (.div (.neg (.conj (.inp n!"V8udduLR_2132"))) (.rat 3 1))) (.div (.neg (.inp n!"S8udduRR_2312")) (.rat 16 1))) (.div (.add (.div (.neg (.inp n!"S1udduRR_2312")) (.rat 8 1)) (.div (.inp n!"S8udduRR_2312") (.mul (.rat 16 1) (.rat 3 1)))) (.rat 3 1))) (.div (.add (.add (.div (.neg (.inp n!"S1udduRR_2312")) (.rat 2 1)) (.div (.inp n!"S8udduRR_2312") (.mul (.rat 4 1) (.rat 3 1)))) (.div (.inp n!"S8udRR_2213") (.rat 2 1))) (.mul (.rat 3 1) (.rat 3 1)))) (.div (.add (.mul (.rat (-2) 1) (.conj (.inp n!"V1udduLR_2132"))) (.div (.conj (.inp n!"V8udduLR_2132")) (.rat 3 1))) (.mul (.rat 3 1) (.rat 3 1)))))),
  (n!"1pusetau", (.mul (.div (.div (.sqrt (.rat 2 1)) (.par n!"GF")) (.rat 4 1)) (.conj (.inp n!"VnueduLR_3121")))),
  (n!"1dsuc", (.mul (.div (.div (.sqrt (.rat 2 1)) (.par n!"GF")) (.rat 4 1)) (.add (.sub (.add (.div (.neg (.sub (.inp n!"V1udLL_1212") (.div (.inp n!"V8udLL_1212") (.mul (.rat 2 1) (.rat 3 1))))) (.rat 3 1)) (.div (.mul (.rat 4 1) (.sub (.inp n!"V1duLR_1212") (.div (.inp n!"V8duLR_1212") (.mul (.rat 2 1) (.rat 3 1))))) (.rat 3 1))) (.div (.div (.inp n!"V8udLL_1212") (.rat 2 1)) (.mul (.rat 3 1) (.rat 3 1)))) (.div (.mul (.rat 4 1) (.div (.inp n!"V8duLR_1212") (.rat 2 1))) (.mul (.rat 3 1) (.rat 3 1)))))),
  (n!"1pdscu", (.mul (.div (.div (.sqrt (.rat 2 1)) (.par n!"GF")) (.rat 4 1)) (.add (.sub (.add (.div (.neg (.sub (.conj (.inp n!"V1udRR_1221")) (.div (.conj (.inp n!"V8udRR_1221")) (.mul (.rat 2 1) (.rat 3 1))))) (.rat 3 1)) (.div (.mul (.rat 4 1) (.sub (.conj (.inp n!"V1udLR_1221")) (.div (.conj (.inp n!"V8udLR_1221")) (.mul (.rat 2 1) (.rat 3 1))))) (.rat 3 1))) (.div (.div (.conj (.inp n!"V8udRR_1221")) (.rat 2 1)) (.mul (.rat 3 1) (.rat 3 1)))) (.div (.mul (.rat 4 1) (.div (.conj (.inp n!"V8udLR_1221")) (.rat 2 1))) (.mul (.rat 3 1) (.rat 3 1)))))),
  (n!"7psbtaumu", (.mul (.div (.div (.sqrt (.rat 2 1)) (.par n!"GF")) (.rat 4 1)) (.sub (.add (.div (.mul (.rat (-2) 1) (.sub (.div (.inp n!"SedRL_3223") (.rat 2 1)) (.div (.conj (.inp n!"SedRR_2332")) (.rat 2 1)))) (.rat 3 1)) (.add (.div (.inp n!"TedRR_3223") (.rat 2 1)) (.div (.conj (.inp n!"TedRR_2332")) (.rat 2 1)))) (.sub (.div (.inp n!"TedRR_3223") (.rat 2 1)) (.div (.conj (.inp n!"TedRR_2332")) (.rat 2 1)))))),
  (n!"7pdsemu", (.mul (.div (.div (.sqrt (.rat 2 1)) (.par n!"GF")) (.rat 4 1)) (.sub (.add (.div (.mul (.rat (-2) 1) (.sub (.div (.inp n!"SedRL_1212") (.rat 2 1)) (.div (.conj (.inp n!"SedRR_2121")) (.rat 2 1)))) (.rat 3 1)) (.add (.div (.inp n!"TedRR_1212") (.rat 2 1)) (.div (.conj (.inp n!"TedRR_2121")) (.rat 2 1)))) (.sub (.div (.inp n!"TedRR_1212") (.rat 2 1)) (.div (.conj (.inp n!"TedRR_2121")) (.rat 2 1)))))),
  (n!"5pubmutau", (.mul (.div (.div (.sqrt (.rat 2 1)) (.par n!"GF")) (.rat 4 1)) (.conj (.inp n!"SnueduRR_3231")))),
  (n!"1ubee", (.mul (.div (.div (.sqrt (.rat 2 1)) (.par n!"GF")) (.rat 4 1)) (.conj (.inp n!"VnueduLL_1131")))),
  (n!"3sbcu", (.mul (.div (.div (.sqrt (.rat 2 1)) (.par n!"GF")) (.rat 4 1)) (.sub (.add (.sub (.div (.sub (.conj (.inp n!"V1udLL_1232")) (.div (.conj (.inp n!"V8udLL_1232")) (.mul (.rat 2 1) (.rat 3 1)))) (.rat 12 1)) (.div (.sub (.inp n!"V1duLR_2321") (.div (.inp n!"V8duLR_2321") (.mul (.rat 2 1) (.rat 3 1)))) (.rat 12 1))) (.div (.div (.conj (.inp n!"V8udLL_1232")) (.rat 2 1)) (.mul (.rat 12 1) (.rat 3 1)))) (.div (.div (.inp n!"V8duLR_2321") (.rat 2 1)) (.mul (.rat 12 1) (.rat 3 1)))))),
  (n!"5dbcc", (.mul (.div (.div (.sqrt (.rat 2 1)) (.par n!"GF")) (.rat 4 1)) (.add (.sub (.add (.div (.neg (.sub (.sub (.inp n!"S1udRR_2213") (.div (.inp n!"S8udduRR_2312") (.rat 4 1))) (.div (.inp n!"S8udRR_2213") (.mul (.rat 2 1) (.rat 3 1))))) (.rat 3 1)) (.div (.mul (.rat 4 1) (.neg (.conj (.inp n!"V8udduLR_2132")))) (.rat 3 1))) (.div (.add (.add (.div (.neg (.inp n!"S1udduRR_2312")) (.rat 2 1)) (.div (.inp n!"S8udduRR_2312") (.mul (.rat 4 1) (.rat 3 1)))) (.div (.inp n!"S8udRR_2213") (.rat 2 1))) (.mul (.rat 3 1) (.rat 3 1)))) (.div (.mul (.rat 4 1) (.add (.mul (.rat (-2) 1) (.conj (.inp n!"V1udduLR_2132"))) (.div (.conj (.inp n!"V8udduLR_2132")) (.rat 3 1)))) (.mul (.rat 3 1) (.rat 3 1)))))),
  (n!"3psbmumu", (.mul (.div (.div (.sqrt (.rat 2 1)) (.par n!"GF")) (.rat 4 1)) (.div (.add (.div (.neg (.inp n!"VedLR_2223")) (.rat 2 1)) (.div (.inp n!"VedRR_2223") (.rat 2 1))) (.rat 6 1)))),
  (n!"1sbcu", (.mul (.div (.div (.sqrt (.rat 2 1)) (.par n!"GF")) (.rat 4 1)) (.add (.sub (.add (.div (.neg (.sub (.conj (.inp n!"V1udLL_1232")) (.div (.conj (.inp n!"V8udLL_1232")) (.mul (.rat 2 1) (.rat 3 1))))) (.rat 3 1)) (.div (.mul (.rat 4 1) (.sub (.inp n!"V1duLR_2321") (.div (.inp n!"V8duLR_2321") (.mul (.rat 2 1) (.rat 3 1))))) (.rat 3 1))) (.div (.div (.conj (.inp n!"V8udLL_1232")) (.rat 2 1)) (.mul (.rat 3 1) (.rat 3 1)))) (.div (.mul (.rat 4 1) (.div (.inp n!"V8duLR_2321") (.rat 2 1))) (.mul (.rat 3 1) (.rat 3 1)))))),
  (n!"3dbcc", (.mul (.div (.div (.sqrt (.rat 2 1)) (.par n!"GF")) (.rat 4 1)) (.sub (.add (.sub (.div (.sub (.inp n!"V1udLL_2213") (.div (.inp n!"V8udLL_2213") (.mul (.rat 2 1) (.rat 3 1)))) (.rat 12 1)) (.div (.sub (.inp n!"V1duLR_1322") (.div (.inp n!"V8duLR_1322") (.mul (.rat 2 1) (.rat 3 1)))) (.rat 12 1))) (.div (.div (.inp n!"V8udLL_2213") (.rat 2 1)) (.mul (.rat 12 1) (.rat 3 1)))) (.div (.div (.inp n!"V8duLR_1322") (.rat 2 1)) (.mul (.rat 12 1) (.rat 3 1)))))),
  (n!"5pdstautau", (.mul (.div (.div (.sqrt (.rat 2 1)) (.par n!"GF")) (.rat 4 1)) (.add (.div (.mul (.rat 5 1) (.sub (.div (.inp n!"SedRL_3312") (.rat 2 1)) (.div (.conj (.inp n!"SedRR_3321")) (.rat 2 1)))) (.rat 3 1)) (.add (.div (.inp n!"SedRL_3312") (.rat 2 1)) (.div (.conj (.inp n!"SedRR_3321")) (.rat 2 1)))))),
  (n!"nu1pdbemu", (.mul (.div (.div (.sqrt (.rat 2 1)) (.par n!"GF")) (.rat 4 1)) (.inp n!"VnudLR_1213"))),
  (n!"9psbuu", (.mul (.div (.div (.sqrt (.rat 2 1)) (.par n!"GF")) (.rat 4 1)) (.sub (.add (.sub (.div (.sub (.sub (.conj (.inp n!"S1udRR_1132")) (.div (.conj (.inp n!"S8udduRR_1231")) (.rat 4 1))) (.div (.conj (.inp n!"S8udRR_1132")) (.mul (.rat 2 1) (.rat 3 1)))) (.rat 48 1)) (.div (.neg (.inp n!"V8udduLR_1321")) (.rat 48 1))) (.div (.add (.add (.div (.neg (.conj (.inp n!"S1udduRR_1231"))) (.rat 2 1)) (.div (.conj (.inp n!"S8udduRR_1231")) (.mul (.rat 4 1) (.rat 3 1)))) (.div (.conj (.inp n!"S8udRR_1132")) (.rat 2 1))) (.mul (.rat 48 1) (.rat 3 1)))) (.div (.add (.mul (.rat (-2) 1) (.inp n!"V1udduLR_1321")) (.div (.inp n!"V8udduLR_1321") (.rat 3 1))) (.mul (.rat 48 1) (.rat 3 1)))))),
  (n!"5pustaumu", (.mul (.div (.div (.sqrt (.rat 2 1)) (.par n!"GF")) (.rat 4 1)) (.conj (.inp n!"SnueduRR_2321")))),
  (n!"9dbtaumu", (.mul (.div (.div (.sqrt (.rat 2 1)) (.par n!"GF")) (.rat 4 1)) (.div (.add (.div (.neg (.conj (.inp n!"SedRL_2331"))) (.rat 2 1)) (.div (.inp n!"SedRR_3213") (.rat 2 1))) (.rat 24 1)))),
  (n!"1dbcc", (.mul (.div (.div (.sqrt (.rat 2 1)) (.par n!"GF")) (.rat 4 1)) (.add (.sub (.add (.div (.neg (.sub (.inp n!"V1udLL_2213") (.div (.inp n!"V8udLL_2213") (.mul (.rat 2 1) (.rat 3 1))))) (.rat 3 1)) (.div (.mul (.rat 4 1) (.sub (.inp n!"V1duLR_1322") (.div (.inp n!"V8duLR_1322") (.mul (.rat 2 1) (.rat 3 1))))) (.rat 3 1))) (.div (.div (.inp n!"V8udLL_2213") (.rat 2 1)) (.mul (.rat 3 1) (.rat 3 1)))) (.div (.mul (.rat 4 1) (.div (.inp n!"V8duLR_1322") (.rat 2 1))) (.mul (.rat 3 1) (.rat 3 1)))))),
  (n!"6psbuc", (.mul (.div (.div (.sqrt (.rat 2 1)) (.par n!"GF")) (.rat 4 1)) (.add (.div (.mul (.rat (-2) 1) (.add (.add (.div (.neg (.conj (.inp n!"S1udduRR_2231"))) (.rat 2 1)) (.div (.conj (.inp n!"S8udduRR_2231")) (.mul (.rat 4 1) (.rat 3 1)))) (.div (.conj (.inp n!"S8udRR_2132")) (.rat 2 1)))) (.rat 3 1)) (.div (.mul (.rat 8 1) (.add (.mul (.rat (-2) 1) (.inp n!"V1udduLR_1322")) (.div (.inp n!"V8udduLR_1322") (.rat 3 1)))) (.rat 3 1))))),
  (n!"1psbss", (.mul (.div (.div (.sqrt (.rat 2 1)) (.par n!"GF")) (.rat 4 1)) (.add (.div (.neg (.inp n!"VddRR_2223")) (.rat 3 1)) (.div (.mul (.rat 4 1) (.sub (.inp n!"V1ddLR_2223") (.div (.inp n!"V8ddLR_2223") (.mul (.rat 2 1) (.rat 3 1))))) (.rat 3 1))))),
  (n!"7gammadb", (.mul (.div (.div (.sqrt (.rat 2 1)) (.par n!"GF")) (.rat 4 1)) (.mul (.div (.div (.mul (.sqrt (.mul (.mul (.rat 4 1) .pi) (.par n!"alpha_s"))) (.sqrt (.mul (.mul (.rat 4 1) .pi) (.par n!"alpha_s")))) (.sqrt (.mul (.mul (.rat 4 1) .pi) (.par n!"alpha_e")))) (.par n!"m_b")) (.inp n!"dgamma_13")))),
  (n!"9dbuu", (.mul (.div (.div (.sqrt (.rat 2 1)) (.par n!"GF")) (.rat 4 1)) (.sub (.add (.sub (.div (.sub (.sub (.inp n!"S1udRR_1113") (.div (.inp n!"S8udduRR_1311") (.rat 4 1))) (.div (.inp n!"S8udRR_1113") (.mul (.rat 2 1) (.rat 3 1)))) (.rat 48 1)) (.div (.neg (.conj (.inp n!"V8udduLR_1131"))) (.rat 48 1))) (.div (.add (.add (.div (.neg (.inp n!"S1udduRR_1311")) (.rat 2 1)) (.div (.inp n!"S8udduRR_1311") (.mul (.rat 4 1) (.rat 3 1)))) (.div (.inp n!"S8udRR_1113") (.rat 2 1))) (.mul (.rat 48 1) (.rat 3 1)))) (.div (.add (.mul (.rat (-2) 1) (.conj (.inp n!"V1udduLR_1131"))) (.div (.conj (.inp n!"V8udduLR_1131")) (.rat 3 1))) (.mul (.rat 48 1) (.rat 3 1)))))),
  (n!"9pdstaue", (.mul (.div (.div (.sqrt (.rat 2 1)) (.par n!"GF")) (.rat 4 1)) (.div (.neg (.sub (.div (.inp n!"SedRL_3112") (.rat 2 1)) (.div (.conj (.inp n!"SedRR_1321")) (.rat 2 1)))) (.rat 24 1))))]

def JMS_to_Bern_8 : List (ℕ × Sym) := [
  (n!"9pdbuc", (.mul (.div (.div (.sqrt (.rat 2 1)) (.par n!"GF")) (.rat 4 1)) (.sub (.add (.sub (.div (.sub (.sub (.conj (.inp n!"S1udRR_2131")) (.div (.conj (.inp n!"S8udduRR_2131")) (.rat 4 1))) (.div (.conj (.inp n!"S8udRR_2131")) (.mul (.rat 2 1) (.rat 3 1)))) (.rat 48 1)) (.div (.neg (.inp n!"V8udduLR_1312")) (.rat 48 1))) (.div (.add (.add (.div (.neg (.conj (.inp n!"S1udduRR_2131"))) (.rat 2 1)) (.div (.conj (.inp n!"S8udduRR_2131")) (.mul (.rat 4 1) (.rat 3 1)))) (.div (.conj (.inp n!"S8udRR_2131")) (.rat 2 1))) (.mul (.rat 48 1) (.rat 3 1)))) (.div (.add (.mul (.rat (-2) 1) (.inp n!"V1udduLR_1312")) (.div (.inp n!"V8udduLR_1312") (.rat 3 1))) (.mul (.rat 48 1) (.rat 3 1)))))),
  (n!"1pustautau", (.mul (.div (.div (.sqrt (.rat 2 1)) (.par n!"GF")) (.rat 4 1)) (.conj (.inp n!"VnueduLR_3321")))),
  (n!"4pdbss", (.mul (.div (.div (.sqrt (.rat 2 1)) (.par n!"GF")) (.rat 4 1)) (.sub (.div (.inp n!"VddRR_1223") (.rat 6 1)) (.div (.div (.inp n!"V8ddLR_2213") (.rat 2 1)) (.rat 6 1))))),
  (n!"1pdbtaumu", (.mul (.div (.div (.sqrt (.rat 2 1)) (.par n!"GF")) (.rat 4 1)) (.sub (.add (.div (.conj (.inp n!"VedLR_2331")) (.rat 2 1)) (.div (.conj (.inp n!"VedRR_2331")) (.rat 2 1))) (.div (.mul (.rat 5 1) (.add (.div (.neg (.conj (.inp n!"VedLR_2331"))) (.rat 2 1)) (.div (.conj (.inp n!"VedRR_2331")) (.rat 2 1)))) (.rat 3 1))))),
  (n!"nu1dsemu", (.mul (.div (.div (.sqrt (.rat 2 1)) (.par n!"GF")) (.rat 4 1)) (.inp n!"VnudLL_1212"))),
  (n!"nu1pdbmutau", (.mul (.div (.div (.sqrt (.rat 2 1)) (.par n!"GF")) (.rat 4 1)) (.inp n!"VnudLR_2313"))),
  (n!"7dbuu", (.mul (.div (.div (.sqrt (.rat 2 1)) (.par n!"GF")) (.rat 4 1)) (.sub (.add (.add (.add (.sub (.div (.sub (.sub (.inp n!"S1udRR_1113") (.div (.inp n!"S8udduRR_1311") (.rat 4 1))) (.div (.inp n!"S8udRR_1113") (.mul (.rat 2 1) (.rat 3 1)))) (.rat 3 1)) (.div (.neg (.conj (.inp n!"V8udduLR_1131"))) (.rat 3 1))) (.div (.neg (.inp n!"S8udduRR_1311")) (.rat 16 1))) (.div (.add (.div (.neg (.inp n!"S1udduRR_1311")) (.rat 8 1)) (.div (.inp n!"S8udduRR_1311") (.mul (.rat 16 1) (.rat 3 1)))) (.rat 3 1))) (.div (.add (.add (.div (.neg (.inp n!"S1udduRR_1311")) (.rat 2 1)) (.div (.inp n!"S8udduRR_1311") (.mul (.rat 4 1) (.rat 3 1)))) (.div (.inp n!"S8udRR_1113") (.rat 2 1))) (.mul (.rat 3 1) (.rat 3 1)))) (.div (.add (.mul (.rat (-2) 1) (.conj (.inp n!"V1udduLR_1131"))) (.div (.conj (.inp n!"V8udduLR_1131")) (.rat 3 1))) (.mul (.rat 3 1) (.rat 3 1)))))),
  (n!"5pusee", (.mul (.div (.div (.sqrt (.rat 2 1)) (.par n!"GF")) (.rat 4 1)) (.conj (.inp n!"SnueduRR_1121")))),
  (n!"nu1sbmutau", (.mul (.div (.div (.sqrt (.rat 2 1)) (.par n!"GF")) (.rat 4 1)) (.inp n!"VnudLL_2323"))),
  (n!"9sbbb", (.mul (.div (.div (.sqrt (.rat 2 1)) (.par n!"GF")) (.rat 4 1)) (.sub (.div (.sub (.sub (.inp n!"S1ddRR_2333") (.div (.inp n!"S8ddRR_2333") (.rat 4 1))) (.div (.inp n!"S8ddRR_2333") (.mul (.rat 2 1) (.rat 3 1)))) (.rat 48 1)) (.div (.neg (.inp n!"V8ddLR_2333")) (.rat 48 1))))),
  (n!"5usemu", (.mul (.div (.div (.sqrt (.rat 2 1)) (.par n!"GF")) (.rat 4 1)) (.conj (.inp n!"SnueduRL_2121")))),
  (n!"5dbuu", (.mul (.div (.div (.sqrt (.rat 2 1)) (.par n!"GF")) (.rat 4 1)) (.add (.sub (.add (.div (.neg (.sub (.sub (.inp n!"S1udRR_1113") (.div (.inp n!"S8udduRR_1311") (.rat 4 1))) (.div (.inp n!"S8udRR_1113") (.mul (.rat 2 1) (.rat 3 1))))) (.rat 3 1)) (.div (.mul (.rat 4 1) (.neg (.conj (.inp n!"V8udduLR_1131")))) (.rat 3 1))) (.div (.add (.add (.div (.neg (.inp n!"S1udduRR_1311")) (.rat 2 1)) (.div (.inp n!"S8udduRR_1311") (.mul (.rat 4 1) (.rat 3 1)))) (.div (.inp n!"S8udRR_1113") (.rat 2 1))) (.mul (.rat 3 1) (.rat 3 1)))) (.div (.mul (.rat 4 1) (.add (.mul (.rat (-2) 1) (.conj (.inp n!"V1udduLR_1131"))) (.div (.conj (.inp n!"V8udduLR_1131")) (.rat 3 1)))) (.mul (.rat 3 1) (.rat 3 1)))))),
  (n!"1csmumu", (.mul (.div (.div (.sqrt (.rat 2 1)) (.par n!"GF")) (.rat 4 1)) (.conj (.inp n!"VnueduLL_2222")))),
  (n!"5csee", (.mul (.div (.div (.sqrt (.rat 2 1)) (.par n!"GF")) (.rat 4 1)) (.conj (.inp n!"SnueduRL_1122")))),
  (n!"5pdsemu", (.mul (.div (.div (.sqrt (.rat 2 1)) (.par n!"GF")) (.rat 4 1)) (.add (.div (.mul (.rat 5 1) (.sub (.div (.inp n!"SedRL_1212") (.rat 2 1)) (.div (.conj (.inp n!"SedRR_2121")) (.rat 2 1)))) (.rat 3 1)) (.add (.div (.inp n!"SedRL_1212") (.rat 2 1)) (.div (.conj (.inp n!"SedRR_2121")) (.rat 2 1)))))),
  (n!"7sbbb", (.mul (.div (.div (.sqrt (.rat 2 1)) (.par n!"GF")) (.rat 4 1)) (.add (.sub (.div (.sub (.sub (.inp n!"S1ddRR_2333") (.div (.inp n!"S8ddRR_2333") (.rat 4 1))) (.div (.inp n!"S8ddRR_2333") (.mul (.rat 2 1) (.rat 3 1)))) (.rat 3 1)) (.div (.neg (.inp n!"V8ddLR_2333")) (.rat 3 1))) (.div (.neg (.inp n!"S8ddRR_2333")) (.rat 16 1))))),
  (n!"nu1pdstaumu", (.mul (.div (.div (.sqrt (.rat 2 1)) (.par n!"GF")) (.rat 4 1)) (.conj (.inp n!"VnudLR_2321")))),
  (n!"5psbmutau", (.mul (.div (.div (.sqrt (.rat 2 1)) (.par n!"GF")) (.rat 4 1)) (.add (.div (.mul (.rat 5 1) (.sub (.div (.inp n!"SedRL_2323") (.rat 2 1)) (.div (.conj (.inp n!"SedRR_3232")) (.rat 2 1)))) (.rat 3 1)) (.add (.div (.inp n!"SedRL_2323") (.rat 2 1)) (.div (.conj (.inp n!"SedRR_3232")) (.rat 2 1)))))),
  (n!"5dbtautau", (.mul (.div (.div (.sqrt (.rat 2 1)) (.par n!"GF")) (.rat 4 1)) (.sub (.add (.div (.conj (.inp n!"SedRL_3331")) (.rat 2 1)) (.div (.inp n!"SedRR_3313") (.rat 2 1))) (.div (.mul (.rat 5 1) (.add (.div (.neg (.conj (.inp n!"SedRL_3331"))) (.rat 2 1)) (.div (.inp n!"SedRR_3313") (.rat 2 1)))) (.rat 3 1))))),
  (n!"3dbuu", (.mul (.div (.div (.sqrt (.rat 2 1)) (.par n!"GF")) (.rat 4 1)) (.sub (.add (.sub (.div (.sub (.inp n!"V1udLL_1113") (.div (.inp n!"V8udLL_1113") (.mul (.rat 2 1) (.rat 3 1)))) (.rat 12 1)) (.div (.sub (.inp n!"V1duLR_1311") (.div (.inp n!"V8duLR_1311") (.mul (.rat 2 1) (.rat 3 1)))) (.rat 12 1))) (.div (.div (.inp n!"V8udLL_1113") (.rat 2 1)) (.mul (.rat 12 1) (.rat 3 1)))) (.div (.div (.inp n!"V8duLR_1311") (.rat 2 1)) (.mul (.rat 12 1) (.rat 3 1)))))),
  (n!"8pdscu", (.mul (.div (.div (.sqrt (.rat 2 1)) (.par n!"GF")) (.rat 4 1)) (.sub (.add (.mul (.rat 2 1) (.add (.div (.neg (.conj (.inp n!"S1udduRR_1122"))) (.rat 8 1)) (.div (.div (.conj (.inp n!"S8udduRR_1122")) (.rat 16 1)) (.rat 3 1)))) (.div (.mul (.rat 2 1) (.add (.add (.div (.neg (.conj (.inp n!"S1udduRR_1122"))) (.rat 2 1)) (.div (.conj (.inp n!"S8udduRR_1122")) (.mul (.rat 4 1) (.rat 3 1)))) (.div (.conj (.inp n!"S8udRR_1221")) (.rat 2 1)))) (.rat 3 1))) (.div (.mul (.rat 2 1) (.add (.mul (.rat (-2) 1) (.inp n!"V1udduLR_2211")) (.div (.inp n!"V8udduLR_2211") (.rat 3 1)))) (.rat 3 1))))),
  (n!"9pdsdd", (.mul (.div (.div (.sqrt (.rat 2 1)) (.par n!"GF")) (.rat 4 1)) (.sub (.div (.sub (.sub (.inp n!"S1ddRR_1112") (.div (.inp n!"S8ddRR_1112") (.rat 4 1))) (.div (.inp n!"S8ddRR_1112") (.mul (.rat 2 1) (.rat 3 1)))) (.rat 48 1)) (.div (.neg (.inp n!"V8ddLR_1112")) (.rat 48 1))))),
  (n!"5sbbb", (.mul (.div (.div (.sqrt (.rat 2 1)) (.par n!"GF")) (.rat 4 1)) (.add (.div (.neg (.sub (.sub (.inp n!"S1ddRR_2333") (.div (.inp n!"S8ddRR_2333") (.rat 4 1))) (.div (.inp n!"S8ddRR_2333") (.mul (.rat 2 1) (.rat 3 1))))) (.rat 3 1)) (.div (.mul (.rat 4 1) (.neg (.inp n!"V8ddLR_2333"))) (.rat 3 1))))),
  (n!"5pdscc", (.mul (.div (.div (.sqrt (.rat 2 1)) (.par n!"GF")) (.rat 4 1)) (.add (.sub (.add (.div (.neg (.sub (.sub (.conj (.inp n!"S1udRR_2221")) (.div (.conj (.inp n!"S8udduRR_2122")) (.rat 4 1))) (.div (.conj (.inp n!"S8udRR_2221")) (.mul (.rat 2 1) (.rat 3 1))))) (.rat 3 1)) (.div (.mul (.rat 4 1) (.neg (.inp n!"V8udduLR_2212"))) (.rat 3 1))) (.div (.add (.add (.div (.neg (.conj (.inp n!"S1udduRR_2122"))) (.rat 2 1)) (.div (.conj (.inp n!"S8udduRR_2122")) (.mul (.rat 4 1) (.rat 3 1)))) (.div (.conj (.inp n!"S8udRR_2221")) (.rat 2 1))) (.mul (.rat 3 1) (.rat 3 1)))) (.div (.mul (.rat 4 1) (.add (.mul (.rat (-2) 1) (.inp n!"V1udduLR_2212")) (.div (.inp n!"V8udduLR_2212") (.rat 3 1)))) (.mul (.rat 3 1) (.rat 3 1)))))),
  (n!"1pdsbb", (.mul (.div (.div (.sqrt (.rat 2 1)) (.par n!"GF")) (.rat 4 1)) (.add (.sub (.add (.div (.neg (.inp n!"VddRR_1233")) (.rat 3 1)) (.div (.mul (.rat 4 1) (.sub (.inp n!"V1ddLR_3312") (.div (.inp n!"V8ddLR_3312") (.mul (.rat 2 1) (.rat 3 1))))) (.rat 3 1))) (.div (.inp n!"VddRR_1332") (.mul (.rat 3 1) (.rat 3 1)))) (.div (.mul (.rat 4 1) (.div (.inp n!"V8ddLR_3312") (.rat 2 1))) (.mul (.rat 3 1) (.rat 3 1)))))),
  (n!"1dbuu", (.mul (.div (.div (.sqrt (.rat 2 1)) (.par n!"GF")) (.rat 4 1)) (.add (.sub (.add (.div (.neg (.sub (.inp n!"V1udLL_1113") (.div (.inp n!"V8udLL_1113") (.mul (.rat 2 1) (.rat 3 1))))) (.rat 3 1)) (.div (.mul (.rat 4 1) (.sub (.inp n!"V1duLR_1311") (.div (.inp n!"V8duLR_1311") (.mul (.rat 2 1) (.rat 3 1))))) (.rat 3 1))) (.div (.div (.inp n!"V8udLL_1113") (.rat 2 1)) (.mul (.rat 3 1) (.rat 3 1)))) (.div (.mul (.rat 4 1) (.div (.inp n!"V8duLR_1311") (.rat 2 1))) (.mul (.rat 3 1) (.rat 3 1)))))),
  (n!"1pcstaue", (.mul (.div (.div (.sqrt (.rat 2 1)) (.par n!"GF")) (.rat 4 1)) (.conj (.inp n!"VnueduLR_1322")))),
  (n!"3pdbee", (.mul (.div (.div (.sqrt (.rat 2 1)) (.par n!"GF")) (.rat 4 1)) (.div (.add (.div (.neg (.inp n!"VedLR_1113")) (.rat 2 1)) (.div (.inp n!"VedRR_1113") (.rat 2 1))) (.rat 6 1)))),
  (n!"1csee", (.mul (.div (.div (.sqrt (.rat 2 1)) (.par n!"GF")) (.rat 4 1)) (.conj (.inp n!"VnueduLL_1122")))),
  (n!"3sbbb", (.mul (.div (.div (.sqrt (.rat 2 1)) (.par n!"GF")) (.rat 4 1)) (.sub (.div (.inp n!"VddLL_2333") (.rat 12 1)) (.div (.sub (.inp n!"V1ddLR_2333") (.div (.inp n!"V8ddLR_2333") (.mul (.rat 2 1) (.rat 3 1)))) (.rat 12 1))))),
  (n!"1cdemu", (.mul (.div (.div (.sqrt (.rat 2 1)) (.par n!"GF")) (.rat 4 1)) (.conj (.inp n!"VnueduLL_2112")))),
  (n!"7sbmutau", (.mul (.div (.div (.sqrt (.rat 2 1)) (.par n!"GF")) (.rat 4 1)) (.add (.add (.div (.mul (.rat 2 1) (.add (.div (.neg (.conj (.inp n!"SedRL_3232"))) (.rat 2 1)) (.div (.inp n!"SedRR_2323") (.rat 2 1)))) (.rat 3 1)) (.add (.div (.inp n!"TedRR_2323") (.rat 2 1)) (.div (.conj (.inp n!"TedRR_3232")) (.rat 2 1)))) (.sub (.div (.inp n!"TedRR_2323") (.rat 2 1)) (.div (.conj (.inp n!"TedRR_3232")) (.rat 2 1)))))),
  (n!"1sbbb", (.mul (.div (.div (.sqrt (.rat 2 1)) (.par n!"GF")) (.rat 4 1)) (.add (.div (.neg (.inp n!"VddLL_2333")) (.rat 3 1)) (.div (.mul (.rat 4 1) (.sub (.inp n!"V1ddLR_2333") (.div (.inp n!"V8ddLR_2333") (.mul (.rat 2 1) (.rat 3 1))))) (.rat 3 1))))),
  (n!"3pdbtaue", (.mul (.div (.div (.sqrt (.rat 2 1)) (.par n!"GF")) (.rat 4 1)) (.div (.add (.div (.neg (.conj (.inp n!"VedLR_1331"))) (.rat 2 1)) (.div (.conj (.inp n!"VedRR_1331")) (.rat 2 1))) (.rat 6 1)))),
  (n!"10dscc", (.mul (.div (.div (.sqrt (.rat 2 1)) (.par n!"GF")) (.rat 4 1)) (.sub (.div (.add (.add (.div (.neg (.inp n!"S1udduRR_2212")) (.rat 2 1)) (.div (.inp n!"S8udduRR_2212") (.mul (.rat 4 1) (.rat 3 1)))) (.div (.inp n!"S8udRR_2212") (.rat 2 1))) (.rat 24 1)) (.div (.add (.mul (.rat (-2) 1) (.conj (.inp n!"V1udduLR_2122"))) (.div (.conj (.inp n!"V8udduLR_2122")) (.rat 3 1))) (.rat 24 1))))),
  (n!"1pdsetau", (.mul (.div (.div (.sqrt (.rat 2 1)) (.par n!"GF")) (.rat 4 1)) (.sub (.add (.div (.inp n!"VedLR_1312") (.rat 2 1)) (.div (.inp n!"VedRR_1312") (.rat 2 1))) (.div (.mul (.rat 5 1) (.add (.div (.neg (.inp n!"VedLR_1312")) (.rat 2 1)) (.div (.inp n!"VedRR_1312") (.rat 2 1)))) (.rat 3 1))))),
  (n!"1pcdmutau", (.mul (.div (.div (.sqrt (.rat 2 1)) (.par n!"GF")) (.rat 4 1)) (.conj (.inp n!"VnueduLR_3212")))),
  (n!"7pudetau", (.mul (.div (.div (.sqrt (.rat 2 1)) (.par n!"GF")) (.rat 4 1)) (.conj (.inp n!"TnueduRR_3111")))),
  (n!"5psbtautau", (.mul (.div (.div (.sqrt (.rat 2 1)) (.par n!"GF")) (.rat 4 1)) (.add (.div (.mul (.rat 5 1) (.sub (.div (.inp n!"SedRL_3323") (.rat 2 1)) (.div (.conj (.inp n!"SedRR_3332")) (.rat 2 1)))) (.rat 3 1)) (.add (.div (.inp n!"SedRL_3323") (.rat 2 1)) (.div (.conj (.inp n!"SedRR_3332")) (.rat 2 1)))))),
  (n!"10pdscu", (.mul (.div (.div (.sqrt (.rat 2 1)) (.par n!"GF")) (.rat 4 1)) (.sub (.div (.add (.add (.div (.neg (.conj (.inp n!"S1udduRR_1122"))) (.rat 2 1)) (.div (.conj (.inp n!"S8udduRR_1122")) (.mul (.rat 4 1) (.rat 3 1)))) (.div (.conj (.inp n!"S8udRR_1221")) (.rat 2 1))) (.rat 24 1)) (.div (.add (.mul (.rat (-2) 1) (.inp n!"V1udduLR_2211")) (.div (.inp n!"V8udduLR_2211") (.rat 3 1))) (.rat 24 1))))),
  (n!"7pubetau", (.mul (.div (.div (.sqrt (.rat 2 1)) (.par n!"GF")) (.rat 4 1)) (.conj (.inp n!"TnueduRR_3131")))),
  (n!"5pdbds", (.mul (.div (.div (.sqrt (.rat 2 1)) (.par n!"GF")) (.rat 4 1)) (.add (.div (.neg (.sub (.sub (.inp n!"S1ddRR_1213") (.div (.inp n!"S8ddRR_1213") (.rat 4 1))) (.div (.inp n!"S8ddRR_1213") (.mul (.rat 2 1) (.rat 3 1))))) (.rat 3 1)) (.div (.mul (.rat 4 1) (.neg (.inp n!"V8ddLR_1213"))) (.rat 3 1))))),
  (n!"1dsmue", (.mul (.div (.div (.sqrt (.rat 2 1)) (.par n!"GF")) (.rat 4 1)) (.add (.div (.mul (.rat 5 1) (.sub (.div (.inp n!"VdeLR_1221") (.rat 2 1)) (.div (.conj (.inp n!"VedLL_1221")) (.rat 2 1)))) (.rat 3 1)) (.add (.div (.inp n!"VdeLR_1221") (.rat 2 1)) (.div (.conj (.inp n!"VedLL_1221")) (.rat 2 1)))))),
  (n!"3pdsemu", (.mul (.div (.div (.sqrt (.rat 2 1)) (.par n!"GF")) (.rat 4 1)) (.div (.add (.div (.neg (.inp n!"VedLR_1212")) (.rat 2 1)) (.div (.inp n!"VedRR_1212") (.rat 2 1))) (.rat 6 1)))),
  (n!"5pdsuu", (.mul (.div (.div (.sqrt (.rat 2 1)) (.par n!"GF")) (.rat 4 1)) (.add (.sub (.add (.div (.neg (.sub (.sub (.conj (.inp n!"S1udRR_1121")) (.div (.conj (.inp n!"S8udduRR_1121")) (.rat 4 1))) (.div (.conj (.inp n!"S8udRR_1121")) (.mul (.rat 2 1) (.rat 3 1))))) (.rat 3 1)) (.div (.mul (.rat 4 1) (.neg (.inp n!"V8udduLR_1211"))) (.rat 3 1))) (.div (.add (.add (.div (.neg (.conj (.inp n!"S1udduRR_1121"))) (.rat 2 1)) (.div (.conj (.inp n!"S8udduRR_1121")) (.mul (.rat 4 1) (.rat 3 1)))) (.div (.conj (.inp n!"S8udRR_1121")) (.rat 2 1))) (.mul (.rat 3 1) (.rat 3 1)))) (.div (.mul (.rat 4 1) (.add (.mul (.rat (-2) 1) (.inp n!"V1udduLR_1211")) (.div (.inp n!"V8udduLR_1211") (.rat 3 1)))) (.mul (.rat 3 1) (.rat 3 1)))))),
  (n!"2pdsuc", (.mul (.div (.div (.sqrt (.rat 2 1)) (.par n!"GF")) (.rat 4 1)) (.add (.div (.mul (.rat (-2) 1) (.div (.inp n!"V8udRR_1212") (.rat 2 1))) (.rat 3 1)) (.div (.mul (.rat 8 1) (.div (.inp n!"V8udLR_1212") (.rat 2 1))) (.rat 3 1))))),
  (n!"5pubtaumu", (.mul (.div (.div (.sqrt (.rat 2 1)) (.par n!"GF")) (.rat 4 1)) (.conj (.inp n!"SnueduRR_2331")))),
  (n!"5csmutau", (.mul (.div (.div (.sqrt (.rat 2 1)) (.par n!"GF")) (.rat 4 1)) (.conj (.inp n!"SnueduRL_3222")))),
  (n!"9dbmue", (.mul (.div (.div (.sqrt (.rat 2 1)) (.par n!"GF")) (.rat 4 1)) (.div (.add (.div (.neg (.conj (.inp n!"SedRL_1231"))) (.rat 2 1)) (.div (.inp n!"SedRR_2113") (.rat 2 1))) (.rat 24 1)))),
  (n!"nu1pdbee", (.mul (.div (.div (.sqrt (.rat 2 1)) (.par n!"GF")) (.rat 4 1)) (.inp n!"VnudLR_1113")))]

def JMS_to_Bern_9 : List (ℕ × Sym) := [
  (n!"9psbsd", (.mul (.div (.div (.sqrt (.rat 2 1)) (.par n!"GF")) (.rat 4 1)) (.sub (.div (.sub (.sub (.inp n!"S1ddRR_2123") (.div (.inp n!"S8ddRR_2123") (.rat 4 1))) (.div (.inp n!"S8ddRR_2123") (.mul (.rat 2 1) (.rat 3 1)))) (.rat 48 1)) (.div (.neg (.conj (.inp n!"V8ddLR_1232"))) (.rat 48 1))))),
  (n!"5usee", (.mul (.div (.div (.sqrt (.rat 2 1)) (.par n!"GF")) (.rat 4 1)) (.conj (.inp n!"SnueduRL_1121")))),
  (n!"7psbee", (.mul (.div (.div (.sqrt (.rat 2 1)) (.par n!"GF")) (.rat 4 1)) (.sub (.add (.div (.mul (.rat (-2) 1) (.sub (.div (.inp n!"SedRL_1123") (.rat 2 1)) (.div (.conj (.inp n!"SedRR_1132")) (.rat 2 1)))) (.rat 3 1)) (.add (.div (.inp n!"TedRR_1123") (.rat 2 1)) (.div (.conj (.inp n!"TedRR_1132")) (.rat 2 1)))) (.sub (.div (.inp n!"TedRR_1123") (.rat 2 1)) (.div (.conj (.inp n!"TedRR_1132")) (.rat 2 1)))))),
  (n!"2psbcu", (.mul (.div (.div (.sqrt (.rat 2 1)) (.par n!"GF")) (.rat 4 1)) (.add (.div (.mul (.rat (-2) 1) (.div (.conj (.inp n!"V8udRR_1232")) (.rat 2 1))) (.rat 3 1)) (.div (.mul (.rat 8 1) (.div (.conj (.inp n!"V8udLR_1232")) (.rat 2 1))) (.rat 3 1))))),
  (n!"9dscc", (.mul (.div (.div (.sqrt (.rat 2 1)) (.par n!"GF")) (.rat 4 1)) (.sub (.add (.sub (.div (.sub (.sub (.inp n!"S1udRR_2212") (.div (.inp n!"S8udduRR_2212") (.rat 4 1))) (.div (.inp n!"S8udRR_2212") (.mul (.rat 2 1) (.rat 3 1)))) (.rat 48 1)) (.div (.neg (.conj (.inp n!"V8udduLR_2122"))) (.rat 48 1))) (.div (.add (.add (.div (.neg (.inp n!"S1udduRR_2212")) (.rat 2 1)) (.div (.inp n!"S8udduRR_2212") (.mul (.rat 4 1) (.rat 3 1)))) (.div (.inp n!"S8udRR_2212") (.rat 2 1))) (.mul (.rat 48 1) (.rat 3 1)))) (.div (.add (.mul (.rat (-2) 1) (.conj (.inp n!"V1udduLR_2122"))) (.div (.conj (.inp n!"V8udduLR_2122")) (.rat 3 1))) (.mul (.rat 48 1) (.rat 3 1)))))),
  (n!"8pdsbb", (.mul (.div (.div (.sqrt (.rat 2 1)) (.par n!"GF")) (.rat 4 1)) (.sub (.add (.mul (.rat 2 1) (.add (.div (.neg (.conj (.inp n!"S1ddRR_2331"))) (.rat 8 1)) (.div (.div (.conj (.inp n!"S8ddRR_2331")) (.rat 16 1)) (.rat 3 1)))) (.div (.mul (.rat 2 1) (.add (.add (.div (.neg (.conj (.inp n!"S1ddRR_2331"))) (.rat 2 1)) (.div (.div (.conj (.inp n!"S8ddRR_2331")) (.rat 4 1)) (.rat 3 1))) (.div (.conj (.inp n!"S8ddRR_2133")) (.rat 2 1)))) (.rat 3 1))) (.div (.mul (.rat 2 1) (.add (.mul (.rat (-2) 1) (.conj (.inp n!"V1ddLR_2331"))) (.div (.conj (.inp n!"V8ddLR_2331")) (.rat 3 1)))) (.rat 3 1))))),
  (n!"3psbdd", (.mul (.div (.div (.sqrt (.rat 2 1)) (.par n!"GF")) (.rat 4 1)) (.sub (.add (.sub (.div (.inp n!"VddRR_1123") (.rat 12 1)) (.div (.sub (.inp n!"V1ddLR_1123") (.div (.inp n!"V8ddLR_1123") (.mul (.rat 2 1) (.rat 3 1)))) (.rat 12 1))) (.div (.conj (.inp n!"VddRR_1231")) (.mul (.rat 12 1) (.rat 3 1)))) (.div (.div (.inp n!"V8ddLR_1123") (.rat 2 1)) (.mul (.rat 12 1) (.rat 3 1)))))),
  (n!"10dsuu", (.mul (.div (.div (.sqrt (.rat 2 1)) (.par n!"GF")) (.rat 4 1)) (.sub (.div (.add (.add (.div (.neg (.inp n!"S1udduRR_1211")) (.rat 2 1)) (.div (.inp n!"S8udduRR_1211") (.mul (.rat 4 1) (.rat 3 1)))) (.div (.inp n!"S8udRR_1112") (.rat 2 1))) (.rat 24 1)) (.div (.add (.mul (.rat (-2) 1) (.conj (.inp n!"V1udduLR_1121"))) (.div (.conj (.inp n!"V8udduLR_1121")) (.rat 3 1))) (.rat 24 1))))),
  (n!"5csemu", (.mul (.div (.div (.sqrt (.rat 2 1)) (.par n!"GF")) (.rat 4 1)) (.conj (.inp n!"SnueduRL_2122")))),
  (n!"5pdbcu", (.mul (.div (.div (.sqrt (.rat 2 1)) (.par n!"GF")) (.rat 4 1)) (.add (.sub (.add (.div (.neg (.sub (.sub (.conj (.inp n!"S1udRR_1231")) (.div (.conj (.inp n!"S8udduRR_1132")) (.rat 4 1))) (.div (.conj (.inp n!"S8udRR_1231")) (.mul (.rat 2 1) (.rat 3 1))))) (.rat 3 1)) (.div (.mul (.rat 4 1) (.neg (.inp n!"V8udduLR_2311"))) (.rat 3 1))) (.div (.add (.add (.div (.neg (.conj (.inp n!"S1udduRR_1132"))) (.rat 2 1)) (.div (.conj (.inp n!"S8udduRR_1132")) (.mul (.rat 4 1) (.rat 3 1)))) (.div (.conj (.inp n!"S8udRR_1231")) (.rat 2 1))) (.mul (.rat 3 1) (.rat 3 1)))) (.div (.mul (.rat 4 1) (.add (.mul (.rat (-2) 1) (.inp n!"V1udduLR_2311")) (.div (.inp n!"V8udduLR_2311") (.rat 3 1)))) (.mul (.rat 3 1) (.rat 3 1)))))),
  (n!"9dstautau", (.mul (.div (.div (.sqrt (.rat 2 1)) (.par n!"GF")) (.rat 4 1)) (.div (.add (.div (.neg (.conj (.inp n!"SedRL_3321"))) (.rat 2 1)) (.div (.inp n!"SedRR_3312") (.rat 2 1))) (.rat 24 1)))),
  (n!"7dscc", (.mul (.div (.div (.sqrt (.rat 2 1)) (.par n!"GF")) (.rat 4 1)) (.sub (.add (.add (.add (.sub (.div (.sub (.sub (.inp n!"S1udRR_2212") (.div (.inp n!"S8udduRR_2212") (.rat 4 1))) (.div (.inp n!"S8udRR_2212") (.mul (.rat 2 1) (.rat 3 1)))) (.rat 3 1)) (.div (.neg (.conj (.inp n!"V8udduLR_2122"))) (.rat 3 1))) (.div (.neg (.inp n!"S8udduRR_2212")) (.rat 16 1))) (.div (.add (.div (.neg (.inp n!"S1udduRR_2212")) (.rat 8 1)) (.div (.inp n!"S8udduRR_2212") (.mul (.rat 16 1) (.rat 3 1)))) (.rat 3 1))) (.div (.add (.add (.div (.neg (.inp n!"S1udduRR_2212")) (.rat 2 1)) (.div (.inp n!"S8udduRR_2212") (.mul (.rat 4 1) (.rat 3 1)))) (.div (.inp n!"S8udRR_2212") (.rat 2 1))) (.mul (.rat 3 1) (.rat 3 1)))) (.div (.add (.mul (.rat (-2) 1) (.conj (.inp n!"V1udduLR_2122"))) (.div (.conj (.inp n!"V8udduLR_2122")) (.rat 3 1))) (.mul (.rat 3 1) (.rat 3 1)))))),
  (n!"2pdbcc", (.mul (.div (.div (.sqrt (.rat 2 1)) (.par n!"GF")) (.rat 4 1)) (.add (.div (.mul (.rat (-2) 1) (.div (.inp n!"V8udRR_2213") (.rat 2 1))) (.rat 3 1)) (.div (.mul (.rat 8 1) (.div (.inp n!"V8udLR_2213") (.rat 2 1))) (.rat 3 1))))),
  (n!"1usee", (.mul (.div (.div (.sqrt (.rat 2 1)) (.par n!"GF")) (.rat 4 1)) (.conj (.inp n!"VnueduLL_1121")))),
  (n!"1udmutau", (.mul (.div (.div (.sqrt (.rat 2 1)) (.par n!"GF")) (.rat 4 1)) (.conj (.inp n!"VnueduLL_3211")))),
  (n!"nu1pdbtaumu", (.mul (.div (.div (.sqrt (.rat 2 1)) (.par n!"GF")) (.rat 4 1)) (.conj (.inp n!"VnudLR_2331")))),
  (n!"5dscc", (.mul (.div (.div (.sqrt (.rat 2 1)) (.par n!"GF")) (.rat 4 1)) (.add (.sub (.add (.div (.neg (.sub (.sub (.inp n!"S1udRR_2212") (.div (.inp n!"S8udduRR_2212") (.rat 4 1))) (.div (.inp n!"S8udRR_2212") (.mul (.rat 2 1) (.rat 3 1))))) (.rat 3 1)) (.div (.mul (.rat 4 1) (.neg (.conj (.inp n!"V8udduLR_2122")))) (.rat 3 1))) (.div (.add (.add (.div (.neg (.inp n!"S1udduRR_2212")) (.rat 2 1)) (.div (.inp n!"S8udduRR_2212") (.mul (.rat 4 1) (.rat 3 1)))) (.div (.inp n!"S8udRR_2212") (.rat 2 1))) (.mul (.rat 3 1) (.rat 3 1)))) (.div (.mul (.rat 4 1) (.add (.mul (.rat (-2) 1) (.conj (.inp n!"V1udduLR_2122"))) (.div (.conj (.inp n!"V8udduLR_2122")) (.rat 3 1)))) (.mul (.rat 3 1) (.rat 3 1)))))),
  (n!"3psbsb", (.mul (.div (.div (.sqrt (.rat 2 1)) (.par n!"GF")) (.rat 4 1)) (.div (.inp n!"S8ddRR_2323") (.rat 2 1)))),
  (n!"nu1sbtaumu", (.mul (.div (.div (.sqrt (.rat 2 1)) (.par n!"GF")) (.rat 4 1)) (.conj (.inp n!"VnudLL_2332")))),
  (n!"nu1pdbetau", (.mul (.div (.div (.sqrt (.rat 2 1)) (.par n!"GF")) (.rat 4 1)) (.inp n!"VnudLR_1313"))),
  (n!"3dscc", (.mul (.div (.div (.sqrt (.rat 2 1)) (.par n!"GF")) (.rat 4 1)) (.sub (.add (.sub (.div (.sub (.inp n!"V1udLL_2212") (.div (.inp n!"V8udLL_2212") (.mul (.rat 2 1) (.rat 3 1)))) (.rat 12 1)) (.div (.sub (.inp n!"V1duLR_1222") (.div (.inp n!"V8duLR_1222") (.mul (.rat 2 1) (.rat 3 1)))) (.rat 12 1))) (.div (.div (.inp n!"V8udLL_2212") (.rat 2 1)) (.mul (.rat 12 1) (.rat 3 1)))) (.div (.div (.inp n!"V8duLR_1222") (.rat 2 1)) (.mul (.rat 12 1) (.rat 3 1)))))),
  (n!"10dbcu", (.mul (.div (.div (.sqrt (.rat 2 1)) (.par n!"GF")) (.rat 4 1)) (.sub (.div (.add (.add (.div (.neg (.inp n!"S1udduRR_2311")) (.rat 2 1)) (.div (.inp n!"S8udduRR_2311") (.mul (.rat 4 1) (.rat 3 1)))) (.div (.inp n!"S8udRR_2113") (.rat 2 1))) (.rat 24 1)) (.div (.add (.mul (.rat (-2) 1) (.conj (.inp n!"V1udduLR_1132"))) (.div (.conj (.inp n!"V8udduLR_1132")) (.rat 3 1))) (.rat 24 1))))),
  (n!"1dbemu", (.mul (.div (.div (.sqrt (.rat 2 1)) (.par n!"GF")) (.rat 4 1)) (.add (.div (.mul (.rat 5 1) (.sub (.div (.inp n!"VdeLR_1312") (.rat 2 1)) (.div (.inp n!"VedLL_1213") (.rat 2 1)))) (.rat 3 1)) (.add (.div (.inp n!"VdeLR_1312") (.rat 2 1)) (.div (.inp n!"VedLL_1213") (.rat 2 1)))))),
  (n!"1pdsemu", (.mul (.div (.div (.sqrt (.rat 2 1)) (.par n!"GF")) (.rat 4 1)) (.sub (.add (.div (.inp n!"VedLR_1212") (.rat 2 1)) (.div (.inp n!"VedRR_1212") (.rat 2 1))) (.div (.mul (.rat 5 1) (.add (.div (.neg (.inp n!"VedLR_1212")) (.rat 2 1)) (.div (.inp n!"VedRR_1212") (.rat 2 1)))) (.rat 3 1))))),
  (n!"5csetau", (.mul (.div (.div (.sqrt (.rat 2 1)) (.par n!"GF")) (.rat 4 1)) (.conj (.inp n!"SnueduRL_3122")))),
  (n!"3pdsmumu", (.mul (.div (.div (.sqrt (.rat 2 1)) (.par n!"GF")) (.rat 4 1)) (.div (.add (.div (.neg (.inp n!"VedLR_2212")) (.rat 2 1)) (.div (.inp n!"VedRR_2212") (.rat 2 1))) (.rat 6 1)))),
  (n!"5psbtaumu", (.mul (.div (.div (.sqrt (.rat 2 1)) (.par n!"GF")) (.rat 4 1)) (.add (.div (.mul (.rat 5 1) (.sub (.div (.inp n!"SedRL_3223") (.rat 2 1)) (.div (.conj (.inp n!"SedRR_2332")) (.rat 2 1)))) (.rat 3 1)) (.add (.div (.inp n!"SedRL_3223") (.rat 2 1)) (.div (.conj (.inp n!"SedRR_2332")) (.rat 2 1)))))),
  (n!"7pcdtaue", (.mul (.div (.div (.sqrt (.rat 2 1)) (.par n!"GF")) (.rat 4 1)) (.conj (.inp n!"TnueduRR_1312")))),
  (n!"9dbds", (.mul (.div (.div (.sqrt (.rat 2 1)) (.par n!"GF")) (.rat 4 1)) (.sub (.div (.sub (.sub (.conj (.inp n!"S1ddRR_2131")) (.div (.conj (.inp n!"S8ddRR_2131")) (.rat 4 1))) (.div (.div (.conj (.inp n!"S8ddRR_2131")) (.rat 2 1)) (.rat 3 1))) (.rat 48 1)) (.div (.neg (.inp n!"V8ddLR_1312")) (.rat 48 1))))),
  (n!"1dscc", (.mul (.div (.div (.sqrt (.rat 2 1)) (.par n!"GF")) (.rat 4 1)) (.add (.sub (.add (.div (.neg (.sub (.inp n!"V1udLL_2212") (.div (.inp n!"V8udLL_2212") (.mul (.rat 2 1) (.rat 3 1))))) (.rat 3 1)) (.div (.mul (.rat 4 1) (.sub (.inp n!"V1duLR_1222") (.div (.inp n!"V8duLR_1222") (.mul (.rat 2 1) (.rat 3 1))))) (.rat 3 1))) (.div (.div (.inp n!"V8udLL_2212") (.rat 2 1)) (.mul (.rat 3 1) (.rat 3 1)))) (.div (.mul (.rat 4 1) (.div (.inp n!"V8duLR_1222") (.rat 2 1))) (.mul (.rat 3 1) (.rat 3 1)))))),
  (n!"10pdsbb", (.mul (.div (.div (.sqrt (.rat 2 1)) (.par n!"GF")) (.rat 4 1)) (.sub (.div (.add (.add (.div (.neg (.conj (.inp n!"S1ddRR_2331"))) (.rat 2 1)) (.div (.div (.conj (.inp n!"S8ddRR_2331")) (.rat 4 1)) (.rat 3 1))) (.div (.conj (.inp n!"S8ddRR_2133")) (.rat 2 1))) (.rat 24 1)) (.div (.add (.mul (.rat (-2) 1) (.conj (.inp n!"V1ddLR_2331"))) (.div (.conj (.inp n!"V8ddLR_2331")) (.rat 3 1))) (.rat 24 1))))),
  (n!"9dsuu", (.mul (.div (.div (.sqrt (.rat 2 1)) (.par n!"GF")) (.rat 4 1)) (.sub (.add (.sub (.div (.sub (.sub (.inp n!"S1udRR_1112") (.div (.inp n!"S8udduRR_1211") (.rat 4 1))) (.div (.inp n!"S8udRR_1112") (.mul (.rat 2 1) (.rat 3 1)))) (.rat 48 1)) (.div (.neg (.conj (.inp n!"V8udduLR_1121"))) (.rat 48 1))) (.div (.add (.add (.div (.neg (.inp n!"S1udduRR_1211")) (.rat 2 1)) (.div (.inp n!"S8udduRR_1211") (.mul (.rat 4 1) (.rat 3 1)))) (.div (.inp n!"S8udRR_1112") (.rat 2 1))) (.mul (.rat 48 1) (.rat 3 1)))) (.div (.add (.mul (.rat (-2) 1) (.conj (.inp n!"V1udduLR_1121"))) (.div (.conj (.inp n!"V8udduLR_1121")) (.rat 3 1))) (.mul (.rat 48 1) (.rat 3 1)))))),
  (n!"9pdsuc", (.mul (.div (.div (.sqrt (.rat 2 1)) (.par n!"GF")) (.rat 4 1)) (.sub (.add (.sub (.div (.sub (.sub (.conj (.inp n!"S1udRR_2121")) (.div (.conj (.inp n!"S8udduRR_2121")) (.rat 4 1))) (.div (.conj (.inp n!"S8udRR_2121")) (.mul (.rat 2 1) (.rat 3 1)))) (.rat 48 1)) (.div (.neg (.inp n!"V8udduLR_1212")) (.rat 48 1))) (.div (.add (.add (.div (.neg (.conj (.inp n!"S1udduRR_2121"))) (.rat 2 1)) (.div (.conj (.inp n!"S8udduRR_2121")) (.mul (.rat 4 1) (.rat 3 1)))) (.div (.conj (.inp n!"S8udRR_2121")) (.rat 2 1))) (.mul (.rat 48 1) (.rat 3 1)))) (.div (.add (.mul (.rat (-2) 1) (.inp n!"V1udduLR_1212")) (.div (.inp n!"V8udduLR_1212") (.rat 3 1))) (.mul (.rat 48 1) (.rat 3 1)))))),
  (n!"7pcbtaue", (.mul (.div (.div (.sqrt (.rat 2 1)) (.par n!"GF")) (.rat 4 1)) (.conj (.inp n!"TnueduRR_1332")))),
  (n!"7pusmue", (.mul (.div (.div (.sqrt (.rat 2 1)) (.par n!"GF")) (.rat 4 1)) (.conj (.inp n!"TnueduRR_1221")))),
  (n!"7dbds", (.mul (.div (.div (.sqrt (.rat 2 1)) (.par n!"GF")) (.rat 4 1)) (.add (.sub (.div (.sub (.sub (.conj (.inp n!"S1ddRR_2131")) (.div (.conj (.inp n!"S8ddRR_2131")) (.rat 4 1))) (.div (.div (.conj (.inp n!"S8ddRR_2131")) (.rat 2 1)) (.rat 3 1))) (.rat 3 1)) (.div (.neg (.inp n!"V8ddLR_1312")) (.rat 3 1))) (.div (.neg (.conj (.inp n!"S8ddRR_2131"))) (.rat 16 1))))),
  (n!"nu1dbmumu", (.mul (.div (.div (.sqrt (.rat 2 1)) (.par n!"GF")) (.rat 4 1)) (.inp n!"VnudLL_2213"))),
  (n!"5pcsetau", (.mul (.div (.div (.sqrt (.rat 2 1)) (.par n!"GF")) (.rat 4 1)) (.conj (.inp n!"SnueduRR_3122")))),
  (n!"4dbdb", (.mul (.div (.div (.sqrt (.rat 2 1)) (.par n!"GF")) (.rat 4 1)) (.neg (.inp n!"V8ddLR_1313")))),
  (n!"7dsuu", (.mul (.div (.div (.sqrt (.rat 2 1)) (.par n!"GF")) (.rat 4 1)) (.sub (.add (.add (.add (.sub (.div (.sub (.sub (.inp n!"S1udRR_1112") (.div (.inp n!"S8udduRR_1211") (.rat 4 1))) (.div (.inp n!"S8udRR_1112") (.mul (.rat 2 1) (.rat 3 1)))) (.rat 3 1)) (.div (.neg (.conj (.inp n!"V8udduLR_1121"))) (.rat 3 1))) (.div (.neg (.inp n!"S8udduRR_1211")) (.rat 16 1))) (.div (.add (.div (.neg (.inp n!"S1udduRR_1211")) (.rat 8 1)) (.div (.inp n!"S8udduRR_1211") (.mul (.rat 16 1) (.rat 3 1)))) (.rat 3 1))) (.div (.add (.add (.div (.neg (.inp n!"S1udduRR_1211")) (.rat 2 1)) (.div (.inp n!"S8udduRR_1211") (.mul (.rat 4 1) (.rat 3 1)))) (.div (.inp n!"S8udRR_1112") (.rat 2 1))) (.mul (.rat 3 1) (.rat 3 1)))) (.div (.add (.mul (.rat (-2) 1) (.conj (.inp n!"V1udduLR_1121"))) (.div (.conj (.inp n!"V8udduLR_1121")) (.rat 3 1))) (.mul (.rat 3 1) (.rat 3 1)))))),
  (n!"2pdbuu", (.mul (.div (.div (.sqrt (.rat 2 1)) (.par n!"GF")) (.rat 4 1)) (.add (.div (.mul (.rat (-2) 1) (.div (.inp n!"V8udRR_1113") (.rat 2 1))) (.rat 3 1)) (.div (.mul (.rat 8 1) (.div (.inp n!"V8udLR_1113") (.rat 2 1))) (.rat 3 1))))),
  (n!"5dbds", (.mul (.div (.div (.sqrt (.rat 2 1)) (.par n!"GF")) (.rat 4 1)) (.add (.div (.neg (.sub (.sub (.conj (.inp n!"S1ddRR_2131")) (.div (.conj (.inp n!"S8ddRR_2131")) (.rat 4 1))) (.div (.div (.conj (.inp n!"S8ddRR_2131")) (.rat 2 1)) (.rat 3 1)))) (.rat 3 1)) (.div (.mul (.rat 4 1) (.neg (.inp n!"V8ddLR_1312"))) (.rat 3 1))))),
  (n!"9sbmumu", (.mul (.div (.div (.sqrt (.rat 2 1)) (.par n!"GF")) (.rat 4 1)) (.div (.add (.div (.neg (.conj (.inp n!"SedRL_2232"))) (.rat 2 1)) (.div (.inp n!"SedRR_2223") (.rat 2 1))) (.rat 24 1)))),
  (n!"2dbdb", (.mul (.div (.div (.sqrt (.rat 2 1)) (.par n!"GF")) (.rat 4 1)) (.sub (.conj (.inp n!"S1ddRR_3131")) (.div (.conj (.inp n!"S8ddRR_3131")) (.mul (.rat 2 1) (.rat 3 1)))))),
  (n!"9psbemu", (.mul (.div (.div (.sqrt (.rat 2 1)) (.par n!"GF")) (.rat 4 1)) (.div (.neg (.sub (.div (.inp n!"SedRL_1223") (.rat 2 1)) (.div (.conj (.inp n!"SedRR_2132")) (.rat 2 1)))) (.rat 24 1)))),
  (n!"1cdtautau", (.mul (.div (.div (.sqrt (.rat 2 1)) (.par n!"GF")) (.rat 4 1)) (.conj (.inp n!"VnueduLL_3312")))),
  (n!"9psbcu", (.mul (.div (.div (.sqrt (.rat 2 1)) (.par n!"GF")) (.rat 4 1)) (.sub (.add (.sub (.div (.sub (.sub (.conj (.inp n!"S1udRR_1232")) (.div (.conj (.inp n!"S8udduRR_1232")) (.rat 4 1))) (.div (.conj (.inp n!"S8udRR_1232")) (.mul (.rat 2 1) (.rat 3 1)))) (.rat 48 1)) (.div (.neg (.inp n!"V8udduLR_2321")) (.rat 48 1))) (.div (.add (.add (.div (.neg (.conj (.inp n!"S1udduRR_1232"))) (.rat 2 1)) (.div (.conj (.inp n!"S8udduRR_1232")) (.mul (.rat 4 1) (.rat 3 1)))) (.div (.conj (.inp n!"S8udRR_1232")) (.rat 2 1))) (.mul (.rat 48 1) (.rat 3 1)))) (.div (.add (.mul (.rat (-2) 1) (.inp n!"V1udduLR_2321")) (.div (.inp n!"V8udduLR_2321") (.rat 3 1))) (.mul (.rat 48 1) (.rat 3 1)))))),
  (n!"5dsuu", (.mul (.div (.div (.sqrt (.rat 2 1)) (.par n!"GF")) (.rat 4 1)) (.add (.sub (.add (.div (.neg (.sub (.sub (.inp n!"S1udRR_1112") (.div (.inp n!"S8udduRR_1211") (.rat 4 1))) (.div (.inp n!"S8udRR_1112") (.mul (.rat 2 1) (.rat 3 1))))) (.rat 3 1)) (.div (.mul (.rat 4 1) (.neg (.conj (.inp n!"V8udduLR_1121")))) (.rat 3 1))) (.div (.add (.add (.div (.neg (.inp n!"S1udduRR_1211")) (.rat 2 1)) (.div (.inp n!"S8udduRR_1211") (.mul (.rat 4 1) (.rat 3 1)))) (.div (.inp n!"S8udRR_1112") (.rat 2 1))) (.mul (.rat 3 1) (.rat 3 1)))) (.div (.mul (.rat 4 1) (.add (.mul (.rat (-2) 1) (.conj (.inp n!"V1udduLR_1121"))) (.div (.conj (.inp n!"V8udduLR_1121")) (.rat 3 1)))) (.mul (.rat 3 1) (.rat 3 1)))))),
  (n!"7sbtaumu", (.mul (.div (.div (.sqrt (.rat 2 1)) (.par n!"GF")) (.rat 4 1)) (.add (.add (.div (.mul (.rat 2 1) (.add (.div (.neg (.conj (.inp n!"SedRL_2332"))) (.rat 2 1)) (.div (.inp n!"SedRR_3223") (.rat 2 1)))) (.rat 3 1)) (.add (.div (.inp n!"TedRR_3223") (.rat 2 1)) (.div (.conj (.inp n!"TedRR_2332")) (.rat 2 1)))) (.sub (.div (.inp n!"TedRR_3223") (.rat 2 1)) (.div (.conj (.inp n!"TedRR_2332")) (.rat 2 1)))))),
  (n!"7pdbetau", (.mul (.div (.div (.sqrt (.rat 2 1)) (.par n!"GF")) (.rat 4 1)) (.sub (.add (.div (.mul (.rat (-2) 1) (.sub (.div (.inp n!"SedRL_1313") (.rat 2 1)) (.div (.conj (.inp n!"SedRR_3131")) (.rat 2 1)))) (.rat 3 1)) (.add (.div (.inp n!"TedRR_1313") (.rat 2 1)) (.div (.conj (.inp n!"TedRR_3131")) (.rat 2 1)))) (.sub (.div (.inp n!"TedRR_1313") (.rat 2 1)) (.div (.conj (.inp n!"TedRR_3131")) (.rat 2 1))))))]

def JMS_to_Bern_10 : List (ℕ × Sym) := [
  (n!"3dbds", (.mul (.div (.div (.sqrt (.rat 2 1)) (.par n!"GF")) (.rat 4 1)) (.sub (.div (.inp n!"VddLL_1213") (.rat 12 1)) (.div (.sub (.inp n!"V1ddLR_1312") (.div (.inp n!"V8ddLR_1312") (.mul (.rat 2 1) (.rat 3 1)))) (.rat 12 1))))),
  (n!"6psbcc", (.mul (.div (.div (.sqrt (.rat 2 1)) (.par n!"GF")) (.rat 4 1)) (.add (.div (.mul (.rat (-2) 1) (.add (.add (.div (.neg (.conj (.inp n!"S1udduRR_2232"))) (.rat 2 1)) (.div (.conj (.inp n!"S8udduRR_2232")) (.mul (.rat 4 1) (.rat 3 1)))) (.div (.conj (.inp n!"S8udRR_2232")) (.rat 2 1)))) (.rat 3 1)) (.div (.mul (.rat 8 1) (.add (.mul (.rat (-2) 1) (.inp n!"V1udduLR_2322")) (.div (.inp n!"V8udduLR_2322") (.rat 3 1)))) (.rat 3 1))))),
  (n!"9dbcu", (.mul (.div (.div (.sqrt (.rat 2 1)) (.par n!"GF")) (.rat 4 1)) (.sub (.add (.sub (.div (.sub (.sub (.inp n!"S1udRR_2113") (.div (.inp n!"S8udduRR_2311") (.rat 4 1))) (.div (.inp n!"S8udRR_2113") (.mul (.rat 2 1) (.rat 3 1)))) (.rat 48 1)) (.div (.neg (.conj (.inp n!"V8udduLR_1132"))) (.rat 48 1))) (.div (.add (.add (.div (.neg (.inp n!"S1udduRR_2311")) (.rat 2 1)) (.div (.inp n!"S8udduRR_2311") (.mul (.rat 4 1) (.rat 3 1)))) (.div (.inp n!"S8udRR_2113") (.rat 2 1))) (.mul (.rat 48 1) (.rat 3 1)))) (.div (.add (.mul (.rat (-2) 1) (.conj (.inp n!"V1udduLR_1132"))) (.div (.conj (.inp n!"V8udduLR_1132")) (.rat 3 1))) (.mul (.rat 48 1) (.rat 3 1)))))),
  (n!"1pcdtaumu", (.mul (.div (.div (.sqrt (.rat 2 1)) (.par n!"GF")) (.rat 4 1)) (.conj (.inp n!"VnueduLR_2312")))),
  (n!"3dsuu", (.mul (.div (.div (.sqrt (.rat 2 1)) (.par n!"GF")) (.rat 4 1)) (.sub (.add (.sub (.div (.sub (.inp n!"V1udLL_1112") (.div (.inp n!"V8udLL_1112") (.mul (.rat 2 1) (.rat 3 1)))) (.rat 12 1)) (.div (.sub (.inp n!"V1duLR_1211") (.div (.inp n!"V8duLR_1211") (.mul (.rat 2 1) (.rat 3 1)))) (.rat 12 1))) (.div (.div (.inp n!"V8udLL_1112") (.rat 2 1)) (.mul (.rat 12 1) (.rat 3 1)))) (.div (.div (.inp n!"V8duLR_1211") (.rat 2 1)) (.mul (.rat 12 1) (.rat 3 1)))))),
  (n!"9pdbcc", (.mul (.div (.div (.sqrt (.rat 2 1)) (.par n!"GF")) (.rat 4 1)) (.sub (.add (.sub (.div (.sub (.sub (.conj (.inp n!"S1udRR_2231")) (.div (.conj (.inp n!"S8udduRR_2132")) (.rat 4 1))) (.div (.conj (.inp n!"S8udRR_2231")) (.mul (.rat 2 1) (.rat 3 1)))) (.rat 48 1)) (.div (.neg (.inp n!"V8udduLR_2312")) (.rat 48 1))) (.div (.add (.add (.div (.neg (.conj (.inp n!"S1udduRR_2132"))) (.rat 2 1)) (.div (.conj (.inp n!"S8udduRR_2132")) (.mul (.rat 4 1) (.rat 3 1)))) (.div (.conj (.inp n!"S8udRR_2231")) (.rat 2 1))) (.mul (.rat 48 1) (.rat 3 1)))) (.div (.add (.mul (.rat (-2) 1) (.inp n!"V1udduLR_2312")) (.div (.inp n!"V8udduLR_2312") (.rat 3 1))) (.mul (.rat 48 1) (.rat 3 1)))))),
  (n!"nu1psbmue", (.mul (.div (.div (.sqrt (.rat 2 1)) (.par n!"GF")) (.rat 4 1)) (.conj (.inp n!"VnudLR_1232")))),
  (n!"5pdbbb", (.mul (.div (.div (.sqrt (.rat 2 1)) (.par n!"GF")) (.rat 4 1)) (.add (.div (.neg (.sub (.sub (.conj (.inp n!"S1ddRR_3133")) (.div (.conj (.inp n!"S8ddRR_3133")) (.rat 4 1))) (.div (.div (.conj (.inp n!"S8ddRR_3133")) (.rat 2 1)) (.rat 3 1)))) (.rat 3 1)) (.div (.mul (.rat 4 1) (.neg (.inp n!"V8ddLR_3313"))) (.rat 3 1))))),
  (n!"1dbds", (.mul (.div (.div (.sqrt (.rat 2 1)) (.par n!"GF")) (.rat 4 1)) (.add (.div (.neg (.inp n!"VddLL_1213")) (.rat 3 1)) (.div (.mul (.rat 4 1) (.sub (.inp n!"V1ddLR_1312") (.div (.inp n!"V8ddLR_1312") (.mul (.rat 2 1) (.rat 3 1))))) (.rat 3 1))))),
  (n!"5cbmutau", (.mul (.div (.div (.sqrt (.rat 2 1)) (.par n!"GF")) (.rat 4 1)) (.conj (.inp n!"SnueduRL_3232")))),
  (n!"7dbcu", (.mul (.div (.div (.sqrt (.rat 2 1)) (.par n!"GF")) (.rat 4 1)) (.sub (.add (.add (.add (.sub (.div (.sub (.sub (.inp n!"S1udRR_2113") (.div (.inp n!"S8udduRR_2311") (.rat 4 1))) (.div (.inp n!"S8udRR_2113") (.mul (.rat 2 1) (.rat 3 1)))) (.rat 3 1)) (.div (.neg (.conj (.inp n!"V8udduLR_1132"))) (.rat 3 1))) (.div (.neg (.inp n!"S8udduRR_2311")) (.rat 16 1))) (.div (.add (.div (.neg (.inp n!"S1udduRR_2311")) (.rat 8 1)) (.div (.inp n!"S8udduRR_2311") (.mul (.rat 16 1) (.rat 3 1)))) (.rat 3 1))) (.div (.add (.add (.div (.neg (.inp n!"S1udduRR_2311")) (.rat 2 1)) (.div (.inp n!"S8udduRR_2311") (.mul (.rat 4 1) (.rat 3 1)))) (.div (.inp n!"S8udRR_2113") (.rat 2 1))) (.mul (.rat 3 1) (.rat 3 1)))) (.div (.add (.mul (.rat (-2) 1) (.conj (.inp n!"V1udduLR_1132"))) (.div (.conj (.inp n!"V8udduLR_1132")) (.rat 3 1))) (.mul (.rat 3 1) (.rat 3 1)))))),
  (n!"1dsuu", (.mul (.div (.div (.sqrt (.rat 2 1)) (.par n!"GF")) (.rat 4 1)) (.add (.sub (.add (.div (.neg (.sub (.inp n!"V1udLL_1112") (.div (.inp n!"V8udLL_1112") (.mul (.rat 2 1) (.rat 3 1))))) (.rat 3 1)) (.div (.mul (.rat 4 1) (.sub (.inp n!"V1duLR_1211") (.div (.inp n!"V8duLR_1211") (.mul (.rat 2 1) (.rat 3 1))))) (.rat 3 1))) (.div (.div (.inp n!"V8udLL_1112") (.rat 2 1)) (.mul (.rat 3 1) (.rat 3 1)))) (.div (.mul (.rat 4 1) (.div (.inp n!"V8duLR_1211") (.rat 2 1))) (.mul (.rat 3 1) (.rat 3 1)))))),
  (n!"3pdsee", (.mul (.div (.div (.sqrt (.rat 2 1)) (.par n!"GF")) (.rat 4 1)) (.div (.add (.div (.neg (.inp n!"VedLR_1112")) (.rat 2 1)) (.div (.inp n!"VedRR_1112") (.rat 2 1))) (.rat 6 1)))),
  (n!"9sbtautau", (.mul (.div (.div (.sqrt (.rat 2 1)) (.par n!"GF")) (.rat 4 1)) (.div (.add (.div (.neg (.conj (.inp n!"SedRL_3332"))) (.rat 2 1)) (.div (.inp n!"SedRR_3323") (.rat 2 1))) (.rat 24 1)))),
  (n!"7pcsmutau", (.mul (.div (.div (.sqrt (.rat 2 1)) (.par n!"GF")) (.rat 4 1)) (.conj (.inp n!"TnueduRR_3222")))),
  (n!"5dbcu", (.mul (.div (.div (.sqrt (.rat 2 1)) (.par n!"GF")) (.rat 4 1)) (.add (.sub (.add (.div (.neg (.sub (.sub (.inp n!"S1udRR_2113") (.div (.inp n!"S8udduRR_2311") (.rat 4 1))) (.div (.inp n!"S8udRR_2113") (.mul (.rat 2 1) (.rat 3 1))))) (.rat 3 1)) (.div (.mul (.rat 4 1) (.neg (.conj (.inp n!"V8udduLR_1132")))) (.rat 3 1))) (.div (.add (.add (.div (.neg (.inp n!"S1udduRR_2311")) (.rat 2 1)) (.div (.inp n!"S8udduRR_2311") (.mul (.rat 4 1) (.rat 3 1)))) (.div (.inp n!"S8udRR_2113") (.rat 2 1))) (.mul (.rat 3 1) (.rat 3 1)))) (.div (.mul (.rat 4 1) (.add (.mul (.rat (-2) 1) (.conj (.inp n!"V1udduLR_1132"))) (.div (.conj (.inp n!"V8udduLR_1132")) (.rat 3 1)))) (.mul (.rat 3 1) (.rat 3 1)))))),
  (n!"3psbmutau", (.mul (.div (.div (.sqrt (.rat 2 1)) (.par n!"GF")) (.rat 4 1)) (.div (.add (.div (.neg (.inp n!"VedLR_2323")) (.rat 2 1)) (.div (.inp n!"VedRR_2323") (.rat 2 1))) (.rat 6 1)))),
  (n!"3dbtautau", (.mul (.div (.div (.sqrt (.rat 2 1)) (.par n!"GF")) (.rat 4 1)) (.div (.neg (.sub (.div (.inp n!"VdeLR_1333") (.rat 2 1)) (.div (.inp n!"VedLL_3313") (.rat 2 1)))) (.rat 6 1)))),
  (n!"5cstaumu", (.mul (.div (.div (.sqrt (.rat 2 1)) (.par n!"GF")) (.rat 4 1)) (.conj (.inp n!"SnueduRL_2322")))),
  (n!"3sbemu", (.mul (.div (.div (.sqrt (.rat 2 1)) (.par n!"GF")) (.rat 4 1)) (.div (.neg (.sub (.div (.inp n!"VdeLR_2312") (.rat 2 1)) (.div (.inp n!"VedLL_1223") (.rat 2 1)))) (.rat 6 1)))),
  (n!"3dbcu", (.mul (.div (.div (.sqrt (.rat 2 1)) (.par n!"GF")) (.rat 4 1)) (.sub (.add (.sub (.div (.sub (.conj (.inp n!"V1udLL_1231")) (.div (.conj (.inp n!"V8udLL_1231")) (.mul (.rat 2 1) (.rat 3 1)))) (.rat 12 1)) (.div (.sub (.inp n!"V1duLR_1321") (.div (.inp n!"V8duLR_1321") (.mul (.rat 2 1) (.rat 3 1)))) (.rat 12 1))) (.div (.div (.conj (.inp n!"V8udLL_1231")) (.rat 2 1)) (.mul (.rat 12 1) (.rat 3 1)))) (.div (.div (.inp n!"V8duLR_1321") (.rat 2 1)) (.mul (.rat 12 1) (.rat 3 1)))))),
  (n!"5pusmue", (.mul (.div (.div (.sqrt (.rat 2 1)) (.par n!"GF")) (.rat 4 1)) (.conj (.inp n!"SnueduRR_1221")))),
  (n!"3psbetau", (.mul (.div (.div (.sqrt (.rat 2 1)) (.par n!"GF")) (.rat 4 1)) (.div (.add (.div (.neg (.inp n!"VedLR_1323")) (.rat 2 1)) (.div (.inp n!"VedRR_1323") (.rat 2 1))) (.rat 6 1)))),
  (n!"7pubemu", (.mul (.div (.div (.sqrt (.rat 2 1)) (.par n!"GF")) (.rat 4 1)) (.conj (.inp n!"TnueduRR_2131")))),
  (n!"1dbcu", (.mul (.div (.div (.sqrt (.rat 2 1)) (.par n!"GF")) (.rat 4 1)) (.add (.sub (.add (.div (.neg (.sub (.conj (.inp n!"V1udLL_1231")) (.div (.conj (.inp n!"V8udLL_1231")) (.mul (.rat 2 1) (.rat 3 1))))) (.rat 3 1)) (.div (.mul (.rat 4 1) (.sub (.inp n!"V1duLR_1321") (.div (.inp n!"V8duLR_1321") (.mul (.rat 2 1) (.rat 3 1))))) (.rat 3 1))) (.div (.div (.conj (.inp n!"V8udLL_1231")) (.rat 2 1)) (.mul (.rat 3 1) (.rat 3 1)))) (.div (.mul (.rat 4 1) (.div (.inp n!"V8duLR_1321") (.rat 2 1))) (.mul (.rat 3 1) (.rat 3 1)))))),
  (n!"6psbuu", (.mul (.div (.div (.sqrt (.rat 2 1)) (.par n!"GF")) (.rat 4 1)) (.add (.div (.mul (.rat (-2) 1) (.add (.add (.div (.neg (.conj (.inp n!"S1udduRR_1231"))) (.rat 2 1)) (.div (.conj (.inp n!"S8udduRR_1231")) (.mul (.rat 4 1) (.rat 3 1)))) (.div (.conj (.inp n!"S8udRR_1132")) (.rat 2 1)))) (.rat 3 1)) (.div (.mul (.rat 8 1) (.add (.mul (.rat (-2) 1) (.inp n!"V1udduLR_1321")) (.div (.inp n!"V8udduLR_1321") (.rat 3 1)))) (.rat 3 1))))),
  (n!"7sbmumu", (.mul (.div (.div (.sqrt (.rat 2 1)) (.par n!"GF")) (.rat 4 1)) (.add (.add (.div (.mul (.rat 2 1) (.add (.div (.neg (.conj (.inp n!"SedRL_2232"))) (.rat 2 1)) (.div (.inp n!"SedRR_2223") (.rat 2 1)))) (.rat 3 1)) (.add (.div (.inp n!"TedRR_2223") (.rat 2 1)) (.div (.conj (.inp n!"TedRR_2232")) (.rat 2 1)))) (.sub (.div (.inp n!"TedRR_2223") (.rat 2 1)) (.div (.conj (.inp n!"TedRR_2232")) (.rat 2 1)))))),
  (n!"7psbemu", (.mul (.div (.div (.sqrt (.rat 2 1)) (.par n!"GF")) (.rat 4 1)) (.sub (.add (.div (.mul (.rat (-2) 1) (.sub (.div (.inp n!"SedRL_1223") (.rat 2 1)) (.div (.conj (.inp n!"SedRR_2132")) (.rat 2 1)))) (.rat 3 1)) (.add (.div (.inp n!"TedRR_1223") (.rat 2 1)) (.div (.conj (.inp n!"TedRR_2132")) (.rat 2 1)))) (.sub (.div (.inp n!"TedRR_1223") (.rat 2 1)) (.div (.conj (.inp n!"TedRR_2132")) (.rat 2 1)))))),
  (n!"1cbtautau", (.mul (.div (.div (.sqrt (.rat 2 1)) (.par n!"GF")) (.rat 4 1)) (.conj (.inp n!"VnueduLL_3332")))),
  (n!"1pusmutau", (.mul (.div (.div (.sqrt (.rat 2 1)) (.par n!"GF")) (.rat 4 1)) (.conj (.inp n!"VnueduLR_3221")))),
  (n!"3psbuc", (.mul (.div (.div (.sqrt (.rat 2 1)) (.par n!"GF")) (.rat 4 1)) (.sub (.add (.sub (.div (.sub (.inp n!"V1udRR_1223") (.div (.inp n!"V8udRR_1223") (.mul (.rat 2 1) (.rat 3 1)))) (.rat 12 1)) (.div (.sub (.inp n!"V1udLR_1223") (.div (.inp n!"V8udLR_1223") (.mul (.rat 2 1) (.rat 3 1)))) (.rat 12 1))) (.div (.div (.inp n!"V8udRR_1223") (.rat 2 1)) (.mul (.rat 12 1) (.rat 3 1)))) (.div (.div (.inp n!"V8udLR_1223") (.rat 2 1)) (.mul (.rat 12 1) (.rat 3 1)))))),
  (n!"9pdbuu", (.mul (.div (.div (.sqrt (.rat 2 1)) (.par n!"GF")) (.rat 4 1)) (.sub (.add (.sub (.div (.sub (.sub (.conj (.inp n!"S1udRR_1131")) (.div (.conj (.inp n!"S8udduRR_1131")) (.rat 4 1))) (.div (.conj (.inp n!"S8udRR_1131")) (.mul (.rat 2 1) (.rat 3 1)))) (.rat 48 1)) (.div (.neg (.inp n!"V8udduLR_1311")) (.rat 48 1))) (.div (.add (.add (.div (.neg (.conj (.inp n!"S1udduRR_1131"))) (.rat 2 1)) (.div (.conj (.inp n!"S8udduRR_1131")) (.mul (.rat 4 1) (.rat 3 1)))) (.div (.conj (.inp n!"S8udRR_1131")) (.rat 2 1))) (.mul (.rat 48 1) (.rat 3 1)))) (.div (.add (.mul (.rat (-2) 1) (.inp n!"V1udduLR_1311")) (.div (.inp n!"V8udduLR_1311") (.rat 3 1))) (.mul (.rat 48 1) (.rat 3 1)))))),
  (n!"6pdbuc", (.mul (.div (.div (.sqrt (.rat 2 1)) (.par n!"GF")) (.rat 4 1)) (.add (.div (.mul (.rat (-2) 1) (.add (.add (.div (.neg (.conj (.inp n!"S1udduRR_2131"))) (.rat 2 1)) (.div (.conj (.inp n!"S8udduRR_2131")) (.mul (.rat 4 1) (.rat 3 1)))) (.div (.conj (.inp n!"S8udRR_2131")) (.rat 2 1)))) (.rat 3 1)) (.div (.mul (.rat 8 1) (.add (.mul (.rat (-2) 1) (.inp n!"V1udduLR_1312")) (.div (.inp n!"V8udduLR_1312") (.rat 3 1)))) (.rat 3 1))))),
  (n!"1pdbss", (.mul (.div (.div (.sqrt (.rat 2 1)) (.par n!"GF")) (.rat 4 1)) (.add (.sub (.add (.div (.neg (.inp n!"VddRR_1322")) (.rat 3 1)) (.div (.mul (.rat 4 1) (.sub (.inp n!"V1ddLR_2213") (.div (.inp n!"V8ddLR_2213") (.mul (.rat 2 1) (.rat 3 1))))) (.rat 3 1))) (.div (.inp n!"VddRR_1223") (.mul (.rat 3 1) (.rat 3 1)))) (.div (.mul (.rat 4 1) (.div (.inp n!"V8ddLR_2213") (.rat 2 1))) (.mul (.rat 3 1) (.rat 3 1)))))),
  (n!"7pcsmumu", (.mul (.div (.div (.sqrt (.rat 2 1)) (.par n!"GF")) (.rat 4 1)) (.conj (.inp n!"TnueduRR_2222")))),
  (n!"7pcstautau", (.mul (.div (.div (.sqrt (.rat 2 1)) (.par n!"GF")) (.rat 4 1)) (.conj (.inp n!"TnueduRR_3322")))),
  (n!"1udtaumu", (.mul (.div (.div (.sqrt (.rat 2 1)) (.par n!"GF")) (.rat 4 1)) (.conj (.inp n!"VnueduLL_2311")))),
  (n!"9dbtaue", (.mul (.div (.div (.sqrt (.rat 2 1)) (.par n!"GF")) (.rat 4 1)) (.div (.add (.div (.neg (.conj (.inp n!"SedRL_1331"))) (.rat 2 1)) (.div (.inp n!"SedRR_3113") (.rat 2 1))) (.rat 24 1)))),
  (n!"9psbbb", (.mul (.div (.div (.sqrt (.rat 2 1)) (.par n!"GF")) (.rat 4 1)) (.sub (.div (.sub (.sub (.conj (.inp n!"S1ddRR_3233")) (.div (.conj (.inp n!"S8ddRR_3233")) (.rat 4 1))) (.div (.div (.conj (.inp n!"S8ddRR_3233")) (.rat 2 1)) (.rat 3 1))) (.rat 48 1)) (.div (.neg (.inp n!"V8ddLR_3323")) (.rat 48 1))))),
  (n!"7pcsmue", (.mul (.div (.div (.sqrt (.rat 2 1)) (.par n!"GF")) (.rat 4 1)) (.conj (.inp n!"TnueduRR_1222")))),
  (n!"nu1pdsee", (.mul (.div (.div (.sqrt (.rat 2 1)) (.par n!"GF")) (.rat 4 1)) (.inp n!"VnudLR_1112"))),
  (n!"5udtaue", (.mul (.div (.div (.sqrt (.rat 2 1)) (.par n!"GF")) (.rat 4 1)) (.conj (.inp n!"SnueduRL_1311")))),
  (n!"7pgammasb", (.mul (.div (.div (.sqrt (.rat 2 1)) (.par n!"GF")) (.rat 4 1)) (.mul (.div (.div (.mul (.sqrt (.mul (.mul (.rat 4 1) .pi) (.par n!"alpha_s"))) (.sqrt (.mul (.mul (.rat 4 1) .pi) (.par n!"alpha_s")))) (.sqrt (.mul (.mul (.rat 4 1) .pi) (.par n!"alpha_e")))) (.par n!"m_b")) (.conj (.inp n!"dgamma_32"))))),
  (n!"1csetau", (.mul (.div (.div (.sqrt (.rat 2 1)) (.par n!"GF")) (.rat 4 1)) (.conj (.inp n!"VnueduLL_3122")))),
  (n!"7dsemu", (.mul (.div (.div (.sqrt (.rat 2 1)) (.par n!"GF")) (.rat 4 1)) (.add (.add (.div (.mul (.rat 2 1) (.add (.div (.neg (.conj (.inp n!"SedRL_2121"))) (.rat 2 1)) (.div (.inp n!"SedRR_1212") (.rat 2 1)))) (.rat 3 1)) (.add (.div (.inp n!"TedRR_1212") (.rat 2 1)) (.div (.conj (.inp n!"TedRR_2121")) (.rat 2 1)))) (.sub (.div (.inp n!"TedRR_1212") (.rat 2 1)) (.div (.conj (.inp n!"TedRR_2121")) (.rat 2 1)))))),
  (n!"9pdbmumu", (.mul (.div (.div (.sqrt (.rat 2 1)) (.par n!"GF")) (.rat 4 1)) (.div (.neg (.sub (.div (.inp n!"SedRL_2213") (.rat 2 1)) (.div (.conj (.inp n!"SedRR_2231")) (.rat 2 1)))) (.rat 24 1)))),
  (n!"9dbbb", (.mul (.div (.div (.sqrt (.rat 2 1)) (.par n!"GF")) (.rat 4 1)) (.sub (.div (.sub (.sub (.inp n!"S1ddRR_1333") (.div (.inp n!"S8ddRR_1333") (.rat 4 1))) (.div (.inp n!"S8ddRR_1333") (.mul (.rat 2 1) (.rat 3 1)))) (.rat 48 1)) (.div (.neg (.inp n!"V8ddLR_1333")) (.rat 48 1))))),
  (n!"5udemu", (.mul (.div (.div (.sqrt (.rat 2 1)) (.par n!"GF")) (.rat 4 1)) (.conj (.inp n!"SnueduRL_2111")))),
  (n!"5ubtaue", (.mul (.div (.div (.sqrt (.rat 2 1)) (.par n!"GF")) (.rat 4 1)) (.conj (.inp n!"SnueduRL_1331")))),
  (n!"nu1sbemu", (.mul (.div (.div (.sqrt (.rat 2 1)) (.par n!"GF")) (.rat 4 1)) (.inp n!"VnudLL_1223")))]

def JMS_to_Bern_11 : List (ℕ × Sym) := [
  (n!"5pdscu", (.mul (.div (.div (.sqrt (.rat 2 1)) (.par n!"GF")) (.rat 4 1)) (.add (.sub (.add (.div (.neg (.sub (.sub (.conj (.inp n!"S1udRR_1221")) (.div (.conj (.inp n!"S8udduRR_1122")) (.rat 4 1))) (.div (.conj (.inp n!"S8udRR_1221")) (.mul (.rat 2 1) (.rat 3 1))))) (.rat 3 1)) (.div (.mul (.rat 4 1) (.neg (.inp n!"V8udduLR_2211"))) (.rat 3 1))) (.div (.add (.add (.div (.neg (.conj (.inp n!"S1udduRR_1122"))) (.rat 2 1)) (.div (.conj (.inp n!"S8udduRR_1122")) (.mul (.rat 4 1) (.rat 3 1)))) (.div (.conj (.inp n!"S8udRR_1221")) (.rat 2 1))) (.mul (.rat 3 1) (.rat 3 1)))) (.div (.mul (.rat 4 1) (.add (.mul (.rat (-2) 1) (.inp n!"V1udduLR_2211")) (.div (.inp n!"V8udduLR_2211") (.rat 3 1)))) (.mul (.rat 3 1) (.rat 3 1)))))),
  (n!"5pudtaue", (.mul (.div (.div (.sqrt (.rat 2 1)) (.par n!"GF")) (.rat 4 1)) (.conj (.inp n!"SnueduRR_1311")))),
  (n!"7dbbb", (.mul (.div (.div (.sqrt (.rat 2 1)) (.par n!"GF")) (.rat 4 1)) (.add (.sub (.div (.sub (.sub (.inp n!"S1ddRR_1333") (.div (.inp n!"S8ddRR_1333") (.rat 4 1))) (.div (.inp n!"S8ddRR_1333") (.mul (.rat 2 1) (.rat 3 1)))) (.rat 3 1)) (.div (.neg (.inp n!"V8ddLR_1333")) (.rat 3 1))) (.div (.neg (.inp n!"S8ddRR_1333")) (.rat 16 1))))),
  (n!"2pdscc", (.mul (.div (.div (.sqrt (.rat 2 1)) (.par n!"GF")) (.rat 4 1)) (.add (.div (.mul (.rat (-2) 1) (.div (.inp n!"V8udRR_2212") (.rat 2 1))) (.rat 3 1)) (.div (.mul (.rat 8 1) (.div (.inp n!"V8udLR_2212") (.rat 2 1))) (.rat 3 1))))),
  (n!"8pgdb", (.mul (.div (.div (.sqrt (.rat 2 1)) (.par n!"GF")) (.rat 4 1)) (.mul (.div (.sqrt (.mul (.mul (.rat 4 1) .pi) (.par n!"alpha_s"))) (.par n!"m_b")) (.conj (.inp n!"dG_31"))))),
  (n!"5pubemu", (.mul (.div (.div (.sqrt (.rat 2 1)) (.par n!"GF")) (.rat 4 1)) (.conj (.inp n!"SnueduRR_2131")))),
  (n!"5pubtaue", (.mul (.div (.div (.sqrt (.rat 2 1)) (.par n!"GF")) (.rat 4 1)) (.conj (.inp n!"SnueduRR_1331")))),
  (n!"5dbbb", (.mul (.div (.div (.sqrt (.rat 2 1)) (.par n!"GF")) (.rat 4 1)) (.add (.div (.neg (.sub (.sub (.inp n!"S1ddRR_1333") (.div (.inp n!"S8ddRR_1333") (.rat 4 1))) (.div (.inp n!"S8ddRR_1333") (.mul (.rat 2 1) (.rat 3 1))))) (.rat 3 1)) (.div (.mul (.rat 4 1) (.neg (.inp n!"V8ddLR_1333"))) (.rat 3 1))))),
  (n!"5sbmumu", (.mul (.div (.div (.sqrt (.rat 2 1)) (.par n!"GF")) (.rat 4 1)) (.sub (.add (.div (.conj (.inp n!"SedRL_2232")) (.rat 2 1)) (.div (.inp n!"SedRR_2223") (.rat 2 1))) (.div (.mul (.rat 5 1) (.add (.div (.neg (.conj (.inp n!"SedRL_2232"))) (.rat 2 1)) (.div (.inp n!"SedRR_2223") (.rat 2 1)))) (.rat 3 1))))),
  (n!"5psbemu", (.mul (.div (.div (.sqrt (.rat 2 1)) (.par n!"GF")) (.rat 4 1)) (.add (.div (.mul (.rat 5 1) (.sub (.div (.inp n!"SedRL_1223") (.rat 2 1)) (.div (.conj (.inp n!"SedRR_2132")) (.rat 2 1)))) (.rat 3 1)) (.add (.div (.inp n!"SedRL_1223") (.rat 2 1)) (.div (.conj (.inp n!"SedRR_2132")) (.rat 2 1)))))),
  (n!"3dbbb", (.mul (.div (.div (.sqrt (.rat 2 1)) (.par n!"GF")) (.rat 4 1)) (.sub (.div (.inp n!"VddLL_1333") (.rat 12 1)) (.div (.sub (.inp n!"V1ddLR_1333") (.div (.inp n!"V8ddLR_1333") (.mul (.rat 2 1) (.rat 3 1)))) (.rat 12 1))))),
  (n!"1pcdmumu", (.mul (.div (.div (.sqrt (.rat 2 1)) (.par n!"GF")) (.rat 4 1)) (.conj (.inp n!"VnueduLR_2212")))),
  (n!"10dscu", (.mul (.div (.div (.sqrt (.rat 2 1)) (.par n!"GF")) (.rat 4 1)) (.sub (.div (.add (.add (.div (.neg (.inp n!"S1udduRR_2211")) (.rat 2 1)) (.div (.inp n!"S8udduRR_2211") (.mul (.rat 4 1) (.rat 3 1)))) (.div (.inp n!"S8udRR_2112") (.rat 2 1))) (.rat 24 1)) (.div (.add (.mul (.rat (-2) 1) (.conj (.inp n!"V1udduLR_1122"))) (.div (.conj (.inp n!"V8udduLR_1122")) (.rat 3 1))) (.rat 24 1))))),
  (n!"7dstautau", (.mul (.div (.div (.sqrt (.rat 2 1)) (.par n!"GF")) (.rat 4 1)) (.add (.add (.div (.mul (.rat 2 1) (.add (.div (.neg (.conj (.inp n!"SedRL_3321"))) (.rat 2 1)) (.div (.inp n!"SedRR_3312") (.rat 2 1)))) (.rat 3 1)) (.add (.div (.inp n!"TedRR_3312") (.rat 2 1)) (.div (.conj (.inp n!"TedRR_3321")) (.rat 2 1)))) (.sub (.div (.inp n!"TedRR_3312") (.rat 2 1)) (.div (.conj (.inp n!"TedRR_3321")) (.rat 2 1)))))),
  (n!"5psbmumu", (.mul (.div (.div (.sqrt (.rat 2 1)) (.par n!"GF")) (.rat 4 1)) (.add (.div (.mul (.rat 5 1) (.sub (.div (.inp n!"SedRL_2223") (.rat 2 1)) (.div (.conj (.inp n!"SedRR_2232")) (.rat 2 1)))) (.rat 3 1)) (.add (.div (.inp n!"SedRL_2223") (.rat 2 1)) (.div (.conj (.inp n!"SedRR_2232")) (.rat 2 1)))))),
  (n!"5psbss", (.mul (.div (.div (.sqrt (.rat 2 1)) (.par n!"GF")) (.rat 4 1)) (.add (.div (.neg (.sub (.sub (.inp n!"S1ddRR_2223") (.div (.inp n!"S8ddRR_2223") (.rat 4 1))) (.div (.inp n!"S8ddRR_2223") (.mul (.rat 2 1) (.rat 3 1))))) (.rat 3 1)) (.div (.mul (.rat 4 1) (.neg (.inp n!"V8ddLR_2223"))) (.rat 3 1))))),
  (n!"1dbbb", (.mul (.div (.div (.sqrt (.rat 2 1)) (.par n!"GF")) (.rat 4 1)) (.add (.div (.neg (.inp n!"VddLL_1333")) (.rat 3 1)) (.div (.mul (.rat 4 1) (.sub (.inp n!"V1ddLR_1333") (.div (.inp n!"V8ddLR_1333") (.mul (.rat 2 1) (.rat 3 1))))) (.rat 3 1))))),
  (n!"7pcbmutau", (.mul (.div (.div (.sqrt (.rat 2 1)) (.par n!"GF")) (.rat 4 1)) (.conj (.inp n!"TnueduRR_3232")))),
  (n!"1pcbmumu", (.mul (.div (.div (.sqrt (.rat 2 1)) (.par n!"GF")) (.rat 4 1)) (.conj (.inp n!"VnueduLR_2232")))),
  (n!"7dbtaue", (.mul (.div (.div (.sqrt (.rat 2 1)) (.par n!"GF")) (.rat 4 1)) (.add (.add (.div (.mul (.rat 2 1) (.add (.div (.neg (.conj (.inp n!"SedRL_1331"))) (.rat 2 1)) (.div (.inp n!"SedRR_3113") (.rat 2 1)))) (.rat 3 1)) (.add (.div (.inp n!"TedRR_3113") (.rat 2 1)) (.div (.conj (.inp n!"TedRR_1331")) (.rat 2 1)))) (.sub (.div (.inp n!"TedRR_3113") (.rat 2 1)) (.div (.conj (.inp n!"TedRR_1331")) (.rat 2 1)))))),
  (n!"8pdbss", (.mul (.div (.div (.sqrt (.rat 2 1)) (.par n!"GF")) (.rat 4 1)) (.sub (.add (.mul (.rat 2 1) (.add (.div (.neg (.conj (.inp n!"S1ddRR_2132"))) (.rat 8 1)) (.div (.div (.conj (.inp n!"S8ddRR_2132")) (.rat 16 1)) (.rat 3 1)))) (.div (.mul (.rat 2 1) (.add (.add (.div (.neg (.conj (.inp n!"S1ddRR_2132"))) (.rat 2 1)) (.div (.div (.conj (.inp n!"S8ddRR_2132")) (.rat 4 1)) (.rat 3 1))) (.div (.conj (.inp n!"S8ddRR_2231")) (.rat 2 1)))) (.rat 3 1))) (.div (.mul (.rat 2 1) (.add (.mul (.rat (-2) 1) (.inp n!"V1ddLR_2312")) (.div (.inp n!"V8ddLR_2312") (.rat 3 1)))) (.rat 3 1))))),
  (n!"5pcsmue", (.mul (.div (.div (.sqrt (.rat 2 1)) (.par n!"GF")) (.rat 4 1)) (.conj (.inp n!"SnueduRR_1222")))),
  (n!"7pcbemu", (.mul (.div (.div (.sqrt (.rat 2 1)) (.par n!"GF")) (.rat 4 1)) (.conj (.inp n!"TnueduRR_2132")))),
  (n!"5cbtaumu", (.mul (.div (.div (.sqrt (.rat 2 1)) (.par n!"GF")) (.rat 4 1)) (.conj (.inp n!"SnueduRL_2332")))),
  (n!"5cstautau", (.mul (.div (.div (.sqrt (.rat 2 1)) (.par n!"GF")) (.rat 4 1)) (.conj (.inp n!"SnueduRL_3322")))),
  (n!"2pdsuu", (.mul (.div (.div (.sqrt (.rat 2 1)) (.par n!"GF")) (.rat 4 1)) (.add (.div (.mul (.rat (-2) 1) (.div (.inp n!"V8udRR_1112") (.rat 2 1))) (.rat 3 1)) (.div (.mul (.rat 8 1) (.div (.inp n!"V8udLR_1112") (.rat 2 1))) (.rat 3 1))))),
  (n!"7pcstaumu", (.mul (.div (.div (.sqrt (.rat 2 1)) (.par n!"GF")) (.rat 4 1)) (.conj (.inp n!"TnueduRR_2322")))),
  (n!"5dsds", (.mul (.div (.div (.sqrt (.rat 2 1)) (.par n!"GF")) (.rat 4 1)) (.add (.mul (.rat (-2) 1) (.inp n!"V1ddLR_1212")) (.div (.inp n!"V8ddLR_1212") (.rat 3 1))))),
  (n!"3psbtaumu", (.mul (.div (.div (.sqrt (.rat 2 1)) (.par n!"GF")) (.rat 4 1)) (.div (.add (.div (.neg (.conj (.inp n!"VedLR_2332"))) (.rat 2 1)) (.div (.conj (.inp n!"VedRR_2332")) (.rat 2 1))) (.rat 6 1)))),
  (n!"1ubmue", (.mul (.div (.div (.sqrt (.rat 2 1)) (.par n!"GF")) (.rat 4 1)) (.conj (.inp n!"VnueduLL_1231")))),
  (n!"1pusmue", (.mul (.div (.div (.sqrt (.rat 2 1)) (.par n!"GF")) (.rat 4 1)) (.conj (.inp n!"VnueduLR_1221")))),
  (n!"1pubmutau", (.mul (.div (.div (.sqrt (.rat 2 1)) (.par n!"GF")) (.rat 4 1)) (.conj (.inp n!"VnueduLR_3231")))),
  (n!"3dsds", (.mul (.div (.div (.sqrt (.rat 2 1)) (.par n!"GF")) (.rat 4 1)) (.div (.conj (.inp n!"S8ddRR_2121")) (.rat 2 1)))),
  (n!"5pudtautau", (.mul (.div (.div (.sqrt (.rat 2 1)) (.par n!"GF")) (.rat 4 1)) (.conj (.inp n!"SnueduRR_3311")))),
  (n!"9dsmumu", (.mul (.div (.div (.sqrt (.rat 2 1)) (.par n!"GF")) (.rat 4 1)) (.div (.add (.div (.neg (.conj (.inp n!"SedRL_2221"))) (.rat 2 1)) (.div (.inp n!"SedRR_2212") (.rat 2 1))) (.rat 24 1)))),
  (n!"8sbdd", (.mul (.div (.div (.sqrt (.rat 2 1)) (.par n!"GF")) (.rat 4 1)) (.sub (.add (.mul (.rat 2 1) (.add (.div (.neg (.inp n!"S1ddRR_1321")) (.rat 8 1)) (.div (.inp n!"S8ddRR_1321") (.mul (.rat 16 1) (.rat 3 1))))) (.div (.mul (.rat 2 1) (.add (.add (.div (.neg (.inp n!"S1ddRR_1321")) (.rat 2 1)) (.div (.inp n!"S8ddRR_1321") (.mul (.rat 4 1) (.rat 3 1)))) (.div (.inp n!"S8ddRR_1123") (.rat 2 1)))) (.rat 3 1))) (.div (.mul (.rat 2 1) (.add (.mul (.rat (-2) 1) (.conj (.inp n!"V1ddLR_1231"))) (.div (.conj (.inp n!"V8ddLR_1231")) (.rat 3 1)))) (.rat 3 1))))),
  (n!"1sbmue", (.mul (.div (.div (.sqrt (.rat 2 1)) (.par n!"GF")) (.rat 4 1)) (.add (.div (.mul (.rat 5 1) (.sub (.div (.inp n!"VdeLR_2321") (.rat 2 1)) (.div (.conj (.inp n!"VedLL_1232")) (.rat 2 1)))) (.rat 3 1)) (.add (.div (.inp n!"VdeLR_2321") (.rat 2 1)) (.div (.conj (.inp n!"VedLL_1232")) (.rat 2 1)))))),
  (n!"9dscu", (.mul (.div (.div (.sqrt (.rat 2 1)) (.par n!"GF")) (.rat 4 1)) (.sub (.add (.sub (.div (.sub (.sub (.inp n!"S1udRR_2112") (.div (.inp n!"S8udduRR_2211") (.rat 4 1))) (.div (.inp n!"S8udRR_2112") (.mul (.rat 2 1) (.rat 3 1)))) (.rat 48 1)) (.div (.neg (.conj (.inp n!"V8udduLR_1122"))) (.rat 48 1))) (.div (.add (.add (.div (.neg (.inp n!"S1udduRR_2211")) (.rat 2 1)) (.div (.inp n!"S8udduRR_2211") (.mul (.rat 4 1) (.rat 3 1)))) (.div (.inp n!"S8udRR_2112") (.rat 2 1))) (.mul (.rat 48 1) (.rat 3 1)))) (.div (.add (.mul (.rat (-2) 1) (.conj (.inp n!"V1udduLR_1122"))) (.div (.conj (.inp n!"V8udduLR_1122")) (.rat 3 1))) (.mul (.rat 48 1) (.rat 3 1)))))),
  (n!"8gsb", (.mul (.div (.div (.sqrt (.rat 2 1)) (.par n!"GF")) (.rat 4 1)) (.mul (.div (.sqrt (.mul (.mul (.rat 4 1) .pi) (.par n!"alpha_s"))) (.par n!"m_b")) (.inp n!"dG_23")))),
  (n!"3sbmumu", (.mul (.div (.div (.sqrt (.rat 2 1)) (.par n!"GF")) (.rat 4 1)) (.div (.neg (.sub (.div (.inp n!"VdeLR_2322") (.rat 2 1)) (.div (.inp n!"VedLL_2223") (.rat 2 1)))) (.rat 6 1)))),
  (n!"9pdscc", (.mul (.div (.div (.sqrt (.rat 2 1)) (.par n!"GF")) (.rat 4 1)) (.sub (.add (.sub (.div (.sub (.sub (.conj (.inp n!"S1udRR_2221")) (.div (.conj (.inp n!"S8udduRR_2122")) (.rat 4 1))) (.div (.conj (.inp n!"S8udRR_2221")) (.mul (.rat 2 1) (.rat 3 1)))) (.rat 48 1)) (.div (.neg (.inp n!"V8udduLR_2212")) (.rat 48 1))) (.div (.add (.add (.div (.neg (.conj (.inp n!"S1udduRR_2122"))) (.rat 2 1)) (.div (.conj (.inp n!"S8udduRR_2122")) (.mul (.rat 4 1) (.rat 3 1)))) (.div (.conj (.inp n!"S8udRR_2221")) (.rat 2 1))) (.mul (.rat 48 1) (.rat 3 1)))) (.div (.add (.mul (.rat (-2) 1) (.inp n!"V1udduLR_2212")) (.div (.inp n!"V8udduLR_2212") (.rat 3 1))) (.mul (.rat 48 1) (.rat 3 1)))))),
  (n!"3psbemu", (.mul (.div (.div (.sqrt (.rat 2 1)) (.par n!"GF")) (.rat 4 1)) (.div (.add (.div (.neg (.inp n!"VedLR_1223")) (.rat 2 1)) (.div (.inp n!"VedRR_1223") (.rat 2 1))) (.rat 6 1)))),
  (n!"5pdsbb", (.mul (.div (.div (.sqrt (.rat 2 1)) (.par n!"GF")) (.rat 4 1)) (.add (.sub (.add (.div (.neg (.sub (.sub (.conj (.inp n!"S1ddRR_2133")) (.div (.conj (.inp n!"S8ddRR_2331")) (.rat 4 1))) (.div (.div (.conj (.inp n!"S8ddRR_2133")) (.rat 2 1)) (.rat 3 1)))) (.rat 3 1)) (.div (.mul (.rat 4 1) (.neg (.conj (.inp n!"V8ddLR_2331")))) (.rat 3 1))) (.div (.add (.add (.div (.neg (.conj (.inp n!"S1ddRR_2331"))) (.rat 2 1)) (.div (.div (.conj (.inp n!"S8ddRR_2331")) (.rat 4 1)) (.rat 3 1))) (.div (.conj (.inp n!"S8ddRR_2133")) (.rat 2 1))) (.mul (.rat 3 1) (.rat 3 1)))) (.div (.mul (.rat 4 1) (.add (.mul (.rat (-2) 1) (.conj (.inp n!"V1ddLR_2331"))) (.div (.conj (.inp n!"V8ddLR_2331")) (.rat 3 1)))) (.mul (.rat 3 1) (.rat 3 1)))))),
  (n!"1dsds", (.mul (.div (.div (.sqrt (.rat 2 1)) (.par n!"GF")) (.rat 4 1)) (.inp n!"VddLL_1212"))),
  (n!"6sbdd", (.mul (.div (.div (.sqrt (.rat 2 1)) (.par n!"GF")) (.rat 4 1)) (.add (.div (.mul (.rat (-2) 1) (.add (.add (.div (.neg (.inp n!"S1ddRR_1321")) (.rat 2 1)) (.div (.inp n!"S8ddRR_1321") (.mul (.rat 4 1) (.rat 3 1)))) (.div (.inp n!"S8ddRR_1123") (.rat 2 1)))) (.rat 3 1)) (.div (.mul (.rat 8 1) (.add (.mul (.rat (-2) 1) (.conj (.inp n!"V1ddLR_1231"))) (.div (.conj (.inp n!"V8ddLR_1231")) (.rat 3 1)))) (.rat 3 1))))),
  (n!"1pcdtautau", (.mul (.div (.div (.sqrt (.rat 2 1)) (.par n!"GF")) (.rat 4 1)) (.conj (.inp n!"VnueduLR_3312")))),
  (n!"5usmumu", (.mul (.div (.div (.sqrt (.rat 2 1)) (.par n!"GF")) (.rat 4 1)) (.conj (.inp n!"SnueduRL_2221")))),
  (n!"7dscu", (.mul (.div (.div (.sqrt (.rat 2 1)) (.par n!"GF")) (.rat 4 1)) (.sub (.add (.add (.add (.sub (.div (.sub (.sub (.inp n!"S1udRR_2112") (.div (.inp n!"S8udduRR_2211") (.rat 4 1))) (.div (.inp n!"S8udRR_2112") (.mul (.rat 2 1) (.rat 3 1)))) (.rat 3 1)) (.div (.neg (.conj (.inp n!"V8udduLR_1122"))) (.rat 3 1))) (.div (.neg (.inp n!"S8udduRR_2211")) (.rat 16 1))) (.div (.add (.div (.neg (.inp n!"S1udduRR_2211")) (.rat 8 1)) (.div (.inp n!"S8udduRR_2211") (.mul (.rat 16 1) (.rat 3 1)))) (.rat 3 1))) (.div (.add (.add (.div (.neg (.inp n!"S1udduRR_2211")) (.rat 2 1)) (.div (.inp n!"S8udduRR_2211") (.mul (.rat 4 1) (.rat 3 1)))) (.div (.inp n!"S8udRR_2112") (.rat 2 1))) (.mul (.rat 3 1) (.rat 3 1)))) (.div (.add (.mul (.rat (-2) 1) (.conj (.inp n!"V1udduLR_1122"))) (.div (.conj (.inp n!"V8udduLR_1122")) (.rat 3 1))) (.mul (.rat 3 1) (.rat 3 1)))))),
  (n!"7pdbee", (.mul (.div (.div (.sqrt (.rat 2 1)) (.par n!"GF")) (.rat 4 1)) (.sub (.add (.div (.mul (.rat (-2) 1) (.sub (.div (.inp n!"SedRL_1113") (.rat 2 1)) (.div (.conj (.inp n!"SedRR_1131")) (.rat 2 1)))) (.rat 3 1)) (.add (.div (.inp n!"TedRR_1113") (.rat 2 1)) (.div (.conj (.inp n!"TedRR_1131")) (.rat 2 1)))) (.sub (.div (.inp n!"TedRR_1113") (.rat 2 1)) (.div (.conj (.inp n!"TedRR_1131")) (.rat 2 1)))))),
  (n!"1pustaumu", (.mul (.div (.div (.sqrt (.rat 2 1)) (.par n!"GF")) (.rat 4 1)) (.conj (.inp n!"VnueduLR_2321"))))]

def JMS_to_Bern_12 : List (ℕ × Sym) := [
  (n!"2pdbcu", (.mul (.div (.div (.sqrt (.rat 2 1)) (.par n!"GF")) (.rat 4 1)) (.add (.div (.mul (.rat (-2) 1) (.div (.conj (.inp n!"V8udRR_1231")) (.rat 2 1))) (.rat 3 1)) (.div (.mul (.rat 8 1) (.div (.conj (.inp n!"V8udLR_1231")) (.rat 2 1))) (.rat 3 1))))),
  (n!"10pdbss", (.mul (.div (.div (.sqrt (.rat 2 1)) (.par n!"GF")) (.rat 4 1)) (.sub (.div (.add (.add (.div (.neg (.conj (.inp n!"S1ddRR_2132"))) (.rat 2 1)) (.div (.div (.conj (.inp n!"S8ddRR_2132")) (.rat 4 1)) (.rat 3 1))) (.div (.conj (.inp n!"S8ddRR_2231")) (.rat 2 1))) (.rat 24 1)) (.div (.add (.mul (.rat (-2) 1) (.inp n!"V1ddLR_2312")) (.div (.inp n!"V8ddLR_2312") (.rat 3 1))) (.rat 24 1))))),
  (n!"3pdbdd", (.mul (.div (.div (.sqrt (.rat 2 1)) (.par n!"GF")) (.rat 4 1)) (.sub (.div (.inp n!"VddRR_1113") (.rat 12 1)) (.div (.sub (.inp n!"V1ddLR_1113") (.div (.inp n!"V8ddLR_1113") (.mul (.rat 2 1) (.rat 3 1)))) (.rat 12 1))))),
  (n!"5cdemu", (.mul (.div (.div (.sqrt (.rat 2 1)) (.par n!"GF")) (.rat 4 1)) (.conj (.inp n!"SnueduRL_2112")))),
  (n!"1dsmutau", (.mul (.div (.div (.sqrt (.rat 2 1)) (.par n!"GF")) (.rat 4 1)) (.add (.div (.mul (.rat 5 1) (.sub (.div (.inp n!"VdeLR_1223") (.rat 2 1)) (.div (.inp n!"VedLL_2312") (.rat 2 1)))) (.rat 3 1)) (.add (.div (.inp n!"VdeLR_1223") (.rat 2 1)) (.div (.inp n!"VedLL_2312") (.rat 2 1)))))),
  (n!"4sbdd", (.mul (.div (.div (.sqrt (.rat 2 1)) (.par n!"GF")) (.rat 4 1)) (.sub (.div (.conj (.inp n!"VddLL_1231")) (.rat 6 1)) (.div (.div (.inp n!"V8ddLR_2311") (.rat 2 1)) (.rat 6 1))))),
  (n!"5dscu", (.mul (.div (.div (.sqrt (.rat 2 1)) (.par n!"GF")) (.rat 4 1)) (.add (.sub (.add (.div (.neg (.sub (.sub (.inp n!"S1udRR_2112") (.div (.inp n!"S8udduRR_2211") (.rat 4 1))) (.div (.inp n!"S8udRR_2112") (.mul (.rat 2 1) (.rat 3 1))))) (.rat 3 1)) (.div (.mul (.rat 4 1) (.neg (.conj (.inp n!"V8udduLR_1122")))) (.rat 3 1))) (.div (.add (.add (.div (.neg (.inp n!"S1udduRR_2211")) (.rat 2 1)) (.div (.inp n!"S8udduRR_2211") (.mul (.rat 4 1) (.rat 3 1)))) (.div (.inp n!"S8udRR_2112") (.rat 2 1))) (.mul (.rat 3 1) (.rat 3 1)))) (.div (.mul (.rat 4 1) (.add (.mul (.rat (-2) 1) (.conj (.inp n!"V1udduLR_1122"))) (.div (.conj (.inp n!"V8udduLR_1122")) (.rat 3 1)))) (.mul (.rat 3 1) (.rat 3 1)))))),
  (n!"5dbtaue", (.mul (.div (.div (.sqrt (.rat 2 1)) (.par n!"GF")) (.rat 4 1)) (.sub (.add (.div (.conj (.inp n!"SedRL_1331")) (.rat 2 1)) (.div (.inp n!"SedRR_3113") (.rat 2 1))) (.div (.mul (.rat 5 1) (.add (.div (.neg (.conj (.inp n!"SedRL_1331"))) (.rat 2 1)) (.div (.inp n!"SedRR_3113") (.rat 2 1)))) (.rat 3 1))))),
  (n!"5pusmumu", (.mul (.div (.div (.sqrt (.rat 2 1)) (.par n!"GF")) (.rat 4 1)) (.conj (.inp n!"SnueduRR_2221")))),
  (n!"2sbdd", (.mul (.div (.div (.sqrt (.rat 2 1)) (.par n!"GF")) (.rat 4 1)) (.add (.div (.mul (.rat (-2) 1) (.conj (.inp n!"VddLL_1231"))) (.rat 3 1)) (.div (.mul (.rat 8 1) (.div (.inp n!"V8ddLR_2311") (.rat 2 1))) (.rat 3 1))))),
  (n!"1udtaue", (.mul (.div (.div (.sqrt (.rat 2 1)) (.par n!"GF")) (.rat 4 1)) (.conj (.inp n!"VnueduLL_1311")))),
  (n!"5pcbemu", (.mul (.div (.div (.sqrt (.rat 2 1)) (.par n!"GF")) (.rat 4 1)) (.conj (.inp n!"SnueduRR_2132")))),
  (n!"10dsbb", (.mul (.div (.div (.sqrt (.rat 2 1)) (.par n!"GF")) (.rat 4 1)) (.sub (.div (.add (.add (.div (.neg (.inp n!"S1ddRR_1332")) (.rat 2 1)) (.div (.inp n!"S8ddRR_1332") (.mul (.rat 4 1) (.rat 3 1)))) (.div (.inp n!"S8ddRR_1233") (.rat 2 1))) (.rat 24 1)) (.div (.add (.mul (.rat (-2) 1) (.inp n!"V1ddLR_1332")) (.div (.inp n!"V8ddLR_1332") (.rat 3 1))) (.rat 24 1))))),
  (n!"3dscu", (.mul (.div (.div (.sqrt (.rat 2 1)) (.par n!"GF")) (.rat 4 1)) (.sub (.add (.sub (.div (.sub (.conj (.inp n!"V1udLL_1221")) (.div (.conj (.inp n!"V8udLL_1221")) (.mul (.rat 2 1) (.rat 3 1)))) (.rat 12 1)) (.div (.sub (.inp n!"V1duLR_1221") (.div (.inp n!"V8duLR_1221") (.mul (.rat 2 1) (.rat 3 1)))) (.rat 12 1))) (.div (.div (.conj (.inp n!"V8udLL_1221")) (.rat 2 1)) (.mul (.rat 12 1) (.rat 3 1)))) (.div (.div (.inp n!"V8duLR_1221") (.rat 2 1)) (.mul (.rat 12 1) (.rat 3 1)))))),
  (n!"9sbss", (.mul (.div (.div (.sqrt (.rat 2 1)) (.par n!"GF")) (.rat 4 1)) (.sub (.div (.sub (.sub (.conj (.inp n!"S1ddRR_2232")) (.div (.conj (.inp n!"S8ddRR_2232")) (.rat 4 1))) (.div (.div (.conj (.inp n!"S8ddRR_2232")) (.rat 2 1)) (.rat 3 1))) (.rat 48 1)) (.div (.neg (.inp n!"V8ddLR_2322")) (.rat 48 1))))),
  (n!"9pdbtautau", (.mul (.div (.div (.sqrt (.rat 2 1)) (.par n!"GF")) (.rat 4 1)) (.div (.neg (.sub (.div (.inp n!"SedRL_3313") (.rat 2 1)) (.div (.conj (.inp n!"SedRR_3331")) (.rat 2 1)))) (.rat 24 1)))),
  (n!"9sbmutau", (.mul (.div (.div (.sqrt (.rat 2 1)) (.par n!"GF")) (.rat 4 1)) (.div (.add (.div (.neg (.conj (.inp n!"SedRL_3232"))) (.rat 2 1)) (.div (.inp n!"SedRR_2323") (.rat 2 1))) (.rat 24 1)))),
  (n!"1ubtaue", (.mul (.div (.div (.sqrt (.rat 2 1)) (.par n!"GF")) (.rat 4 1)) (.conj (.inp n!"VnueduLL_1331")))),
  (n!"5pdbtaue", (.mul (.div (.div (.sqrt (.rat 2 1)) (.par n!"GF")) (.rat 4 1)) (.add (.div (.mul (.rat 5 1) (.sub (.div (.inp n!"SedRL_3113") (.rat 2 1)) (.div (.conj (.inp n!"SedRR_1331")) (.rat 2 1)))) (.rat 3 1)) (.add (.div (.inp n!"SedRL_3113") (.rat 2 1)) (.div (.conj (.inp n!"SedRR_1331")) (.rat 2 1)))))),
  (n!"1dscu", (.mul (.div (.div (.sqrt (.rat 2 1)) (.par n!"GF")) (.rat 4 1)) (.add (.sub (.add (.div (.neg (.sub (.conj (.inp n!"V1udLL_1221")) (.div (.conj (.inp n!"V8udLL_1221")) (.mul (.rat 2 1) (.rat 3 1))))) (.rat 3 1)) (.div (.mul (.rat 4 1) (.sub (.inp n!"V1duLR_1221") (.div (.inp n!"V8duLR_1221") (.mul (.rat 2 1) (.rat 3 1))))) (.rat 3 1))) (.div (.div (.conj (.inp n!"V8udLL_1221")) (.rat 2 1)) (.mul (.rat 3 1) (.rat 3 1)))) (.div (.mul (.rat 4 1) (.div (.inp n!"V8duLR_1221") (.rat 2 1))) (.mul (.rat 3 1) (.rat 3 1)))))),
  (n!"7sbss", (.mul (.div (.div (.sqrt (.rat 2 1)) (.par n!"GF")) (.rat 4 1)) (.add (.sub (.div (.sub (.sub (.conj (.inp n!"S1ddRR_2232")) (.div (.conj (.inp n!"S8ddRR_2232")) (.rat 4 1))) (.div (.div (.conj (.inp n!"S8ddRR_2232")) (.rat 2 1)) (.rat 3 1))) (.rat 3 1)) (.div (.neg (.inp n!"V8ddLR_2322")) (.rat 3 1))) (.div (.neg (.conj (.inp n!"S8ddRR_2232"))) (.rat 16 1))))),
  (n!"7sbtautau", (.mul (.div (.div (.sqrt (.rat 2 1)) (.par n!"GF")) (.rat 4 1)) (.add (.add (.div (.mul (.rat 2 1) (.add (.div (.neg (.conj (.inp n!"SedRL_3332"))) (.rat 2 1)) (.div (.inp n!"SedRR_3323") (.rat 2 1)))) (.rat 3 1)) (.add (.div (.inp n!"TedRR_3323") (.rat 2 1)) (.div (.conj (.inp n!"TedRR_3332")) (.rat 2 1)))) (.sub (.div (.inp n!"TedRR_3323") (.rat 2 1)) (.div (.conj (.inp n!"TedRR_3332")) (.rat 2 1)))))),
  (n!"3pdsetau", (.mul (.div (.div (.sqrt (.rat 2 1)) (.par n!"GF")) (.rat 4 1)) (.div (.add (.div (.neg (.inp n!"VedLR_1312")) (.rat 2 1)) (.div (.inp n!"VedRR_1312") (.rat 2 1))) (.rat 6 1)))),
  (n!"5pcsmutau", (.mul (.div (.div (.sqrt (.rat 2 1)) (.par n!"GF")) (.rat 4 1)) (.conj (.inp n!"SnueduRR_3222")))),
  (n!"9pdbds", (.mul (.div (.div (.sqrt (.rat 2 1)) (.par n!"GF")) (.rat 4 1)) (.sub (.div (.sub (.sub (.inp n!"S1ddRR_1213") (.div (.inp n!"S8ddRR_1213") (.rat 4 1))) (.div (.inp n!"S8ddRR_1213") (.mul (.rat 2 1) (.rat 3 1)))) (.rat 48 1)) (.div (.neg (.inp n!"V8ddLR_1213")) (.rat 48 1))))),
  (n!"5dsmue", (.mul (.div (.div (.sqrt (.rat 2 1)) (.par n!"GF")) (.rat 4 1)) (.sub (.add (.div (.conj (.inp n!"SedRL_1221")) (.rat 2 1)) (.div (.inp n!"SedRR_2112") (.rat 2 1))) (.div (.mul (.rat 5 1) (.add (.div (.neg (.conj (.inp n!"SedRL_1221"))) (.rat 2 1)) (.div (.inp n!"SedRR_2112") (.rat 2 1)))) (.rat 3 1))))),
  (n!"4sbsb", (.mul (.div (.div (.sqrt (.rat 2 1)) (.par n!"GF")) (.rat 4 1)) (.neg (.inp n!"V8ddLR_2323")))),
  (n!"1pcucu", (.mul (.div (.div (.sqrt (.rat 2 1)) (.par n!"GF")) (.rat 4 1)) (.conj (.inp n!"VuuRR_1212")))),
  (n!"1psbmutau", (.mul (.div (.div (.sqrt (.rat 2 1)) (.par n!"GF")) (.rat 4 1)) (.sub (.add (.div (.inp n!"VedLR_2323") (.rat 2 1)) (.div (.inp n!"VedRR_2323") (.rat 2 1))) (.div (.mul (.rat 5 1) (.add (.div (.neg (.inp n!"VedLR_2323")) (.rat 2 1)) (.div (.inp n!"VedRR_2323") (.rat 2 1)))) (.rat 3 1))))),
  (n!"9pdsuu", (.mul (.div (.div (.sqrt (.rat 2 1)) (.par n!"GF")) (.rat 4 1)) (.sub (.add (.sub (.div (.sub (.sub (.conj (.inp n!"S1udRR_1121")) (.div (.conj (.inp n!"S8udduRR_1121")) (.rat 4 1))) (.div (.conj (.inp n!"S8udRR_1121")) (.mul (.rat 2 1) (.rat 3 1)))) (.rat 48 1)) (.div (.neg (.inp n!"V8udduLR_1211")) (.rat 48 1))) (.div (.add (.add (.div (.neg (.conj (.inp n!"S1udduRR_1121"))) (.rat 2 1)) (.div (.conj (.inp n!"S8udduRR_1121")) (.mul (.rat 4 1) (.rat 3 1)))) (.div (.conj (.inp n!"S8udRR_1121")) (.rat 2 1))) (.mul (.rat 48 1) (.rat 3 1)))) (.div (.add (.mul (.rat (-2) 1) (.inp n!"V1udduLR_1211")) (.div (.inp n!"V8udduLR_1211") (.rat 3 1))) (.mul (.rat 48 1) (.rat 3 1)))))),
  (n!"1dbtautau", (.mul (.div (.div (.sqrt (.rat 2 1)) (.par n!"GF")) (.rat 4 1)) (.add (.div (.mul (.rat 5 1) (.sub (.div (.inp n!"VdeLR_1333") (.rat 2 1)) (.div (.inp n!"VedLL_3313") (.rat 2 1)))) (.rat 3 1)) (.add (.div (.inp n!"VdeLR_1333") (.rat 2 1)) (.div (.inp n!"VedLL_3313") (.rat 2 1)))))),
  (n!"1pubemu", (.mul (.div (.div (.sqrt (.rat 2 1)) (.par n!"GF")) (.rat 4 1)) (.conj (.inp n!"VnueduLR_2131")))),
  (n!"5pubtautau", (.mul (.div (.div (.sqrt (.rat 2 1)) (.par n!"GF")) (.rat 4 1)) (.conj (.inp n!"SnueduRR_3331")))),
  (n!"5sbss", (.mul (.div (.div (.sqrt (.rat 2 1)) (.par n!"GF")) (.rat 4 1)) (.add (.div (.neg (.sub (.sub (.conj (.inp n!"S1ddRR_2232")) (.div (.conj (.inp n!"S8ddRR_2232")) (.rat 4 1))) (.div (.div (.conj (.inp n!"S8ddRR_2232")) (.rat 2 1)) (.rat 3 1)))) (.rat 3 1)) (.div (.mul (.rat 4 1) (.neg (.inp n!"V8ddLR_2322"))) (.rat 3 1))))),
  (n!"7dsmumu", (.mul (.div (.div (.sqrt (.rat 2 1)) (.par n!"GF")) (.rat 4 1)) (.add (.add (.div (.mul (.rat 2 1) (.add (.div (.neg (.conj (.inp n!"SedRL_2221"))) (.rat 2 1)) (.div (.inp n!"SedRR_2212") (.rat 2 1)))) (.rat 3 1)) (.add (.div (.inp n!"TedRR_2212") (.rat 2 1)) (.div (.conj (.inp n!"TedRR_2221")) (.rat 2 1)))) (.sub (.div (.inp n!"TedRR_2212") (.rat 2 1)) (.div (.conj (.inp n!"TedRR_2221")) (.rat 2 1)))))),
  (n!"6pdsuc", (.mul (.div (.div (.sqrt (.rat 2 1)) (.par n!"GF")) (.rat 4 1)) (.add (.div (.mul (.rat (-2) 1) (.add (.add (.div (.neg (.conj (.inp n!"S1udduRR_2121"))) (.rat 2 1)) (.div (.conj (.inp n!"S8udduRR_2121")) (.mul (.rat 4 1) (.rat 3 1)))) (.div (.conj (.inp n!"S8udRR_2121")) (.rat 2 1)))) (.rat 3 1)) (.div (.mul (.rat 8 1) (.add (.mul (.rat (-2) 1) (.inp n!"V1udduLR_1212")) (.div (.inp n!"V8udduLR_1212") (.rat 3 1)))) (.rat 3 1))))),
  (n!"1pdsss", (.mul (.div (.div (.sqrt (.rat 2 1)) (.par n!"GF")) (.rat 4 1)) (.add (.div (.neg (.inp n!"VddRR_1222")) (.rat 3 1)) (.div (.mul (.rat 4 1) (.sub (.inp n!"V1ddLR_2212") (.div (.inp n!"V8ddLR_2212") (.mul (.rat 2 1) (.rat 3 1))))) (.rat 3 1))))),
  (n!"2sbsb", (.mul (.div (.div (.sqrt (.rat 2 1)) (.par n!"GF")) (.rat 4 1)) (.sub (.conj (.inp n!"S1ddRR_3232")) (.div (.conj (.inp n!"S8ddRR_3232")) (.mul (.rat 2 1) (.rat 3 1)))))),
  (n!"nu1dbetau", (.mul (.div (.div (.sqrt (.rat 2 1)) (.par n!"GF")) (.rat 4 1)) (.inp n!"VnudLL_1313"))),
  (n!"1sbmumu", (.mul (.div (.div (.sqrt (.rat 2 1)) (.par n!"GF")) (.rat 4 1)) (.add (.div (.mul (.rat 5 1) (.sub (.div (.inp n!"VdeLR_2322") (.rat 2 1)) (.div (.inp n!"VedLL_2223") (.rat 2 1)))) (.rat 3 1)) (.add (.div (.inp n!"VdeLR_2322") (.rat 2 1)) (.div (.inp n!"VedLL_2223") (.rat 2 1)))))),
  (n!"1psbemu", (.mul (.div (.div (.sqrt (.rat 2 1)) (.par n!"GF")) (.rat 4 1)) (.sub (.add (.div (.inp n!"VedLR_1223") (.rat 2 1)) (.div (.inp n!"VedRR_1223") (.rat 2 1))) (.div (.mul (.rat 5 1) (.add (.div (.neg (.inp n!"VedLR_1223")) (.rat 2 1)) (.div (.inp n!"VedRR_1223") (.rat 2 1)))) (.rat 3 1))))),
  (n!"3sbss", (.mul (.div (.div (.sqrt (.rat 2 1)) (.par n!"GF")) (.rat 4 1)) (.sub (.div (.inp n!"VddLL_2223") (.rat 12 1)) (.div (.sub (.inp n!"V1ddLR_2322") (.div (.inp n!"V8ddLR_2322") (.mul (.rat 2 1) (.rat 3 1)))) (.rat 12 1))))),
  (n!"7pudmue", (.mul (.div (.div (.sqrt (.rat 2 1)) (.par n!"GF")) (.rat 4 1)) (.conj (.inp n!"TnueduRR_1211")))),
  (n!"7pdstautau", (.mul (.div (.div (.sqrt (.rat 2 1)) (.par n!"GF")) (.rat 4 1)) (.sub (.add (.div (.mul (.rat (-2) 1) (.sub (.div (.inp n!"SedRL_3312") (.rat 2 1)) (.div (.conj (.inp n!"SedRR_3321")) (.rat 2 1)))) (.rat 3 1)) (.add (.div (.inp n!"TedRR_3312") (.rat 2 1)) (.div (.conj (.inp n!"TedRR_3321")) (.rat 2 1)))) (.sub (.div (.inp n!"TedRR_3312") (.rat 2 1)) (.div (.conj (.inp n!"TedRR_3321")) (.rat 2 1)))))),
  (n!"1pcbtautau", (.mul (.div (.div (.sqrt (.rat 2 1)) (.par n!"GF")) (.rat 4 1)) (.conj (.inp n!"VnueduLR_3332")))),
  (n!"9sbetau", (.mul (.div (.div (.sqrt (.rat 2 1)) (.par n!"GF")) (.rat 4 1)) (.div (.add (.div (.neg (.conj (.inp n!"SedRL_3132"))) (.rat 2 1)) (.div (.inp n!"SedRR_1323") (.rat 2 1))) (.rat 24 1)))),
  (n!"6psbcu", (.mul (.div (.div (.sqrt (.rat 2 1)) (.par n!"GF")) (.rat 4 1)) (.add (.div (.mul (.rat (-2) 1) (.add (.add (.div (.neg (.conj (.inp n!"S1udduRR_1232"))) (.rat 2 1)) (.div (.conj (.inp n!"S8udduRR_1232")) (.mul (.rat 4 1) (.rat 3 1)))) (.div (.conj (.inp n!"S8udRR_1232")) (.rat 2 1)))) (.rat 3 1)) (.div (.mul (.rat 8 1) (.add (.mul (.rat (-2) 1) (.inp n!"V1udduLR_2321")) (.div (.inp n!"V8udduLR_2321") (.rat 3 1)))) (.rat 3 1))))),
  (n!"1sbss", (.mul (.div (.div (.sqrt (.rat 2 1)) (.par n!"GF")) (.rat 4 1)) (.add (.div (.neg (.inp n!"VddLL_2223")) (.rat 3 1)) (.div (.mul (.rat 4 1) (.sub (.inp n!"V1ddLR_2322") (.div (.inp n!"V8ddLR_2322") (.mul (.rat 2 1) (.rat 3 1))))) (.rat 3 1))))),
  (n!"7psbdd", (.mul (.div (.div (.sqrt (.rat 2 1)) (.par n!"GF")) (.rat 4 1)) (.sub (.add (.add (.add (.sub (.div (.sub (.sub (.conj (.inp n!"S1ddRR_1132")) (.div (.conj (.inp n!"S8ddRR_1231")) (.rat 4 1))) (.div (.div (.conj (.inp n!"S8ddRR_1132")) (.rat 2 1)) (.rat 3 1))) (.rat 3 1)) (.div (.neg (.inp n!"V8ddLR_1321")) (.rat 3 1))) (.div (.neg (.conj (.inp n!"S8ddRR_1231"))) (.rat 16 1))) (.div (.add (.div (.neg (.conj (.inp n!"S1ddRR_1231"))) (.rat 8 1)) (.div (.div (.conj (.inp n!"S8ddRR_1231")) (.rat 16 1)) (.rat 3 1))) (.rat 3 1))) (.div (.add (.add (.div (.neg (.conj (.inp n!"S1ddRR_1231"))) (.rat 2 1)) (.div (.div (.conj (.inp n!"S8ddRR_1231")) (.rat 4 1)) (.rat 3 1))) (.div (.conj (.inp n!"S8ddRR_1132")) (.rat 2 1))) (.mul (.rat 3 1) (.rat 3 1)))) (.div (.add (.mul (.rat (-2) 1) (.inp n!"V1ddLR_1321")) (.div (.inp n!"V8ddLR_1321") (.rat 3 1))) (.mul (.rat 3 1) (.rat 3 1)))))),
  (n!"9dsbb", (.mul (.div (.div (.sqrt (.rat 2 1)) (.par n!"GF")) (.rat 4 1)) (.sub (.add (.sub (.div (.sub (.sub (.inp n!"S1ddRR_1233") (.div (.inp n!"S8ddRR_1332") (.rat 4 1))) (.div (.inp n!"S8ddRR_1233") (.mul (.rat 2 1) (.rat 3 1)))) (.rat 48 1)) (.div (.neg (.inp n!"V8ddLR_1332")) (.rat 48 1))) (.div (.add (.add (.div (.neg (.inp n!"S1ddRR_1332")) (.rat 2 1)) (.div (.inp n!"S8ddRR_1332") (.mul (.rat 4 1) (.rat 3 1)))) (.div (.inp n!"S8ddRR_1233") (.rat 2 1))) (.mul (.rat 48 1) (.rat 3 1)))) (.div (.add (.mul (.rat (-2) 1) (.inp n!"V1ddLR_1332")) (.div (.inp n!"V8ddLR_1332") (.rat 3 1))) (.mul (.rat 48 1) (.rat 3 1))))))]

def JMS_to_Bern_13 : List (ℕ × Sym) := [
  (n!"3psbcc", (.mul (.div (.div (.sqrt (.rat 2 1)) (.par n!"GF")) (.rat 4 1)) (.sub (.add (.sub (.div (.sub (.inp n!"V1udRR_2223") (.div (.inp n!"V8udRR_2223") (.mul (.rat 2 1) (.rat 3 1)))) (.rat 12 1)) (.div (.sub (.inp n!"V1udLR_2223") (.div (.inp n!"V8udLR_2223") (.mul (.rat 2 1) (.rat 3 1)))) (.rat 12 1))) (.div (.div (.inp n!"V8udRR_2223") (.rat 2 1)) (.mul (.rat 12 1) (.rat 3 1)))) (.div (.div (.inp n!"V8udLR_2223") (.rat 2 1)) (.mul (.rat 12 1) (.rat 3 1)))))),
  (n!"9pdbcu", (.mul (.div (.div (.sqrt (.rat 2 1)) (.par n!"GF")) (.rat 4 1)) (.sub (.add (.sub (.div (.sub (.sub (.conj (.inp n!"S1udRR_1231")) (.div (.conj (.inp n!"S8udduRR_1132")) (.rat 4 1))) (.div (.conj (.inp n!"S8udRR_1231")) (.mul (.rat 2 1) (.rat 3 1)))) (.rat 48 1)) (.div (.neg (.inp n!"V8udduLR_2311")) (.rat 48 1))) (.div (.add (.add (.div (.neg (.conj (.inp n!"S1udduRR_1132"))) (.rat 2 1)) (.div (.conj (.inp n!"S8udduRR_1132")) (.mul (.rat 4 1) (.rat 3 1)))) (.div (.conj (.inp n!"S8udRR_1231")) (.rat 2 1))) (.mul (.rat 48 1) (.rat 3 1)))) (.div (.add (.mul (.rat (-2) 1) (.inp n!"V1udduLR_2311")) (.div (.inp n!"V8udduLR_2311") (.rat 3 1))) (.mul (.rat 48 1) (.rat 3 1)))))),
  (n!"1psbtaue", (.mul (.div (.div (.sqrt (.rat 2 1)) (.par n!"GF")) (.rat 4 1)) (.sub (.add (.div (.conj (.inp n!"VedLR_1332")) (.rat 2 1)) (.div (.conj (.inp n!"VedRR_1332")) (.rat 2 1))) (.div (.mul (.rat 5 1) (.add (.div (.neg (.conj (.inp n!"VedLR_1332"))) (.rat 2 1)) (.div (.conj (.inp n!"VedRR_1332")) (.rat 2 1)))) (.rat 3 1))))),
  (n!"3dbtaue", (.mul (.div (.div (.sqrt (.rat 2 1)) (.par n!"GF")) (.rat 4 1)) (.div (.neg (.sub (.div (.inp n!"VdeLR_1331") (.rat 2 1)) (.div (.conj (.inp n!"VedLL_1331")) (.rat 2 1)))) (.rat 6 1)))),
  (n!"1cbmue", (.mul (.div (.div (.sqrt (.rat 2 1)) (.par n!"GF")) (.rat 4 1)) (.conj (.inp n!"VnueduLL_1232")))),
  (n!"1pcsmue", (.mul (.div (.div (.sqrt (.rat 2 1)) (.par n!"GF")) (.rat 4 1)) (.conj (.inp n!"VnueduLR_1222")))),
  (n!"7pcbtaumu", (.mul (.div (.div (.sqrt (.rat 2 1)) (.par n!"GF")) (.rat 4 1)) (.conj (.inp n!"TnueduRR_2332")))),
  (n!"6pdbcc", (.mul (.div (.div (.sqrt (.rat 2 1)) (.par n!"GF")) (.rat 4 1)) (.add (.div (.mul (.rat (-2) 1) (.add (.add (.div (.neg (.conj (.inp n!"S1udduRR_2132"))) (.rat 2 1)) (.div (.conj (.inp n!"S8udduRR_2132")) (.mul (.rat 4 1) (.rat 3 1)))) (.div (.conj (.inp n!"S8udRR_2231")) (.rat 2 1)))) (.rat 3 1)) (.div (.mul (.rat 8 1) (.add (.mul (.rat (-2) 1) (.inp n!"V1udduLR_2312")) (.div (.inp n!"V8udduLR_2312") (.rat 3 1)))) (.rat 3 1))))),
  (n!"7dsbb", (.mul (.div (.div (.sqrt (.rat 2 1)) (.par n!"GF")) (.rat 4 1)) (.sub (.add (.add (.add (.sub (.div (.sub (.sub (.inp n!"S1ddRR_1233") (.div (.inp n!"S8ddRR_1332") (.rat 4 1))) (.div (.inp n!"S8ddRR_1233") (.mul (.rat 2 1) (.rat 3 1)))) (.rat 3 1)) (.div (.neg (.inp n!"V8ddLR_1332")) (.rat 3 1))) (.div (.neg (.inp n!"S8ddRR_1332")) (.rat 16 1))) (.div (.add (.div (.neg (.inp n!"S1ddRR_1332")) (.rat 8 1)) (.div (.inp n!"S8ddRR_1332") (.mul (.rat 16 1) (.rat 3 1)))) (.rat 3 1))) (.div (.add (.add (.div (.neg (.inp n!"S1ddRR_1332")) (.rat 2 1)) (.div (.inp n!"S8ddRR_1332") (.mul (.rat 4 1) (.rat 3 1)))) (.div (.inp n!"S8ddRR_1233") (.rat 2 1))) (.mul (.rat 3 1) (.rat 3 1)))) (.div (.add (.mul (.rat (-2) 1) (.inp n!"V1ddLR_1332")) (.div (.inp n!"V8ddLR_1332") (.rat 3 1))) (.mul (.rat 3 1) (.rat 3 1)))))),
  (n!"5dsbb", (.mul (.div (.div (.sqrt (.rat 2 1)) (.par n!"GF")) (.rat 4 1)) (.add (.sub (.add (.div (.neg (.sub (.sub (.inp n!"S1ddRR_1233") (.div (.inp n!"S8ddRR_1332") (.rat 4 1))) (.div (.inp n!"S8ddRR_1233") (.mul (.rat 2 1) (.rat 3 1))))) (.rat 3 1)) (.div (.mul (.rat 4 1) (.neg (.inp n!"V8ddLR_1332"))) (.rat 3 1))) (.div (.add (.add (.div (.neg (.inp n!"S1ddRR_1332")) (.rat 2 1)) (.div (.inp n!"S8ddRR_1332") (.mul (.rat 4 1) (.rat 3 1)))) (.div (.inp n!"S8ddRR_1233") (.rat 2 1))) (.mul (.rat 3 1) (.rat 3 1)))) (.div (.mul (.rat 4 1) (.add (.mul (.rat (-2) 1) (.inp n!"V1ddLR_1332")) (.div (.inp n!"V8ddLR_1332") (.rat 3 1)))) (.mul (.rat 3 1) (.rat 3 1)))))),
  (n!"5dbemu", (.mul (.div (.div (.sqrt (.rat 2 1)) (.par n!"GF")) (.rat 4 1)) (.sub (.add (.div (.conj (.inp n!"SedRL_2131")) (.rat 2 1)) (.div (.inp n!"SedRR_1213") (.rat 2 1))) (.div (.mul (.rat 5 1) (.add (.div (.neg (.conj (.inp n!"SedRL_2131"))) (.rat 2 1)) (.div (.inp n!"SedRR_1213") (.rat 2 1)))) (.rat 3 1))))),
  (n!"3dsbb", (.mul (.div (.div (.sqrt (.rat 2 1)) (.par n!"GF")) (.rat 4 1)) (.sub (.add (.sub (.div (.inp n!"VddLL_1233") (.rat 12 1)) (.div (.sub (.inp n!"V1ddLR_1233") (.div (.inp n!"V8ddLR_1233") (.mul (.rat 2 1) (.rat 3 1)))) (.rat 12 1))) (.div (.inp n!"VddLL_1332") (.mul (.rat 12 1) (.rat 3 1)))) (.div (.div (.inp n!"V8ddLR_1233") (.rat 2 1)) (.mul (.rat 12 1) (.rat 3 1)))))),
  (n!"5dsmumu", (.mul (.div (.div (.sqrt (.rat 2 1)) (.par n!"GF")) (.rat 4 1)) (.sub (.add (.div (.conj (.inp n!"SedRL_2221")) (.rat 2 1)) (.div (.inp n!"SedRR_2212") (.rat 2 1))) (.div (.mul (.rat 5 1) (.add (.div (.neg (.conj (.inp n!"SedRL_2221"))) (.rat 2 1)) (.div (.inp n!"SedRR_2212") (.rat 2 1)))) (.rat 3 1))))),
  (n!"1pubtaumu", (.mul (.div (.div (.sqrt (.rat 2 1)) (.par n!"GF")) (.rat 4 1)) (.conj (.inp n!"VnueduLR_2331")))),
  (n!"nu1pdbtautau", (.mul (.div (.div (.sqrt (.rat 2 1)) (.par n!"GF")) (.rat 4 1)) (.inp n!"VnudLR_3313"))),
  (n!"1dsbb", (.mul (.div (.div (.sqrt (.rat 2 1)) (.par n!"GF")) (.rat 4 1)) (.add (.sub (.add (.div (.neg (.inp n!"VddLL_1233")) (.rat 3 1)) (.div (.mul (.rat 4 1) (.sub (.inp n!"V1ddLR_1233") (.div (.inp n!"V8ddLR_1233") (.mul (.rat 2 1) (.rat 3 1))))) (.rat 3 1))) (.div (.inp n!"VddLL_1332") (.mul (.rat 3 1) (.rat 3 1)))) (.div (.mul (.rat 4 1) (.div (.inp n!"V8ddLR_1233") (.rat 2 1))) (.mul (.rat 3 1) (.rat 3 1)))))),
  (n!"1dbmutau", (.mul (.div (.div (.sqrt (.rat 2 1)) (.par n!"GF")) (.rat 4 1)) (.add (.div (.mul (.rat 5 1) (.sub (.div (.inp n!"VdeLR_1323") (.rat 2 1)) (.div (.inp n!"VedLL_2313") (.rat 2 1)))) (.rat 3 1)) (.add (.div (.inp n!"VdeLR_1323") (.rat 2 1)) (.div (.inp n!"VedLL_2313") (.rat 2 1)))))),
  (n!"5pudmue", (.mul (.div (.div (.sqrt (.rat 2 1)) (.par n!"GF")) (.rat 4 1)) (.conj (.inp n!"SnueduRR_1211")))),
  (n!"8sbuc", (.mul (.div (.div (.sqrt (.rat 2 1)) (.par n!"GF")) (.rat 4 1)) (.sub (.add (.mul (.rat 2 1) (.add (.div (.neg (.inp n!"S1udduRR_1322")) (.rat 8 1)) (.div (.inp n!"S8udduRR_1322") (.mul (.rat 16 1) (.rat 3 1))))) (.div (.mul (.rat 2 1) (.add (.add (.div (.neg (.inp n!"S1udduRR_1322")) (.rat 2 1)) (.div (.inp n!"S8udduRR_1322") (.mul (.rat 4 1) (.rat 3 1)))) (.div (.inp n!"S8udRR_1223") (.rat 2 1)))) (.rat 3 1))) (.div (.mul (.rat 2 1) (.add (.mul (.rat (-2) 1) (.conj (.inp n!"V1udduLR_2231"))) (.div (.conj (.inp n!"V8udduLR_2231")) (.rat 3 1)))) (.rat 3 1))))),
  (n!"1usmumu", (.mul (.div (.div (.sqrt (.rat 2 1)) (.par n!"GF")) (.rat 4 1)) (.conj (.inp n!"VnueduLL_2221")))),
  (n!"3psbuu", (.mul (.div (.div (.sqrt (.rat 2 1)) (.par n!"GF")) (.rat 4 1)) (.sub (.add (.sub (.div (.sub (.inp n!"V1udRR_1123") (.div (.inp n!"V8udRR_1123") (.mul (.rat 2 1) (.rat 3 1)))) (.rat 12 1)) (.div (.sub (.inp n!"V1udLR_1123") (.div (.inp n!"V8udLR_1123") (.mul (.rat 2 1) (.rat 3 1)))) (.rat 12 1))) (.div (.div (.inp n!"V8udRR_1123") (.rat 2 1)) (.mul (.rat 12 1) (.rat 3 1)))) (.div (.div (.inp n!"V8udLR_1123") (.rat 2 1)) (.mul (.rat 12 1) (.rat 3 1)))))),
  (n!"7sbetau", (.mul (.div (.div (.sqrt (.rat 2 1)) (.par n!"GF")) (.rat 4 1)) (.add (.add (.div (.mul (.rat 2 1) (.add (.div (.neg (.conj (.inp n!"SedRL_3132"))) (.rat 2 1)) (.div (.inp n!"SedRR_1323") (.rat 2 1)))) (.rat 3 1)) (.add (.div (.inp n!"TedRR_1323") (.rat 2 1)) (.div (.conj (.inp n!"TedRR_3132")) (.rat 2 1)))) (.sub (.div (.inp n!"TedRR_1323") (.rat 2 1)) (.div (.conj (.inp n!"TedRR_3132")) (.rat 2 1)))))),
  (n!"5pdsmumu", (.mul (.div (.div (.sqrt (.rat 2 1)) (.par n!"GF")) (.rat 4 1)) (.add (.div (.mul (.rat 5 1) (.sub (.div (.inp n!"SedRL_2212") (.rat 2 1)) (.div (.conj (.inp n!"SedRR_2221")) (.rat 2 1)))) (.rat 3 1)) (.add (.div (.inp n!"SedRL_2212") (.rat 2 1)) (.div (.conj (.inp n!"SedRR_2221")) (.rat 2 1)))))),
  (n!"7gammasb", (.mul (.div (.div (.sqrt (.rat 2 1)) (.par n!"GF")) (.rat 4 1)) (.mul (.div (.div (.mul (.sqrt (.mul (.mul (.rat 4 1) .pi) (.par n!"alpha_s"))) (.sqrt (.mul (.mul (.rat 4 1) .pi) (.par n!"alpha_s")))) (.sqrt (.mul (.mul (.rat 4 1) .pi) (.par n!"alpha_e")))) (.par n!"m_b")) (.inp n!"dgamma_23")))),
  (n!"2pdsds", (.mul (.div (.div (.sqrt (.rat 2 1)) (.par n!"GF")) (.rat 4 1)) (.sub (.inp n!"S1ddRR_1212") (.div (.inp n!"S8ddRR_1212") (.mul (.rat 2 1) (.rat 3 1)))))),
  (n!"6sbuc", (.mul (.div (.div (.sqrt (.rat 2 1)) (.par n!"GF")) (.rat 4 1)) (.add (.div (.mul (.rat (-2) 1) (.add (.add (.div (.neg (.inp n!"S1udduRR_1322")) (.rat 2 1)) (.div (.inp n!"S8udduRR_1322") (.mul (.rat 4 1) (.rat 3 1)))) (.div (.inp n!"S8udRR_1223") (.rat 2 1)))) (.rat 3 1)) (.div (.mul (.rat 8 1) (.add (.mul (.rat (-2) 1) (.conj (.inp n!"V1udduLR_2231"))) (.div (.conj (.inp n!"V8udduLR_2231")) (.rat 3 1)))) (.rat 3 1))))),
  (n!"6pdbuu", (.mul (.div (.div (.sqrt (.rat 2 1)) (.par n!"GF")) (.rat 4 1)) (.add (.div (.mul (.rat (-2) 1) (.add (.add (.div (.neg (.conj (.inp n!"S1udduRR_1131"))) (.rat 2 1)) (.div (.conj (.inp n!"S8udduRR_1131")) (.mul (.rat 4 1) (.rat 3 1)))) (.div (.conj (.inp n!"S8udRR_1131")) (.rat 2 1)))) (.rat 3 1)) (.div (.mul (.rat 8 1) (.add (.mul (.rat (-2) 1) (.inp n!"V1udduLR_1311")) (.div (.inp n!"V8udduLR_1311") (.rat 3 1)))) (.rat 3 1))))),
  (n!"3pdbuc", (.mul (.div (.div (.sqrt (.rat 2 1)) (.par n!"GF")) (.rat 4 1)) (.sub (.add (.sub (.div (.sub (.inp n!"V1udRR_1213") (.div (.inp n!"V8udRR_1213") (.mul (.rat 2 1) (.rat 3 1)))) (.rat 12 1)) (.div (.sub (.inp n!"V1udLR_1213") (.div (.inp n!"V8udLR_1213") (.mul (.rat 2 1) (.rat 3 1)))) (.rat 12 1))) (.div (.div (.inp n!"V8udRR_1213") (.rat 2 1)) (.mul (.rat 12 1) (.rat 3 1)))) (.div (.div (.inp n!"V8udLR_1213") (.rat 2 1)) (.mul (.rat 12 1) (.rat 3 1)))))),
  (n!"5dstautau", (.mul (.div (.div (.sqrt (.rat 2 1)) (.par n!"GF")) (.rat 4 1)) (.sub (.add (.div (.conj (.inp n!"SedRL_3321")) (.rat 2 1)) (.div (.inp n!"SedRR_3312") (.rat 2 1))) (.div (.mul (.rat 5 1) (.add (.div (.neg (.conj (.inp n!"SedRL_3321"))) (.rat 2 1)) (.div (.inp n!"SedRR_3312") (.rat 2 1)))) (.rat 3 1))))),
  (n!"1dstaumu", (.mul (.div (.div (.sqrt (.rat 2 1)) (.par n!"GF")) (.rat 4 1)) (.add (.div (.mul (.rat 5 1) (.sub (.div (.inp n!"VdeLR_1232") (.rat 2 1)) (.div (.conj (.inp n!"VedLL_2321")) (.rat 2 1)))) (.rat 3 1)) (.add (.div (.inp n!"VdeLR_1232") (.rat 2 1)) (.div (.conj (.inp n!"VedLL_2321")) (.rat 2 1)))))),
  (n!"1dbtaue", (.mul (.div (.div (.sqrt (.rat 2 1)) (.par n!"GF")) (.rat 4 1)) (.add (.div (.mul (.rat 5 1) (.sub (.div (.inp n!"VdeLR_1331") (.rat 2 1)) (.div (.conj (.inp n!"VedLL_1331")) (.rat 2 1)))) (.rat 3 1)) (.add (.div (.inp n!"VdeLR_1331") (.rat 2 1)) (.div (.conj (.inp n!"VedLL_1331")) (.rat 2 1)))))),
  (n!"7pcsetau", (.mul (.div (.div (.sqrt (.rat 2 1)) (.par n!"GF")) (.rat 4 1)) (.conj (.inp n!"TnueduRR_3122")))),
  (n!"4sbuc", (.mul (.div (.div (.sqrt (.rat 2 1)) (.par n!"GF")) (.rat 4 1)) (.sub (.div (.div (.inp n!"V8udLL_1223") (.rat 2 1)) (.rat 6 1)) (.div (.div (.inp n!"V8duLR_2312") (.rat 2 1)) (.rat 6 1))))),
  (n!"5pcbmutau", (.mul (.div (.div (.sqrt (.rat 2 1)) (.par n!"GF")) (.rat 4 1)) (.conj (.inp n!"SnueduRR_3232")))),
  (n!"1pcbemu", (.mul (.div (.div (.sqrt (.rat 2 1)) (.par n!"GF")) (.rat 4 1)) (.conj (.inp n!"VnueduLR_2132")))),
  (n!"1pustaue", (.mul (.div (.div (.sqrt (.rat 2 1)) (.par n!"GF")) (.rat 4 1)) (.conj (.inp n!"VnueduLR_1321")))),
  (n!"7psbtautau", (.mul (.div (.div (.sqrt (.rat 2 1)) (.par n!"GF")) (.rat 4 1)) (.sub (.add (.div (.mul (.rat (-2) 1) (.sub (.div (.inp n!"SedRL_3323") (.rat 2 1)) (.div (.conj (.inp n!"SedRR_3332")) (.rat 2 1)))) (.rat 3 1)) (.add (.div (.inp n!"TedRR_3323") (.rat 2 1)) (.div (.conj (.inp n!"TedRR_3332")) (.rat 2 1)))) (.sub (.div (.inp n!"TedRR_3323") (.rat 2 1)) (.div (.conj (.inp n!"TedRR_3332")) (.rat 2 1)))))),
  (n!"2sbuc", (.mul (.div (.div (.sqrt (.rat 2 1)) (.par n!"GF")) (.rat 4 1)) (.add (.div (.mul (.rat (-2) 1) (.div (.inp n!"V8udLL_1223") (.rat 2 1))) (.rat 3 1)) (.div (.mul (.rat 8 1) (.div (.inp n!"V8duLR_2312") (.rat 2 1))) (.rat 3 1))))),
  (n!"9pdbbb", (.mul (.div (.div (.sqrt (.rat 2 1)) (.par n!"GF")) (.rat 4 1)) (.sub (.div (.sub (.sub (.conj (.inp n!"S1ddRR_3133")) (.div (.conj (.inp n!"S8ddRR_3133")) (.rat 4 1))) (.div (.div (.conj (.inp n!"S8ddRR_3133")) (.rat 2 1)) (.rat 3 1))) (.rat 48 1)) (.div (.neg (.inp n!"V8ddLR_3313")) (.rat 48 1))))),
  (n!"7pcdmue", (.mul (.div (.div (.sqrt (.rat 2 1)) (.par n!"GF")) (.rat 4 1)) (.conj (.inp n!"TnueduRR_1212")))),
  (n!"9sbtaumu", (.mul (.div (.div (.sqrt (.rat 2 1)) (.par n!"GF")) (.rat 4 1)) (.div (.add (.div (.neg (.conj (.inp n!"SedRL_2332"))) (.rat 2 1)) (.div (.inp n!"SedRR_3223") (.rat 2 1))) (.rat 24 1)))),
  (n!"9pdbetau", (.mul (.div (.div (.sqrt (.rat 2 1)) (.par n!"GF")) (.rat 4 1)) (.div (.neg (.sub (.div (.inp n!"SedRL_1313") (.rat 2 1)) (.div (.conj (.inp n!"SedRR_3131")) (.rat 2 1)))) (.rat 24 1)))),
  (n!"5pcstaumu", (.mul (.div (.div (.sqrt (.rat 2 1)) (.par n!"GF")) (.rat 4 1)) (.conj (.inp n!"SnueduRR_2322")))),
  (n!"7pdsee", (.mul (.div (.div (.sqrt (.rat 2 1)) (.par n!"GF")) (.rat 4 1)) (.sub (.add (.div (.mul (.rat (-2) 1) (.sub (.div (.inp n!"SedRL_1112") (.rat 2 1)) (.div (.conj (.inp n!"SedRR_1121")) (.rat 2 1)))) (.rat 3 1)) (.add (.div (.inp n!"TedRR_1112") (.rat 2 1)) (.div (.conj (.inp n!"TedRR_1121")) (.rat 2 1)))) (.sub (.div (.inp n!"TedRR_1112") (.rat 2 1)) (.div (.conj (.inp n!"TedRR_1121")) (.rat 2 1)))))),
  (n!"2pdscu", (.mul (.div (.div (.sqrt (.rat 2 1)) (.par n!"GF")) (.rat 4 1)) (.add (.div (.mul (.rat (-2) 1) (.div (.conj (.inp n!"V8udRR_1221")) (.rat 2 1))) (.rat 3 1)) (.div (.mul (.rat 8 1) (.div (.conj (.inp n!"V8udLR_1221")) (.rat 2 1))) (.rat 3 1))))),
  (n!"3dsmumu", (.mul (.div (.div (.sqrt (.rat 2 1)) (.par n!"GF")) (.rat 4 1)) (.div (.neg (.sub (.div (.inp n!"VdeLR_1222") (.rat 2 1)) (.div (.inp n!"VedLL_2212") (.rat 2 1)))) (.rat 6 1)))),
  (n!"1psbtaumu", (.mul (.div (.div (.sqrt (.rat 2 1)) (.par n!"GF")) (.rat 4 1)) (.sub (.add (.div (.conj (.inp n!"VedLR_2332")) (.rat 2 1)) (.div (.conj (.inp n!"VedRR_2332")) (.rat 2 1))) (.div (.mul (.rat 5 1) (.add (.div (.neg (.conj (.inp n!"VedLR_2332"))) (.rat 2 1)) (.div (.conj (.inp n!"VedRR_2332")) (.rat 2 1)))) (.rat 3 1))))),
  (n!"3pdsdd", (.mul (.div (.div (.sqrt (.rat 2 1)) (.par n!"GF")) (.rat 4 1)) (.sub (.div (.inp n!"VddRR_1112") (.rat 12 1)) (.div (.sub (.inp n!"V1ddLR_1112") (.div (.inp n!"V8ddLR_1112") (.mul (.rat 2 1) (.rat 3 1)))) (.rat 12 1))))),
  (n!"nu1psbmutau", (.mul (.div (.div (.sqrt (.rat 2 1)) (.par n!"GF")) (.rat 4 1)) (.inp n!"VnudLR_2323"))),
  (n!"nu1dbtautau", (.mul (.div (.div (.sqrt (.rat 2 1)) (.par n!"GF")) (.rat 4 1)) (.inp n!"VnudLL_3313")))]

def JMS_to_Bern_14 : List (ℕ × Sym) := [
  (n!"7sbemu", (.mul (.div (.div (.sqrt (.rat 2 1)) (.par n!"GF")) (.rat 4 1)) (.add (.add (.div (.mul (.rat 2 1) (.add (.div (.neg (.conj (.inp n!"SedRL_2132"))) (.rat 2 1)) (.div (.inp n!"SedRR_1223") (.rat 2 1)))) (.rat 3 1)) (.add (.div (.inp n!"TedRR_1223") (.rat 2 1)) (.div (.conj (.inp n!"TedRR_2132")) (.rat 2 1)))) (.sub (.div (.inp n!"TedRR_1223") (.rat 2 1)) (.div (.conj (.inp n!"TedRR_2132")) (.rat 2 1)))))),
  (n!"5sbetau", (.mul (.div (.div (.sqrt (.rat 2 1)) (.par n!"GF")) (.rat 4 1)) (.sub (.add (.div (.conj (.inp n!"SedRL_3132")) (.rat 2 1)) (.div (.inp n!"SedRR_1323") (.rat 2 1))) (.div (.mul (.rat 5 1) (.add (.div (.neg (.conj (.inp n!"SedRL_3132"))) (.rat 2 1)) (.div (.inp n!"SedRR_1323") (.rat 2 1)))) (.rat 3 1))))),
  (n!"9pdbmue", (.mul (.div (.div (.sqrt (.rat 2 1)) (.par n!"GF")) (.rat 4 1)) (.div (.neg (.sub (.div (.inp n!"SedRL_2113") (.rat 2 1)) (.div (.conj (.inp n!"SedRR_1231")) (.rat 2 1)))) (.rat 24 1)))),
  (n!"1pcdetau", (.mul (.div (.div (.sqrt (.rat 2 1)) (.par n!"GF")) (.rat 4 1)) (.conj (.inp n!"VnueduLR_3112")))),
  (n!"7psbuc", (.mul (.div (.div (.sqrt (.rat 2 1)) (.par n!"GF")) (.rat 4 1)) (.sub (.add (.add (.add (.sub (.div (.sub (.sub (.conj (.inp n!"S1udRR_2132")) (.div (.conj (.inp n!"S8udduRR_2231")) (.rat 4 1))) (.div (.conj (.inp n!"S8udRR_2132")) (.mul (.rat 2 1) (.rat 3 1)))) (.rat 3 1)) (.div (.neg (.inp n!"V8udduLR_1322")) (.rat 3 1))) (.div (.neg (.conj (.inp n!"S8udduRR_2231"))) (.rat 16 1))) (.div (.add (.div (.neg (.conj (.inp n!"S1udduRR_2231"))) (.rat 8 1)) (.div (.div (.conj (.inp n!"S8udduRR_2231")) (.rat 16 1)) (.rat 3 1))) (.rat 3 1))) (.div (.add (.add (.div (.neg (.conj (.inp n!"S1udduRR_2231"))) (.rat 2 1)) (.div (.conj (.inp n!"S8udduRR_2231")) (.mul (.rat 4 1) (.rat 3 1)))) (.div (.conj (.inp n!"S8udRR_2132")) (.rat 2 1))) (.mul (.rat 3 1) (.rat 3 1)))) (.div (.add (.mul (.rat (-2) 1) (.inp n!"V1udduLR_1322")) (.div (.inp n!"V8udduLR_1322") (.rat 3 1))) (.mul (.rat 3 1) (.rat 3 1)))))),
  (n!"5psbetau", (.mul (.div (.div (.sqrt (.rat 2 1)) (.par n!"GF")) (.rat 4 1)) (.add (.div (.mul (.rat 5 1) (.sub (.div (.inp n!"SedRL_1323") (.rat 2 1)) (.div (.conj (.inp n!"SedRR_3132")) (.rat 2 1)))) (.rat 3 1)) (.add (.div (.inp n!"SedRL_1323") (.rat 2 1)) (.div (.conj (.inp n!"SedRR_3132")) (.rat 2 1)))))),
  (n!"1pcbetau", (.mul (.div (.div (.sqrt (.rat 2 1)) (.par n!"GF")) (.rat 4 1)) (.conj (.inp n!"VnueduLR_3132")))),
  (n!"5pdbss", (.mul (.div (.div (.sqrt (.rat 2 1)) (.par n!"GF")) (.rat 4 1)) (.add (.sub (.add (.div (.neg (.sub (.sub (.conj (.inp n!"S1ddRR_2231")) (.div (.conj (.inp n!"S8ddRR_2132")) (.rat 4 1))) (.div (.div (.conj (.inp n!"S8ddRR_2231")) (.rat 2 1)) (.rat 3 1)))) (.rat 3 1)) (.div (.mul (.rat 4 1) (.neg (.inp n!"V8ddLR_2312"))) (.rat 3 1))) (.div (.add (.add (.div (.neg (.conj (.inp n!"S1ddRR_2132"))) (.rat 2 1)) (.div (.div (.conj (.inp n!"S8ddRR_2132")) (.rat 4 1)) (.rat 3 1))) (.div (.conj (.inp n!"S8ddRR_2231")) (.rat 2 1))) (.mul (.rat 3 1) (.rat 3 1)))) (.div (.mul (.rat 4 1) (.add (.mul (.rat (-2) 1) (.inp n!"V1ddLR_2312")) (.div (.inp n!"V8ddLR_2312") (.rat 3 1)))) (.mul (.rat 3 1) (.rat 3 1)))))),
  (n!"5pcdmue", (.mul (.div (.div (.sqrt (.rat 2 1)) (.par n!"GF")) (.rat 4 1)) (.conj (.inp n!"SnueduRR_1212")))),
  (n!"5sbtautau", (.mul (.div (.div (.sqrt (.rat 2 1)) (.par n!"GF")) (.rat 4 1)) (.sub (.add (.div (.conj (.inp n!"SedRL_3332")) (.rat 2 1)) (.div (.inp n!"SedRR_3323") (.rat 2 1))) (.div (.mul (.rat 5 1) (.add (.div (.neg (.conj (.inp n!"SedRL_3332"))) (.rat 2 1)) (.div (.inp n!"SedRR_3323") (.rat 2 1)))) (.rat 3 1))))),
  (n!"1dsmumu", (.mul (.div (.div (.sqrt (.rat 2 1)) (.par n!"GF")) (.rat 4 1)) (.add (.div (.mul (.rat 5 1) (.sub (.div (.inp n!"VdeLR_1222") (.rat 2 1)) (.div (.inp n!"VedLL_2212") (.rat 2 1)))) (.rat 3 1)) (.add (.div (.inp n!"VdeLR_1222") (.rat 2 1)) (.div (.inp n!"VedLL_2212") (.rat 2 1)))))),
  (n!"1pdbtautau", (.mul (.div (.div (.sqrt (.rat 2 1)) (.par n!"GF")) (.rat 4 1)) (.sub (.add (.div (.inp n!"VedLR_3313") (.rat 2 1)) (.div (.inp n!"VedRR_3313") (.rat 2 1))) (.div (.mul (.rat 5 1) (.add (.div (.neg (.inp n!"VedLR_3313")) (.rat 2 1)) (.div (.inp n!"VedRR_3313") (.rat 2 1)))) (.rat 3 1))))),
  (n!"3dbmue", (.mul (.div (.div (.sqrt (.rat 2 1)) (.par n!"GF")) (.rat 4 1)) (.div (.neg (.sub (.div (.inp n!"VdeLR_1321") (.rat 2 1)) (.div (.conj (.inp n!"VedLL_1231")) (.rat 2 1)))) (.rat 6 1)))),
  (n!"10dbss", (.mul (.div (.div (.sqrt (.rat 2 1)) (.par n!"GF")) (.rat 4 1)) (.sub (.div (.add (.add (.div (.neg (.inp n!"S1ddRR_1223")) (.rat 2 1)) (.div (.inp n!"S8ddRR_1223") (.mul (.rat 4 1) (.rat 3 1)))) (.div (.inp n!"S8ddRR_1322") (.rat 2 1))) (.rat 24 1)) (.div (.add (.mul (.rat (-2) 1) (.inp n!"V1ddLR_1223")) (.div (.inp n!"V8ddLR_1223") (.rat 3 1))) (.rat 24 1))))),
  (n!"9dsetau", (.mul (.div (.div (.sqrt (.rat 2 1)) (.par n!"GF")) (.rat 4 1)) (.div (.add (.div (.neg (.conj (.inp n!"SedRL_3121"))) (.rat 2 1)) (.div (.inp n!"SedRR_1312") (.rat 2 1))) (.rat 24 1)))),
  (n!"1pudmue", (.mul (.div (.div (.sqrt (.rat 2 1)) (.par n!"GF")) (.rat 4 1)) (.conj (.inp n!"VnueduLR_1211")))),
  (n!"9pdscu", (.mul (.div (.div (.sqrt (.rat 2 1)) (.par n!"GF")) (.rat 4 1)) (.sub (.add (.sub (.div (.sub (.sub (.conj (.inp n!"S1udRR_1221")) (.div (.conj (.inp n!"S8udduRR_1122")) (.rat 4 1))) (.div (.conj (.inp n!"S8udRR_1221")) (.mul (.rat 2 1) (.rat 3 1)))) (.rat 48 1)) (.div (.neg (.inp n!"V8udduLR_2211")) (.rat 48 1))) (.div (.add (.add (.div (.neg (.conj (.inp n!"S1udduRR_1122"))) (.rat 2 1)) (.div (.conj (.inp n!"S8udduRR_1122")) (.mul (.rat 4 1) (.rat 3 1)))) (.div (.conj (.inp n!"S8udRR_1221")) (.rat 2 1))) (.mul (.rat 48 1) (.rat 3 1)))) (.div (.add (.mul (.rat (-2) 1) (.inp n!"V1udduLR_2211")) (.div (.inp n!"V8udduLR_2211") (.rat 3 1))) (.mul (.rat 48 1) (.rat 3 1)))))),
  (n!"3psbsd", (.mul (.div (.div (.sqrt (.rat 2 1)) (.par n!"GF")) (.rat 4 1)) (.sub (.div (.conj (.inp n!"VddRR_1232")) (.rat 12 1)) (.div (.sub (.conj (.inp n!"V1ddLR_1232")) (.div (.conj (.inp n!"V8ddLR_1232")) (.mul (.rat 2 1) (.rat 3 1)))) (.rat 12 1))))),
  (n!"1dbtaumu", (.mul (.div (.div (.sqrt (.rat 2 1)) (.par n!"GF")) (.rat 4 1)) (.add (.div (.mul (.rat 5 1) (.sub (.div (.inp n!"VdeLR_1332") (.rat 2 1)) (.div (.conj (.inp n!"VedLL_2331")) (.rat 2 1)))) (.rat 3 1)) (.add (.div (.inp n!"VdeLR_1332") (.rat 2 1)) (.div (.conj (.inp n!"VedLL_2331")) (.rat 2 1)))))),
  (n!"nu1psbmumu", (.mul (.div (.div (.sqrt (.rat 2 1)) (.par n!"GF")) (.rat 4 1)) (.inp n!"VnudLR_2223"))),
  (n!"3sbetau", (.mul (.div (.div (.sqrt (.rat 2 1)) (.par n!"GF")) (.rat 4 1)) (.div (.neg (.sub (.div (.inp n!"VdeLR_2313") (.rat 2 1)) (.div (.inp n!"VedLL_1323") (.rat 2 1)))) (.rat 6 1)))),
  (n!"6pdscc", (.mul (.div (.div (.sqrt (.rat 2 1)) (.par n!"GF")) (.rat 4 1)) (.add (.div (.mul (.rat (-2) 1) (.add (.add (.div (.neg (.conj (.inp n!"S1udduRR_2122"))) (.rat 2 1)) (.div (.conj (.inp n!"S8udduRR_2122")) (.mul (.rat 4 1) (.rat 3 1)))) (.div (.conj (.inp n!"S8udRR_2221")) (.rat 2 1)))) (.rat 3 1)) (.div (.mul (.rat 8 1) (.add (.mul (.rat (-2) 1) (.inp n!"V1udduLR_2212")) (.div (.inp n!"V8udduLR_2212") (.rat 3 1)))) (.rat 3 1))))),
  (n!"1psbee", (.mul (.div (.div (.sqrt (.rat 2 1)) (.par n!"GF")) (.rat 4 1)) (.sub (.add (.div (.inp n!"VedLR_1123") (.rat 2 1)) (.div (.inp n!"VedRR_1123") (.rat 2 1))) (.div (.mul (.rat 5 1) (.add (.div (.neg (.inp n!"VedLR_1123")) (.rat 2 1)) (.div (.inp n!"VedRR_1123") (.rat 2 1)))) (.rat 3 1))))),
  (n!"nu1pdsemu", (.mul (.div (.div (.sqrt (.rat 2 1)) (.par n!"GF")) (.rat 4 1)) (.inp n!"VnudLR_1212"))),
  (n!"2pdsbb", (.mul (.div (.div (.sqrt (.rat 2 1)) (.par n!"GF")) (.rat 4 1)) (.add (.div (.mul (.rat (-2) 1) (.inp n!"VddRR_1332")) (.rat 3 1)) (.div (.mul (.rat 8 1) (.div (.inp n!"V8ddLR_3312") (.rat 2 1))) (.rat 3 1))))),
  (n!"1pdstaue", (.mul (.div (.div (.sqrt (.rat 2 1)) (.par n!"GF")) (.rat 4 1)) (.sub (.add (.div (.conj (.inp n!"VedLR_1321")) (.rat 2 1)) (.div (.conj (.inp n!"VedRR_1321")) (.rat 2 1))) (.div (.mul (.rat 5 1) (.add (.div (.neg (.conj (.inp n!"VedLR_1321"))) (.rat 2 1)) (.div (.conj (.inp n!"VedRR_1321")) (.rat 2 1)))) (.rat 3 1))))),
  (n!"7pdbmue", (.mul (.div (.div (.sqrt (.rat 2 1)) (.par n!"GF")) (.rat 4 1)) (.sub (.add (.div (.mul (.rat (-2) 1) (.sub (.div (.inp n!"SedRL_2113") (.rat 2 1)) (.div (.conj (.inp n!"SedRR_1231")) (.rat 2 1)))) (.rat 3 1)) (.add (.div (.inp n!"TedRR_2113") (.rat 2 1)) (.div (.conj (.inp n!"TedRR_1231")) (.rat 2 1)))) (.sub (.div (.inp n!"TedRR_2113") (.rat 2 1)) (.div (.conj (.inp n!"TedRR_1231")) (.rat 2 1)))))),
  (n!"5usetau", (.mul (.div (.div (.sqrt (.rat 2 1)) (.par n!"GF")) (.rat 4 1)) (.conj (.inp n!"SnueduRL_3121")))),
  (n!"7pudtaue", (.mul (.div (.div (.sqrt (.rat 2 1)) (.par n!"GF")) (.rat 4 1)) (.conj (.inp n!"TnueduRR_1311")))),
  (n!"7pubtaue", (.mul (.div (.div (.sqrt (.rat 2 1)) (.par n!"GF")) (.rat 4 1)) (.conj (.inp n!"TnueduRR_1331")))),
  (n!"5pusetau", (.mul (.div (.div (.sqrt (.rat 2 1)) (.par n!"GF")) (.rat 4 1)) (.conj (.inp n!"SnueduRR_3121")))),
  (n!"5pcbtaumu", (.mul (.div (.div (.sqrt (.rat 2 1)) (.par n!"GF")) (.rat 4 1)) (.conj (.inp n!"SnueduRR_2332")))),
  (n!"9psbss", (.mul (.div (.div (.sqrt (.rat 2 1)) (.par n!"GF")) (.rat 4 1)) (.sub (.div (.sub (.sub (.inp n!"S1ddRR_2223") (.div (.inp n!"S8ddRR_2223") (.rat 4 1))) (.div (.inp n!"S8ddRR_2223") (.mul (.rat 2 1) (.rat 3 1)))) (.rat 48 1)) (.div (.neg (.inp n!"V8ddLR_2223")) (.rat 48 1))))),
  (n!"9dbss", (.mul (.div (.div (.sqrt (.rat 2 1)) (.par n!"GF")) (.rat 4 1)) (.sub (.add (.sub (.div (.sub (.sub (.inp n!"S1ddRR_1322") (.div (.inp n!"S8ddRR_1223") (.rat 4 1))) (.div (.inp n!"S8ddRR_1322") (.mul (.rat 2 1) (.rat 3 1)))) (.rat 48 1)) (.div (.neg (.inp n!"V8ddLR_1223")) (.rat 48 1))) (.div (.add (.add (.div (.neg (.inp n!"S1ddRR_1223")) (.rat 2 1)) (.div (.inp n!"S8ddRR_1223") (.mul (.rat 4 1) (.rat 3 1)))) (.div (.inp n!"S8ddRR_1322") (.rat 2 1))) (.mul (.rat 48 1) (.rat 3 1)))) (.div (.add (.mul (.rat (-2) 1) (.inp n!"V1ddLR_1223")) (.div (.inp n!"V8ddLR_1223") (.rat 3 1))) (.mul (.rat 48 1) (.rat 3 1)))))),
  (n!"7psbmumu", (.mul (.div (.div (.sqrt (.rat 2 1)) (.par n!"GF")) (.rat 4 1)) (.sub (.add (.div (.mul (.rat (-2) 1) (.sub (.div (.inp n!"SedRL_2223") (.rat 2 1)) (.div (.conj (.inp n!"SedRR_2232")) (.rat 2 1)))) (.rat 3 1)) (.add (.div (.inp n!"TedRR_2223") (.rat 2 1)) (.div (.conj (.inp n!"TedRR_2232")) (.rat 2 1)))) (.sub (.div (.inp n!"TedRR_2223") (.rat 2 1)) (.div (.conj (.inp n!"TedRR_2232")) (.rat 2 1)))))),
  (n!"nu1dbmue", (.mul (.div (.div (.sqrt (.rat 2 1)) (.par n!"GF")) (.rat 4 1)) (.conj (.inp n!"VnudLL_1231")))),
  (n!"7dbss", (.mul (.div (.div (.sqrt (.rat 2 1)) (.par n!"GF")) (.rat 4 1)) (.sub (.add (.add (.add (.sub (.div (.sub (.sub (.inp n!"S1ddRR_1322") (.div (.inp n!"S8ddRR_1223") (.rat 4 1))) (.div (.inp n!"S8ddRR_1322") (.mul (.rat 2 1) (.rat 3 1)))) (.rat 3 1)) (.div (.neg (.inp n!"V8ddLR_1223")) (.rat 3 1))) (.div (.neg (.inp n!"S8ddRR_1223")) (.rat 16 1))) (.div (.add (.div (.neg (.inp n!"S1ddRR_1223")) (.rat 8 1)) (.div (.inp n!"S8ddRR_1223") (.mul (.rat 16 1) (.rat 3 1)))) (.rat 3 1))) (.div (.add (.add (.div (.neg (.inp n!"S1ddRR_1223")) (.rat 2 1)) (.div (.inp n!"S8ddRR_1223") (.mul (.rat 4 1) (.rat 3 1)))) (.div (.inp n!"S8ddRR_1322") (.rat 2 1))) (.mul (.rat 3 1) (.rat 3 1)))) (.div (.add (.mul (.rat (-2) 1) (.inp n!"V1ddLR_1223")) (.div (.inp n!"V8ddLR_1223") (.rat 3 1))) (.mul (.rat 3 1) (.rat 3 1)))))),
  (n!"6pdsuu", (.mul (.div (.div (.sqrt (.rat 2 1)) (.par n!"GF")) (.rat 4 1)) (.add (.div (.mul (.rat (-2) 1) (.add (.add (.div (.neg (.conj (.inp n!"S1udduRR_1121"))) (.rat 2 1)) (.div (.conj (.inp n!"S8udduRR_1121")) (.mul (.rat 4 1) (.rat 3 1)))) (.div (.conj (.inp n!"S8udRR_1121")) (.rat 2 1)))) (.rat 3 1)) (.div (.mul (.rat 8 1) (.add (.mul (.rat (-2) 1) (.inp n!"V1udduLR_1211")) (.div (.inp n!"V8udduLR_1211") (.rat 3 1)))) (.rat 3 1))))),
  (n!"7dsetau", (.mul (.div (.div (.sqrt (.rat 2 1)) (.par n!"GF")) (.rat 4 1)) (.add (.add (.div (.mul (.rat 2 1) (.add (.div (.neg (.conj (.inp n!"SedRL_3121"))) (.rat 2 1)) (.div (.inp n!"SedRR_1312") (.rat 2 1)))) (.rat 3 1)) (.add (.div (.inp n!"TedRR_1312") (.rat 2 1)) (.div (.conj (.inp n!"TedRR_3121")) (.rat 2 1)))) (.sub (.div (.inp n!"TedRR_1312") (.rat 2 1)) (.div (.conj (.inp n!"TedRR_3121")) (.rat 2 1)))))),
  (n!"3pdsuc", (.mul (.div (.div (.sqrt (.rat 2 1)) (.par n!"GF")) (.rat 4 1)) (.sub (.add (.sub (.div (.sub (.inp n!"V1udRR_1212") (.div (.inp n!"V8udRR_1212") (.mul (.rat 2 1) (.rat 3 1)))) (.rat 12 1)) (.div (.sub (.inp n!"V1udLR_1212") (.div (.inp n!"V8udLR_1212") (.mul (.rat 2 1) (.rat 3 1)))) (.rat 12 1))) (.div (.div (.inp n!"V8udRR_1212") (.rat 2 1)) (.mul (.rat 12 1) (.rat 3 1)))) (.div (.div (.inp n!"V8udLR_1212") (.rat 2 1)) (.mul (.rat 12 1) (.rat 3 1)))))),
  (n!"nu1psbtaumu", (.mul (.div (.div (.sqrt (.rat 2 1)) (.par n!"GF")) (.rat 4 1)) (.conj (.inp n!"VnudLR_2332")))),
  (n!"5ubmue", (.mul (.div (.div (.sqrt (.rat 2 1)) (.par n!"GF")) (.rat 4 1)) (.conj (.inp n!"SnueduRL_1231")))),
  (n!"1sbetau", (.mul (.div (.div (.sqrt (.rat 2 1)) (.par n!"GF")) (.rat 4 1)) (.add (.div (.mul (.rat 5 1) (.sub (.div (.inp n!"VdeLR_2313") (.rat 2 1)) (.div (.inp n!"VedLL_1323") (.rat 2 1)))) (.rat 3 1)) (.add (.div (.inp n!"VdeLR_2313") (.rat 2 1)) (.div (.inp n!"VedLL_1323") (.rat 2 1)))))),
  (n!"5dbss", (.mul (.div (.div (.sqrt (.rat 2 1)) (.par n!"GF")) (.rat 4 1)) (.add (.sub (.add (.div (.neg (.sub (.sub (.inp n!"S1ddRR_1322") (.div (.inp n!"S8ddRR_1223") (.rat 4 1))) (.div (.inp n!"S8ddRR_1322") (.mul (.rat 2 1) (.rat 3 1))))) (.rat 3 1)) (.div (.mul (.rat 4 1) (.neg (.inp n!"V8ddLR_1223"))) (.rat 3 1))) (.div (.add (.add (.div (.neg (.inp n!"S1ddRR_1223")) (.rat 2 1)) (.div (.inp n!"S8ddRR_1223") (.mul (.rat 4 1) (.rat 3 1)))) (.div (.inp n!"S8ddRR_1322") (.rat 2 1))) (.mul (.rat 3 1) (.rat 3 1)))) (.div (.mul (.rat 4 1) (.add (.mul (.rat (-2) 1) (.inp n!"V1ddLR_1223")) (.div (.inp n!"V8ddLR_1223") (.rat 3 1)))) (.mul (.rat 3 1) (.rat 3 1)))))),
  (n!"1cdmutau", (.mul (.div (.div (.sqrt (.rat 2 1)) (.par n!"GF")) (.rat 4 1)) (.conj (.inp n!"VnueduLL_3212")))),
  (n!"5pdbmue", (.mul (.div (.div (.sqrt (.rat 2 1)) (.par n!"GF")) (.rat 4 1)) (.add (.div (.mul (.rat 5 1) (.sub (.div (.inp n!"SedRL_2113") (.rat 2 1)) (.div (.conj (.inp n!"SedRR_1231")) (.rat 2 1)))) (.rat 3 1)) (.add (.div (.inp n!"SedRL_2113") (.rat 2 1)) (.div (.conj (.inp n!"SedRR_1231")) (.rat 2 1)))))),
  (n!"5sbmue", (.mul (.div (.div (.sqrt (.rat 2 1)) (.par n!"GF")) (.rat 4 1)) (.sub (.add (.div (.conj (.inp n!"SedRL_1232")) (.rat 2 1)) (.div (.inp n!"SedRR_2123") (.rat 2 1))) (.div (.mul (.rat 5 1) (.add (.div (.neg (.conj (.inp n!"SedRL_1232"))) (.rat 2 1)) (.div (.inp n!"SedRR_2123") (.rat 2 1)))) (.rat 3 1))))),
  (n!"8sbcc", (.mul (.div (.div (.sqrt (.rat 2 1)) (.par n!"GF")) (.rat 4 1)) (.sub (.add (.mul (.rat 2 1) (.add (.div (.neg (.inp n!"S1udduRR_2322")) (.rat 8 1)) (.div (.inp n!"S8udduRR_2322") (.mul (.rat 16 1) (.rat 3 1))))) (.div (.mul (.rat 2 1) (.add (.add (.div (.neg (.inp n!"S1udduRR_2322")) (.rat 2 1)) (.div (.inp n!"S8udduRR_2322") (.mul (.rat 4 1) (.rat 3 1)))) (.div (.inp n!"S8udRR_2223") (.rat 2 1)))) (.rat 3 1))) (.div (.mul (.rat 2 1) (.add (.mul (.rat (-2) 1) (.conj (.inp n!"V1udduLR_2232"))) (.div (.conj (.inp n!"V8udduLR_2232")) (.rat 3 1)))) (.rat 3 1))))),
  (n!"3dbss", (.mul (.div (.div (.sqrt (.rat 2 1)) (.par n!"GF")) (.rat 4 1)) (.sub (.add (.sub (.div (.inp n!"VddLL_1322") (.rat 12 1)) (.div (.sub (.inp n!"V1ddLR_1322") (.div (.inp n!"V8ddLR_1322") (.mul (.rat 2 1) (.rat 3 1)))) (.rat 12 1))) (.div (.inp n!"VddLL_1223") (.mul (.rat 12 1) (.rat 3 1)))) (.div (.div (.inp n!"V8ddLR_1322") (.rat 2 1)) (.mul (.rat 12 1) (.rat 3 1)))))),
  (n!"3psbcu", (.mul (.div (.div (.sqrt (.rat 2 1)) (.par n!"GF")) (.rat 4 1)) (.sub (.add (.sub (.div (.sub (.conj (.inp n!"V1udRR_1232")) (.div (.conj (.inp n!"V8udRR_1232")) (.mul (.rat 2 1) (.rat 3 1)))) (.rat 12 1)) (.div (.sub (.conj (.inp n!"V1udLR_1232")) (.div (.conj (.inp n!"V8udLR_1232")) (.mul (.rat 2 1) (.rat 3 1)))) (.rat 12 1))) (.div (.div (.conj (.inp n!"V8udRR_1232")) (.rat 2 1)) (.mul (.rat 12 1) (.rat 3 1)))) (.div (.div (.conj (.inp n!"V8udLR_1232")) (.rat 2 1)) (.mul (.rat 12 1) (.rat 3 1))))))]

def JMS_to_Bern_15 : List (ℕ × Sym) := [
  (n!"9pdsbb", (.mul (.div (.div (.sqrt (.rat 2 1)) (.par n!"GF")) (.rat 4 1)) (.sub (.add (.sub (.div (.sub (.sub (.conj (.inp n!"S1ddRR_2133")) (.div (.conj (.inp n!"S8ddRR_2331")) (.rat 4 1))) (.div (.div (.conj (.inp n!"S8ddRR_2133")) (.rat 2 1)) (.rat 3 1))) (.rat 48 1)) (.div (.neg (.conj (.inp n!"V8ddLR_2331"))) (.rat 48 1))) (.div (.add (.add (.div (.neg (.conj (.inp n!"S1ddRR_2331"))) (.rat 2 1)) (.div (.div (.conj (.inp n!"S8ddRR_2331")) (.rat 4 1)) (.rat 3 1))) (.div (.conj (.inp n!"S8ddRR_2133")) (.rat 2 1))) (.mul (.rat 48 1) (.rat 3 1)))) (.div (.add (.mul (.rat (-2) 1) (.conj (.inp n!"V1ddLR_2331"))) (.div (.conj (.inp n!"V8ddLR_2331")) (.rat 3 1))) (.mul (.rat 48 1) (.rat 3 1)))))),
  (n!"4psbdd", (.mul (.div (.div (.sqrt (.rat 2 1)) (.par n!"GF")) (.rat 4 1)) (.sub (.div (.conj (.inp n!"VddRR_1231")) (.rat 6 1)) (.div (.div (.inp n!"V8ddLR_1123") (.rat 2 1)) (.rat 6 1))))),
  (n!"6sbcc", (.mul (.div (.div (.sqrt (.rat 2 1)) (.par n!"GF")) (.rat 4 1)) (.add (.div (.mul (.rat (-2) 1) (.add (.add (.div (.neg (.inp n!"S1udduRR_2322")) (.rat 2 1)) (.div (.inp n!"S8udduRR_2322") (.mul (.rat 4 1) (.rat 3 1)))) (.div (.inp n!"S8udRR_2223") (.rat 2 1)))) (.rat 3 1)) (.div (.mul (.rat 8 1) (.add (.mul (.rat (-2) 1) (.conj (.inp n!"V1udduLR_2232"))) (.div (.conj (.inp n!"V8udduLR_2232")) (.rat 3 1)))) (.rat 3 1))))),
  (n!"6pdbcu", (.mul (.div (.div (.sqrt (.rat 2 1)) (.par n!"GF")) (.rat 4 1)) (.add (.div (.mul (.rat (-2) 1) (.add (.add (.div (.neg (.conj (.inp n!"S1udduRR_1132"))) (.rat 2 1)) (.div (.conj (.inp n!"S8udduRR_1132")) (.mul (.rat 4 1) (.rat 3 1)))) (.div (.conj (.inp n!"S8udRR_1231")) (.rat 2 1)))) (.rat 3 1)) (.div (.mul (.rat 8 1) (.add (.mul (.rat (-2) 1) (.inp n!"V1udduLR_2311")) (.div (.inp n!"V8udduLR_2311") (.rat 3 1)))) (.rat 3 1))))),
  (n!"1dbss", (.mul (.div (.div (.sqrt (.rat 2 1)) (.par n!"GF")) (.rat 4 1)) (.add (.sub (.add (.div (.neg (.inp n!"VddLL_1322")) (.rat 3 1)) (.div (.mul (.rat 4 1) (.sub (.inp n!"V1ddLR_1322") (.div (.inp n!"V8ddLR_1322") (.mul (.rat 2 1) (.rat 3 1))))) (.rat 3 1))) (.div (.inp n!"VddLL_1223") (.mul (.rat 3 1) (.rat 3 1)))) (.div (.mul (.rat 4 1) (.div (.inp n!"V8ddLR_1322") (.rat 2 1))) (.mul (.rat 3 1) (.rat 3 1)))))),
  (n!"3dstautau", (.mul (.div (.div (.sqrt (.rat 2 1)) (.par n!"GF")) (.rat 4 1)) (.div (.neg (.sub (.div (.inp n!"VdeLR_1233") (.rat 2 1)) (.div (.inp n!"VedLL_3312") (.rat 2 1)))) (.rat 6 1)))),
  (n!"7pdbdd", (.mul (.div (.div (.sqrt (.rat 2 1)) (.par n!"GF")) (.rat 4 1)) (.add (.sub (.div (.sub (.sub (.inp n!"S1ddRR_1113") (.div (.inp n!"S8ddRR_1113") (.rat 4 1))) (.div (.inp n!"S8ddRR_1113") (.mul (.rat 2 1) (.rat 3 1)))) (.rat 3 1)) (.div (.neg (.inp n!"V8ddLR_1113")) (.rat 3 1))) (.div (.neg (.inp n!"S8ddRR_1113")) (.rat 16 1))))),
  (n!"nu1pdbtaue", (.mul (.div (.div (.sqrt (.rat 2 1)) (.par n!"GF")) (.rat 4 1)) (.conj (.inp n!"VnudLR_1331")))),
  (n!"3pdbcc", (.mul (.div (.div (.sqrt (.rat 2 1)) (.par n!"GF")) (.rat 4 1)) (.sub (.add (.sub (.div (.sub (.inp n!"V1udRR_2213") (.div (.inp n!"V8udRR_2213") (.mul (.rat 2 1) (.rat 3 1)))) (.rat 12 1)) (.div (.sub (.inp n!"V1udLR_2213") (.div (.inp n!"V8udLR_2213") (.mul (.rat 2 1) (.rat 3 1)))) (.rat 12 1))) (.div (.div (.inp n!"V8udRR_2213") (.rat 2 1)) (.mul (.rat 12 1) (.rat 3 1)))) (.div (.div (.inp n!"V8udLR_2213") (.rat 2 1)) (.mul (.rat 12 1) (.rat 3 1)))))),
  (n!"4sbcc", (.mul (.div (.div (.sqrt (.rat 2 1)) (.par n!"GF")) (.rat 4 1)) (.sub (.div (.div (.inp n!"V8udLL_2223") (.rat 2 1)) (.rat 6 1)) (.div (.div (.inp n!"V8duLR_2322") (.rat 2 1)) (.rat 6 1))))),
  (n!"5cstaue", (.mul (.div (.div (.sqrt (.rat 2 1)) (.par n!"GF")) (.rat 4 1)) (.conj (.inp n!"SnueduRL_1322")))),
  (n!"1pcdmue", (.mul (.div (.div (.sqrt (.rat 2 1)) (.par n!"GF")) (.rat 4 1)) (.conj (.inp n!"VnueduLR_1212")))),
  (n!"2sbcc", (.mul (.div (.div (.sqrt (.rat 2 1)) (.par n!"GF")) (.rat 4 1)) (.add (.div (.mul (.rat (-2) 1) (.div (.inp n!"V8udLL_2223") (.rat 2 1))) (.rat 3 1)) (.div (.mul (.rat 8 1) (.div (.inp n!"V8duLR_2322") (.rat 2 1))) (.rat 3 1))))),
  (n!"3dsmutau", (.mul (.div (.div (.sqrt (.rat 2 1)) (.par n!"GF")) (.rat 4 1)) (.div (.neg (.sub (.div (.inp n!"VdeLR_1223") (.rat 2 1)) (.div (.inp n!"VedLL_2312") (.rat 2 1)))) (.rat 6 1)))),
  (n!"1cstautau", (.mul (.div (.div (.sqrt (.rat 2 1)) (.par n!"GF")) (.rat 4 1)) (.conj (.inp n!"VnueduLL_3322")))),
  (n!"5pcstaue", (.mul (.div (.div (.sqrt (.rat 2 1)) (.par n!"GF")) (.rat 4 1)) (.conj (.inp n!"SnueduRR_1322")))),
  (n!"7pusmumu", (.mul (.div (.div (.sqrt (.rat 2 1)) (.par n!"GF")) (.rat 4 1)) (.conj (.inp n!"TnueduRR_2221")))),
  (n!"5dsetau", (.mul (.div (.div (.sqrt (.rat 2 1)) (.par n!"GF")) (.rat 4 1)) (.sub (.add (.div (.conj (.inp n!"SedRL_3121")) (.rat 2 1)) (.div (.inp n!"SedRR_1312") (.rat 2 1))) (.div (.mul (.rat 5 1) (.add (.div (.neg (.conj (.inp n!"SedRL_3121"))) (.rat 2 1)) (.div (.inp n!"SedRR_1312") (.rat 2 1)))) (.rat 3 1))))),
  (n!"9dsmue", (.mul (.div (.div (.sqrt (.rat 2 1)) (.par n!"GF")) (.rat 4 1)) (.div (.add (.div (.neg (.conj (.inp n!"SedRL_1221"))) (.rat 2 1)) (.div (.inp n!"SedRR_2112") (.rat 2 1))) (.rat 24 1)))),
  (n!"1pdbdb", (.mul (.div (.div (.sqrt (.rat 2 1)) (.par n!"GF")) (.rat 4 1)) (.inp n!"VddRR_1313"))),
  (n!"8sbuu", (.mul (.div (.div (.sqrt (.rat 2 1)) (.par n!"GF")) (.rat 4 1)) (.sub (.add (.mul (.rat 2 1) (.add (.div (.neg (.inp n!"S1udduRR_1321")) (.rat 8 1)) (.div (.inp n!"S8udduRR_1321") (.mul (.rat 16 1) (.rat 3 1))))) (.div (.mul (.rat 2 1) (.add (.add (.div (.neg (.inp n!"S1udduRR_1321")) (.rat 2 1)) (.div (.inp n!"S8udduRR_1321") (.mul (.rat 4 1) (.rat 3 1)))) (.div (.inp n!"S8udRR_1123") (.rat 2 1)))) (.rat 3 1))) (.div (.mul (.rat 2 1) (.add (.mul (.rat (-2) 1) (.conj (.inp n!"V1udduLR_1231"))) (.div (.conj (.inp n!"V8udduLR_1231")) (.rat 3 1)))) (.rat 3 1))))),
  (n!"3pdbmue", (.mul (.div (.div (.sqrt (.rat 2 1)) (.par n!"GF")) (.rat 4 1)) (.div (.add (.div (.neg (.conj (.inp n!"VedLR_1231"))) (.rat 2 1)) (.div (.conj (.inp n!"VedRR_1231")) (.rat 2 1))) (.rat 6 1)))),
  (n!"5pdsss", (.mul (.div (.div (.sqrt (.rat 2 1)) (.par n!"GF")) (.rat 4 1)) (.add (.div (.neg (.sub (.sub (.conj (.inp n!"S1ddRR_2122")) (.div (.conj (.inp n!"S8ddRR_2122")) (.rat 4 1))) (.div (.div (.conj (.inp n!"S8ddRR_2122")) (.rat 2 1)) (.rat 3 1)))) (.rat 3 1)) (.div (.mul (.rat 4 1) (.neg (.inp n!"V8ddLR_2212"))) (.rat 3 1))))),
  (n!"7pdbtaue", (.mul (.div (.div (.sqrt (.rat 2 1)) (.par n!"GF")) (.rat 4 1)) (.sub (.add (.div (.mul (.rat (-2) 1) (.sub (.div (.inp n!"SedRL_3113") (.rat 2 1)) (.div (.conj (.inp n!"SedRR_1331")) (.rat 2 1)))) (.rat 3 1)) (.add (.div (.inp n!"TedRR_3113") (.rat 2 1)) (.div (.conj (.inp n!"TedRR_1331")) (.rat 2 1)))) (.sub (.div (.inp n!"TedRR_3113") (.rat 2 1)) (.div (.conj (.inp n!"TedRR_1331")) (.rat 2 1)))))),
  (n!"1usetau", (.mul (.div (.div (.sqrt (.rat 2 1)) (.par n!"GF")) (.rat 4 1)) (.conj (.inp n!"VnueduLL_3121")))),
  (n!"5pdsetau", (.mul (.div (.div (.sqrt (.rat 2 1)) (.par n!"GF")) (.rat 4 1)) (.add (.div (.mul (.rat 5 1) (.sub (.div (.inp n!"SedRL_1312") (.rat 2 1)) (.div (.conj (.inp n!"SedRR_3121")) (.rat 2 1)))) (.rat 3 1)) (.add (.div (.inp n!"SedRL_1312") (.rat 2 1)) (.div (.conj (.inp n!"SedRR_3121")) (.rat 2 1)))))),
  (n!"6sbuu", (.mul (.div (.div (.sqrt (.rat 2 1)) (.par n!"GF")) (.rat 4 1)) (.add (.div (.mul (.rat (-2) 1) (.add (.add (.div (.neg (.inp n!"S1udduRR_1321")) (.rat 2 1)) (.div (.inp n!"S8udduRR_1321") (.mul (.rat 4 1) (.rat 3 1)))) (.div (.inp n!"S8udRR_1123") (.rat 2 1)))) (.rat 3 1)) (.div (.mul (.rat 8 1) (.add (.mul (.rat (-2) 1) (.conj (.inp n!"V1udduLR_1231"))) (.div (.conj (.inp n!"V8udduLR_1231")) (.rat 3 1)))) (.rat 3 1))))),
  (n!"8dbuc", (.mul (.div (.div (.sqrt (.rat 2 1)) (.par n!"GF")) (.rat 4 1)) (.sub (.add (.mul (.rat 2 1) (.add (.div (.neg (.inp n!"S1udduRR_1312")) (.rat 8 1)) (.div (.inp n!"S8udduRR_1312") (.mul (.rat 16 1) (.rat 3 1))))) (.div (.mul (.rat 2 1) (.add (.add (.div (.neg (.inp n!"S1udduRR_1312")) (.rat 2 1)) (.div (.inp n!"S8udduRR_1312") (.mul (.rat 4 1) (.rat 3 1)))) (.div (.inp n!"S8udRR_1213") (.rat 2 1)))) (.rat 3 1))) (.div (.mul (.rat 2 1) (.add (.mul (.rat (-2) 1) (.conj (.inp n!"V1udduLR_2131"))) (.div (.conj (.inp n!"V8udduLR_2131")) (.rat 3 1)))) (.rat 3 1))))),
  (n!"3pdbuu", (.mul (.div (.div (.sqrt (.rat 2 1)) (.par n!"GF")) (.rat 4 1)) (.sub (.add (.sub (.div (.sub (.inp n!"V1udRR_1113") (.div (.inp n!"V8udRR_1113") (.mul (.rat 2 1) (.rat 3 1)))) (.rat 12 1)) (.div (.sub (.inp n!"V1udLR_1113") (.div (.inp n!"V8udLR_1113") (.mul (.rat 2 1) (.rat 3 1)))) (.rat 12 1))) (.div (.div (.inp n!"V8udRR_1113") (.rat 2 1)) (.mul (.rat 12 1) (.rat 3 1)))) (.div (.div (.inp n!"V8udLR_1113") (.rat 2 1)) (.mul (.rat 12 1) (.rat 3 1)))))),
  (n!"4sbuu", (.mul (.div (.div (.sqrt (.rat 2 1)) (.par n!"GF")) (.rat 4 1)) (.sub (.div (.div (.inp n!"V8udLL_1123") (.rat 2 1)) (.rat 6 1)) (.div (.div (.inp n!"V8duLR_2311") (.rat 2 1)) (.rat 6 1))))),
  (n!"6dbuc", (.mul (.div (.div (.sqrt (.rat 2 1)) (.par n!"GF")) (.rat 4 1)) (.add (.div (.mul (.rat (-2) 1) (.add (.add (.div (.neg (.inp n!"S1udduRR_1312")) (.rat 2 1)) (.div (.inp n!"S8udduRR_1312") (.mul (.rat 4 1) (.rat 3 1)))) (.div (.inp n!"S8udRR_1213") (.rat 2 1)))) (.rat 3 1)) (.div (.mul (.rat 8 1) (.add (.mul (.rat (-2) 1) (.conj (.inp n!"V1udduLR_2131"))) (.div (.conj (.inp n!"V8udduLR_2131")) (.rat 3 1)))) (.rat 3 1))))),
  (n!"7psbcc", (.mul (.div (.div (.sqrt (.rat 2 1)) (.par n!"GF")) (.rat 4 1)) (.sub (.add (.add (.add (.sub (.div (.sub (.sub (.conj (.inp n!"S1udRR_2232")) (.div (.conj (.inp n!"S8udduRR_2232")) (.rat 4 1))) (.div (.conj (.inp n!"S8udRR_2232")) (.mul (.rat 2 1) (.rat 3 1)))) (.rat 3 1)) (.div (.neg (.inp n!"V8udduLR_2322")) (.rat 3 1))) (.div (.neg (.conj (.inp n!"S8udduRR_2232"))) (.rat 16 1))) (.div (.add (.div (.neg (.conj (.inp n!"S1udduRR_2232"))) (.rat 8 1)) (.div (.div (.conj (.inp n!"S8udduRR_2232")) (.rat 16 1)) (.rat 3 1))) (.rat 3 1))) (.div (.add (.add (.div (.neg (.conj (.inp n!"S1udduRR_2232"))) (.rat 2 1)) (.div (.conj (.inp n!"S8udduRR_2232")) (.mul (.rat 4 1) (.rat 3 1)))) (.div (.conj (.inp n!"S8udRR_2232")) (.rat 2 1))) (.mul (.rat 3 1) (.rat 3 1)))) (.div (.add (.mul (.rat (-2) 1) (.inp n!"V1udduLR_2322")) (.div (.inp n!"V8udduLR_2322") (.rat 3 1))) (.mul (.rat 3 1) (.rat 3 1)))))),
  (n!"2sbuu", (.mul (.div (.div (.sqrt (.rat 2 1)) (.par n!"GF")) (.rat 4 1)) (.add (.div (.mul (.rat (-2) 1) (.div (.inp n!"V8udLL_1123") (.rat 2 1))) (.rat 3 1)) (.div (.mul (.rat 8 1) (.div (.inp n!"V8duLR_2311") (.rat 2 1))) (.rat 3 1))))),
  (n!"3psbbb", (.mul (.div (.div (.sqrt (.rat 2 1)) (.par n!"GF")) (.rat 4 1)) (.sub (.div (.inp n!"VddRR_2333") (.rat 12 1)) (.div (.sub (.inp n!"V1ddLR_3323") (.div (.inp n!"V8ddLR_3323") (.mul (.rat 2 1) (.rat 3 1)))) (.rat 12 1))))),
  (n!"4dbuc", (.mul (.div (.div (.sqrt (.rat 2 1)) (.par n!"GF")) (.rat 4 1)) (.sub (.div (.div (.inp n!"V8udLL_1213") (.rat 2 1)) (.rat 6 1)) (.div (.div (.inp n!"V8duLR_1312") (.rat 2 1)) (.rat 6 1))))),
  (n!"5cbmue", (.mul (.div (.div (.sqrt (.rat 2 1)) (.par n!"GF")) (.rat 4 1)) (.conj (.inp n!"SnueduRL_1232")))),
  (n!"1dsemu", (.mul (.div (.div (.sqrt (.rat 2 1)) (.par n!"GF")) (.rat 4 1)) (.add (.div (.mul (.rat 5 1) (.sub (.div (.inp n!"VdeLR_1212") (.rat 2 1)) (.div (.inp n!"VedLL_1212") (.rat 2 1)))) (.rat 3 1)) (.add (.div (.inp n!"VdeLR_1212") (.rat 2 1)) (.div (.inp n!"VedLL_1212") (.rat 2 1)))))),
  (n!"7pgammads", (.mul (.div (.div (.sqrt (.rat 2 1)) (.par n!"GF")) (.rat 4 1)) (.mul (.div (.div (.mul (.sqrt (.mul (.mul (.rat 4 1) .pi) (.par n!"alpha_s"))) (.sqrt (.mul (.mul (.rat 4 1) .pi) (.par n!"alpha_s")))) (.sqrt (.mul (.mul (.rat 4 1) .pi) (.par n!"alpha_e")))) (.par n!"m_s")) (.conj (.inp n!"dgamma_21"))))),
  (n!"1pudmumu", (.mul (.div (.div (.sqrt (.rat 2 1)) (.par n!"GF")) (.rat 4 1)) (.conj (.inp n!"VnueduLR_2211")))),
  (n!"2dbuc", (.mul (.div (.div (.sqrt (.rat 2 1)) (.par n!"GF")) (.rat 4 1)) (.add (.div (.mul (.rat (-2) 1) (.div (.inp n!"V8udLL_1213") (.rat 2 1))) (.rat 3 1)) (.div (.mul (.rat 8 1) (.div (.inp n!"V8duLR_1312") (.rat 2 1))) (.rat 3 1))))),
  (n!"3psbtaue", (.mul (.div (.div (.sqrt (.rat 2 1)) (.par n!"GF")) (.rat 4 1)) (.div (.add (.div (.neg (.conj (.inp n!"VedLR_1332"))) (.rat 2 1)) (.div (.conj (.inp n!"VedRR_1332")) (.rat 2 1))) (.rat 6 1)))),
  (n!"3sbtautau", (.mul (.div (.div (.sqrt (.rat 2 1)) (.par n!"GF")) (.rat 4 1)) (.div (.neg (.sub (.div (.inp n!"VdeLR_2333") (.rat 2 1)) (.div (.inp n!"VedLL_3323") (.rat 2 1)))) (.rat 6 1)))),
  (n!"1pcsmutau", (.mul (.div (.div (.sqrt (.rat 2 1)) (.par n!"GF")) (.rat 4 1)) (.conj (.inp n!"VnueduLR_3222")))),
  (n!"nu1pdsmumu", (.mul (.div (.div (.sqrt (.rat 2 1)) (.par n!"GF")) (.rat 4 1)) (.inp n!"VnudLR_2212"))),
  (n!"3dsetau", (.mul (.div (.div (.sqrt (.rat 2 1)) (.par n!"GF")) (.rat 4 1)) (.div (.neg (.sub (.div (.inp n!"VdeLR_1213") (.rat 2 1)) (.div (.inp n!"VedLL_1312") (.rat 2 1)))) (.rat 6 1)))),
  (n!"8pgsb", (.mul (.div (.div (.sqrt (.rat 2 1)) (.par n!"GF")) (.rat 4 1)) (.mul (.div (.sqrt (.mul (.mul (.rat 4 1) .pi) (.par n!"alpha_s"))) (.par n!"m_b")) (.conj (.inp n!"dG_32"))))),
  (n!"1pubmumu", (.mul (.div (.div (.sqrt (.rat 2 1)) (.par n!"GF")) (.rat 4 1)) (.conj (.inp n!"VnueduLR_2231")))),
  (n!"9dbemu", (.mul (.div (.div (.sqrt (.rat 2 1)) (.par n!"GF")) (.rat 4 1)) (.div (.add (.div (.neg (.conj (.inp n!"SedRL_2131"))) (.rat 2 1)) (.div (.inp n!"SedRR_1213") (.rat 2 1))) (.rat 24 1)))),
  (n!"7pudtautau", (.mul (.div (.div (.sqrt (.rat 2 1)) (.par n!"GF")) (.rat 4 1)) (.conj (.inp n!"TnueduRR_3311")))),
  (n!"1pdbmue", (.mul (.div (.div (.sqrt (.rat 2 1)) (.par n!"GF")) (.rat 4 1)) (.sub (.add (.div (.conj (.inp n!"VedLR_1231")) (.rat 2 1)) (.div (.conj (.inp n!"VedRR_1231")) (.rat 2 1))) (.div (.mul (.rat 5 1) (.add (.div (.neg (.conj (.inp n!"VedLR_1231"))) (.rat 2 1)) (.div (.conj (.inp n!"VedRR_1231")) (.rat 2 1)))) (.rat 3 1)))))]

def JMS_to_Bern_16 : List (ℕ × Sym) := [
  (n!"1cdtaumu", (.mul (.div (.div (.sqrt (.rat 2 1)) (.par n!"GF")) (.rat 4 1)) (.conj (.inp n!"VnueduLL_2312")))),
  (n!"5udmutau", (.mul (.div (.div (.sqrt (.rat 2 1)) (.par n!"GF")) (.rat 4 1)) (.conj (.inp n!"SnueduRL_3211")))),
  (n!"7psbuu", (.mul (.div (.div (.sqrt (.rat 2 1)) (.par n!"GF")) (.rat 4 1)) (.sub (.add (.add (.add (.sub (.div (.sub (.sub (.conj (.inp n!"S1udRR_1132")) (.div (.conj (.inp n!"S8udduRR_1231")) (.rat 4 1))) (.div (.conj (.inp n!"S8udRR_1132")) (.mul (.rat 2 1) (.rat 3 1)))) (.rat 3 1)) (.div (.neg (.inp n!"V8udduLR_1321")) (.rat 3 1))) (.div (.neg (.conj (.inp n!"S8udduRR_1231"))) (.rat 16 1))) (.div (.add (.div (.neg (.conj (.inp n!"S1udduRR_1231"))) (.rat 8 1)) (.div (.div (.conj (.inp n!"S8udduRR_1231")) (.rat 16 1)) (.rat 3 1))) (.rat 3 1))) (.div (.add (.add (.div (.neg (.conj (.inp n!"S1udduRR_1231"))) (.rat 2 1)) (.div (.conj (.inp n!"S8udduRR_1231")) (.mul (.rat 4 1) (.rat 3 1)))) (.div (.conj (.inp n!"S8udRR_1132")) (.rat 2 1))) (.mul (.rat 3 1) (.rat 3 1)))) (.div (.add (.mul (.rat (-2) 1) (.inp n!"V1udduLR_1321")) (.div (.inp n!"V8udduLR_1321") (.rat 3 1))) (.mul (.rat 3 1) (.rat 3 1)))))),
  (n!"9dsss", (.mul (.div (.div (.sqrt (.rat 2 1)) (.par n!"GF")) (.rat 4 1)) (.sub (.div (.sub (.sub (.inp n!"S1ddRR_1222") (.div (.inp n!"S8ddRR_1222") (.rat 4 1))) (.div (.inp n!"S8ddRR_1222") (.mul (.rat 2 1) (.rat 3 1)))) (.rat 48 1)) (.div (.neg (.inp n!"V8ddLR_1222")) (.rat 48 1))))),
  (n!"7pcdee", (.mul (.div (.div (.sqrt (.rat 2 1)) (.par n!"GF")) (.rat 4 1)) (.conj (.inp n!"TnueduRR_1112")))),
  (n!"4psbuc", (.mul (.div (.div (.sqrt (.rat 2 1)) (.par n!"GF")) (.rat 4 1)) (.sub (.div (.div (.inp n!"V8udRR_1223") (.rat 2 1)) (.rat 6 1)) (.div (.div (.inp n!"V8udLR_1223") (.rat 2 1)) (.rat 6 1))))),
  (n!"3dbmutau", (.mul (.div (.div (.sqrt (.rat 2 1)) (.par n!"GF")) (.rat 4 1)) (.div (.neg (.sub (.div (.inp n!"VdeLR_1323") (.rat 2 1)) (.div (.inp n!"VedLL_2313") (.rat 2 1)))) (.rat 6 1)))),
  (n!"1cstaue", (.mul (.div (.div (.sqrt (.rat 2 1)) (.par n!"GF")) (.rat 4 1)) (.conj (.inp n!"VnueduLL_1322")))),
  (n!"7dsss", (.mul (.div (.div (.sqrt (.rat 2 1)) (.par n!"GF")) (.rat 4 1)) (.add (.sub (.div (.sub (.sub (.inp n!"S1ddRR_1222") (.div (.inp n!"S8ddRR_1222") (.rat 4 1))) (.div (.inp n!"S8ddRR_1222") (.mul (.rat 2 1) (.rat 3 1)))) (.rat 3 1)) (.div (.neg (.inp n!"V8ddLR_1222")) (.rat 3 1))) (.div (.neg (.inp n!"S8ddRR_1222")) (.rat 16 1))))),
  (n!"7pdbuc", (.mul (.div (.div (.sqrt (.rat 2 1)) (.par n!"GF")) (.rat 4 1)) (.sub (.add (.add (.add (.sub (.div (.sub (.sub (.conj (.inp n!"S1udRR_2131")) (.div (.conj (.inp n!"S8udduRR_2131")) (.rat 4 1))) (.div (.conj (.inp n!"S8udRR_2131")) (.mul (.rat 2 1) (.rat 3 1)))) (.rat 3 1)) (.div (.neg (.inp n!"V8udduLR_1312")) (.rat 3 1))) (.div (.neg (.conj (.inp n!"S8udduRR_2131"))) (.rat 16 1))) (.div (.add (.div (.neg (.conj (.inp n!"S1udduRR_2131"))) (.rat 8 1)) (.div (.div (.conj (.inp n!"S8udduRR_2131")) (.rat 16 1)) (.rat 3 1))) (.rat 3 1))) (.div (.add (.add (.div (.neg (.conj (.inp n!"S1udduRR_2131"))) (.rat 2 1)) (.div (.conj (.inp n!"S8udduRR_2131")) (.mul (.rat 4 1) (.rat 3 1)))) (.div (.conj (.inp n!"S8udRR_2131")) (.rat 2 1))) (.mul (.rat 3 1) (.rat 3 1)))) (.div (.add (.mul (.rat (-2) 1) (.inp n!"V1udduLR_1312")) (.div (.inp n!"V8udduLR_1312") (.rat 3 1))) (.mul (.rat 3 1) (.rat 3 1)))))),
  (n!"2pdbss", (.mul (.div (.div (.sqrt (.rat 2 1)) (.par n!"GF")) (.rat 4 1)) (.add (.div (.mul (.rat (-2) 1) (.inp n!"VddRR_1223")) (.rat 3 1)) (.div (.mul (.rat 8 1) (.div (.inp n!"V8ddLR_2213") (.rat 2 1))) (.rat 3 1))))),
  (n!"5cucu", (.mul (.div (.div (.sqrt (.rat 2 1)) (.par n!"GF")) (.rat 4 1)) (.add (.mul (.rat (-2) 1) (.conj (.inp n!"V1uuLR_1212"))) (.div (.conj (.inp n!"V8uuLR_1212")) (.rat 3 1))))),
  (n!"7pdsmumu", (.mul (.div (.div (.sqrt (.rat 2 1)) (.par n!"GF")) (.rat 4 1)) (.sub (.add (.div (.mul (.rat (-2) 1) (.sub (.div (.inp n!"SedRL_2212") (.rat 2 1)) (.div (.conj (.inp n!"SedRR_2221")) (.rat 2 1)))) (.rat 3 1)) (.add (.div (.inp n!"TedRR_2212") (.rat 2 1)) (.div (.conj (.inp n!"TedRR_2221")) (.rat 2 1)))) (.sub (.div (.inp n!"TedRR_2212") (.rat 2 1)) (.div (.conj (.inp n!"TedRR_2221")) (.rat 2 1)))))),
  (n!"5dsss", (.mul (.div (.div (.sqrt (.rat 2 1)) (.par n!"GF")) (.rat 4 1)) (.add (.div (.neg (.sub (.sub (.inp n!"S1ddRR_1222") (.div (.inp n!"S8ddRR_1222") (.rat 4 1))) (.div (.inp n!"S8ddRR_1222") (.mul (.rat 2 1) (.rat 3 1))))) (.rat 3 1)) (.div (.mul (.rat 4 1) (.neg (.inp n!"V8ddLR_1222"))) (.rat 3 1))))),
  (n!"3cucu", (.mul (.div (.div (.sqrt (.rat 2 1)) (.par n!"GF")) (.rat 4 1)) (.div (.conj (.inp n!"S8uuRR_1212")) (.rat 2 1)))),
  (n!"3dstaumu", (.mul (.div (.div (.sqrt (.rat 2 1)) (.par n!"GF")) (.rat 4 1)) (.div (.neg (.sub (.div (.inp n!"VdeLR_1232") (.rat 2 1)) (.div (.conj (.inp n!"VedLL_2321")) (.rat 2 1)))) (.rat 6 1)))),
  (n!"1dsetau", (.mul (.div (.div (.sqrt (.rat 2 1)) (.par n!"GF")) (.rat 4 1)) (.add (.div (.mul (.rat 5 1) (.sub (.div (.inp n!"VdeLR_1213") (.rat 2 1)) (.div (.inp n!"VedLL_1312") (.rat 2 1)))) (.rat 3 1)) (.add (.div (.inp n!"VdeLR_1213") (.rat 2 1)) (.div (.inp n!"VedLL_1312") (.rat 2 1)))))),
  (n!"3dsss", (.mul (.div (.div (.sqrt (.rat 2 1)) (.par n!"GF")) (.rat 4 1)) (.sub (.div (.inp n!"VddLL_1222") (.rat 12 1)) (.div (.sub (.inp n!"V1ddLR_1222") (.div (.inp n!"V8ddLR_1222") (.mul (.rat 2 1) (.rat 3 1)))) (.rat 12 1))))),
  (n!"1cucu", (.mul (.div (.div (.sqrt (.rat 2 1)) (.par n!"GF")) (.rat 4 1)) (.conj (.inp n!"VuuLL_1212")))),
  (n!"1usmutau", (.mul (.div (.div (.sqrt (.rat 2 1)) (.par n!"GF")) (.rat 4 1)) (.conj (.inp n!"VnueduLL_3221")))),
  (n!"7pubtautau", (.mul (.div (.div (.sqrt (.rat 2 1)) (.par n!"GF")) (.rat 4 1)) (.conj (.inp n!"TnueduRR_3331")))),
  (n!"6pdscu", (.mul (.div (.div (.sqrt (.rat 2 1)) (.par n!"GF")) (.rat 4 1)) (.add (.div (.mul (.rat (-2) 1) (.add (.add (.div (.neg (.conj (.inp n!"S1udduRR_1122"))) (.rat 2 1)) (.div (.conj (.inp n!"S8udduRR_1122")) (.mul (.rat 4 1) (.rat 3 1)))) (.div (.conj (.inp n!"S8udRR_1221")) (.rat 2 1)))) (.rat 3 1)) (.div (.mul (.rat 8 1) (.add (.mul (.rat (-2) 1) (.inp n!"V1udduLR_2211")) (.div (.inp n!"V8udduLR_2211") (.rat 3 1)))) (.rat 3 1))))),
  (n!"1dsss", (.mul (.div (.div (.sqrt (.rat 2 1)) (.par n!"GF")) (.rat 4 1)) (.add (.div (.neg (.inp n!"VddLL_1222")) (.rat 3 1)) (.div (.mul (.rat 4 1) (.sub (.inp n!"V1ddLR_1222") (.div (.inp n!"V8ddLR_1222") (.mul (.rat 2 1) (.rat 3 1))))) (.rat 3 1))))),
  (n!"7pusemu", (.mul (.div (.div (.sqrt (.rat 2 1)) (.par n!"GF")) (.rat 4 1)) (.conj (.inp n!"TnueduRR_2121")))),
  (n!"7pdsdd", (.mul (.div (.div (.sqrt (.rat 2 1)) (.par n!"GF")) (.rat 4 1)) (.add (.sub (.div (.sub (.sub (.inp n!"S1ddRR_1112") (.div (.inp n!"S8ddRR_1112") (.rat 4 1))) (.div (.inp n!"S8ddRR_1112") (.mul (.rat 2 1) (.rat 3 1)))) (.rat 3 1)) (.div (.neg (.inp n!"V8ddLR_1112")) (.rat 3 1))) (.div (.neg (.inp n!"S8ddRR_1112")) (.rat 16 1))))),
  (n!"nu1psbetau", (.mul (.div (.div (.sqrt (.rat 2 1)) (.par n!"GF")) (.rat 4 1)) (.inp n!"VnudLR_1323"))),
  (n!"3pdscc", (.mul (.div (.div (.sqrt (.rat 2 1)) (.par n!"GF")) (.rat 4 1)) (.sub (.add (.sub (.div (.sub (.inp n!"V1udRR_2212") (.div (.inp n!"V8udRR_2212") (.mul (.rat 2 1) (.rat 3 1)))) (.rat 12 1)) (.div (.sub (.inp n!"V1udLR_2212") (.div (.inp n!"V8udLR_2212") (.mul (.rat 2 1) (.rat 3 1)))) (.rat 12 1))) (.div (.div (.inp n!"V8udRR_2212") (.rat 2 1)) (.mul (.rat 12 1) (.rat 3 1)))) (.div (.div (.inp n!"V8udLR_2212") (.rat 2 1)) (.mul (.rat 12 1) (.rat 3 1)))))),
  (n!"8gds", (.mul (.div (.div (.sqrt (.rat 2 1)) (.par n!"GF")) (.rat 4 1)) (.mul (.div (.sqrt (.mul (.mul (.rat 4 1) .pi) (.par n!"alpha_s"))) (.par n!"m_s")) (.inp n!"dG_12")))),
  (n!"9pdstautau", (.mul (.div (.div (.sqrt (.rat 2 1)) (.par n!"GF")) (.rat 4 1)) (.div (.neg (.sub (.div (.inp n!"SedRL_3312") (.rat 2 1)) (.div (.conj (.inp n!"SedRR_3321")) (.rat 2 1)))) (.rat 24 1)))),
  (n!"1pdbee", (.mul (.div (.div (.sqrt (.rat 2 1)) (.par n!"GF")) (.rat 4 1)) (.sub (.add (.div (.inp n!"VedLR_1113") (.rat 2 1)) (.div (.inp n!"VedRR_1113") (.rat 2 1))) (.div (.mul (.rat 5 1) (.add (.div (.neg (.inp n!"VedLR_1113")) (.rat 2 1)) (.div (.inp n!"VedRR_1113") (.rat 2 1)))) (.rat 3 1))))),
  (n!"5udtautau", (.mul (.div (.div (.sqrt (.rat 2 1)) (.par n!"GF")) (.rat 4 1)) (.conj (.inp n!"SnueduRL_3311")))),
  (n!"1dstautau", (.mul (.div (.div (.sqrt (.rat 2 1)) (.par n!"GF")) (.rat 4 1)) (.add (.div (.mul (.rat 5 1) (.sub (.div (.inp n!"VdeLR_1233") (.rat 2 1)) (.div (.inp n!"VedLL_3312") (.rat 2 1)))) (.rat 3 1)) (.add (.div (.inp n!"VdeLR_1233") (.rat 2 1)) (.div (.inp n!"VedLL_3312") (.rat 2 1)))))),
  (n!"nu1sbmumu", (.mul (.div (.div (.sqrt (.rat 2 1)) (.par n!"GF")) (.rat 4 1)) (.inp n!"VnudLL_2223"))),
  (n!"5pustautau", (.mul (.div (.div (.sqrt (.rat 2 1)) (.par n!"GF")) (.rat 4 1)) (.conj (.inp n!"SnueduRR_3321")))),
  (n!"nu1psbemu", (.mul (.div (.div (.sqrt (.rat 2 1)) (.par n!"GF")) (.rat 4 1)) (.inp n!"VnudLR_1223"))),
  (n!"1pcbmutau", (.mul (.div (.div (.sqrt (.rat 2 1)) (.par n!"GF")) (.rat 4 1)) (.conj (.inp n!"VnueduLR_3232")))),
  (n!"1pdbmumu", (.mul (.div (.div (.sqrt (.rat 2 1)) (.par n!"GF")) (.rat 4 1)) (.sub (.add (.div (.inp n!"VedLR_2213") (.rat 2 1)) (.div (.inp n!"VedRR_2213") (.rat 2 1))) (.div (.mul (.rat 5 1) (.add (.div (.neg (.inp n!"VedLR_2213")) (.rat 2 1)) (.div (.inp n!"VedRR_2213") (.rat 2 1)))) (.rat 3 1))))),
  (n!"9pdbss", (.mul (.div (.div (.sqrt (.rat 2 1)) (.par n!"GF")) (.rat 4 1)) (.sub (.add (.sub (.div (.sub (.sub (.conj (.inp n!"S1ddRR_2231")) (.div (.conj (.inp n!"S8ddRR_2132")) (.rat 4 1))) (.div (.div (.conj (.inp n!"S8ddRR_2231")) (.rat 2 1)) (.rat 3 1))) (.rat 48 1)) (.div (.neg (.inp n!"V8ddLR_2312")) (.rat 48 1))) (.div (.add (.add (.div (.neg (.conj (.inp n!"S1ddRR_2132"))) (.rat 2 1)) (.div (.div (.conj (.inp n!"S8ddRR_2132")) (.rat 4 1)) (.rat 3 1))) (.div (.conj (.inp n!"S8ddRR_2231")) (.rat 2 1))) (.mul (.rat 48 1) (.rat 3 1)))) (.div (.add (.mul (.rat (-2) 1) (.inp n!"V1ddLR_2312")) (.div (.inp n!"V8ddLR_2312") (.rat 3 1))) (.mul (.rat 48 1) (.rat 3 1)))))),
  (n!"7pudee", (.mul (.div (.div (.sqrt (.rat 2 1)) (.par n!"GF")) (.rat 4 1)) (.conj (.inp n!"TnueduRR_1111")))),
  (n!"1pcstautau", (.mul (.div (.div (.sqrt (.rat 2 1)) (.par n!"GF")) (.rat 4 1)) (.conj (.inp n!"VnueduLR_3322")))),
  (n!"7psbetau", (.mul (.div (.div (.sqrt (.rat 2 1)) (.par n!"GF")) (.rat 4 1)) (.sub (.add (.div (.mul (.rat (-2) 1) (.sub (.div (.inp n!"SedRL_1323") (.rat 2 1)) (.div (.conj (.inp n!"SedRR_3132")) (.rat 2 1)))) (.rat 3 1)) (.add (.div (.inp n!"TedRR_1323") (.rat 2 1)) (.div (.conj (.inp n!"TedRR_3132")) (.rat 2 1)))) (.sub (.div (.inp n!"TedRR_1323") (.rat 2 1)) (.div (.conj (.inp n!"TedRR_3132")) (.rat 2 1)))))),
  (n!"3pdbds", (.mul (.div (.div (.sqrt (.rat 2 1)) (.par n!"GF")) (.rat 4 1)) (.sub (.div (.inp n!"VddRR_1213") (.rat 12 1)) (.div (.sub (.inp n!"V1ddLR_1213") (.div (.inp n!"V8ddLR_1213") (.mul (.rat 2 1) (.rat 3 1)))) (.rat 12 1))))),
  (n!"8dsuc", (.mul (.div (.div (.sqrt (.rat 2 1)) (.par n!"GF")) (.rat 4 1)) (.sub (.add (.mul (.rat 2 1) (.add (.div (.neg (.inp n!"S1udduRR_1212")) (.rat 8 1)) (.div (.inp n!"S8udduRR_1212") (.mul (.rat 16 1) (.rat 3 1))))) (.div (.mul (.rat 2 1) (.add (.add (.div (.neg (.inp n!"S1udduRR_1212")) (.rat 2 1)) (.div (.inp n!"S8udduRR_1212") (.mul (.rat 4 1) (.rat 3 1)))) (.div (.inp n!"S8udRR_1212") (.rat 2 1)))) (.rat 3 1))) (.div (.mul (.rat 2 1) (.add (.mul (.rat (-2) 1) (.conj (.inp n!"V1udduLR_2121"))) (.div (.conj (.inp n!"V8udduLR_2121")) (.rat 3 1)))) (.rat 3 1))))),
  (n!"3pdsuu", (.mul (.div (.div (.sqrt (.rat 2 1)) (.par n!"GF")) (.rat 4 1)) (.sub (.add (.sub (.div (.sub (.inp n!"V1udRR_1112") (.div (.inp n!"V8udRR_1112") (.mul (.rat 2 1) (.rat 3 1)))) (.rat 12 1)) (.div (.sub (.inp n!"V1udLR_1112") (.div (.inp n!"V8udLR_1112") (.mul (.rat 2 1) (.rat 3 1)))) (.rat 12 1))) (.div (.div (.inp n!"V8udRR_1112") (.rat 2 1)) (.mul (.rat 12 1) (.rat 3 1)))) (.div (.div (.inp n!"V8udLR_1112") (.rat 2 1)) (.mul (.rat 12 1) (.rat 3 1)))))),
  (n!"7pcbee", (.mul (.div (.div (.sqrt (.rat 2 1)) (.par n!"GF")) (.rat 4 1)) (.conj (.inp n!"TnueduRR_1132")))),
  (n!"1pcstaumu", (.mul (.div (.div (.sqrt (.rat 2 1)) (.par n!"GF")) (.rat 4 1)) (.conj (.inp n!"VnueduLR_2322")))),
  (n!"6dsuc", (.mul (.div (.div (.sqrt (.rat 2 1)) (.par n!"GF")) (.rat 4 1)) (.add (.div (.mul (.rat (-2) 1) (.add (.add (.div (.neg (.inp n!"S1udduRR_1212")) (.rat 2 1)) (.div (.inp n!"S8udduRR_1212") (.mul (.rat 4 1) (.rat 3 1)))) (.div (.inp n!"S8udRR_1212") (.rat 2 1)))) (.rat 3 1)) (.div (.mul (.rat 8 1) (.add (.mul (.rat (-2) 1) (.conj (.inp n!"V1udduLR_2121"))) (.div (.conj (.inp n!"V8udduLR_2121")) (.rat 3 1)))) (.rat 3 1))))),
  (n!"5pusemu", (.mul (.div (.div (.sqrt (.rat 2 1)) (.par n!"GF")) (.rat 4 1)) (.conj (.inp n!"SnueduRR_2121")))),
  (n!"7pudmutau", (.mul (.div (.div (.sqrt (.rat 2 1)) (.par n!"GF")) (.rat 4 1)) (.conj (.inp n!"TnueduRR_3211")))),
  (n!"7dbmue", (.mul (.div (.div (.sqrt (.rat 2 1)) (.par n!"GF")) (.rat 4 1)) (.add (.add (.div (.mul (.rat 2 1) (.add (.div (.neg (.conj (.inp n!"SedRL_1231"))) (.rat 2 1)) (.div (.inp n!"SedRR_2113") (.rat 2 1)))) (.rat 3 1)) (.add (.div (.inp n!"TedRR_2113") (.rat 2 1)) (.div (.conj (.inp n!"TedRR_1231")) (.rat 2 1)))) (.sub (.div (.inp n!"TedRR_2113") (.rat 2 1)) (.div (.conj (.inp n!"TedRR_1231")) (.rat 2 1))))))]

def JMS_to_Bern_17 : List (ℕ × Sym) := [
  (n!"8sbcu", (.mul (.div (.div (.sqrt (.rat 2 1)) (.par n!"GF")) (.rat 4 1)) (.sub (.add (.mul (.rat 2 1) (.add (.div (.neg (.inp n!"S1udduRR_2321")) (.rat 8 1)) (.div (.inp n!"S8udduRR_2321") (.mul (.rat 16 1) (.rat 3 1))))) (.div (.mul (.rat 2 1) (.add (.add (.div (.neg (.inp n!"S1udduRR_2321")) (.rat 2 1)) (.div (.inp n!"S8udduRR_2321") (.mul (.rat 4 1) (.rat 3 1)))) (.div (.inp n!"S8udRR_2123") (.rat 2 1)))) (.rat 3 1))) (.div (.mul (.rat 2 1) (.add (.mul (.rat (-2) 1) (.conj (.inp n!"V1udduLR_1232"))) (.div (.conj (.inp n!"V8udduLR_1232")) (.rat 3 1)))) (.rat 3 1))))),
  (n!"4dsuc", (.mul (.div (.div (.sqrt (.rat 2 1)) (.par n!"GF")) (.rat 4 1)) (.sub (.div (.div (.inp n!"V8udLL_1212") (.rat 2 1)) (.rat 6 1)) (.div (.div (.inp n!"V8duLR_1212") (.rat 2 1)) (.rat 6 1))))),
  (n!"7psbsd", (.mul (.div (.div (.sqrt (.rat 2 1)) (.par n!"GF")) (.rat 4 1)) (.add (.sub (.div (.sub (.sub (.inp n!"S1ddRR_2123") (.div (.inp n!"S8ddRR_2123") (.rat 4 1))) (.div (.inp n!"S8ddRR_2123") (.mul (.rat 2 1) (.rat 3 1)))) (.rat 3 1)) (.div (.neg (.conj (.inp n!"V8ddLR_1232"))) (.rat 3 1))) (.div (.neg (.inp n!"S8ddRR_2123")) (.rat 16 1))))),
  (n!"5ubtautau", (.mul (.div (.div (.sqrt (.rat 2 1)) (.par n!"GF")) (.rat 4 1)) (.conj (.inp n!"SnueduRL_3331")))),
  (n!"5psbee", (.mul (.div (.div (.sqrt (.rat 2 1)) (.par n!"GF")) (.rat 4 1)) (.add (.div (.mul (.rat 5 1) (.sub (.div (.inp n!"SedRL_1123") (.rat 2 1)) (.div (.conj (.inp n!"SedRR_1132")) (.rat 2 1)))) (.rat 3 1)) (.add (.div (.inp n!"SedRL_1123") (.rat 2 1)) (.div (.conj (.inp n!"SedRR_1132")) (.rat 2 1)))))),
  (n!"5udtaumu", (.mul (.div (.div (.sqrt (.rat 2 1)) (.par n!"GF")) (.rat 4 1)) (.conj (.inp n!"SnueduRL_2311")))),
  (n!"6pdsbb", (.mul (.div (.div (.sqrt (.rat 2 1)) (.par n!"GF")) (.rat 4 1)) (.add (.div (.mul (.rat (-2) 1) (.add (.add (.div (.neg (.conj (.inp n!"S1ddRR_2331"))) (.rat 2 1)) (.div (.div (.conj (.inp n!"S8ddRR_2331")) (.rat 4 1)) (.rat 3 1))) (.div (.conj (.inp n!"S8ddRR_2133")) (.rat 2 1)))) (.rat 3 1)) (.div (.mul (.rat 8 1) (.add (.mul (.rat (-2) 1) (.conj (.inp n!"V1ddLR_2331"))) (.div (.conj (.inp n!"V8ddLR_2331")) (.rat 3 1)))) (.rat 3 1))))),
  (n!"6sbcu", (.mul (.div (.div (.sqrt (.rat 2 1)) (.par n!"GF")) (.rat 4 1)) (.add (.div (.mul (.rat (-2) 1) (.add (.add (.div (.neg (.inp n!"S1udduRR_2321")) (.rat 2 1)) (.div (.inp n!"S8udduRR_2321") (.mul (.rat 4 1) (.rat 3 1)))) (.div (.inp n!"S8udRR_2123") (.rat 2 1)))) (.rat 3 1)) (.div (.mul (.rat 8 1) (.add (.mul (.rat (-2) 1) (.conj (.inp n!"V1udduLR_1232"))) (.div (.conj (.inp n!"V8udduLR_1232")) (.rat 3 1)))) (.rat 3 1))))),
  (n!"1psbdd", (.mul (.div (.div (.sqrt (.rat 2 1)) (.par n!"GF")) (.rat 4 1)) (.add (.sub (.add (.div (.neg (.inp n!"VddRR_1123")) (.rat 3 1)) (.div (.mul (.rat 4 1) (.sub (.inp n!"V1ddLR_1123") (.div (.inp n!"V8ddLR_1123") (.mul (.rat 2 1) (.rat 3 1))))) (.rat 3 1))) (.div (.conj (.inp n!"VddRR_1231")) (.mul (.rat 3 1) (.rat 3 1)))) (.div (.mul (.rat 4 1) (.div (.inp n!"V8ddLR_1123") (.rat 2 1))) (.mul (.rat 3 1) (.rat 3 1)))))),
  (n!"8dbcc", (.mul (.div (.div (.sqrt (.rat 2 1)) (.par n!"GF")) (.rat 4 1)) (.sub (.add (.mul (.rat 2 1) (.add (.div (.neg (.inp n!"S1udduRR_2312")) (.rat 8 1)) (.div (.inp n!"S8udduRR_2312") (.mul (.rat 16 1) (.rat 3 1))))) (.div (.mul (.rat 2 1) (.add (.add (.div (.neg (.inp n!"S1udduRR_2312")) (.rat 2 1)) (.div (.inp n!"S8udduRR_2312") (.mul (.rat 4 1) (.rat 3 1)))) (.div (.inp n!"S8udRR_2213") (.rat 2 1)))) (.rat 3 1))) (.div (.mul (.rat 2 1) (.add (.mul (.rat (-2) 1) (.conj (.inp n!"V1udduLR_2132"))) (.div (.conj (.inp n!"V8udduLR_2132")) (.rat 3 1)))) (.rat 3 1))))),
  (n!"2dsuc", (.mul (.div (.div (.sqrt (.rat 2 1)) (.par n!"GF")) (.rat 4 1)) (.add (.div (.mul (.rat (-2) 1) (.div (.inp n!"V8udLL_1212") (.rat 2 1))) (.rat 3 1)) (.div (.mul (.rat 8 1) (.div (.inp n!"V8duLR_1212") (.rat 2 1))) (.rat 3 1))))),
  (n!"3pdbcu", (.mul (.div (.div (.sqrt (.rat 2 1)) (.par n!"GF")) (.rat 4 1)) (.sub (.add (.sub (.div (.sub (.conj (.inp n!"V1udRR_1231")) (.div (.conj (.inp n!"V8udRR_1231")) (.mul (.rat 2 1) (.rat 3 1)))) (.rat 12 1)) (.div (.sub (.conj (.inp n!"V1udLR_1231")) (.div (.conj (.inp n!"V8udLR_1231")) (.mul (.rat 2 1) (.rat 3 1)))) (.rat 12 1))) (.div (.div (.conj (.inp n!"V8udRR_1231")) (.rat 2 1)) (.mul (.rat 12 1) (.rat 3 1)))) (.div (.div (.conj (.inp n!"V8udLR_1231")) (.rat 2 1)) (.mul (.rat 12 1) (.rat 3 1)))))),
  (n!"3dbtaumu", (.mul (.div (.div (.sqrt (.rat 2 1)) (.par n!"GF")) (.rat 4 1)) (.div (.neg (.sub (.div (.inp n!"VdeLR_1332") (.rat 2 1)) (.div (.conj (.inp n!"VedLL_2331")) (.rat 2 1)))) (.rat 6 1)))),
  (n!"4sbcu", (.mul (.div (.div (.sqrt (.rat 2 1)) (.par n!"GF")) (.rat 4 1)) (.sub (.div (.div (.conj (.inp n!"V8udLL_1232")) (.rat 2 1)) (.rat 6 1)) (.div (.div (.inp n!"V8duLR_2321") (.rat 2 1)) (.rat 6 1))))),
  (n!"6dbcc", (.mul (.div (.div (.sqrt (.rat 2 1)) (.par n!"GF")) (.rat 4 1)) (.add (.div (.mul (.rat (-2) 1) (.add (.add (.div (.neg (.inp n!"S1udduRR_2312")) (.rat 2 1)) (.div (.inp n!"S8udduRR_2312") (.mul (.rat 4 1) (.rat 3 1)))) (.div (.inp n!"S8udRR_2213") (.rat 2 1)))) (.rat 3 1)) (.div (.mul (.rat 8 1) (.add (.mul (.rat (-2) 1) (.conj (.inp n!"V1udduLR_2132"))) (.div (.conj (.inp n!"V8udduLR_2132")) (.rat 3 1)))) (.rat 3 1))))),
  (n!"nu1pdstautau", (.mul (.div (.div (.sqrt (.rat 2 1)) (.par n!"GF")) (.rat 4 1)) (.inp n!"VnudLR_3312"))),
  (n!"3pdstaue", (.mul (.div (.div (.sqrt (.rat 2 1)) (.par n!"GF")) (.rat 4 1)) (.div (.add (.div (.neg (.conj (.inp n!"VedLR_1321"))) (.rat 2 1)) (.div (.conj (.inp n!"VedRR_1321")) (.rat 2 1))) (.rat 6 1)))),
  (n!"1ubmutau", (.mul (.div (.div (.sqrt (.rat 2 1)) (.par n!"GF")) (.rat 4 1)) (.conj (.inp n!"VnueduLL_3231")))),
  (n!"7pcsemu", (.mul (.div (.div (.sqrt (.rat 2 1)) (.par n!"GF")) (.rat 4 1)) (.conj (.inp n!"TnueduRR_2122")))),
  (n!"2sbcu", (.mul (.div (.div (.sqrt (.rat 2 1)) (.par n!"GF")) (.rat 4 1)) (.add (.div (.mul (.rat (-2) 1) (.div (.conj (.inp n!"V8udLL_1232")) (.rat 2 1))) (.rat 3 1)) (.div (.mul (.rat 8 1) (.div (.inp n!"V8duLR_2321") (.rat 2 1))) (.rat 3 1))))),
  (n!"9psbtautau", (.mul (.div (.div (.sqrt (.rat 2 1)) (.par n!"GF")) (.rat 4 1)) (.div (.neg (.sub (.div (.inp n!"SedRL_3323") (.rat 2 1)) (.div (.conj (.inp n!"SedRR_3332")) (.rat 2 1)))) (.rat 24 1)))),
  (n!"4dbcc", (.mul (.div (.div (.sqrt (.rat 2 1)) (.par n!"GF")) (.rat 4 1)) (.sub (.div (.div (.inp n!"V8udLL_2213") (.rat 2 1)) (.rat 6 1)) (.div (.div (.inp n!"V8duLR_1322") (.rat 2 1)) (.rat 6 1))))),
  (n!"1psbsb", (.mul (.div (.div (.sqrt (.rat 2 1)) (.par n!"GF")) (.rat 4 1)) (.inp n!"VddRR_2323"))),
  (n!"5cdmumu", (.mul (.div (.div (.sqrt (.rat 2 1)) (.par n!"GF")) (.rat 4 1)) (.conj (.inp n!"SnueduRL_2212")))),
  (n!"nu1dbtaue", (.mul (.div (.div (.sqrt (.rat 2 1)) (.par n!"GF")) (.rat 4 1)) (.conj (.inp n!"VnudLL_1331")))),
  (n!"2dbcc", (.mul (.div (.div (.sqrt (.rat 2 1)) (.par n!"GF")) (.rat 4 1)) (.add (.div (.mul (.rat (-2) 1) (.div (.inp n!"V8udLL_2213") (.rat 2 1))) (.rat 3 1)) (.div (.mul (.rat 8 1) (.div (.inp n!"V8duLR_1322") (.rat 2 1))) (.rat 3 1))))),
  (n!"7pusetau", (.mul (.div (.div (.sqrt (.rat 2 1)) (.par n!"GF")) (.rat 4 1)) (.conj (.inp n!"TnueduRR_3121")))),
  (n!"1usmue", (.mul (.div (.div (.sqrt (.rat 2 1)) (.par n!"GF")) (.rat 4 1)) (.conj (.inp n!"VnueduLL_1221")))),
  (n!"1sbtautau", (.mul (.div (.div (.sqrt (.rat 2 1)) (.par n!"GF")) (.rat 4 1)) (.add (.div (.mul (.rat 5 1) (.sub (.div (.inp n!"VdeLR_2333") (.rat 2 1)) (.div (.inp n!"VedLL_3323") (.rat 2 1)))) (.rat 3 1)) (.add (.div (.inp n!"VdeLR_2333") (.rat 2 1)) (.div (.inp n!"VedLL_3323") (.rat 2 1)))))),
  (n!"1ustaumu", (.mul (.div (.div (.sqrt (.rat 2 1)) (.par n!"GF")) (.rat 4 1)) (.conj (.inp n!"VnueduLL_2321")))),
  (n!"9pdsmutau", (.mul (.div (.div (.sqrt (.rat 2 1)) (.par n!"GF")) (.rat 4 1)) (.div (.neg (.sub (.div (.inp n!"SedRL_2312") (.rat 2 1)) (.div (.conj (.inp n!"SedRR_3221")) (.rat 2 1)))) (.rat 24 1)))),
  (n!"5cbmumu", (.mul (.div (.div (.sqrt (.rat 2 1)) (.par n!"GF")) (.rat 4 1)) (.conj (.inp n!"SnueduRL_2232")))),
  (n!"2pcucu", (.mul (.div (.div (.sqrt (.rat 2 1)) (.par n!"GF")) (.rat 4 1)) (.sub (.inp n!"S1uuRR_2121") (.div (.inp n!"S8uuRR_2121") (.mul (.rat 2 1) (.rat 3 1)))))),
  (n!"9sbtaue", (.mul (.div (.div (.sqrt (.rat 2 1)) (.par n!"GF")) (.rat 4 1)) (.div (.add (.div (.neg (.conj (.inp n!"SedRL_1332"))) (.rat 2 1)) (.div (.inp n!"SedRR_3123") (.rat 2 1))) (.rat 24 1)))),
  (n!"5pcdmumu", (.mul (.div (.div (.sqrt (.rat 2 1)) (.par n!"GF")) (.rat 4 1)) (.conj (.inp n!"SnueduRR_2212")))),
  (n!"7pdsuc", (.mul (.div (.div (.sqrt (.rat 2 1)) (.par n!"GF")) (.rat 4 1)) (.sub (.add (.add (.add (.sub (.div (.sub (.sub (.conj (.inp n!"S1udRR_2121")) (.div (.conj (.inp n!"S8udduRR_2121")) (.rat 4 1))) (.div (.conj (.inp n!"S8udRR_2121")) (.mul (.rat 2 1) (.rat 3 1)))) (.rat 3 1)) (.div (.neg (.inp n!"V8udduLR_1212")) (.rat 3 1))) (.div (.neg (.conj (.inp n!"S8udduRR_2121"))) (.rat 16 1))) (.div (.add (.div (.neg (.conj (.inp n!"S1udduRR_2121"))) (.rat 8 1)) (.div (.div (.conj (.inp n!"S8udduRR_2121")) (.rat 16 1)) (.rat 3 1))) (.rat 3 1))) (.div (.add (.add (.div (.neg (.conj (.inp n!"S1udduRR_2121"))) (.rat 2 1)) (.div (.conj (.inp n!"S8udduRR_2121")) (.mul (.rat 4 1) (.rat 3 1)))) (.div (.conj (.inp n!"S8udRR_2121")) (.rat 2 1))) (.mul (.rat 3 1) (.rat 3 1)))) (.div (.add (.mul (.rat (-2) 1) (.inp n!"V1udduLR_1212")) (.div (.inp n!"V8udduLR_1212") (.rat 3 1))) (.mul (.rat 3 1) (.rat 3 1)))))),
  (n!"8dbuu", (.mul (.div (.div (.sqrt (.rat 2 1)) (.par n!"GF")) (.rat 4 1)) (.sub (.add (.mul (.rat 2 1) (.add (.div (.neg (.inp n!"S1udduRR_1311")) (.rat 8 1)) (.div (.inp n!"S8udduRR_1311") (.mul (.rat 16 1) (.rat 3 1))))) (.div (.mul (.rat 2 1) (.add (.add (.div (.neg (.inp n!"S1udduRR_1311")) (.rat 2 1)) (.div (.inp n!"S8udduRR_1311") (.mul (.rat 4 1) (.rat 3 1)))) (.div (.inp n!"S8udRR_1113") (.rat 2 1)))) (.rat 3 1))) (.div (.mul (.rat 2 1) (.add (.mul (.rat (-2) 1) (.conj (.inp n!"V1udduLR_1131"))) (.div (.conj (.inp n!"V8udduLR_1131")) (.rat 3 1)))) (.rat 3 1))))),
  (n!"9psbmumu", (.mul (.div (.div (.sqrt (.rat 2 1)) (.par n!"GF")) (.rat 4 1)) (.div (.neg (.sub (.div (.inp n!"SedRL_2223") (.rat 2 1)) (.div (.conj (.inp n!"SedRR_2232")) (.rat 2 1)))) (.rat 24 1)))),
  (n!"5pcbmumu", (.mul (.div (.div (.sqrt (.rat 2 1)) (.par n!"GF")) (.rat 4 1)) (.conj (.inp n!"SnueduRR_2232")))),
  (n!"7pubee", (.mul (.div (.div (.sqrt (.rat 2 1)) (.par n!"GF")) (.rat 4 1)) (.conj (.inp n!"TnueduRR_1131")))),
  (n!"7gammads", (.mul (.div (.div (.sqrt (.rat 2 1)) (.par n!"GF")) (.rat 4 1)) (.mul (.div (.div (.mul (.sqrt (.mul (.mul (.rat 4 1) .pi) (.par n!"alpha_s"))) (.sqrt (.mul (.mul (.rat 4 1) .pi) (.par n!"alpha_s")))) (.sqrt (.mul (.mul (.rat 4 1) .pi) (.par n!"alpha_e")))) (.par n!"m_s")) (.inp n!"dgamma_12")))),
  (n!"6dbuu", (.mul (.div (.div (.sqrt (.rat 2 1)) (.par n!"GF")) (.rat 4 1)) (.add (.div (.mul (.rat (-2) 1) (.add (.add (.div (.neg (.inp n!"S1udduRR_1311")) (.rat 2 1)) (.div (.inp n!"S8udduRR_1311") (.mul (.rat 4 1) (.rat 3 1)))) (.div (.inp n!"S8udRR_1113") (.rat 2 1)))) (.rat 3 1)) (.div (.mul (.rat 8 1) (.add (.mul (.rat (-2) 1) (.conj (.inp n!"V1udduLR_1131"))) (.div (.conj (.inp n!"V8udduLR_1131")) (.rat 3 1)))) (.rat 3 1))))),
  (n!"9sbmue", (.mul (.div (.div (.sqrt (.rat 2 1)) (.par n!"GF")) (.rat 4 1)) (.div (.add (.div (.neg (.conj (.inp n!"SedRL_1232"))) (.rat 2 1)) (.div (.inp n!"SedRR_2123") (.rat 2 1))) (.rat 24 1)))),
  (n!"7psbcu", (.mul (.div (.div (.sqrt (.rat 2 1)) (.par n!"GF")) (.rat 4 1)) (.sub (.add (.add (.add (.sub (.div (.sub (.sub (.conj (.inp n!"S1udRR_1232")) (.div (.conj (.inp n!"S8udduRR_1232")) (.rat 4 1))) (.div (.conj (.inp n!"S8udRR_1232")) (.mul (.rat 2 1) (.rat 3 1)))) (.rat 3 1)) (.div (.neg (.inp n!"V8udduLR_2321")) (.rat 3 1))) (.div (.neg (.conj (.inp n!"S8udduRR_1232"))) (.rat 16 1))) (.div (.add (.div (.neg (.conj (.inp n!"S1udduRR_1232"))) (.rat 8 1)) (.div (.div (.conj (.inp n!"S8udduRR_1232")) (.rat 16 1)) (.rat 3 1))) (.rat 3 1))) (.div (.add (.add (.div (.neg (.conj (.inp n!"S1udduRR_1232"))) (.rat 2 1)) (.div (.conj (.inp n!"S8udduRR_1232")) (.mul (.rat 4 1) (.rat 3 1)))) (.div (.conj (.inp n!"S8udRR_1232")) (.rat 2 1))) (.mul (.rat 3 1) (.rat 3 1)))) (.div (.add (.mul (.rat (-2) 1) (.inp n!"V1udduLR_2321")) (.div (.inp n!"V8udduLR_2321") (.rat 3 1))) (.mul (.rat 3 1) (.rat 3 1)))))),
  (n!"9sbee", (.mul (.div (.div (.sqrt (.rat 2 1)) (.par n!"GF")) (.rat 4 1)) (.div (.add (.div (.neg (.conj (.inp n!"SedRL_1132"))) (.rat 2 1)) (.div (.inp n!"SedRR_1123") (.rat 2 1))) (.rat 24 1)))),
  (n!"8psbdd", (.mul (.div (.div (.sqrt (.rat 2 1)) (.par n!"GF")) (.rat 4 1)) (.sub (.add (.mul (.rat 2 1) (.add (.div (.neg (.conj (.inp n!"S1ddRR_1231"))) (.rat 8 1)) (.div (.div (.conj (.inp n!"S8ddRR_1231")) (.rat 16 1)) (.rat 3 1)))) (.div (.mul (.rat 2 1) (.add (.add (.div (.neg (.conj (.inp n!"S1ddRR_1231"))) (.rat 2 1)) (.div (.div (.conj (.inp n!"S8ddRR_1231")) (.rat 4 1)) (.rat 3 1))) (.div (.conj (.inp n!"S8ddRR_1132")) (.rat 2 1)))) (.rat 3 1))) (.div (.mul (.rat 2 1) (.add (.mul (.rat (-2) 1) (.inp n!"V1ddLR_1321")) (.div (.inp n!"V8ddLR_1321") (.rat 3 1)))) (.rat 3 1))))),
  (n!"4dbuu", (.mul (.div (.div (.sqrt (.rat 2 1)) (.par n!"GF")) (.rat 4 1)) (.sub (.div (.div (.inp n!"V8udLL_1113") (.rat 2 1)) (.rat 6 1)) (.div (.div (.inp n!"V8duLR_1311") (.rat 2 1)) (.rat 6 1))))),
  (n!"4psbcc", (.mul (.div (.div (.sqrt (.rat 2 1)) (.par n!"GF")) (.rat 4 1)) (.sub (.div (.div (.inp n!"V8udRR_2223") (.rat 2 1)) (.rat 6 1)) (.div (.div (.inp n!"V8udLR_2223") (.rat 2 1)) (.rat 6 1))))),
  (n!"nu1dstautau", (.mul (.div (.div (.sqrt (.rat 2 1)) (.par n!"GF")) (.rat 4 1)) (.inp n!"VnudLL_3312"))),
  (n!"1sbmutau", (.mul (.div (.div (.sqrt (.rat 2 1)) (.par n!"GF")) (.rat 4 1)) (.add (.div (.mul (.rat 5 1) (.sub (.div (.inp n!"VdeLR_2323") (.rat 2 1)) (.div (.inp n!"VedLL_2323") (.rat 2 1)))) (.rat 3 1)) (.add (.div (.inp n!"VdeLR_2323") (.rat 2 1)) (.div (.inp n!"VedLL_2323") (.rat 2 1))))))]

def JMS_to_Bern_18 : List (ℕ × Sym) := [
  (n!"5pcsemu", (.mul (.div (.div (.sqrt (.rat 2 1)) (.par n!"GF")) (.rat 4 1)) (.conj (.inp n!"SnueduRR_2122")))),
  (n!"1pcbtaumu", (.mul (.div (.div (.sqrt (.rat 2 1)) (.par n!"GF")) (.rat 4 1)) (.conj (.inp n!"VnueduLR_2332")))),
  (n!"7sbee", (.mul (.div (.div (.sqrt (.rat 2 1)) (.par n!"GF")) (.rat 4 1)) (.add (.add (.div (.mul (.rat 2 1) (.add (.div (.neg (.conj (.inp n!"SedRL_1132"))) (.rat 2 1)) (.div (.inp n!"SedRR_1123") (.rat 2 1)))) (.rat 3 1)) (.add (.div (.inp n!"TedRR_1123") (.rat 2 1)) (.div (.conj (.inp n!"TedRR_1132")) (.rat 2 1)))) (.sub (.div (.inp n!"TedRR_1123") (.rat 2 1)) (.div (.conj (.inp n!"TedRR_1132")) (.rat 2 1)))))),
  (n!"7pdbcc", (.mul (.div (.div (.sqrt (.rat 2 1)) (.par n!"GF")) (.rat 4 1)) (.sub (.add (.add (.add (.sub (.div (.sub (.sub (.conj (.inp n!"S1udRR_2231")) (.div (.conj (.inp n!"S8udduRR_2132")) (.rat 4 1))) (.div (.conj (.inp n!"S8udRR_2231")) (.mul (.rat 2 1) (.rat 3 1)))) (.rat 3 1)) (.div (.neg (.inp n!"V8udduLR_2312")) (.rat 3 1))) (.div (.neg (.conj (.inp n!"S8udduRR_2132"))) (.rat 16 1))) (.div (.add (.div (.neg (.conj (.inp n!"S1udduRR_2132"))) (.rat 8 1)) (.div (.div (.conj (.inp n!"S8udduRR_2132")) (.rat 16 1)) (.rat 3 1))) (.rat 3 1))) (.div (.add (.add (.div (.neg (.conj (.inp n!"S1udduRR_2132"))) (.rat 2 1)) (.div (.conj (.inp n!"S8udduRR_2132")) (.mul (.rat 4 1) (.rat 3 1)))) (.div (.conj (.inp n!"S8udRR_2231")) (.rat 2 1))) (.mul (.rat 3 1) (.rat 3 1)))) (.div (.add (.mul (.rat (-2) 1) (.inp n!"V1udduLR_2312")) (.div (.inp n!"V8udduLR_2312") (.rat 3 1))) (.mul (.rat 3 1) (.rat 3 1)))))),
  (n!"2dbuu", (.mul (.div (.div (.sqrt (.rat 2 1)) (.par n!"GF")) (.rat 4 1)) (.add (.div (.mul (.rat (-2) 1) (.div (.inp n!"V8udLL_1113") (.rat 2 1))) (.rat 3 1)) (.div (.mul (.rat 8 1) (.div (.inp n!"V8duLR_1311") (.rat 2 1))) (.rat 3 1))))),
  (n!"3pdbbb", (.mul (.div (.div (.sqrt (.rat 2 1)) (.par n!"GF")) (.rat 4 1)) (.sub (.div (.inp n!"VddRR_1333") (.rat 12 1)) (.div (.sub (.inp n!"V1ddLR_3313") (.div (.inp n!"V8ddLR_3313") (.mul (.rat 2 1) (.rat 3 1)))) (.rat 12 1))))),
  (n!"1pudetau", (.mul (.div (.div (.sqrt (.rat 2 1)) (.par n!"GF")) (.rat 4 1)) (.conj (.inp n!"VnueduLR_3111")))),
  (n!"5sbee", (.mul (.div (.div (.sqrt (.rat 2 1)) (.par n!"GF")) (.rat 4 1)) (.sub (.add (.div (.conj (.inp n!"SedRL_1132")) (.rat 2 1)) (.div (.inp n!"SedRR_1123") (.rat 2 1))) (.div (.mul (.rat 5 1) (.add (.div (.neg (.conj (.inp n!"SedRL_1132"))) (.rat 2 1)) (.div (.inp n!"SedRR_1123") (.rat 2 1)))) (.rat 3 1))))),
  (n!"1pdsee", (.mul (.div (.div (.sqrt (.rat 2 1)) (.par n!"GF")) (.rat 4 1)) (.sub (.add (.div (.inp n!"VedLR_1112") (.rat 2 1)) (.div (.inp n!"VedRR_1112") (.rat 2 1))) (.div (.mul (.rat 5 1) (.add (.div (.neg (.inp n!"VedLR_1112")) (.rat 2 1)) (.div (.inp n!"VedRR_1112") (.rat 2 1)))) (.rat 3 1))))),
  (n!"nu1pdsetau", (.mul (.div (.div (.sqrt (.rat 2 1)) (.par n!"GF")) (.rat 4 1)) (.inp n!"VnudLR_1312"))),
  (n!"1pubetau", (.mul (.div (.div (.sqrt (.rat 2 1)) (.par n!"GF")) (.rat 4 1)) (.conj (.inp n!"VnueduLR_3131")))),
  (n!"1ubemu", (.mul (.div (.div (.sqrt (.rat 2 1)) (.par n!"GF")) (.rat 4 1)) (.conj (.inp n!"VnueduLL_2131")))),
  (n!"3pdbtautau", (.mul (.div (.div (.sqrt (.rat 2 1)) (.par n!"GF")) (.rat 4 1)) (.div (.add (.div (.neg (.inp n!"VedLR_3313")) (.rat 2 1)) (.div (.inp n!"VedRR_3313") (.rat 2 1))) (.rat 6 1)))),
  (n!"1pusemu", (.mul (.div (.div (.sqrt (.rat 2 1)) (.par n!"GF")) (.rat 4 1)) (.conj (.inp n!"VnueduLR_2121")))),
  (n!"nu1psbtautau", (.mul (.div (.div (.sqrt (.rat 2 1)) (.par n!"GF")) (.rat 4 1)) (.inp n!"VnudLR_3323"))),
  (n!"7sbtaue", (.mul (.div (.div (.sqrt (.rat 2 1)) (.par n!"GF")) (.rat 4 1)) (.add (.add (.div (.mul (.rat 2 1) (.add (.div (.neg (.conj (.inp n!"SedRL_1332"))) (.rat 2 1)) (.div (.inp n!"SedRR_3123") (.rat 2 1)))) (.rat 3 1)) (.add (.div (.inp n!"TedRR_3123") (.rat 2 1)) (.div (.conj (.inp n!"TedRR_1332")) (.rat 2 1)))) (.sub (.div (.inp n!"TedRR_3123") (.rat 2 1)) (.div (.conj (.inp n!"TedRR_1332")) (.rat 2 1)))))),
  (n!"3sbee", (.mul (.div (.div (.sqrt (.rat 2 1)) (.par n!"GF")) (.rat 4 1)) (.div (.neg (.sub (.div (.inp n!"VdeLR_2311") (.rat 2 1)) (.div (.inp n!"VedLL_1123") (.rat 2 1)))) (.rat 6 1)))),
  (n!"1sbemu", (.mul (.div (.div (.sqrt (.rat 2 1)) (.par n!"GF")) (.rat 4 1)) (.add (.div (.mul (.rat 5 1) (.sub (.div (.inp n!"VdeLR_2312") (.rat 2 1)) (.div (.inp n!"VedLL_1223") (.rat 2 1)))) (.rat 3 1)) (.add (.div (.inp n!"VdeLR_2312") (.rat 2 1)) (.div (.inp n!"VedLL_1223") (.rat 2 1)))))),
  (n!"7pudtaumu", (.mul (.div (.div (.sqrt (.rat 2 1)) (.par n!"GF")) (.rat 4 1)) (.conj (.inp n!"TnueduRR_2311")))),
  (n!"5dsmutau", (.mul (.div (.div (.sqrt (.rat 2 1)) (.par n!"GF")) (.rat 4 1)) (.sub (.add (.div (.conj (.inp n!"SedRL_3221")) (.rat 2 1)) (.div (.inp n!"SedRR_2312") (.rat 2 1))) (.div (.mul (.rat 5 1) (.add (.div (.neg (.conj (.inp n!"SedRL_3221"))) (.rat 2 1)) (.div (.inp n!"SedRR_2312") (.rat 2 1)))) (.rat 3 1))))),
  (n!"1sbee", (.mul (.div (.div (.sqrt (.rat 2 1)) (.par n!"GF")) (.rat 4 1)) (.add (.div (.mul (.rat 5 1) (.sub (.div (.inp n!"VdeLR_2311") (.rat 2 1)) (.div (.inp n!"VedLL_1123") (.rat 2 1)))) (.rat 3 1)) (.add (.div (.inp n!"VdeLR_2311") (.rat 2 1)) (.div (.inp n!"VedLL_1123") (.rat 2 1)))))),
  (n!"10psbdd", (.mul (.div (.div (.sqrt (.rat 2 1)) (.par n!"GF")) (.rat 4 1)) (.sub (.div (.add (.add (.div (.neg (.conj (.inp n!"S1ddRR_1231"))) (.rat 2 1)) (.div (.div (.conj (.inp n!"S8ddRR_1231")) (.rat 4 1)) (.rat 3 1))) (.div (.conj (.inp n!"S8ddRR_1132")) (.rat 2 1))) (.rat 24 1)) (.div (.add (.mul (.rat (-2) 1) (.inp n!"V1ddLR_1321")) (.div (.inp n!"V8ddLR_1321") (.rat 3 1))) (.rat 24 1))))),
  (n!"7pcstaue", (.mul (.div (.div (.sqrt (.rat 2 1)) (.par n!"GF")) (.rat 4 1)) (.conj (.inp n!"TnueduRR_1322")))),
  (n!"nu1dsmumu", (.mul (.div (.div (.sqrt (.rat 2 1)) (.par n!"GF")) (.rat 4 1)) (.inp n!"VnudLL_2212"))),
  (n!"9pdsss", (.mul (.div (.div (.sqrt (.rat 2 1)) (.par n!"GF")) (.rat 4 1)) (.sub (.div (.sub (.sub (.conj (.inp n!"S1ddRR_2122")) (.div (.conj (.inp n!"S8ddRR_2122")) (.rat 4 1))) (.div (.div (.conj (.inp n!"S8ddRR_2122")) (.rat 2 1)) (.rat 3 1))) (.rat 48 1)) (.div (.neg (.inp n!"V8ddLR_2212")) (.rat 48 1))))),
  (n!"4psbuu", (.mul (.div (.div (.sqrt (.rat 2 1)) (.par n!"GF")) (.rat 4 1)) (.sub (.div (.div (.inp n!"V8udRR_1123") (.rat 2 1)) (.rat 6 1)) (.div (.div (.inp n!"V8udLR_1123") (.rat 2 1)) (.rat 6 1))))),
  (n!"1psbuc", (.mul (.div (.div (.sqrt (.rat 2 1)) (.par n!"GF")) (.rat 4 1)) (.add (.sub (.add (.div (.neg (.sub (.inp n!"V1udRR_1223") (.div (.inp n!"V8udRR_1223") (.mul (.rat 2 1) (.rat 3 1))))) (.rat 3 1)) (.div (.mul (.rat 4 1) (.sub (.inp n!"V1udLR_1223") (.div (.inp n!"V8udLR_1223") (.mul (.rat 2 1) (.rat 3 1))))) (.rat 3 1))) (.div (.div (.inp n!"V8udRR_1223") (.rat 2 1)) (.mul (.rat 3 1) (.rat 3 1)))) (.div (.mul (.rat 4 1) (.div (.inp n!"V8udLR_1223") (.rat 2 1))) (.mul (.rat 3 1) (.rat 3 1)))))),
  (n!"3pdsds", (.mul (.div (.div (.sqrt (.rat 2 1)) (.par n!"GF")) (.rat 4 1)) (.div (.inp n!"S8ddRR_1212") (.rat 2 1)))),
  (n!"1pdstautau", (.mul (.div (.div (.sqrt (.rat 2 1)) (.par n!"GF")) (.rat 4 1)) (.sub (.add (.div (.inp n!"VedLR_3312") (.rat 2 1)) (.div (.inp n!"VedRR_3312") (.rat 2 1))) (.div (.mul (.rat 5 1) (.add (.div (.neg (.inp n!"VedLR_3312")) (.rat 2 1)) (.div (.inp n!"VedRR_3312") (.rat 2 1)))) (.rat 3 1))))),
  (n!"7pdbuu", (.mul (.div (.div (.sqrt (.rat 2 1)) (.par n!"GF")) (.rat 4 1)) (.sub (.add (.add (.add (.sub (.div (.sub (.sub (.conj (.inp n!"S1udRR_1131")) (.div (.conj (.inp n!"S8udduRR_1131")) (.rat 4 1))) (.div (.conj (.inp n!"S8udRR_1131")) (.mul (.rat 2 1) (.rat 3 1)))) (.rat 3 1)) (.div (.neg (.inp n!"V8udduLR_1311")) (.rat 3 1))) (.div (.neg (.conj (.inp n!"S8udduRR_1131"))) (.rat 16 1))) (.div (.add (.div (.neg (.conj (.inp n!"S1udduRR_1131"))) (.rat 8 1)) (.div (.div (.conj (.inp n!"S8udduRR_1131")) (.rat 16 1)) (.rat 3 1))) (.rat 3 1))) (.div (.add (.add (.div (.neg (.conj (.inp n!"S1udduRR_1131"))) (.rat 2 1)) (.div (.conj (.inp n!"S8udduRR_1131")) (.mul (.rat 4 1) (.rat 3 1)))) (.div (.conj (.inp n!"S8udRR_1131")) (.rat 2 1))) (.mul (.rat 3 1) (.rat 3 1)))) (.div (.add (.mul (.rat (-2) 1) (.inp n!"V1udduLR_1311")) (.div (.inp n!"V8udduLR_1311") (.rat 3 1))) (.mul (.rat 3 1) (.rat 3 1)))))),
  (n!"1csmue", (.mul (.div (.div (.sqrt (.rat 2 1)) (.par n!"GF")) (.rat 4 1)) (.conj (.inp n!"VnueduLL_1222")))),
  (n!"4pdbuc", (.mul (.div (.div (.sqrt (.rat 2 1)) (.par n!"GF")) (.rat 4 1)) (.sub (.div (.div (.inp n!"V8udRR_1213") (.rat 2 1)) (.rat 6 1)) (.div (.div (.inp n!"V8udLR_1213") (.rat 2 1)) (.rat 6 1))))),
  (n!"7pcsee", (.mul (.div (.div (.sqrt (.rat 2 1)) (.par n!"GF")) (.rat 4 1)) (.conj (.inp n!"TnueduRR_1122")))),
  (n!"9pdbtaue", (.mul (.div (.div (.sqrt (.rat 2 1)) (.par n!"GF")) (.rat 4 1)) (.div (.neg (.sub (.div (.inp n!"SedRL_3113") (.rat 2 1)) (.div (.conj (.inp n!"SedRR_1331")) (.rat 2 1)))) (.rat 24 1)))),
  (n!"7pdsetau", (.mul (.div (.div (.sqrt (.rat 2 1)) (.par n!"GF")) (.rat 4 1)) (.sub (.add (.div (.mul (.rat (-2) 1) (.sub (.div (.inp n!"SedRL_1312") (.rat 2 1)) (.div (.conj (.inp n!"SedRR_3121")) (.rat 2 1)))) (.rat 3 1)) (.add (.div (.inp n!"TedRR_1312") (.rat 2 1)) (.div (.conj (.inp n!"TedRR_3121")) (.rat 2 1)))) (.sub (.div (.inp n!"TedRR_1312") (.rat 2 1)) (.div (.conj (.inp n!"TedRR_3121")) (.rat 2 1)))))),
  (n!"1ubtaumu", (.mul (.div (.div (.sqrt (.rat 2 1)) (.par n!"GF")) (.rat 4 1)) (.conj (.inp n!"VnueduLL_2331")))),
  (n!"9pdbmutau", (.mul (.div (.div (.sqrt (.rat 2 1)) (.par n!"GF")) (.rat 4 1)) (.div (.neg (.sub (.div (.inp n!"SedRL_2313") (.rat 2 1)) (.div (.conj (.inp n!"SedRR_3231")) (.rat 2 1)))) (.rat 24 1)))),
  (n!"7psbbb", (.mul (.div (.div (.sqrt (.rat 2 1)) (.par n!"GF")) (.rat 4 1)) (.add (.sub (.div (.sub (.sub (.conj (.inp n!"S1ddRR_3233")) (.div (.conj (.inp n!"S8ddRR_3233")) (.rat 4 1))) (.div (.div (.conj (.inp n!"S8ddRR_3233")) (.rat 2 1)) (.rat 3 1))) (.rat 3 1)) (.div (.neg (.inp n!"V8ddLR_3323")) (.rat 3 1))) (.div (.neg (.conj (.inp n!"S8ddRR_3233"))) (.rat 16 1))))),
  (n!"1cdmumu", (.mul (.div (.div (.sqrt (.rat 2 1)) (.par n!"GF")) (.rat 4 1)) (.conj (.inp n!"VnueduLL_2212")))),
  (n!"5dsemu", (.mul (.div (.div (.sqrt (.rat 2 1)) (.par n!"GF")) (.rat 4 1)) (.sub (.add (.div (.conj (.inp n!"SedRL_2121")) (.rat 2 1)) (.div (.inp n!"SedRR_1212") (.rat 2 1))) (.div (.mul (.rat 5 1) (.add (.div (.neg (.conj (.inp n!"SedRL_2121"))) (.rat 2 1)) (.div (.inp n!"SedRR_1212") (.rat 2 1)))) (.rat 3 1))))),
  (n!"1cbmumu", (.mul (.div (.div (.sqrt (.rat 2 1)) (.par n!"GF")) (.rat 4 1)) (.conj (.inp n!"VnueduLL_2232")))),
  (n!"5sbtaue", (.mul (.div (.div (.sqrt (.rat 2 1)) (.par n!"GF")) (.rat 4 1)) (.sub (.add (.div (.conj (.inp n!"SedRL_1332")) (.rat 2 1)) (.div (.inp n!"SedRR_3123") (.rat 2 1))) (.div (.mul (.rat 5 1) (.add (.div (.neg (.conj (.inp n!"SedRL_1332"))) (.rat 2 1)) (.div (.inp n!"SedRR_3123") (.rat 2 1)))) (.rat 3 1))))),
  (n!"8dscc", (.mul (.div (.div (.sqrt (.rat 2 1)) (.par n!"GF")) (.rat 4 1)) (.sub (.add (.mul (.rat 2 1) (.add (.div (.neg (.inp n!"S1udduRR_2212")) (.rat 8 1)) (.div (.inp n!"S8udduRR_2212") (.mul (.rat 16 1) (.rat 3 1))))) (.div (.mul (.rat 2 1) (.add (.add (.div (.neg (.inp n!"S1udduRR_2212")) (.rat 2 1)) (.div (.inp n!"S8udduRR_2212") (.mul (.rat 4 1) (.rat 3 1)))) (.div (.inp n!"S8udRR_2212") (.rat 2 1)))) (.rat 3 1))) (.div (.mul (.rat 2 1) (.add (.mul (.rat (-2) 1) (.conj (.inp n!"V1udduLR_2122"))) (.div (.conj (.inp n!"V8udduLR_2122")) (.rat 3 1)))) (.rat 3 1))))),
  (n!"9pdstaumu", (.mul (.div (.div (.sqrt (.rat 2 1)) (.par n!"GF")) (.rat 4 1)) (.div (.neg (.sub (.div (.inp n!"SedRL_3212") (.rat 2 1)) (.div (.conj (.inp n!"SedRR_2321")) (.rat 2 1)))) (.rat 24 1)))),
  (n!"nu1sbtautau", (.mul (.div (.div (.sqrt (.rat 2 1)) (.par n!"GF")) (.rat 4 1)) (.inp n!"VnudLL_3323"))),
  (n!"3pdscu", (.mul (.div (.div (.sqrt (.rat 2 1)) (.par n!"GF")) (.rat 4 1)) (.sub (.add (.sub (.div (.sub (.conj (.inp n!"V1udRR_1221")) (.div (.conj (.inp n!"V8udRR_1221")) (.mul (.rat 2 1) (.rat 3 1)))) (.rat 12 1)) (.div (.sub (.conj (.inp n!"V1udLR_1221")) (.div (.conj (.inp n!"V8udLR_1221")) (.mul (.rat 2 1) (.rat 3 1)))) (.rat 12 1))) (.div (.div (.conj (.inp n!"V8udRR_1221")) (.rat 2 1)) (.mul (.rat 12 1) (.rat 3 1)))) (.div (.div (.conj (.inp n!"V8udLR_1221")) (.rat 2 1)) (.mul (.rat 12 1) (.rat 3 1)))))),
  (n!"1pcdtaue", (.mul (.div (.div (.sqrt (.rat 2 1)) (.par n!"GF")) (.rat 4 1)) (.conj (.inp n!"VnueduLR_1312")))),
  (n!"5pudmutau", (.mul (.div (.div (.sqrt (.rat 2 1)) (.par n!"GF")) (.rat 4 1)) (.conj (.inp n!"SnueduRR_3211")))),
  (n!"6dscc", (.mul (.div (.div (.sqrt (.rat 2 1)) (.par n!"GF")) (.rat 4 1)) (.add (.div (.mul (.rat (-2) 1) (.add (.add (.div (.neg (.inp n!"S1udduRR_2212")) (.rat 2 1)) (.div (.inp n!"S8udduRR_2212") (.mul (.rat 4 1) (.rat 3 1)))) (.div (.inp n!"S8udRR_2212") (.rat 2 1)))) (.rat 3 1)) (.div (.mul (.rat 8 1) (.add (.mul (.rat (-2) 1) (.conj (.inp n!"V1udduLR_2122"))) (.div (.conj (.inp n!"V8udduLR_2122")) (.rat 3 1)))) (.rat 3 1))))),
  (n!"7pudemu", (.mul (.div (.div (.sqrt (.rat 2 1)) (.par n!"GF")) (.rat 4 1)) (.conj (.inp n!"TnueduRR_2111"))))]

def JMS_to_Bern_19 : List (ℕ × Sym) := [
  (n!"5psbtaue", (.mul (.div (.div (.sqrt (.rat 2 1)) (.par n!"GF")) (.rat 4 1)) (.add (.div (.mul (.rat 5 1) (.sub (.div (.inp n!"SedRL_3123") (.rat 2 1)) (.div (.conj (.inp n!"SedRR_1332")) (.rat 2 1)))) (.rat 3 1)) (.add (.div (.inp n!"SedRL_3123") (.rat 2 1)) (.div (.conj (.inp n!"SedRR_1332")) (.rat 2 1)))))),
  (n!"1pcbtaue", (.mul (.div (.div (.sqrt (.rat 2 1)) (.par n!"GF")) (.rat 4 1)) (.conj (.inp n!"VnueduLR_1332")))),
  (n!"4dscc", (.mul (.div (.div (.sqrt (.rat 2 1)) (.par n!"GF")) (.rat 4 1)) (.sub (.div (.div (.inp n!"V8udLL_2212") (.rat 2 1)) (.rat 6 1)) (.div (.div (.inp n!"V8duLR_1222") (.rat 2 1)) (.rat 6 1))))),
  (n!"2dscc", (.mul (.div (.div (.sqrt (.rat 2 1)) (.par n!"GF")) (.rat 4 1)) (.add (.div (.mul (.rat (-2) 1) (.div (.inp n!"V8udLL_2212") (.rat 2 1))) (.rat 3 1)) (.div (.mul (.rat 8 1) (.div (.inp n!"V8duLR_1222") (.rat 2 1))) (.rat 3 1))))),
  (n!"nu1sbetau", (.mul (.div (.div (.sqrt (.rat 2 1)) (.par n!"GF")) (.rat 4 1)) (.inp n!"VnudLL_1323"))),
  (n!"1cbemu", (.mul (.div (.div (.sqrt (.rat 2 1)) (.par n!"GF")) (.rat 4 1)) (.conj (.inp n!"VnueduLL_2132")))),
  (n!"1pcsemu", (.mul (.div (.div (.sqrt (.rat 2 1)) (.par n!"GF")) (.rat 4 1)) (.conj (.inp n!"VnueduLR_2122")))),
  (n!"8psbuc", (.mul (.div (.div (.sqrt (.rat 2 1)) (.par n!"GF")) (.rat 4 1)) (.sub (.add (.mul (.rat 2 1) (.add (.div (.neg (.conj (.inp n!"S1udduRR_2231"))) (.rat 8 1)) (.div (.div (.conj (.inp n!"S8udduRR_2231")) (.rat 16 1)) (.rat 3 1)))) (.div (.mul (.rat 2 1) (.add (.add (.div (.neg (.conj (.inp n!"S1udduRR_2231"))) (.rat 2 1)) (.div (.conj (.inp n!"S8udduRR_2231")) (.mul (.rat 4 1) (.rat 3 1)))) (.div (.conj (.inp n!"S8udRR_2132")) (.rat 2 1)))) (.rat 3 1))) (.div (.mul (.rat 2 1) (.add (.mul (.rat (-2) 1) (.inp n!"V1udduLR_1322")) (.div (.inp n!"V8udduLR_1322") (.rat 3 1)))) (.rat 3 1))))),
  (n!"3psbss", (.mul (.div (.div (.sqrt (.rat 2 1)) (.par n!"GF")) (.rat 4 1)) (.sub (.div (.inp n!"VddRR_2223") (.rat 12 1)) (.div (.sub (.inp n!"V1ddLR_2223") (.div (.inp n!"V8ddLR_2223") (.mul (.rat 2 1) (.rat 3 1)))) (.rat 12 1))))),
  (n!"1sbtaumu", (.mul (.div (.div (.sqrt (.rat 2 1)) (.par n!"GF")) (.rat 4 1)) (.add (.div (.mul (.rat 5 1) (.sub (.div (.inp n!"VdeLR_2332") (.rat 2 1)) (.div (.conj (.inp n!"VedLL_2332")) (.rat 2 1)))) (.rat 3 1)) (.add (.div (.inp n!"VdeLR_2332") (.rat 2 1)) (.div (.conj (.inp n!"VedLL_2332")) (.rat 2 1)))))),
  (n!"1pdbetau", (.mul (.div (.div (.sqrt (.rat 2 1)) (.par n!"GF")) (.rat 4 1)) (.sub (.add (.div (.inp n!"VedLR_1313") (.rat 2 1)) (.div (.inp n!"VedRR_1313") (.rat 2 1))) (.div (.mul (.rat 5 1) (.add (.div (.neg (.inp n!"VedLR_1313")) (.rat 2 1)) (.div (.inp n!"VedRR_1313") (.rat 2 1)))) (.rat 3 1))))),
  (n!"6pdbss", (.mul (.div (.div (.sqrt (.rat 2 1)) (.par n!"GF")) (.rat 4 1)) (.add (.div (.mul (.rat (-2) 1) (.add (.add (.div (.neg (.conj (.inp n!"S1ddRR_2132"))) (.rat 2 1)) (.div (.div (.conj (.inp n!"S8ddRR_2132")) (.rat 4 1)) (.rat 3 1))) (.div (.conj (.inp n!"S8ddRR_2231")) (.rat 2 1)))) (.rat 3 1)) (.div (.mul (.rat 8 1) (.add (.mul (.rat (-2) 1) (.inp n!"V1ddLR_2312")) (.div (.inp n!"V8ddLR_2312") (.rat 3 1)))) (.rat 3 1))))),
  (n!"5dbdb", (.mul (.div (.div (.sqrt (.rat 2 1)) (.par n!"GF")) (.rat 4 1)) (.add (.mul (.rat (-2) 1) (.inp n!"V1ddLR_1313")) (.div (.inp n!"V8ddLR_1313") (.rat 3 1))))),
  (n!"8dsuu", (.mul (.div (.div (.sqrt (.rat 2 1)) (.par n!"GF")) (.rat 4 1)) (.sub (.add (.mul (.rat 2 1) (.add (.div (.neg (.inp n!"S1udduRR_1211")) (.rat 8 1)) (.div (.inp n!"S8udduRR_1211") (.mul (.rat 16 1) (.rat 3 1))))) (.div (.mul (.rat 2 1) (.add (.add (.div (.neg (.inp n!"S1udduRR_1211")) (.rat 2 1)) (.div (.inp n!"S8udduRR_1211") (.mul (.rat 4 1) (.rat 3 1)))) (.div (.inp n!"S8udRR_1112") (.rat 2 1)))) (.rat 3 1))) (.div (.mul (.rat 2 1) (.add (.mul (.rat (-2) 1) (.conj (.inp n!"V1udduLR_1121"))) (.div (.conj (.inp n!"V8udduLR_1121")) (.rat 3 1)))) (.rat 3 1))))),
  (n!"9dstaue", (.mul (.div (.div (.sqrt (.rat 2 1)) (.par n!"GF")) (.rat 4 1)) (.div (.add (.div (.neg (.conj (.inp n!"SedRL_1321"))) (.rat 2 1)) (.div (.inp n!"SedRR_3112") (.rat 2 1))) (.rat 24 1)))),
  (n!"5dbmutau", (.mul (.div (.div (.sqrt (.rat 2 1)) (.par n!"GF")) (.rat 4 1)) (.sub (.add (.div (.conj (.inp n!"SedRL_3231")) (.rat 2 1)) (.div (.inp n!"SedRR_2313") (.rat 2 1))) (.div (.mul (.rat 5 1) (.add (.div (.neg (.conj (.inp n!"SedRL_3231"))) (.rat 2 1)) (.div (.inp n!"SedRR_2313") (.rat 2 1)))) (.rat 3 1))))),
  (n!"7pusee", (.mul (.div (.div (.sqrt (.rat 2 1)) (.par n!"GF")) (.rat 4 1)) (.conj (.inp n!"TnueduRR_1121")))),
  (n!"1psbtautau", (.mul (.div (.div (.sqrt (.rat 2 1)) (.par n!"GF")) (.rat 4 1)) (.sub (.add (.div (.inp n!"VedLR_3323") (.rat 2 1)) (.div (.inp n!"VedRR_3323") (.rat 2 1))) (.div (.mul (.rat 5 1) (.add (.div (.neg (.inp n!"VedLR_3323")) (.rat 2 1)) (.div (.inp n!"VedRR_3323") (.rat 2 1)))) (.rat 3 1))))),
  (n!"3dbdb", (.mul (.div (.div (.sqrt (.rat 2 1)) (.par n!"GF")) (.rat 4 1)) (.div (.conj (.inp n!"S8ddRR_3131")) (.rat 2 1)))),
  (n!"3sbtaue", (.mul (.div (.div (.sqrt (.rat 2 1)) (.par n!"GF")) (.rat 4 1)) (.div (.neg (.sub (.div (.inp n!"VdeLR_2331") (.rat 2 1)) (.div (.conj (.inp n!"VedLL_1332")) (.rat 2 1)))) (.rat 6 1)))),
  (n!"6dsuu", (.mul (.div (.div (.sqrt (.rat 2 1)) (.par n!"GF")) (.rat 4 1)) (.add (.div (.mul (.rat (-2) 1) (.add (.add (.div (.neg (.inp n!"S1udduRR_1211")) (.rat 2 1)) (.div (.inp n!"S8udduRR_1211") (.mul (.rat 4 1) (.rat 3 1)))) (.div (.inp n!"S8udRR_1112") (.rat 2 1)))) (.rat 3 1)) (.div (.mul (.rat 8 1) (.add (.mul (.rat (-2) 1) (.conj (.inp n!"V1udduLR_1121"))) (.div (.conj (.inp n!"V8udduLR_1121")) (.rat 3 1)))) (.rat 3 1))))),
  (n!"9pdsmumu", (.mul (.div (.div (.sqrt (.rat 2 1)) (.par n!"GF")) (.rat 4 1)) (.div (.neg (.sub (.div (.inp n!"SedRL_2212") (.rat 2 1)) (.div (.conj (.inp n!"SedRR_2221")) (.rat 2 1)))) (.rat 24 1)))),
  (n!"7pdsmutau", (.mul (.div (.div (.sqrt (.rat 2 1)) (.par n!"GF")) (.rat 4 1)) (.sub (.add (.div (.mul (.rat (-2) 1) (.sub (.div (.inp n!"SedRL_2312") (.rat 2 1)) (.div (.conj (.inp n!"SedRR_3221")) (.rat 2 1)))) (.rat 3 1)) (.add (.div (.inp n!"TedRR_2312") (.rat 2 1)) (.div (.conj (.inp n!"TedRR_3221")) (.rat 2 1)))) (.sub (.div (.inp n!"TedRR_2312") (.rat 2 1)) (.div (.conj (.inp n!"TedRR_3221")) (.rat 2 1)))))),
  (n!"5ustaue", (.mul (.div (.div (.sqrt (.rat 2 1)) (.par n!"GF")) (.rat 4 1)) (.conj (.inp n!"SnueduRL_1321")))),
  (n!"1dbdb", (.mul (.div (.div (.sqrt (.rat 2 1)) (.par n!"GF")) (.rat 4 1)) (.inp n!"VddLL_1313"))),
  (n!"4dsuu", (.mul (.div (.div (.sqrt (.rat 2 1)) (.par n!"GF")) (.rat 4 1)) (.sub (.div (.div (.inp n!"V8udLL_1112") (.rat 2 1)) (.rat 6 1)) (.div (.div (.inp n!"V8duLR_1211") (.rat 2 1)) (.rat 6 1))))),
  (n!"5pudemu", (.mul (.div (.div (.sqrt (.rat 2 1)) (.par n!"GF")) (.rat 4 1)) (.conj (.inp n!"SnueduRR_2111")))),
  (n!"5dstaumu", (.mul (.div (.div (.sqrt (.rat 2 1)) (.par n!"GF")) (.rat 4 1)) (.sub (.add (.div (.conj (.inp n!"SedRL_2321")) (.rat 2 1)) (.div (.inp n!"SedRR_3212") (.rat 2 1))) (.div (.mul (.rat 5 1) (.add (.div (.neg (.conj (.inp n!"SedRL_2321"))) (.rat 2 1)) (.div (.inp n!"SedRR_3212") (.rat 2 1)))) (.rat 3 1))))),
  (n!"9pdsmue", (.mul (.div (.div (.sqrt (.rat 2 1)) (.par n!"GF")) (.rat 4 1)) (.div (.neg (.sub (.div (.inp n!"SedRL_2112") (.rat 2 1)) (.div (.conj (.inp n!"SedRR_1221")) (.rat 2 1)))) (.rat 24 1)))),
  (n!"7pdscc", (.mul (.div (.div (.sqrt (.rat 2 1)) (.par n!"GF")) (.rat 4 1)) (.sub (.add (.add (.add (.sub (.div (.sub (.sub (.conj (.inp n!"S1udRR_2221")) (.div (.conj (.inp n!"S8udduRR_2122")) (.rat 4 1))) (.div (.conj (.inp n!"S8udRR_2221")) (.mul (.rat 2 1) (.rat 3 1)))) (.rat 3 1)) (.div (.neg (.inp n!"V8udduLR_2212")) (.rat 3 1))) (.div (.neg (.conj (.inp n!"S8udduRR_2122"))) (.rat 16 1))) (.div (.add (.div (.neg (.conj (.inp n!"S1udduRR_2122"))) (.rat 8 1)) (.div (.div (.conj (.inp n!"S8udduRR_2122")) (.rat 16 1)) (.rat 3 1))) (.rat 3 1))) (.div (.add (.add (.div (.neg (.conj (.inp n!"S1udduRR_2122"))) (.rat 2 1)) (.div (.conj (.inp n!"S8udduRR_2122")) (.mul (.rat 4 1) (.rat 3 1)))) (.div (.conj (.inp n!"S8udRR_2221")) (.rat 2 1))) (.mul (.rat 3 1) (.rat 3 1)))) (.div (.add (.mul (.rat (-2) 1) (.inp n!"V1udduLR_2212")) (.div (.inp n!"V8udduLR_2212") (.rat 3 1))) (.mul (.rat 3 1) (.rat 3 1)))))),
  (n!"8dbcu", (.mul (.div (.div (.sqrt (.rat 2 1)) (.par n!"GF")) (.rat 4 1)) (.sub (.add (.mul (.rat 2 1) (.add (.div (.neg (.inp n!"S1udduRR_2311")) (.rat 8 1)) (.div (.inp n!"S8udduRR_2311") (.mul (.rat 16 1) (.rat 3 1))))) (.div (.mul (.rat 2 1) (.add (.add (.div (.neg (.inp n!"S1udduRR_2311")) (.rat 2 1)) (.div (.inp n!"S8udduRR_2311") (.mul (.rat 4 1) (.rat 3 1)))) (.div (.inp n!"S8udRR_2113") (.rat 2 1)))) (.rat 3 1))) (.div (.mul (.rat 2 1) (.add (.mul (.rat (-2) 1) (.conj (.inp n!"V1udduLR_1132"))) (.div (.conj (.inp n!"V8udduLR_1132")) (.rat 3 1)))) (.rat 3 1))))),
  (n!"2dsuu", (.mul (.div (.div (.sqrt (.rat 2 1)) (.par n!"GF")) (.rat 4 1)) (.add (.div (.mul (.rat (-2) 1) (.div (.inp n!"V8udLL_1112") (.rat 2 1))) (.rat 3 1)) (.div (.mul (.rat 8 1) (.div (.inp n!"V8duLR_1211") (.rat 2 1))) (.rat 3 1))))),
  (n!"3pdsbb", (.mul (.div (.div (.sqrt (.rat 2 1)) (.par n!"GF")) (.rat 4 1)) (.sub (.add (.sub (.div (.inp n!"VddRR_1233") (.rat 12 1)) (.div (.sub (.inp n!"V1ddLR_3312") (.div (.inp n!"V8ddLR_3312") (.mul (.rat 2 1) (.rat 3 1)))) (.rat 12 1))) (.div (.inp n!"VddRR_1332") (.mul (.rat 12 1) (.rat 3 1)))) (.div (.div (.inp n!"V8ddLR_3312") (.rat 2 1)) (.mul (.rat 12 1) (.rat 3 1)))))),
  (n!"10psbuc", (.mul (.div (.div (.sqrt (.rat 2 1)) (.par n!"GF")) (.rat 4 1)) (.sub (.div (.add (.add (.div (.neg (.conj (.inp n!"S1udduRR_2231"))) (.rat 2 1)) (.div (.conj (.inp n!"S8udduRR_2231")) (.mul (.rat 4 1) (.rat 3 1)))) (.div (.conj (.inp n!"S8udRR_2132")) (.rat 2 1))) (.rat 24 1)) (.div (.add (.mul (.rat (-2) 1) (.inp n!"V1udduLR_1322")) (.div (.inp n!"V8udduLR_1322") (.rat 3 1))) (.rat 24 1))))),
  (n!"5pustaue", (.mul (.div (.div (.sqrt (.rat 2 1)) (.par n!"GF")) (.rat 4 1)) (.conj (.inp n!"SnueduRR_1321")))),
  (n!"5pdbee", (.mul (.div (.div (.sqrt (.rat 2 1)) (.par n!"GF")) (.rat 4 1)) (.add (.div (.mul (.rat 5 1) (.sub (.div (.inp n!"SedRL_1113") (.rat 2 1)) (.div (.conj (.inp n!"SedRR_1131")) (.rat 2 1)))) (.rat 3 1)) (.add (.div (.inp n!"SedRL_1113") (.rat 2 1)) (.div (.conj (.inp n!"SedRR_1131")) (.rat 2 1)))))),
  (n!"6dbcu", (.mul (.div (.div (.sqrt (.rat 2 1)) (.par n!"GF")) (.rat 4 1)) (.add (.div (.mul (.rat (-2) 1) (.add (.add (.div (.neg (.inp n!"S1udduRR_2311")) (.rat 2 1)) (.div (.inp n!"S8udduRR_2311") (.mul (.rat 4 1) (.rat 3 1)))) (.div (.inp n!"S8udRR_2113") (.rat 2 1)))) (.rat 3 1)) (.div (.mul (.rat 8 1) (.add (.mul (.rat (-2) 1) (.conj (.inp n!"V1udduLR_1132"))) (.div (.conj (.inp n!"V8udduLR_1132")) (.rat 3 1)))) (.rat 3 1))))),
  (n!"1pdbdd", (.mul (.div (.div (.sqrt (.rat 2 1)) (.par n!"GF")) (.rat 4 1)) (.add (.div (.neg (.inp n!"VddRR_1113")) (.rat 3 1)) (.div (.mul (.rat 4 1) (.sub (.inp n!"V1ddLR_1113") (.div (.inp n!"V8ddLR_1113") (.mul (.rat 2 1) (.rat 3 1))))) (.rat 3 1))))),
  (n!"4dbcu", (.mul (.div (.div (.sqrt (.rat 2 1)) (.par n!"GF")) (.rat 4 1)) (.sub (.div (.div (.conj (.inp n!"V8udLL_1231")) (.rat 2 1)) (.rat 6 1)) (.div (.div (.inp n!"V8duLR_1321") (.rat 2 1)) (.rat 6 1))))),
  (n!"9pdbtaumu", (.mul (.div (.div (.sqrt (.rat 2 1)) (.par n!"GF")) (.rat 4 1)) (.div (.neg (.sub (.div (.inp n!"SedRL_3213") (.rat 2 1)) (.div (.conj (.inp n!"SedRR_2331")) (.rat 2 1)))) (.rat 24 1)))),
  (n!"1pcsmumu", (.mul (.div (.div (.sqrt (.rat 2 1)) (.par n!"GF")) (.rat 4 1)) (.conj (.inp n!"VnueduLR_2222")))),
  (n!"7pcdemu", (.mul (.div (.div (.sqrt (.rat 2 1)) (.par n!"GF")) (.rat 4 1)) (.conj (.inp n!"TnueduRR_2112")))),
  (n!"7dstaue", (.mul (.div (.div (.sqrt (.rat 2 1)) (.par n!"GF")) (.rat 4 1)) (.add (.add (.div (.mul (.rat 2 1) (.add (.div (.neg (.conj (.inp n!"SedRL_1321"))) (.rat 2 1)) (.div (.inp n!"SedRR_3112") (.rat 2 1)))) (.rat 3 1)) (.add (.div (.inp n!"TedRR_3112") (.rat 2 1)) (.div (.conj (.inp n!"TedRR_1321")) (.rat 2 1)))) (.sub (.div (.inp n!"TedRR_3112") (.rat 2 1)) (.div (.conj (.inp n!"TedRR_1321")) (.rat 2 1)))))),
  (n!"2dbcu", (.mul (.div (.div (.sqrt (.rat 2 1)) (.par n!"GF")) (.rat 4 1)) (.add (.div (.mul (.rat (-2) 1) (.div (.conj (.inp n!"V8udLL_1231")) (.rat 2 1))) (.rat 3 1)) (.div (.mul (.rat 8 1) (.div (.inp n!"V8duLR_1321") (.rat 2 1))) (.rat 3 1))))),
  (n!"5cdetau", (.mul (.div (.div (.sqrt (.rat 2 1)) (.par n!"GF")) (.rat 4 1)) (.conj (.inp n!"SnueduRL_3112")))),
  (n!"1sbtaue", (.mul (.div (.div (.sqrt (.rat 2 1)) (.par n!"GF")) (.rat 4 1)) (.add (.div (.mul (.rat 5 1) (.sub (.div (.inp n!"VdeLR_2331") (.rat 2 1)) (.div (.conj (.inp n!"VedLL_1332")) (.rat 2 1)))) (.rat 3 1)) (.add (.div (.inp n!"VdeLR_2331") (.rat 2 1)) (.div (.conj (.inp n!"VedLL_1332")) (.rat 2 1)))))),
  (n!"7pdbds", (.mul (.div (.div (.sqrt (.rat 2 1)) (.par n!"GF")) (.rat 4 1)) (.add (.sub (.div (.sub (.sub (.inp n!"S1ddRR_1213") (.div (.inp n!"S8ddRR_1213") (.rat 4 1))) (.div (.inp n!"S8ddRR_1213") (.mul (.rat 2 1) (.rat 3 1)))) (.rat 3 1)) (.div (.neg (.inp n!"V8ddLR_1213")) (.rat 3 1))) (.div (.neg (.inp n!"S8ddRR_1213")) (.rat 16 1))))),
  (n!"3dsmue", (.mul (.div (.div (.sqrt (.rat 2 1)) (.par n!"GF")) (.rat 4 1)) (.div (.neg (.sub (.div (.inp n!"VdeLR_1221") (.rat 2 1)) (.div (.conj (.inp n!"VedLL_1221")) (.rat 2 1)))) (.rat 6 1)))),
  (n!"5cbetau", (.mul (.div (.div (.sqrt (.rat 2 1)) (.par n!"GF")) (.rat 4 1)) (.conj (.inp n!"SnueduRL_3132")))),
  (n!"3pdbmumu", (.mul (.div (.div (.sqrt (.rat 2 1)) (.par n!"GF")) (.rat 4 1)) (.div (.add (.div (.neg (.inp n!"VedLR_2213")) (.rat 2 1)) (.div (.inp n!"VedRR_2213") (.rat 2 1))) (.rat 6 1))))]

def JMS_to_Bern_20 : List (ℕ × Sym) := [
  (n!"1udmue", (.mul (.div (.div (.sqrt (.rat 2 1)) (.par n!"GF")) (.rat 4 1)) (.conj (.inp n!"VnueduLL_1211")))),
  (n!"7pdsuu", (.mul (.div (.div (.sqrt (.rat 2 1)) (.par n!"GF")) (.rat 4 1)) (.sub (.add (.add (.add (.sub (.div (.sub (.sub (.conj (.inp n!"S1udRR_1121")) (.div (.conj (.inp n!"S8udduRR_1121")) (.rat 4 1))) (.div (.conj (.inp n!"S8udRR_1121")) (.mul (.rat 2 1) (.rat 3 1)))) (.rat 3 1)) (.div (.neg (.inp n!"V8udduLR_1211")) (.rat 3 1))) (.div (.neg (.conj (.inp n!"S8udduRR_1121"))) (.rat 16 1))) (.div (.add (.div (.neg (.conj (.inp n!"S1udduRR_1121"))) (.rat 8 1)) (.div (.div (.conj (.inp n!"S8udduRR_1121")) (.rat 16 1)) (.rat 3 1))) (.rat 3 1))) (.div (.add (.add (.div (.neg (.conj (.inp n!"S1udduRR_1121"))) (.rat 2 1)) (.div (.conj (.inp n!"S8udduRR_1121")) (.mul (.rat 4 1) (.rat 3 1)))) (.div (.conj (.inp n!"S8udRR_1121")) (.rat 2 1))) (.mul (.rat 3 1) (.rat 3 1)))) (.div (.add (.mul (.rat (-2) 1) (.inp n!"V1udduLR_1211")) (.div (.inp n!"V8udduLR_1211") (.rat 3 1))) (.mul (.rat 3 1) (.rat 3 1)))))),
  (n!"5pcdetau", (.mul (.div (.div (.sqrt (.rat 2 1)) (.par n!"GF")) (.rat 4 1)) (.conj (.inp n!"SnueduRR_3112")))),
  (n!"4pdsuc", (.mul (.div (.div (.sqrt (.rat 2 1)) (.par n!"GF")) (.rat 4 1)) (.sub (.div (.div (.inp n!"V8udRR_1212") (.rat 2 1)) (.rat 6 1)) (.div (.div (.inp n!"V8udLR_1212") (.rat 2 1)) (.rat 6 1))))),
  (n!"5pudtaumu", (.mul (.div (.div (.sqrt (.rat 2 1)) (.par n!"GF")) (.rat 4 1)) (.conj (.inp n!"SnueduRR_2311")))),
  (n!"9psbetau", (.mul (.div (.div (.sqrt (.rat 2 1)) (.par n!"GF")) (.rat 4 1)) (.div (.neg (.sub (.div (.inp n!"SedRL_1323") (.rat 2 1)) (.div (.conj (.inp n!"SedRR_3132")) (.rat 2 1)))) (.rat 24 1)))),
  (n!"7pdsmue", (.mul (.div (.div (.sqrt (.rat 2 1)) (.par n!"GF")) (.rat 4 1)) (.sub (.add (.div (.mul (.rat (-2) 1) (.sub (.div (.inp n!"SedRL_2112") (.rat 2 1)) (.div (.conj (.inp n!"SedRR_1221")) (.rat 2 1)))) (.rat 3 1)) (.add (.div (.inp n!"TedRR_2112") (.rat 2 1)) (.div (.conj (.inp n!"TedRR_1221")) (.rat 2 1)))) (.sub (.div (.inp n!"TedRR_2112") (.rat 2 1)) (.div (.conj (.inp n!"TedRR_1221")) (.rat 2 1)))))),
  (n!"5pcbetau", (.mul (.div (.div (.sqrt (.rat 2 1)) (.par n!"GF")) (.rat 4 1)) (.conj (.inp n!"SnueduRR_3132")))),
  (n!"9pdbemu", (.mul (.div (.div (.sqrt (.rat 2 1)) (.par n!"GF")) (.rat 4 1)) (.div (.neg (.sub (.div (.inp n!"SedRL_1213") (.rat 2 1)) (.div (.conj (.inp n!"SedRR_2131")) (.rat 2 1)))) (.rat 24 1)))),
  (n!"5pcdtautau", (.mul (.div (.div (.sqrt (.rat 2 1)) (.par n!"GF")) (.rat 4 1)) (.conj (.inp n!"SnueduRR_3312")))),
  (n!"1udtautau", (.mul (.div (.div (.sqrt (.rat 2 1)) (.par n!"GF")) (.rat 4 1)) (.conj (.inp n!"VnueduLL_3311")))),
  (n!"9psbee", (.mul (.div (.div (.sqrt (.rat 2 1)) (.par n!"GF")) (.rat 4 1)) (.div (.neg (.sub (.div (.inp n!"SedRL_1123") (.rat 2 1)) (.div (.conj (.inp n!"SedRR_1132")) (.rat 2 1)))) (.rat 24 1)))),
  (n!"4psbcu", (.mul (.div (.div (.sqrt (.rat 2 1)) (.par n!"GF")) (.rat 4 1)) (.sub (.div (.div (.conj (.inp n!"V8udRR_1232")) (.rat 2 1)) (.rat 6 1)) (.div (.div (.conj (.inp n!"V8udLR_1232")) (.rat 2 1)) (.rat 6 1))))),
  (n!"5psbdd", (.mul (.div (.div (.sqrt (.rat 2 1)) (.par n!"GF")) (.rat 4 1)) (.add (.sub (.add (.div (.neg (.sub (.sub (.conj (.inp n!"S1ddRR_1132")) (.div (.conj (.inp n!"S8ddRR_1231")) (.rat 4 1))) (.div (.div (.conj (.inp n!"S8ddRR_1132")) (.rat 2 1)) (.rat 3 1)))) (.rat 3 1)) (.div (.mul (.rat 4 1) (.neg (.inp n!"V8ddLR_1321"))) (.rat 3 1))) (.div (.add (.add (.div (.neg (.conj (.inp n!"S1ddRR_1231"))) (.rat 2 1)) (.div (.div (.conj (.inp n!"S8ddRR_1231")) (.rat 4 1)) (.rat 3 1))) (.div (.conj (.inp n!"S8ddRR_1132")) (.rat 2 1))) (.mul (.rat 3 1) (.rat 3 1)))) (.div (.mul (.rat 4 1) (.add (.mul (.rat (-2) 1) (.inp n!"V1ddLR_1321")) (.div (.inp n!"V8ddLR_1321") (.rat 3 1)))) (.mul (.rat 3 1) (.rat 3 1)))))),
  (n!"1psbcc", (.mul (.div (.div (.sqrt (.rat 2 1)) (.par n!"GF")) (.rat 4 1)) (.add (.sub (.add (.div (.neg (.sub (.inp n!"V1udRR_2223") (.div (.inp n!"V8udRR_2223") (.mul (.rat 2 1) (.rat 3 1))))) (.rat 3 1)) (.div (.mul (.rat 4 1) (.sub (.inp n!"V1udLR_2223") (.div (.inp n!"V8udLR_2223") (.mul (.rat 2 1) (.rat 3 1))))) (.rat 3 1))) (.div (.div (.inp n!"V8udRR_2223") (.rat 2 1)) (.mul (.rat 3 1) (.rat 3 1)))) (.div (.mul (.rat 4 1) (.div (.inp n!"V8udLR_2223") (.rat 2 1))) (.mul (.rat 3 1) (.rat 3 1)))))),
  (n!"nu1pdbmue", (.mul (.div (.div (.sqrt (.rat 2 1)) (.par n!"GF")) (.rat 4 1)) (.conj (.inp n!"VnudLR_1231")))),
  (n!"7pdbcu", (.mul (.div (.div (.sqrt (.rat 2 1)) (.par n!"GF")) (.rat 4 1)) (.sub (.add (.add (.add (.sub (.div (.sub (.sub (.conj (.inp n!"S1udRR_1231")) (.div (.conj (.inp n!"S8udduRR_1132")) (.rat 4 1))) (.div (.conj (.inp n!"S8udRR_1231")) (.mul (.rat 2 1) (.rat 3 1)))) (.rat 3 1)) (.div (.neg (.inp n!"V8udduLR_2311")) (.rat 3 1))) (.div (.neg (.conj (.inp n!"S8udduRR_1132"))) (.rat 16 1))) (.div (.add (.div (.neg (.conj (.inp n!"S1udduRR_1132"))) (.rat 8 1)) (.div (.div (.conj (.inp n!"S8udduRR_1132")) (.rat 16 1)) (.rat 3 1))) (.rat 3 1))) (.div (.add (.add (.div (.neg (.conj (.inp n!"S1udduRR_1132"))) (.rat 2 1)) (.div (.conj (.inp n!"S8udduRR_1132")) (.mul (.rat 4 1) (.rat 3 1)))) (.div (.conj (.inp n!"S8udRR_1231")) (.rat 2 1))) (.mul (.rat 3 1) (.rat 3 1)))) (.div (.add (.mul (.rat (-2) 1) (.inp n!"V1udduLR_2311")) (.div (.inp n!"V8udduLR_2311") (.rat 3 1))) (.mul (.rat 3 1) (.rat 3 1)))))),
  (n!"9dbee", (.mul (.div (.div (.sqrt (.rat 2 1)) (.par n!"GF")) (.rat 4 1)) (.div (.add (.div (.neg (.conj (.inp n!"SedRL_1131"))) (.rat 2 1)) (.div (.inp n!"SedRR_1113") (.rat 2 1))) (.rat 24 1))))]

/-- the items returned by `JMS_to_Bern` (in the order of the search tree of the model) -/
def JMS_to_Bern : List (ℕ × Sym) :=
  JMS_to_Bern_0 ++ (JMS_to_Bern_1 ++ (JMS_to_Bern_2 ++ (JMS_to_Bern_3 ++ (JMS_to_Bern_4 ++ (JMS_to_Bern_5 ++ (JMS_to_Bern_6 ++ (JMS_to_Bern_7 ++ (JMS_to_Bern_8 ++ (JMS_to_Bern_9 ++ (JMS_to_Bern_10 ++ (JMS_to_Bern_11 ++ (JMS_to_Bern_12 ++ (JMS_to_Bern_13 ++ (JMS_to_Bern_14 ++ (JMS_to_Bern_15 ++ (JMS_to_Bern_16 ++ (JMS_to_Bern_17 ++ (JMS_to_Bern_18 ++ (JMS_to_Bern_19 ++ (JMS_to_Bern_20))))))))))))))))))))

end Verif.Gen.WetOut
