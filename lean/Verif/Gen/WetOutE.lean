import Verif.Model.Py

/-!
# The dictionary returned by `JMS_to_EOS`

GENERATED by tools/gen_wetout.lean.txt; that this is what the translator returns is proved in
`Lemmas/WetRunsE`.
-/

set_option autoImplicit false
set_option maxRecDepth 20000

namespace Verif.Gen.WetOut
open Verif.Py

def JMS_to_EOS_0 : List (ℕ × Sym) := [
  (n!"b->s::Re{c7}", (.mul (.div (.div (.div (.div (.sqrt (.rat 2 1)) (.par n!"GF")) (.ckm 2 2)) (.conj (.ckm 2 1))) (.rat 4 1)) (.re (.mul (.div (.div (.mul (.rat 16 1) (.mul .pi .pi)) (.par n!"m_b")) (.sqrt (.mul (.mul (.rat 4 1) .pi) (.par n!"alpha_e")))) (.inp n!"dgamma_23"))))),
  (n!"sbcu::c5'", (.mul (.add (.sub (.add (.div (.neg (.sub (.sub (.conj (.inp n!"S1udRR_1232")) (.div (.conj (.inp n!"S8udduRR_1232")) (.rat 4 1))) (.div (.conj (.inp n!"S8udRR_1232")) (.mul (.rat 2 1) (.rat 3 1))))) (.rat 3 1)) (.div (.mul (.rat 4 1) (.neg (.inp n!"V8udduLR_2321"))) (.rat 3 1))) (.div (.add (.add (.div (.neg (.conj (.inp n!"S1udduRR_1232"))) (.rat 2 1)) (.div (.conj (.inp n!"S8udduRR_1232")) (.mul (.rat 4 1) (.rat 3 1)))) (.div (.conj (.inp n!"S8udRR_1232")) (.rat 2 1))) (.mul (.rat 3 1) (.rat 3 1)))) (.div (.mul (.rat 4 1) (.add (.mul (.rat (-2) 1) (.inp n!"V1udduLR_2321")) (.div (.inp n!"V8udduLR_2321") (.rat 3 1)))) (.mul (.rat 3 1) (.rat 3 1)))) (.div (.div (.div (.sqrt (.rat 2 1)) (.rat 4 1)) (.par n!"GF")) (.mul (.ckm 1 2) (.conj (.ckm 0 1)))))),
  (n!"cbenue::cSR", (.mul (.div (.div (.div (.neg (.sqrt (.rat 2 1))) (.par n!"GF")) (.ckm 1 2)) (.rat 4 1)) (.conj (.inp n!"SnueduRL_1132")))),
  (n!"ubmunumu::cSR", (.mul (.div (.div (.div (.neg (.sqrt (.rat 2 1))) (.par n!"GF")) (.ckm 0 2)) (.rat 4 1)) (.conj (.inp n!"SnueduRL_2231")))),
  (n!"cbtaunutau::cSR", (.mul (.div (.div (.div (.neg (.sqrt (.rat 2 1))) (.par n!"GF")) (.ckm 1 2)) (.rat 4 1)) (.conj (.inp n!"SnueduRL_3332")))),
  (n!"b->see::Im{cT}", (.mul (.div (.div (.div (.div (.sqrt (.rat 2 1)) (.par n!"GF")) (.ckm 2 2)) (.conj (.ckm 2 1))) (.rat 4 1)) (.im (.mul (.div (.mul (.rat 16 1) (.mul .pi .pi)) (.mul (.sqrt (.mul (.mul (.rat 4 1) .pi) (.par n!"alpha_e"))) (.sqrt (.mul (.mul (.rat 4 1) .pi) (.par n!"alpha_e"))))) (.add (.div (.inp n!"TedRR_1123") (.rat 2 1)) (.div (.conj (.inp n!"TedRR_1132")) (.rat 2 1))))))),
  (n!"b->see::Im{cS'}", (.mul (.div (.div (.div (.div (.sqrt (.rat 2 1)) (.par n!"GF")) (.ckm 2 2)) (.conj (.ckm 2 1))) (.rat 4 1)) (.im (.mul (.div (.mul (.rat 16 1) (.mul .pi .pi)) (.mul (.sqrt (.mul (.mul (.rat 4 1) .pi) (.par n!"alpha_e"))) (.sqrt (.mul (.mul (.rat 4 1) .pi) (.par n!"alpha_e"))))) (.add (.div (.inp n!"SedRL_1123") (.rat 2 1)) (.div (.conj (.inp n!"SedRR_1132")) (.rat 2 1))))))),
  (n!"b->s::c8", (.mul (.div (.div (.div (.div (.sqrt (.rat 2 1)) (.par n!"GF")) (.ckm 2 2)) (.conj (.ckm 2 1))) (.rat 4 1)) (.re (.mul (.div (.div (.mul (.rat 16 1) (.mul .pi .pi)) (.par n!"m_b")) (.sqrt (.mul (.mul (.rat 4 1) .pi) (.par n!"alpha_s")))) (.inp n!"dG_23"))))),
  (n!"dbcu::c7", (.mul (.sub (.add (.add (.add (.sub (.div (.sub (.sub (.inp n!"S1udRR_2113") (.div (.inp n!"S8udduRR_2311") (.rat 4 1))) (.div (.inp n!"S8udRR_2113") (.mul (.rat 2 1) (.rat 3 1)))) (.rat 3 1)) (.div (.neg (.conj (.inp n!"V8udduLR_1132"))) (.rat 3 1))) (.div (.neg (.inp n!"S8udduRR_2311")) (.rat 16 1))) (.div (.add (.div (.neg (.inp n!"S1udduRR_2311")) (.rat 8 1)) (.div (.inp n!"S8udduRR_2311") (.mul (.rat 16 1) (.rat 3 1)))) (.rat 3 1))) (.div (.add (.add (.div (.neg (.inp n!"S1udduRR_2311")) (.rat 2 1)) (.div (.inp n!"S8udduRR_2311") (.mul (.rat 4 1) (.rat 3 1)))) (.div (.inp n!"S8udRR_2113") (.rat 2 1))) (.mul (.rat 3 1) (.rat 3 1)))) (.div (.add (.mul (.rat (-2) 1) (.conj (.inp n!"V1udduLR_1132"))) (.div (.conj (.inp n!"V8udduLR_1132")) (.rat 3 1))) (.mul (.rat 3 1) (.rat 3 1)))) (.div (.div (.div (.sqrt (.rat 2 1)) (.rat 4 1)) (.par n!"GF")) (.mul (.ckm 1 2) (.conj (.ckm 0 0)))))),
  (n!"b->see::Re{cS'}", (.mul (.div (.div (.div (.div (.sqrt (.rat 2 1)) (.par n!"GF")) (.ckm 2 2)) (.conj (.ckm 2 1))) (.rat 4 1)) (.re (.mul (.div (.mul (.rat 16 1) (.mul .pi .pi)) (.mul (.sqrt (.mul (.mul (.rat 4 1) .pi) (.par n!"alpha_e"))) (.sqrt (.mul (.mul (.rat 4 1) .pi) (.par n!"alpha_e"))))) (.add (.div (.inp n!"SedRL_1123") (.rat 2 1)) (.div (.conj (.inp n!"SedRR_1132")) (.rat 2 1))))))),
  (n!"sbsb::c3", (.div (.mul (.div (.div (.div (.sqrt (.rat 2 1)) (.par n!"GF")) (.rat 4 1)) (.mul (.mul (.ckm 2 2) (.conj (.ckm 2 1))) (.mul (.ckm 2 2) (.conj (.ckm 2 1))))) (.conj (.inp n!"S8ddRR_3232"))) (.rat 2 1))),
  (n!"ubtaunutau::cVL", (.mul (.div (.div (.div (.neg (.sqrt (.rat 2 1))) (.par n!"GF")) (.ckm 0 2)) (.rat 4 1)) (.conj (.inp n!"VnueduLL_3331")))),
  (n!"dbcu::c2'", (.mul (.add (.div (.mul (.rat (-2) 1) (.div (.conj (.inp n!"V8udRR_1231")) (.rat 2 1))) (.rat 3 1)) (.div (.mul (.rat 8 1) (.div (.conj (.inp n!"V8udLR_1231")) (.rat 2 1))) (.rat 3 1))) (.div (.div (.div (.sqrt (.rat 2 1)) (.rat 4 1)) (.par n!"GF")) (.mul (.ckm 1 2) (.conj (.ckm 0 0)))))),
  (n!"sbcu::c5", (.mul (.add (.sub (.add (.div (.neg (.sub (.sub (.inp n!"S1udRR_2123") (.div (.inp n!"S8udduRR_2321") (.rat 4 1))) (.div (.inp n!"S8udRR_2123") (.mul (.rat 2 1) (.rat 3 1))))) (.rat 3 1)) (.div (.mul (.rat 4 1) (.neg (.conj (.inp n!"V8udduLR_1232")))) (.rat 3 1))) (.div (.add (.add (.div (.neg (.inp n!"S1udduRR_2321")) (.rat 2 1)) (.div (.inp n!"S8udduRR_2321") (.mul (.rat 4 1) (.rat 3 1)))) (.div (.inp n!"S8udRR_2123") (.rat 2 1))) (.mul (.rat 3 1) (.rat 3 1)))) (.div (.mul (.rat 4 1) (.add (.mul (.rat (-2) 1) (.conj (.inp n!"V1udduLR_1232"))) (.div (.conj (.inp n!"V8udduLR_1232")) (.rat 3 1)))) (.mul (.rat 3 1) (.rat 3 1)))) (.div (.div (.div (.sqrt (.rat 2 1)) (.rat 4 1)) (.par n!"GF")) (.mul (.ckm 1 2) (.conj (.ckm 0 1)))))),
  (n!"b->smumu::Im{cP}", (.mul (.div (.div (.div (.div (.sqrt (.rat 2 1)) (.par n!"GF")) (.ckm 2 2)) (.conj (.ckm 2 1))) (.rat 4 1)) (.im (.mul (.div (.mul (.rat 16 1) (.mul .pi .pi)) (.mul (.sqrt (.mul (.mul (.rat 4 1) .pi) (.par n!"alpha_e"))) (.sqrt (.mul (.mul (.rat 4 1) .pi) (.par n!"alpha_e"))))) (.add (.div (.neg (.conj (.inp n!"SedRL_2232"))) (.rat 2 1)) (.div (.inp n!"SedRR_2223") (.rat 2 1))))))),
  (n!"b->smumu::Im{c9}", (.mul (.div (.div (.div (.div (.sqrt (.rat 2 1)) (.par n!"GF")) (.ckm 2 2)) (.conj (.ckm 2 1))) (.rat 4 1)) (.im (.mul (.div (.mul (.rat 16 1) (.mul .pi .pi)) (.mul (.sqrt (.mul (.mul (.rat 4 1) .pi) (.par n!"alpha_e"))) (.sqrt (.mul (.mul (.rat 4 1) .pi) (.par n!"alpha_e"))))) (.add (.div (.inp n!"VdeLR_2322") (.rat 2 1)) (.div (.inp n!"VedLL_2223") (.rat 2 1))))))),
  (n!"ubmunumu::cT", (.mul (.div (.div (.div (.neg (.sqrt (.rat 2 1))) (.par n!"GF")) (.ckm 0 2)) (.rat 4 1)) (.conj (.inp n!"TnueduRR_2231")))),
  (n!"b->smumu::Im{cS'}", (.mul (.div (.div (.div (.div (.sqrt (.rat 2 1)) (.par n!"GF")) (.ckm 2 2)) (.conj (.ckm 2 1))) (.rat 4 1)) (.im (.mul (.div (.mul (.rat 16 1) (.mul .pi .pi)) (.mul (.sqrt (.mul (.mul (.rat 4 1) .pi) (.par n!"alpha_e"))) (.sqrt (.mul (.mul (.rat 4 1) .pi) (.par n!"alpha_e"))))) (.add (.div (.inp n!"SedRL_2223") (.rat 2 1)) (.div (.conj (.inp n!"SedRR_2232")) (.rat 2 1))))))),
  (n!"ubtaunutau::cSR", (.mul (.div (.div (.div (.neg (.sqrt (.rat 2 1))) (.par n!"GF")) (.ckm 0 2)) (.rat 4 1)) (.conj (.inp n!"SnueduRL_3331")))),
  (n!"sbcu::c1'", (.mul (.add (.sub (.add (.div (.neg (.sub (.conj (.inp n!"V1udRR_1232")) (.div (.conj (.inp n!"V8udRR_1232")) (.mul (.rat 2 1) (.rat 3 1))))) (.rat 3 1)) (.div (.mul (.rat 4 1) (.sub (.conj (.inp n!"V1udLR_1232")) (.div (.conj (.inp n!"V8udLR_1232")) (.mul (.rat 2 1) (.rat 3 1))))) (.rat 3 1))) (.div (.div (.conj (.inp n!"V8udRR_1232")) (.rat 2 1)) (.mul (.rat 3 1) (.rat 3 1)))) (.div (.mul (.rat 4 1) (.div (.conj (.inp n!"V8udLR_1232")) (.rat 2 1))) (.mul (.rat 3 1) (.rat 3 1)))) (.div (.div (.div (.sqrt (.rat 2 1)) (.rat 4 1)) (.par n!"GF")) (.mul (.ckm 1 2) (.conj (.ckm 0 1)))))),
  (n!"cbmunumu::cVR", (.mul (.div (.div (.div (.neg (.sqrt (.rat 2 1))) (.par n!"GF")) (.ckm 1 2)) (.rat 4 1)) (.conj (.inp n!"VnueduLR_2232")))),
  (n!"dbcu::c7'", (.mul (.sub (.add (.add (.add (.sub (.div (.sub (.sub (.conj (.inp n!"S1udRR_1231")) (.div (.conj (.inp n!"S8udduRR_1132")) (.rat 4 1))) (.div (.conj (.inp n!"S8udRR_1231")) (.mul (.rat 2 1) (.rat 3 1)))) (.rat 3 1)) (.div (.neg (.inp n!"V8udduLR_2311")) (.rat 3 1))) (.div (.neg (.conj (.inp n!"S8udduRR_1132"))) (.rat 16 1))) (.div (.add (.div (.neg (.conj (.inp n!"S1udduRR_1132"))) (.rat 8 1)) (.div (.div (.conj (.inp n!"S8udduRR_1132")) (.rat 16 1)) (.rat 3 1))) (.rat 3 1))) (.div (.add (.add (.div (.neg (.conj (.inp n!"S1udduRR_1132"))) (.rat 2 1)) (.div (.conj (.inp n!"S8udduRR_1132")) (.mul (.rat 4 1) (.rat 3 1)))) (.div (.conj (.inp n!"S8udRR_1231")) (.rat 2 1))) (.mul (.rat 3 1) (.rat 3 1)))) (.div (.add (.mul (.rat (-2) 1) (.inp n!"V1udduLR_2311")) (.div (.inp n!"V8udduLR_2311") (.rat 3 1))) (.mul (.rat 3 1) (.rat 3 1)))) (.div (.div (.div (.sqrt (.rat 2 1)) (.rat 4 1)) (.par n!"GF")) (.mul (.ckm 1 2) (.conj (.ckm 0 0)))))),
  (n!"b->see::Im{cP}", (.mul (.div (.div (.div (.div (.sqrt (.rat 2 1)) (.par n!"GF")) (.ckm 2 2)) (.conj (.ckm 2 1))) (.rat 4 1)) (.im (.mul (.div (.mul (.rat 16 1) (.mul .pi .pi)) (.mul (.sqrt (.mul (.mul (.rat 4 1) .pi) (.par n!"alpha_e"))) (.sqrt (.mul (.mul (.rat 4 1) .pi) (.par n!"alpha_e"))))) (.add (.div (.neg (.conj (.inp n!"SedRL_1132"))) (.rat 2 1)) (.div (.inp n!"SedRR_1123") (.rat 2 1))))))),
  (n!"b->smumu::Re{cS'}", (.mul (.div (.div (.div (.div (.sqrt (.rat 2 1)) (.par n!"GF")) (.ckm 2 2)) (.conj (.ckm 2 1))) (.rat 4 1)) (.re (.mul (.div (.mul (.rat 16 1) (.mul .pi .pi)) (.mul (.sqrt (.mul (.mul (.rat 4 1) .pi) (.par n!"alpha_e"))) (.sqrt (.mul (.mul (.rat 4 1) .pi) (.par n!"alpha_e"))))) (.add (.div (.inp n!"SedRL_2223") (.rat 2 1)) (.div (.conj (.inp n!"SedRR_2232")) (.rat 2 1))))))),
  (n!"b->see::Im{c9}", (.mul (.div (.div (.div (.div (.sqrt (.rat 2 1)) (.par n!"GF")) (.ckm 2 2)) (.conj (.ckm 2 1))) (.rat 4 1)) (.im (.mul (.div (.mul (.rat 16 1) (.mul .pi .pi)) (.mul (.sqrt (.mul (.mul (.rat 4 1) .pi) (.par n!"alpha_e"))) (.sqrt (.mul (.mul (.rat 4 1) .pi) (.par n!"alpha_e"))))) (.add (.div (.inp n!"VdeLR_2311") (.rat 2 1)) (.div (.inp n!"VedLL_1123") (.rat 2 1))))))),
  (n!"ubenue::cVR", (.mul (.div (.div (.div (.neg (.sqrt (.rat 2 1))) (.par n!"GF")) (.ckm 0 2)) (.rat 4 1)) (.conj (.inp n!"VnueduLR_1131")))),
  (n!"dbcu::c4", (.mul (.sub (.div (.div (.conj (.inp n!"V8udLL_1231")) (.rat 2 1)) (.rat 6 1)) (.div (.div (.inp n!"V8duLR_1321") (.rat 2 1)) (.rat 6 1))) (.div (.div (.div (.sqrt (.rat 2 1)) (.rat 4 1)) (.par n!"GF")) (.mul (.ckm 1 2) (.conj (.ckm 0 0)))))),
  (n!"sbcu::c6'", (.mul (.add (.div (.mul (.rat (-2) 1) (.add (.add (.div (.neg (.conj (.inp n!"S1udduRR_1232"))) (.rat 2 1)) (.div (.conj (.inp n!"S8udduRR_1232")) (.mul (.rat 4 1) (.rat 3 1)))) (.div (.conj (.inp n!"S8udRR_1232")) (.rat 2 1)))) (.rat 3 1)) (.div (.mul (.rat 8 1) (.add (.mul (.rat (-2) 1) (.inp n!"V1udduLR_2321")) (.div (.inp n!"V8udduLR_2321") (.rat 3 1)))) (.rat 3 1))) (.div (.div (.div (.sqrt (.rat 2 1)) (.rat 4 1)) (.par n!"GF")) (.mul (.ckm 1 2) (.conj (.ckm 0 1)))))),
  (n!"sbcu::c2", (.mul (.add (.div (.mul (.rat (-2) 1) (.div (.conj (.inp n!"V8udLL_1232")) (.rat 2 1))) (.rat 3 1)) (.div (.mul (.rat 8 1) (.div (.inp n!"V8duLR_2321") (.rat 2 1))) (.rat 3 1))) (.div (.div (.div (.sqrt (.rat 2 1)) (.rat 4 1)) (.par n!"GF")) (.mul (.ckm 1 2) (.conj (.ckm 0 1)))))),
  (n!"dbcu::c9", (.mul (.sub (.add (.sub (.div (.sub (.sub (.inp n!"S1udRR_2113") (.div (.inp n!"S8udduRR_2311") (.rat 4 1))) (.div (.inp n!"S8udRR_2113") (.mul (.rat 2 1) (.rat 3 1)))) (.rat 48 1)) (.div (.neg (.conj (.inp n!"V8udduLR_1132"))) (.rat 48 1))) (.div (.add (.add (.div (.neg (.inp n!"S1udduRR_2311")) (.rat 2 1)) (.div (.inp n!"S8udduRR_2311") (.mul (.rat 4 1) (.rat 3 1)))) (.div (.inp n!"S8udRR_2113") (.rat 2 1))) (.mul (.rat 48 1) (.rat 3 1)))) (.div (.add (.mul (.rat (-2) 1) (.conj (.inp n!"V1udduLR_1132"))) (.div (.conj (.inp n!"V8udduLR_1132")) (.rat 3 1))) (.mul (.rat 48 1) (.rat 3 1)))) (.div (.div (.div (.sqrt (.rat 2 1)) (.rat 4 1)) (.par n!"GF")) (.mul (.ckm 1 2) (.conj (.ckm 0 0)))))),
  (n!"dbcu::c3'", (.mul (.sub (.add (.sub (.div (.sub (.conj (.inp n!"V1udRR_1231")) (.div (.conj (.inp n!"V8udRR_1231")) (.mul (.rat 2 1) (.rat 3 1)))) (.rat 12 1)) (.div (.sub (.conj (.inp n!"V1udLR_1231")) (.div (.conj (.inp n!"V8udLR_1231")) (.mul (.rat 2 1) (.rat 3 1)))) (.rat 12 1))) (.div (.div (.conj (.inp n!"V8udRR_1231")) (.rat 2 1)) (.mul (.rat 12 1) (.rat 3 1)))) (.div (.div (.conj (.inp n!"V8udLR_1231")) (.rat 2 1)) (.mul (.rat 12 1) (.rat 3 1)))) (.div (.div (.div (.sqrt (.rat 2 1)) (.rat 4 1)) (.par n!"GF")) (.mul (.ckm 1 2) (.conj (.ckm 0 0)))))),
  (n!"sbsb::c5", (.mul (.div (.div (.div (.sqrt (.rat 2 1)) (.par n!"GF")) (.rat 4 1)) (.mul (.mul (.ckm 2 2) (.conj (.ckm 2 1))) (.mul (.ckm 2 2) (.conj (.ckm 2 1))))) (.add (.mul (.rat (-2) 1) (.inp n!"V1ddLR_2323")) (.div (.inp n!"V8ddLR_2323") (.rat 3 1))))),
  (n!"cbenue::cSL", (.mul (.div (.div (.div (.neg (.sqrt (.rat 2 1))) (.par n!"GF")) (.ckm 1 2)) (.rat 4 1)) (.conj (.inp n!"SnueduRR_1132")))),
  (n!"ubmunumu::cSL", (.mul (.div (.div (.div (.neg (.sqrt (.rat 2 1))) (.par n!"GF")) (.ckm 0 2)) (.rat 4 1)) (.conj (.inp n!"SnueduRR_2231")))),
  (n!"cbtaunutau::cSL", (.mul (.div (.div (.div (.neg (.sqrt (.rat 2 1))) (.par n!"GF")) (.ckm 1 2)) (.rat 4 1)) (.conj (.inp n!"SnueduRR_3332")))),
  (n!"sbcu::c7", (.mul (.sub (.add (.add (.add (.sub (.div (.sub (.sub (.inp n!"S1udRR_2123") (.div (.inp n!"S8udduRR_2321") (.rat 4 1))) (.div (.inp n!"S8udRR_2123") (.mul (.rat 2 1) (.rat 3 1)))) (.rat 3 1)) (.div (.neg (.conj (.inp n!"V8udduLR_1232"))) (.rat 3 1))) (.div (.neg (.inp n!"S8udduRR_2321")) (.rat 16 1))) (.div (.add (.div (.neg (.inp n!"S1udduRR_2321")) (.rat 8 1)) (.div (.inp n!"S8udduRR_2321") (.mul (.rat 16 1) (.rat 3 1)))) (.rat 3 1))) (.div (.add (.add (.div (.neg (.inp n!"S1udduRR_2321")) (.rat 2 1)) (.div (.inp n!"S8udduRR_2321") (.mul (.rat 4 1) (.rat 3 1)))) (.div (.inp n!"S8udRR_2123") (.rat 2 1))) (.mul (.rat 3 1) (.rat 3 1)))) (.div (.add (.mul (.rat (-2) 1) (.conj (.inp n!"V1udduLR_1232"))) (.div (.conj (.inp n!"V8udduLR_1232")) (.rat 3 1))) (.mul (.rat 3 1) (.rat 3 1)))) (.div (.div (.div (.sqrt (.rat 2 1)) (.rat 4 1)) (.par n!"GF")) (.mul (.ckm 1 2) (.conj (.ckm 0 1)))))),
  (n!"b->s::c2", (.mul (.div (.div (.div (.div (.sqrt (.rat 2 1)) (.par n!"GF")) (.ckm 2 2)) (.conj (.ckm 2 1))) (.rat 4 1)) (.re (.sub (.add (.sub (.sub (.add (.add (.add (.div (.mul (.rat (-2) 1) (.inp n!"VddLL_2333")) (.rat 9 1)) (.div (.sub (.inp n!"V1udLL_2223") (.div (.inp n!"V8udLL_2223") (.mul (.rat 2 1) (.rat 3 1)))) (.rat 3 1))) (.div (.inp n!"V8udLL_2223") (.rat 2 1))) (.div (.inp n!"VddLL_1123") (.rat 18 1))) (.div (.mul (.rat 5 1) (.conj (.inp n!"VddLL_1231"))) (.rat 18 1))) (.div (.mul (.rat 2 1) (.inp n!"VddLL_2223")) (.rat 9 1))) (.div (.sub (.inp n!"V1udLL_1123") (.div (.inp n!"V8udLL_1123") (.mul (.rat 2 1) (.rat 3 1)))) (.rat 18 1))) (.div (.mul (.rat 5 1) (.div (.inp n!"V8udLL_1123") (.rat 2 1))) (.rat 18 1)))))),
  (n!"dbcu::c1", (.mul (.add (.sub (.add (.div (.neg (.sub (.conj (.inp n!"V1udLL_1231")) (.div (.conj (.inp n!"V8udLL_1231")) (.mul (.rat 2 1) (.rat 3 1))))) (.rat 3 1)) (.div (.mul (.rat 4 1) (.sub (.inp n!"V1duLR_1321") (.div (.inp n!"V8duLR_1321") (.mul (.rat 2 1) (.rat 3 1))))) (.rat 3 1))) (.div (.div (.conj (.inp n!"V8udLL_1231")) (.rat 2 1)) (.mul (.rat 3 1) (.rat 3 1)))) (.div (.mul (.rat 4 1) (.div (.inp n!"V8duLR_1321") (.rat 2 1))) (.mul (.rat 3 1) (.rat 3 1)))) (.div (.div (.div (.sqrt (.rat 2 1)) (.rat 4 1)) (.par n!"GF")) (.mul (.ckm 1 2) (.conj (.ckm 0 0)))))),
  (n!"sbcu::c2'", (.mul (.add (.div (.mul (.rat (-2) 1) (.div (.conj (.inp n!"V8udRR_1232")) (.rat 2 1))) (.rat 3 1)) (.div (.mul (.rat 8 1) (.div (.conj (.inp n!"V8udLR_1232")) (.rat 2 1))) (.rat 3 1))) (.div (.div (.div (.sqrt (.rat 2 1)) (.rat 4 1)) (.par n!"GF")) (.mul (.ckm 1 2) (.conj (.ckm 0 1)))))),
  (n!"cbmunumu::cT", (.mul (.div (.div (.div (.neg (.sqrt (.rat 2 1))) (.par n!"GF")) (.ckm 1 2)) (.rat 4 1)) (.conj (.inp n!"TnueduRR_2232")))),
  (n!"b->s::Im{c7}", (.mul (.div (.div (.div (.div (.sqrt (.rat 2 1)) (.par n!"GF")) (.ckm 2 2)) (.conj (.ckm 2 1))) (.rat 4 1)) (.im (.mul (.div (.div (.mul (.rat 16 1) (.mul .pi .pi)) (.par n!"m_b")) (.sqrt (.mul (.mul (.rat 4 1) .pi) (.par n!"alpha_e")))) (.inp n!"dgamma_23"))))),
  (n!"sbsb::c1'", (.mul (.div (.div (.div (.sqrt (.rat 2 1)) (.par n!"GF")) (.rat 4 1)) (.mul (.mul (.ckm 2 2) (.conj (.ckm 2 1))) (.mul (.ckm 2 2) (.conj (.ckm 2 1))))) (.inp n!"VddRR_2323"))),
  (n!"dbcu::c8'", (.mul (.sub (.add (.mul (.rat 2 1) (.add (.div (.neg (.conj (.inp n!"S1udduRR_1132"))) (.rat 8 1)) (.div (.div (.conj (.inp n!"S8udduRR_1132")) (.rat 16 1)) (.rat 3 1)))) (.div (.mul (.rat 2 1) (.add (.add (.div (.neg (.conj (.inp n!"S1udduRR_1132"))) (.rat 2 1)) (.div (.conj (.inp n!"S8udduRR_1132")) (.mul (.rat 4 1) (.rat 3 1)))) (.div (.conj (.inp n!"S8udRR_1231")) (.rat 2 1)))) (.rat 3 1))) (.div (.mul (.rat 2 1) (.add (.mul (.rat (-2) 1) (.inp n!"V1udduLR_2311")) (.div (.inp n!"V8udduLR_2311") (.rat 3 1)))) (.rat 3 1))) (.div (.div (.div (.sqrt (.rat 2 1)) (.rat 4 1)) (.par n!"GF")) (.mul (.ckm 1 2) (.conj (.ckm 0 0)))))),
  (n!"b->smumu::Re{cS}", (.mul (.div (.div (.div (.div (.sqrt (.rat 2 1)) (.par n!"GF")) (.ckm 2 2)) (.conj (.ckm 2 1))) (.rat 4 1)) (.re (.mul (.div (.mul (.rat 16 1) (.mul .pi .pi)) (.mul (.sqrt (.mul (.mul (.rat 4 1) .pi) (.par n!"alpha_e"))) (.sqrt (.mul (.mul (.rat 4 1) .pi) (.par n!"alpha_e"))))) (.add (.div (.conj (.inp n!"SedRL_2232")) (.rat 2 1)) (.div (.inp n!"SedRR_2223") (.rat 2 1))))))),
  (n!"b->s::c8'", (.mul (.div (.div (.div (.div (.sqrt (.rat 2 1)) (.par n!"GF")) (.ckm 2 2)) (.conj (.ckm 2 1))) (.rat 4 1)) (.re (.mul (.div (.div (.mul (.rat 16 1) (.mul .pi .pi)) (.par n!"m_b")) (.sqrt (.mul (.mul (.rat 4 1) .pi) (.par n!"alpha_s")))) (.conj (.inp n!"dG_32")))))),
  (n!"b->smumu::Re{c10'}", (.mul (.div (.div (.div (.div (.sqrt (.rat 2 1)) (.par n!"GF")) (.ckm 2 2)) (.conj (.ckm 2 1))) (.rat 4 1)) (.re (.mul (.div (.mul (.rat 16 1) (.mul .pi .pi)) (.mul (.sqrt (.mul (.mul (.rat 4 1) .pi) (.par n!"alpha_e"))) (.sqrt (.mul (.mul (.rat 4 1) .pi) (.par n!"alpha_e"))))) (.add (.div (.neg (.inp n!"VedLR_2223")) (.rat 2 1)) (.div (.inp n!"VedRR_2223") (.rat 2 1))))))),
  (n!"b->see::Re{c10'}", (.mul (.div (.div (.div (.div (.sqrt (.rat 2 1)) (.par n!"GF")) (.ckm 2 2)) (.conj (.ckm 2 1))) (.rat 4 1)) (.re (.mul (.div (.mul (.rat 16 1) (.mul .pi .pi)) (.mul (.sqrt (.mul (.mul (.rat 4 1) .pi) (.par n!"alpha_e"))) (.sqrt (.mul (.mul (.rat 4 1) .pi) (.par n!"alpha_e"))))) (.add (.div (.neg (.inp n!"VedLR_1123")) (.rat 2 1)) (.div (.inp n!"VedRR_1123") (.rat 2 1))))))),
  (n!"dbcu::c10", (.mul (.sub (.div (.add (.add (.div (.neg (.inp n!"S1udduRR_2311")) (.rat 2 1)) (.div (.inp n!"S8udduRR_2311") (.mul (.rat 4 1) (.rat 3 1)))) (.div (.inp n!"S8udRR_2113") (.rat 2 1))) (.rat 24 1)) (.div (.add (.mul (.rat (-2) 1) (.conj (.inp n!"V1udduLR_1132"))) (.div (.conj (.inp n!"V8udduLR_1132")) (.rat 3 1))) (.rat 24 1))) (.div (.div (.div (.sqrt (.rat 2 1)) (.rat 4 1)) (.par n!"GF")) (.mul (.ckm 1 2) (.conj (.ckm 0 0)))))),
  (n!"ubtaunutau::cSL", (.mul (.div (.div (.div (.neg (.sqrt (.rat 2 1))) (.par n!"GF")) (.ckm 0 2)) (.rat 4 1)) (.conj (.inp n!"SnueduRR_3331")))),
  (n!"cbmunumu::cVL", (.mul (.div (.div (.div (.neg (.sqrt (.rat 2 1))) (.par n!"GF")) (.ckm 1 2)) (.rat 4 1)) (.conj (.inp n!"VnueduLL_2232"))))]

def JMS_to_EOS_1 : List (ℕ × Sym) := [
  (n!"sbcu::c7'", (.mul (.sub (.add (.add (.add (.sub (.div (.sub (.sub (.conj (.inp n!"S1udRR_1232")) (.div (.conj (.inp n!"S8udduRR_1232")) (.rat 4 1))) (.div (.conj (.inp n!"S8udRR_1232")) (.mul (.rat 2 1) (.rat 3 1)))) (.rat 3 1)) (.div (.neg (.inp n!"V8udduLR_2321")) (.rat 3 1))) (.div (.neg (.conj (.inp n!"S8udduRR_1232"))) (.rat 16 1))) (.div (.add (.div (.neg (.conj (.inp n!"S1udduRR_1232"))) (.rat 8 1)) (.div (.div (.conj (.inp n!"S8udduRR_1232")) (.rat 16 1)) (.rat 3 1))) (.rat 3 1))) (.div (.add (.add (.div (.neg (.conj (.inp n!"S1udduRR_1232"))) (.rat 2 1)) (.div (.conj (.inp n!"S8udduRR_1232")) (.mul (.rat 4 1) (.rat 3 1)))) (.div (.conj (.inp n!"S8udRR_1232")) (.rat 2 1))) (.mul (.rat 3 1) (.rat 3 1)))) (.div (.add (.mul (.rat (-2) 1) (.inp n!"V1udduLR_2321")) (.div (.inp n!"V8udduLR_2321") (.rat 3 1))) (.mul (.rat 3 1) (.rat 3 1)))) (.div (.div (.div (.sqrt (.rat 2 1)) (.rat 4 1)) (.par n!"GF")) (.mul (.ckm 1 2) (.conj (.ckm 0 1)))))),
  (n!"dbcu::c6", (.mul (.add (.div (.mul (.rat (-2) 1) (.add (.add (.div (.neg (.inp n!"S1udduRR_2311")) (.rat 2 1)) (.div (.inp n!"S8udduRR_2311") (.mul (.rat 4 1) (.rat 3 1)))) (.div (.inp n!"S8udRR_2113") (.rat 2 1)))) (.rat 3 1)) (.div (.mul (.rat 8 1) (.add (.mul (.rat (-2) 1) (.conj (.inp n!"V1udduLR_1132"))) (.div (.conj (.inp n!"V8udduLR_1132")) (.rat 3 1)))) (.rat 3 1))) (.div (.div (.div (.sqrt (.rat 2 1)) (.rat 4 1)) (.par n!"GF")) (.mul (.ckm 1 2) (.conj (.ckm 0 0)))))),
  (n!"b->see::Re{cS}", (.mul (.div (.div (.div (.div (.sqrt (.rat 2 1)) (.par n!"GF")) (.ckm 2 2)) (.conj (.ckm 2 1))) (.rat 4 1)) (.re (.mul (.div (.mul (.rat 16 1) (.mul .pi .pi)) (.mul (.sqrt (.mul (.mul (.rat 4 1) .pi) (.par n!"alpha_e"))) (.sqrt (.mul (.mul (.rat 4 1) .pi) (.par n!"alpha_e"))))) (.add (.div (.conj (.inp n!"SedRL_1132")) (.rat 2 1)) (.div (.inp n!"SedRR_1123") (.rat 2 1))))))),
  (n!"sbsb::c2", (.mul (.div (.div (.div (.sqrt (.rat 2 1)) (.par n!"GF")) (.rat 4 1)) (.mul (.mul (.ckm 2 2) (.conj (.ckm 2 1))) (.mul (.ckm 2 2) (.conj (.ckm 2 1))))) (.sub (.conj (.inp n!"S1ddRR_3232")) (.div (.conj (.inp n!"S8ddRR_3232")) (.mul (.rat 2 1) (.rat 3 1)))))),
  (n!"b->s::Im{c7'}", (.mul (.div (.div (.div (.div (.sqrt (.rat 2 1)) (.par n!"GF")) (.ckm 2 2)) (.conj (.ckm 2 1))) (.rat 4 1)) (.im (.mul (.div (.div (.mul (.rat 16 1) (.mul .pi .pi)) (.par n!"m_b")) (.sqrt (.mul (.mul (.rat 4 1) .pi) (.par n!"alpha_e")))) (.conj (.inp n!"dgamma_32")))))),
  (n!"sbcu::c4", (.mul (.sub (.div (.div (.conj (.inp n!"V8udLL_1232")) (.rat 2 1)) (.rat 6 1)) (.div (.div (.inp n!"V8duLR_2321") (.rat 2 1)) (.rat 6 1))) (.div (.div (.div (.sqrt (.rat 2 1)) (.rat 4 1)) (.par n!"GF")) (.mul (.ckm 1 2) (.conj (.ckm 0 1)))))),
  (n!"ubenue::cVL", (.mul (.div (.div (.div (.neg (.sqrt (.rat 2 1))) (.par n!"GF")) (.ckm 0 2)) (.rat 4 1)) (.conj (.inp n!"VnueduLL_1131")))),
  (n!"cbmunumu::cSR", (.mul (.div (.div (.div (.neg (.sqrt (.rat 2 1))) (.par n!"GF")) (.ckm 1 2)) (.rat 4 1)) (.conj (.inp n!"SnueduRL_2232")))),
  (n!"b->s::Re{c7'}", (.mul (.div (.div (.div (.div (.sqrt (.rat 2 1)) (.par n!"GF")) (.ckm 2 2)) (.conj (.ckm 2 1))) (.rat 4 1)) (.re (.mul (.div (.div (.mul (.rat 16 1) (.mul .pi .pi)) (.par n!"m_b")) (.sqrt (.mul (.mul (.rat 4 1) .pi) (.par n!"alpha_e")))) (.conj (.inp n!"dgamma_32")))))),
  (n!"dbcu::c4'", (.mul (.sub (.div (.div (.conj (.inp n!"V8udRR_1231")) (.rat 2 1)) (.rat 6 1)) (.div (.div (.conj (.inp n!"V8udLR_1231")) (.rat 2 1)) (.rat 6 1))) (.div (.div (.div (.sqrt (.rat 2 1)) (.rat 4 1)) (.par n!"GF")) (.mul (.ckm 1 2) (.conj (.ckm 0 0)))))),
  (n!"b->smumu::Im{c10'}", (.mul (.div (.div (.div (.div (.sqrt (.rat 2 1)) (.par n!"GF")) (.ckm 2 2)) (.conj (.ckm 2 1))) (.rat 4 1)) (.im (.mul (.div (.mul (.rat 16 1) (.mul .pi .pi)) (.mul (.sqrt (.mul (.mul (.rat 4 1) .pi) (.par n!"alpha_e"))) (.sqrt (.mul (.mul (.rat 4 1) .pi) (.par n!"alpha_e"))))) (.add (.div (.neg (.inp n!"VedLR_2223")) (.rat 2 1)) (.div (.inp n!"VedRR_2223") (.rat 2 1))))))),
  (n!"b->see::Im{c10'}", (.mul (.div (.div (.div (.div (.sqrt (.rat 2 1)) (.par n!"GF")) (.ckm 2 2)) (.conj (.ckm 2 1))) (.rat 4 1)) (.im (.mul (.div (.mul (.rat 16 1) (.mul .pi .pi)) (.mul (.sqrt (.mul (.mul (.rat 4 1) .pi) (.par n!"alpha_e"))) (.sqrt (.mul (.mul (.rat 4 1) .pi) (.par n!"alpha_e"))))) (.add (.div (.neg (.inp n!"VedLR_1123")) (.rat 2 1)) (.div (.inp n!"VedRR_1123") (.rat 2 1))))))),
  (n!"ubtaunutau::cT", (.mul (.div (.div (.div (.neg (.sqrt (.rat 2 1))) (.par n!"GF")) (.ckm 0 2)) (.rat 4 1)) (.conj (.inp n!"TnueduRR_3331")))),
  (n!"ubenue::cSR", (.mul (.div (.div (.div (.neg (.sqrt (.rat 2 1))) (.par n!"GF")) (.ckm 0 2)) (.rat 4 1)) (.conj (.inp n!"SnueduRL_1131")))),
  (n!"b->see::Im{cT5}", (.mul (.div (.div (.div (.div (.sqrt (.rat 2 1)) (.par n!"GF")) (.ckm 2 2)) (.conj (.ckm 2 1))) (.rat 4 1)) (.im (.mul (.div (.mul (.rat 16 1) (.mul .pi .pi)) (.mul (.sqrt (.mul (.mul (.rat 4 1) .pi) (.par n!"alpha_e"))) (.sqrt (.mul (.mul (.rat 4 1) .pi) (.par n!"alpha_e"))))) (.sub (.div (.inp n!"TedRR_1123") (.rat 2 1)) (.div (.conj (.inp n!"TedRR_1132")) (.rat 2 1))))))),
  (n!"sbcu::c3'", (.mul (.sub (.add (.sub (.div (.sub (.conj (.inp n!"V1udRR_1232")) (.div (.conj (.inp n!"V8udRR_1232")) (.mul (.rat 2 1) (.rat 3 1)))) (.rat 12 1)) (.div (.sub (.conj (.inp n!"V1udLR_1232")) (.div (.conj (.inp n!"V8udLR_1232")) (.mul (.rat 2 1) (.rat 3 1)))) (.rat 12 1))) (.div (.div (.conj (.inp n!"V8udRR_1232")) (.rat 2 1)) (.mul (.rat 12 1) (.rat 3 1)))) (.div (.div (.conj (.inp n!"V8udLR_1232")) (.rat 2 1)) (.mul (.rat 12 1) (.rat 3 1)))) (.div (.div (.div (.sqrt (.rat 2 1)) (.rat 4 1)) (.par n!"GF")) (.mul (.ckm 1 2) (.conj (.ckm 0 1)))))),
  (n!"sbcu::c9", (.mul (.sub (.add (.sub (.div (.sub (.sub (.inp n!"S1udRR_2123") (.div (.inp n!"S8udduRR_2321") (.rat 4 1))) (.div (.inp n!"S8udRR_2123") (.mul (.rat 2 1) (.rat 3 1)))) (.rat 48 1)) (.div (.neg (.conj (.inp n!"V8udduLR_1232"))) (.rat 48 1))) (.div (.add (.add (.div (.neg (.inp n!"S1udduRR_2321")) (.rat 2 1)) (.div (.inp n!"S8udduRR_2321") (.mul (.rat 4 1) (.rat 3 1)))) (.div (.inp n!"S8udRR_2123") (.rat 2 1))) (.mul (.rat 48 1) (.rat 3 1)))) (.div (.add (.mul (.rat (-2) 1) (.conj (.inp n!"V1udduLR_1232"))) (.div (.conj (.inp n!"V8udduLR_1232")) (.rat 3 1))) (.mul (.rat 48 1) (.rat 3 1)))) (.div (.div (.div (.sqrt (.rat 2 1)) (.rat 4 1)) (.par n!"GF")) (.mul (.ckm 1 2) (.conj (.ckm 0 1)))))),
  (n!"b->s::c4", (.mul (.div (.div (.div (.div (.sqrt (.rat 2 1)) (.par n!"GF")) (.ckm 2 2)) (.conj (.ckm 2 1))) (.rat 4 1)) (.re (.add (.sub (.add (.add (.sub (.add (.sub (.add (.add (.add (.div (.neg (.inp n!"VddLL_2333")) (.rat 9 1)) (.div (.mul (.rat 8 1) (.div (.inp n!"V8ddLR_2333") (.rat 2 1))) (.rat 15 1))) (.div (.mul (.rat 8 1) (.div (.inp n!"V8duLR_2322") (.rat 2 1))) (.rat 15 1))) (.div (.inp n!"VddLL_1123") (.rat 9 1))) (.div (.mul (.rat 2 1) (.conj (.inp n!"VddLL_1231"))) (.rat 9 1))) (.div (.mul (.rat 8 1) (.div (.inp n!"V8ddLR_2311") (.rat 2 1))) (.rat 15 1))) (.div (.inp n!"VddLL_2223") (.rat 9 1))) (.div (.mul (.rat 8 1) (.div (.inp n!"V8ddLR_2322") (.rat 2 1))) (.rat 15 1))) (.div (.sub (.inp n!"V1udLL_1123") (.div (.inp n!"V8udLL_1123") (.mul (.rat 2 1) (.rat 3 1)))) (.rat 9 1))) (.div (.mul (.rat 2 1) (.div (.inp n!"V8udLL_1123") (.rat 2 1))) (.rat 9 1))) (.div (.mul (.rat 8 1) (.div (.inp n!"V8duLR_2311") (.rat 2 1))) (.rat 15 1)))))),
  (n!"sbsb::c2'", (.mul (.div (.div (.div (.sqrt (.rat 2 1)) (.par n!"GF")) (.rat 4 1)) (.mul (.mul (.ckm 2 2) (.conj (.ckm 2 1))) (.mul (.ckm 2 2) (.conj (.ckm 2 1))))) (.sub (.inp n!"S1ddRR_2323") (.div (.inp n!"S8ddRR_2323") (.mul (.rat 2 1) (.rat 3 1)))))),
  (n!"dbcu::c3", (.mul (.sub (.add (.sub (.div (.sub (.conj (.inp n!"V1udLL_1231")) (.div (.conj (.inp n!"V8udLL_1231")) (.mul (.rat 2 1) (.rat 3 1)))) (.rat 12 1)) (.div (.sub (.inp n!"V1duLR_1321") (.div (.inp n!"V8duLR_1321") (.mul (.rat 2 1) (.rat 3 1)))) (.rat 12 1))) (.div (.div (.conj (.inp n!"V8udLL_1231")) (.rat 2 1)) (.mul (.rat 12 1) (.rat 3 1)))) (.div (.div (.inp n!"V8duLR_1321") (.rat 2 1)) (.mul (.rat 12 1) (.rat 3 1)))) (.div (.div (.div (.sqrt (.rat 2 1)) (.rat 4 1)) (.par n!"GF")) (.mul (.ckm 1 2) (.conj (.ckm 0 0)))))),
  (n!"b->see::Re{cT5}", (.mul (.div (.div (.div (.div (.sqrt (.rat 2 1)) (.par n!"GF")) (.ckm 2 2)) (.conj (.ckm 2 1))) (.rat 4 1)) (.re (.mul (.div (.mul (.rat 16 1) (.mul .pi .pi)) (.mul (.sqrt (.mul (.mul (.rat 4 1) .pi) (.par n!"alpha_e"))) (.sqrt (.mul (.mul (.rat 4 1) .pi) (.par n!"alpha_e"))))) (.sub (.div (.inp n!"TedRR_1123") (.rat 2 1)) (.div (.conj (.inp n!"TedRR_1132")) (.rat 2 1))))))),
  (n!"dbcu::c9'", (.mul (.sub (.add (.sub (.div (.sub (.sub (.conj (.inp n!"S1udRR_1231")) (.div (.conj (.inp n!"S8udduRR_1132")) (.rat 4 1))) (.div (.conj (.inp n!"S8udRR_1231")) (.mul (.rat 2 1) (.rat 3 1)))) (.rat 48 1)) (.div (.neg (.inp n!"V8udduLR_2311")) (.rat 48 1))) (.div (.add (.add (.div (.neg (.conj (.inp n!"S1udduRR_1132"))) (.rat 2 1)) (.div (.conj (.inp n!"S8udduRR_1132")) (.mul (.rat 4 1) (.rat 3 1)))) (.div (.conj (.inp n!"S8udRR_1231")) (.rat 2 1))) (.mul (.rat 48 1) (.rat 3 1)))) (.div (.add (.mul (.rat (-2) 1) (.inp n!"V1udduLR_2311")) (.div (.inp n!"V8udduLR_2311") (.rat 3 1))) (.mul (.rat 48 1) (.rat 3 1)))) (.div (.div (.div (.sqrt (.rat 2 1)) (.rat 4 1)) (.par n!"GF")) (.mul (.ckm 1 2) (.conj (.ckm 0 0)))))),
  (n!"b->see::Im{cP'}", (.mul (.div (.div (.div (.div (.sqrt (.rat 2 1)) (.par n!"GF")) (.ckm 2 2)) (.conj (.ckm 2 1))) (.rat 4 1)) (.im (.mul (.div (.mul (.rat 16 1) (.mul .pi .pi)) (.mul (.sqrt (.mul (.mul (.rat 4 1) .pi) (.par n!"alpha_e"))) (.sqrt (.mul (.mul (.rat 4 1) .pi) (.par n!"alpha_e"))))) (.sub (.div (.inp n!"SedRL_1123") (.rat 2 1)) (.div (.conj (.inp n!"SedRR_1132")) (.rat 2 1))))))),
  (n!"b->smumu::Re{cT}", (.mul (.div (.div (.div (.div (.sqrt (.rat 2 1)) (.par n!"GF")) (.ckm 2 2)) (.conj (.ckm 2 1))) (.rat 4 1)) (.re (.mul (.div (.mul (.rat 16 1) (.mul .pi .pi)) (.mul (.sqrt (.mul (.mul (.rat 4 1) .pi) (.par n!"alpha_e"))) (.sqrt (.mul (.mul (.rat 4 1) .pi) (.par n!"alpha_e"))))) (.add (.div (.inp n!"TedRR_2223") (.rat 2 1)) (.div (.conj (.inp n!"TedRR_2232")) (.rat 2 1))))))),
  (n!"sbcu::c1", (.mul (.add (.sub (.add (.div (.neg (.sub (.conj (.inp n!"V1udLL_1232")) (.div (.conj (.inp n!"V8udLL_1232")) (.mul (.rat 2 1) (.rat 3 1))))) (.rat 3 1)) (.div (.mul (.rat 4 1) (.sub (.inp n!"V1duLR_2321") (.div (.inp n!"V8duLR_2321") (.mul (.rat 2 1) (.rat 3 1))))) (.rat 3 1))) (.div (.div (.conj (.inp n!"V8udLL_1232")) (.rat 2 1)) (.mul (.rat 3 1) (.rat 3 1)))) (.div (.mul (.rat 4 1) (.div (.inp n!"V8duLR_2321") (.rat 2 1))) (.mul (.rat 3 1) (.rat 3 1)))) (.div (.div (.div (.sqrt (.rat 2 1)) (.rat 4 1)) (.par n!"GF")) (.mul (.ckm 1 2) (.conj (.ckm 0 1)))))),
  (n!"b->smumu::Im{cT5}", (.mul (.div (.div (.div (.div (.sqrt (.rat 2 1)) (.par n!"GF")) (.ckm 2 2)) (.conj (.ckm 2 1))) (.rat 4 1)) (.im (.mul (.div (.mul (.rat 16 1) (.mul .pi .pi)) (.mul (.sqrt (.mul (.mul (.rat 4 1) .pi) (.par n!"alpha_e"))) (.sqrt (.mul (.mul (.rat 4 1) .pi) (.par n!"alpha_e"))))) (.sub (.div (.inp n!"TedRR_2223") (.rat 2 1)) (.div (.conj (.inp n!"TedRR_2232")) (.rat 2 1))))))),
  (n!"b->see::Re{cP'}", (.mul (.div (.div (.div (.div (.sqrt (.rat 2 1)) (.par n!"GF")) (.ckm 2 2)) (.conj (.ckm 2 1))) (.rat 4 1)) (.re (.mul (.div (.mul (.rat 16 1) (.mul .pi .pi)) (.mul (.sqrt (.mul (.mul (.rat 4 1) .pi) (.par n!"alpha_e"))) (.sqrt (.mul (.mul (.rat 4 1) .pi) (.par n!"alpha_e"))))) (.sub (.div (.inp n!"SedRL_1123") (.rat 2 1)) (.div (.conj (.inp n!"SedRR_1132")) (.rat 2 1))))))),
  (n!"sbcu::c8'", (.mul (.sub (.add (.mul (.rat 2 1) (.add (.div (.neg (.conj (.inp n!"S1udduRR_1232"))) (.rat 8 1)) (.div (.div (.conj (.inp n!"S8udduRR_1232")) (.rat 16 1)) (.rat 3 1)))) (.div (.mul (.rat 2 1) (.add (.add (.div (.neg (.conj (.inp n!"S1udduRR_1232"))) (.rat 2 1)) (.div (.conj (.inp n!"S8udduRR_1232")) (.mul (.rat 4 1) (.rat 3 1)))) (.div (.conj (.inp n!"S8udRR_1232")) (.rat 2 1)))) (.rat 3 1))) (.div (.mul (.rat 2 1) (.add (.mul (.rat (-2) 1) (.inp n!"V1udduLR_2321")) (.div (.inp n!"V8udduLR_2321") (.rat 3 1)))) (.rat 3 1))) (.div (.div (.div (.sqrt (.rat 2 1)) (.rat 4 1)) (.par n!"GF")) (.mul (.ckm 1 2) (.conj (.ckm 0 1)))))),
  (n!"cbenue::cVR", (.mul (.div (.div (.div (.neg (.sqrt (.rat 2 1))) (.par n!"GF")) (.ckm 1 2)) (.rat 4 1)) (.conj (.inp n!"VnueduLR_1132")))),
  (n!"dbcu::c8", (.mul (.sub (.add (.mul (.rat 2 1) (.add (.div (.neg (.inp n!"S1udduRR_2311")) (.rat 8 1)) (.div (.inp n!"S8udduRR_2311") (.mul (.rat 16 1) (.rat 3 1))))) (.div (.mul (.rat 2 1) (.add (.add (.div (.neg (.inp n!"S1udduRR_2311")) (.rat 2 1)) (.div (.inp n!"S8udduRR_2311") (.mul (.rat 4 1) (.rat 3 1)))) (.div (.inp n!"S8udRR_2113") (.rat 2 1)))) (.rat 3 1))) (.div (.mul (.rat 2 1) (.add (.mul (.rat (-2) 1) (.conj (.inp n!"V1udduLR_1132"))) (.div (.conj (.inp n!"V8udduLR_1132")) (.rat 3 1)))) (.rat 3 1))) (.div (.div (.div (.sqrt (.rat 2 1)) (.rat 4 1)) (.par n!"GF")) (.mul (.ckm 1 2) (.conj (.ckm 0 0)))))),
  (n!"ubmunumu::cVR", (.mul (.div (.div (.div (.neg (.sqrt (.rat 2 1))) (.par n!"GF")) (.ckm 0 2)) (.rat 4 1)) (.conj (.inp n!"VnueduLR_2231")))),
  (n!"b->see::Re{cT}", (.mul (.div (.div (.div (.div (.sqrt (.rat 2 1)) (.par n!"GF")) (.ckm 2 2)) (.conj (.ckm 2 1))) (.rat 4 1)) (.re (.mul (.div (.mul (.rat 16 1) (.mul .pi .pi)) (.mul (.sqrt (.mul (.mul (.rat 4 1) .pi) (.par n!"alpha_e"))) (.sqrt (.mul (.mul (.rat 4 1) .pi) (.par n!"alpha_e"))))) (.add (.div (.inp n!"TedRR_1123") (.rat 2 1)) (.div (.conj (.inp n!"TedRR_1132")) (.rat 2 1))))))),
  (n!"b->see::Im{c9'}", (.mul (.div (.div (.div (.div (.sqrt (.rat 2 1)) (.par n!"GF")) (.ckm 2 2)) (.conj (.ckm 2 1))) (.rat 4 1)) (.im (.mul (.div (.mul (.rat 16 1) (.mul .pi .pi)) (.mul (.sqrt (.mul (.mul (.rat 4 1) .pi) (.par n!"alpha_e"))) (.sqrt (.mul (.mul (.rat 4 1) .pi) (.par n!"alpha_e"))))) (.add (.div (.inp n!"VedLR_1123") (.rat 2 1)) (.div (.inp n!"VedRR_1123") (.rat 2 1))))))),
  (n!"b->smumu::Re{cT5}", (.mul (.div (.div (.div (.div (.sqrt (.rat 2 1)) (.par n!"GF")) (.ckm 2 2)) (.conj (.ckm 2 1))) (.rat 4 1)) (.re (.mul (.div (.mul (.rat 16 1) (.mul .pi .pi)) (.mul (.sqrt (.mul (.mul (.rat 4 1) .pi) (.par n!"alpha_e"))) (.sqrt (.mul (.mul (.rat 4 1) .pi) (.par n!"alpha_e"))))) (.sub (.div (.inp n!"TedRR_2223") (.rat 2 1)) (.div (.conj (.inp n!"TedRR_2232")) (.rat 2 1))))))),
  (n!"cbtaunutau::cVR", (.mul (.div (.div (.div (.neg (.sqrt (.rat 2 1))) (.par n!"GF")) (.ckm 1 2)) (.rat 4 1)) (.conj (.inp n!"VnueduLR_3332")))),
  (n!"dbcu::c10'", (.mul (.sub (.div (.add (.add (.div (.neg (.conj (.inp n!"S1udduRR_1132"))) (.rat 2 1)) (.div (.conj (.inp n!"S8udduRR_1132")) (.mul (.rat 4 1) (.rat 3 1)))) (.div (.conj (.inp n!"S8udRR_1231")) (.rat 2 1))) (.rat 24 1)) (.div (.add (.mul (.rat (-2) 1) (.inp n!"V1udduLR_2311")) (.div (.inp n!"V8udduLR_2311") (.rat 3 1))) (.rat 24 1))) (.div (.div (.div (.sqrt (.rat 2 1)) (.rat 4 1)) (.par n!"GF")) (.mul (.ckm 1 2) (.conj (.ckm 0 0)))))),
  (n!"sbsb::c4", (.mul (.div (.div (.div (.sqrt (.rat 2 1)) (.par n!"GF")) (.rat 4 1)) (.mul (.mul (.ckm 2 2) (.conj (.ckm 2 1))) (.mul (.ckm 2 2) (.conj (.ckm 2 1))))) (.neg (.inp n!"V8ddLR_2323")))),
  (n!"sbcu::c10", (.mul (.sub (.div (.add (.add (.div (.neg (.inp n!"S1udduRR_2321")) (.rat 2 1)) (.div (.inp n!"S8udduRR_2321") (.mul (.rat 4 1) (.rat 3 1)))) (.div (.inp n!"S8udRR_2123") (.rat 2 1))) (.rat 24 1)) (.div (.add (.mul (.rat (-2) 1) (.conj (.inp n!"V1udduLR_1232"))) (.div (.conj (.inp n!"V8udduLR_1232")) (.rat 3 1))) (.rat 24 1))) (.div (.div (.div (.sqrt (.rat 2 1)) (.rat 4 1)) (.par n!"GF")) (.mul (.ckm 1 2) (.conj (.ckm 0 1)))))),
  (n!"b->smumu::Im{cP'}", (.mul (.div (.div (.div (.div (.sqrt (.rat 2 1)) (.par n!"GF")) (.ckm 2 2)) (.conj (.ckm 2 1))) (.rat 4 1)) (.im (.mul (.div (.mul (.rat 16 1) (.mul .pi .pi)) (.mul (.sqrt (.mul (.mul (.rat 4 1) .pi) (.par n!"alpha_e"))) (.sqrt (.mul (.mul (.rat 4 1) .pi) (.par n!"alpha_e"))))) (.sub (.div (.inp n!"SedRL_2223") (.rat 2 1)) (.div (.conj (.inp n!"SedRR_2232")) (.rat 2 1))))))),
  (n!"b->see::Re{c9'}", (.mul (.div (.div (.div (.div (.sqrt (.rat 2 1)) (.par n!"GF")) (.ckm 2 2)) (.conj (.ckm 2 1))) (.rat 4 1)) (.re (.mul (.div (.mul (.rat 16 1) (.mul .pi .pi)) (.mul (.sqrt (.mul (.mul (.rat 4 1) .pi) (.par n!"alpha_e"))) (.sqrt (.mul (.mul (.rat 4 1) .pi) (.par n!"alpha_e"))))) (.add (.div (.inp n!"VedLR_1123") (.rat 2 1)) (.div (.inp n!"VedRR_1123") (.rat 2 1))))))),
  (n!"sbcu::c6", (.mul (.add (.div (.mul (.rat (-2) 1) (.add (.add (.div (.neg (.inp n!"S1udduRR_2321")) (.rat 2 1)) (.div (.inp n!"S8udduRR_2321") (.mul (.rat 4 1) (.rat 3 1)))) (.div (.inp n!"S8udRR_2123") (.rat 2 1)))) (.rat 3 1)) (.div (.mul (.rat 8 1) (.add (.mul (.rat (-2) 1) (.conj (.inp n!"V1udduLR_1232"))) (.div (.conj (.inp n!"V8udduLR_1232")) (.rat 3 1)))) (.rat 3 1))) (.div (.div (.div (.sqrt (.rat 2 1)) (.rat 4 1)) (.par n!"GF")) (.mul (.ckm 1 2) (.conj (.ckm 0 1)))))),
  (n!"b->s::c1", (.mul (.div (.div (.div (.div (.sqrt (.rat 2 1)) (.par n!"GF")) (.ckm 2 2)) (.conj (.ckm 2 1))) (.rat 4 1)) (.re (.add (.sub (.sub (.add (.sub (.add (.div (.neg (.inp n!"VddLL_2333")) (.rat 3 1)) (.mul (.rat 2 1) (.sub (.inp n!"V1udLL_2223") (.div (.inp n!"V8udLL_2223") (.mul (.rat 2 1) (.rat 3 1)))))) (.div (.mul (.rat 2 1) (.inp n!"VddLL_1123")) (.rat 3 1))) (.div (.conj (.inp n!"VddLL_1231")) (.rat 3 1))) (.div (.inp n!"VddLL_2223") (.rat 3 1))) (.div (.mul (.rat 2 1) (.sub (.inp n!"V1udLL_1123") (.div (.inp n!"V8udLL_1123") (.mul (.rat 2 1) (.rat 3 1))))) (.rat 3 1))) (.div (.div (.inp n!"V8udLL_1123") (.rat 2 1)) (.rat 3 1)))))),
  (n!"dbcu::c5'", (.mul (.add (.sub (.add (.div (.neg (.sub (.sub (.conj (.inp n!"S1udRR_1231")) (.div (.conj (.inp n!"S8udduRR_1132")) (.rat 4 1))) (.div (.conj (.inp n!"S8udRR_1231")) (.mul (.rat 2 1) (.rat 3 1))))) (.rat 3 1)) (.div (.mul (.rat 4 1) (.neg (.inp n!"V8udduLR_2311"))) (.rat 3 1))) (.div (.add (.add (.div (.neg (.conj (.inp n!"S1udduRR_1132"))) (.rat 2 1)) (.div (.conj (.inp n!"S8udduRR_1132")) (.mul (.rat 4 1) (.rat 3 1)))) (.div (.conj (.inp n!"S8udRR_1231")) (.rat 2 1))) (.mul (.rat 3 1) (.rat 3 1)))) (.div (.mul (.rat 4 1) (.add (.mul (.rat (-2) 1) (.inp n!"V1udduLR_2311")) (.div (.inp n!"V8udduLR_2311") (.rat 3 1)))) (.mul (.rat 3 1) (.rat 3 1)))) (.div (.div (.div (.sqrt (.rat 2 1)) (.rat 4 1)) (.par n!"GF")) (.mul (.ckm 1 2) (.conj (.ckm 0 0)))))),
  (n!"b->smumu::Re{cP'}", (.mul (.div (.div (.div (.div (.sqrt (.rat 2 1)) (.par n!"GF")) (.ckm 2 2)) (.conj (.ckm 2 1))) (.rat 4 1)) (.re (.mul (.div (.mul (.rat 16 1) (.mul .pi .pi)) (.mul (.sqrt (.mul (.mul (.rat 4 1) .pi) (.par n!"alpha_e"))) (.sqrt (.mul (.mul (.rat 4 1) .pi) (.par n!"alpha_e"))))) (.sub (.div (.inp n!"SedRL_2223") (.rat 2 1)) (.div (.conj (.inp n!"SedRR_2232")) (.rat 2 1))))))),
  (n!"b->smumu::Re{cP}", (.mul (.div (.div (.div (.div (.sqrt (.rat 2 1)) (.par n!"GF")) (.ckm 2 2)) (.conj (.ckm 2 1))) (.rat 4 1)) (.re (.mul (.div (.mul (.rat 16 1) (.mul .pi .pi)) (.mul (.sqrt (.mul (.mul (.rat 4 1) .pi) (.par n!"alpha_e"))) (.sqrt (.mul (.mul (.rat 4 1) .pi) (.par n!"alpha_e"))))) (.add (.div (.neg (.conj (.inp n!"SedRL_2232"))) (.rat 2 1)) (.div (.inp n!"SedRR_2223") (.rat 2 1))))))),
  (n!"b->smumu::Im{cS}", (.mul (.div (.div (.div (.div (.sqrt (.rat 2 1)) (.par n!"GF")) (.ckm 2 2)) (.conj (.ckm 2 1))) (.rat 4 1)) (.im (.mul (.div (.mul (.rat 16 1) (.mul .pi .pi)) (.mul (.sqrt (.mul (.mul (.rat 4 1) .pi) (.par n!"alpha_e"))) (.sqrt (.mul (.mul (.rat 4 1) .pi) (.par n!"alpha_e"))))) (.add (.div (.conj (.inp n!"SedRL_2232")) (.rat 2 1)) (.div (.inp n!"SedRR_2223") (.rat 2 1))))))),
  (n!"b->smumu::Re{c9}", (.mul (.div (.div (.div (.div (.sqrt (.rat 2 1)) (.par n!"GF")) (.ckm 2 2)) (.conj (.ckm 2 1))) (.rat 4 1)) (.re (.mul (.div (.mul (.rat 16 1) (.mul .pi .pi)) (.mul (.sqrt (.mul (.mul (.rat 4 1) .pi) (.par n!"alpha_e"))) (.sqrt (.mul (.mul (.rat 4 1) .pi) (.par n!"alpha_e"))))) (.add (.div (.inp n!"VdeLR_2322") (.rat 2 1)) (.div (.inp n!"VedLL_2223") (.rat 2 1))))))),
  (n!"b->smumu::Im{c9'}", (.mul (.div (.div (.div (.div (.sqrt (.rat 2 1)) (.par n!"GF")) (.ckm 2 2)) (.conj (.ckm 2 1))) (.rat 4 1)) (.im (.mul (.div (.mul (.rat 16 1) (.mul .pi .pi)) (.mul (.sqrt (.mul (.mul (.rat 4 1) .pi) (.par n!"alpha_e"))) (.sqrt (.mul (.mul (.rat 4 1) .pi) (.par n!"alpha_e"))))) (.add (.div (.inp n!"VedLR_2223") (.rat 2 1)) (.div (.inp n!"VedRR_2223") (.rat 2 1))))))),
  (n!"cbmunumu::cSL", (.mul (.div (.div (.div (.neg (.sqrt (.rat 2 1))) (.par n!"GF")) (.ckm 1 2)) (.rat 4 1)) (.conj (.inp n!"SnueduRR_2232")))),
  (n!"ubtaunutau::cVR", (.mul (.div (.div (.div (.neg (.sqrt (.rat 2 1))) (.par n!"GF")) (.ckm 0 2)) (.rat 4 1)) (.conj (.inp n!"VnueduLR_3331"))))]

def JMS_to_EOS_2 : List (ℕ × Sym) := [
  (n!"sbcu::c4'", (.mul (.sub (.div (.div (.conj (.inp n!"V8udRR_1232")) (.rat 2 1)) (.rat 6 1)) (.div (.div (.conj (.inp n!"V8udLR_1232")) (.rat 2 1)) (.rat 6 1))) (.div (.div (.div (.sqrt (.rat 2 1)) (.rat 4 1)) (.par n!"GF")) (.mul (.ckm 1 2) (.conj (.ckm 0 1)))))),
  (n!"sbsb::c3'", (.div (.mul (.div (.div (.div (.sqrt (.rat 2 1)) (.par n!"GF")) (.rat 4 1)) (.mul (.mul (.ckm 2 2) (.conj (.ckm 2 1))) (.mul (.ckm 2 2) (.conj (.ckm 2 1))))) (.inp n!"S8ddRR_2323")) (.rat 2 1))),
  (n!"b->smumu::Re{c9'}", (.mul (.div (.div (.div (.div (.sqrt (.rat 2 1)) (.par n!"GF")) (.ckm 2 2)) (.conj (.ckm 2 1))) (.rat 4 1)) (.re (.mul (.div (.mul (.rat 16 1) (.mul .pi .pi)) (.mul (.sqrt (.mul (.mul (.rat 4 1) .pi) (.par n!"alpha_e"))) (.sqrt (.mul (.mul (.rat 4 1) .pi) (.par n!"alpha_e"))))) (.add (.div (.inp n!"VedLR_2223") (.rat 2 1)) (.div (.inp n!"VedRR_2223") (.rat 2 1))))))),
  (n!"b->see::Re{cP}", (.mul (.div (.div (.div (.div (.sqrt (.rat 2 1)) (.par n!"GF")) (.ckm 2 2)) (.conj (.ckm 2 1))) (.rat 4 1)) (.re (.mul (.div (.mul (.rat 16 1) (.mul .pi .pi)) (.mul (.sqrt (.mul (.mul (.rat 4 1) .pi) (.par n!"alpha_e"))) (.sqrt (.mul (.mul (.rat 4 1) .pi) (.par n!"alpha_e"))))) (.add (.div (.neg (.conj (.inp n!"SedRL_1132"))) (.rat 2 1)) (.div (.inp n!"SedRR_1123") (.rat 2 1))))))),
  (n!"cbtaunutau::cT", (.mul (.div (.div (.div (.neg (.sqrt (.rat 2 1))) (.par n!"GF")) (.ckm 1 2)) (.rat 4 1)) (.conj (.inp n!"TnueduRR_3332")))),
  (n!"b->s::c6", (.mul (.div (.div (.div (.div (.sqrt (.rat 2 1)) (.par n!"GF")) (.ckm 2 2)) (.conj (.ckm 2 1))) (.rat 4 1)) (.re (.sub (.add (.sub (.sub (.add (.sub (.add (.sub (.sub (.sub (.div (.inp n!"VddLL_2333") (.rat 36 1)) (.div (.div (.inp n!"V8ddLR_2333") (.rat 2 1)) (.rat 30 1))) (.div (.div (.inp n!"V8duLR_2322") (.rat 2 1)) (.rat 30 1))) (.div (.inp n!"VddLL_1123") (.rat 36 1))) (.div (.conj (.inp n!"VddLL_1231")) (.rat 18 1))) (.div (.div (.inp n!"V8ddLR_2311") (.rat 2 1)) (.rat 30 1))) (.div (.inp n!"VddLL_2223") (.rat 36 1))) (.div (.div (.inp n!"V8ddLR_2322") (.rat 2 1)) (.rat 30 1))) (.div (.sub (.inp n!"V1udLL_1123") (.div (.inp n!"V8udLL_1123") (.mul (.rat 2 1) (.rat 3 1)))) (.rat 36 1))) (.div (.div (.inp n!"V8udLL_1123") (.rat 2 1)) (.rat 18 1))) (.div (.div (.inp n!"V8duLR_2311") (.rat 2 1)) (.rat 30 1)))))),
  (n!"b->see::Im{cS}", (.mul (.div (.div (.div (.div (.sqrt (.rat 2 1)) (.par n!"GF")) (.ckm 2 2)) (.conj (.ckm 2 1))) (.rat 4 1)) (.im (.mul (.div (.mul (.rat 16 1) (.mul .pi .pi)) (.mul (.sqrt (.mul (.mul (.rat 4 1) .pi) (.par n!"alpha_e"))) (.sqrt (.mul (.mul (.rat 4 1) .pi) (.par n!"alpha_e"))))) (.add (.div (.conj (.inp n!"SedRL_1132")) (.rat 2 1)) (.div (.inp n!"SedRR_1123") (.rat 2 1))))))),
  (n!"dbcu::c5", (.mul (.add (.sub (.add (.div (.neg (.sub (.sub (.inp n!"S1udRR_2113") (.div (.inp n!"S8udduRR_2311") (.rat 4 1))) (.div (.inp n!"S8udRR_2113") (.mul (.rat 2 1) (.rat 3 1))))) (.rat 3 1)) (.div (.mul (.rat 4 1) (.neg (.conj (.inp n!"V8udduLR_1132")))) (.rat 3 1))) (.div (.add (.add (.div (.neg (.inp n!"S1udduRR_2311")) (.rat 2 1)) (.div (.inp n!"S8udduRR_2311") (.mul (.rat 4 1) (.rat 3 1)))) (.div (.inp n!"S8udRR_2113") (.rat 2 1))) (.mul (.rat 3 1) (.rat 3 1)))) (.div (.mul (.rat 4 1) (.add (.mul (.rat (-2) 1) (.conj (.inp n!"V1udduLR_1132"))) (.div (.conj (.inp n!"V8udduLR_1132")) (.rat 3 1)))) (.mul (.rat 3 1) (.rat 3 1)))) (.div (.div (.div (.sqrt (.rat 2 1)) (.rat 4 1)) (.par n!"GF")) (.mul (.ckm 1 2) (.conj (.ckm 0 0)))))),
  (n!"b->see::Im{c10}", (.mul (.div (.div (.div (.div (.sqrt (.rat 2 1)) (.par n!"GF")) (.ckm 2 2)) (.conj (.ckm 2 1))) (.rat 4 1)) (.im (.mul (.div (.mul (.rat 16 1) (.mul .pi .pi)) (.mul (.sqrt (.mul (.mul (.rat 4 1) .pi) (.par n!"alpha_e"))) (.sqrt (.mul (.mul (.rat 4 1) .pi) (.par n!"alpha_e"))))) (.sub (.div (.inp n!"VdeLR_2311") (.rat 2 1)) (.div (.inp n!"VedLL_1123") (.rat 2 1))))))),
  (n!"b->see::Re{c9}", (.mul (.div (.div (.div (.div (.sqrt (.rat 2 1)) (.par n!"GF")) (.ckm 2 2)) (.conj (.ckm 2 1))) (.rat 4 1)) (.re (.mul (.div (.mul (.rat 16 1) (.mul .pi .pi)) (.mul (.sqrt (.mul (.mul (.rat 4 1) .pi) (.par n!"alpha_e"))) (.sqrt (.mul (.mul (.rat 4 1) .pi) (.par n!"alpha_e"))))) (.add (.div (.inp n!"VdeLR_2311") (.rat 2 1)) (.div (.inp n!"VedLL_1123") (.rat 2 1))))))),
  (n!"cbenue::cT", (.mul (.div (.div (.div (.neg (.sqrt (.rat 2 1))) (.par n!"GF")) (.ckm 1 2)) (.rat 4 1)) (.conj (.inp n!"TnueduRR_1132")))),
  (n!"ubenue::cSL", (.mul (.div (.div (.div (.neg (.sqrt (.rat 2 1))) (.par n!"GF")) (.ckm 0 2)) (.rat 4 1)) (.conj (.inp n!"SnueduRR_1131")))),
  (n!"sbsb::c1", (.mul (.div (.div (.div (.sqrt (.rat 2 1)) (.par n!"GF")) (.rat 4 1)) (.mul (.mul (.ckm 2 2) (.conj (.ckm 2 1))) (.mul (.ckm 2 2) (.conj (.ckm 2 1))))) (.inp n!"VddLL_2323"))),
  (n!"b->see::Re{c10}", (.mul (.div (.div (.div (.div (.sqrt (.rat 2 1)) (.par n!"GF")) (.ckm 2 2)) (.conj (.ckm 2 1))) (.rat 4 1)) (.re (.mul (.div (.mul (.rat 16 1) (.mul .pi .pi)) (.mul (.sqrt (.mul (.mul (.rat 4 1) .pi) (.par n!"alpha_e"))) (.sqrt (.mul (.mul (.rat 4 1) .pi) (.par n!"alpha_e"))))) (.sub (.div (.inp n!"VdeLR_2311") (.rat 2 1)) (.div (.inp n!"VedLL_1123") (.rat 2 1))))))),
  (n!"ubenue::cT", (.mul (.div (.div (.div (.neg (.sqrt (.rat 2 1))) (.par n!"GF")) (.ckm 0 2)) (.rat 4 1)) (.conj (.inp n!"TnueduRR_1131")))),
  (n!"dbcu::c1'", (.mul (.add (.sub (.add (.div (.neg (.sub (.conj (.inp n!"V1udRR_1231")) (.div (.conj (.inp n!"V8udRR_1231")) (.mul (.rat 2 1) (.rat 3 1))))) (.rat 3 1)) (.div (.mul (.rat 4 1) (.sub (.conj (.inp n!"V1udLR_1231")) (.div (.conj (.inp n!"V8udLR_1231")) (.mul (.rat 2 1) (.rat 3 1))))) (.rat 3 1))) (.div (.div (.conj (.inp n!"V8udRR_1231")) (.rat 2 1)) (.mul (.rat 3 1) (.rat 3 1)))) (.div (.mul (.rat 4 1) (.div (.conj (.inp n!"V8udLR_1231")) (.rat 2 1))) (.mul (.rat 3 1) (.rat 3 1)))) (.div (.div (.div (.sqrt (.rat 2 1)) (.rat 4 1)) (.par n!"GF")) (.mul (.ckm 1 2) (.conj (.ckm 0 0)))))),
  (n!"sbcu::c3", (.mul (.sub (.add (.sub (.div (.sub (.conj (.inp n!"V1udLL_1232")) (.div (.conj (.inp n!"V8udLL_1232")) (.mul (.rat 2 1) (.rat 3 1)))) (.rat 12 1)) (.div (.sub (.inp n!"V1duLR_2321") (.div (.inp n!"V8duLR_2321") (.mul (.rat 2 1) (.rat 3 1)))) (.rat 12 1))) (.div (.div (.conj (.inp n!"V8udLL_1232")) (.rat 2 1)) (.mul (.rat 12 1) (.rat 3 1)))) (.div (.div (.inp n!"V8duLR_2321") (.rat 2 1)) (.mul (.rat 12 1) (.rat 3 1)))) (.div (.div (.div (.sqrt (.rat 2 1)) (.rat 4 1)) (.par n!"GF")) (.mul (.ckm 1 2) (.conj (.ckm 0 1)))))),
  (n!"sbcu::c9'", (.mul (.sub (.add (.sub (.div (.sub (.sub (.conj (.inp n!"S1udRR_1232")) (.div (.conj (.inp n!"S8udduRR_1232")) (.rat 4 1))) (.div (.conj (.inp n!"S8udRR_1232")) (.mul (.rat 2 1) (.rat 3 1)))) (.rat 48 1)) (.div (.neg (.inp n!"V8udduLR_2321")) (.rat 48 1))) (.div (.add (.add (.div (.neg (.conj (.inp n!"S1udduRR_1232"))) (.rat 2 1)) (.div (.conj (.inp n!"S8udduRR_1232")) (.mul (.rat 4 1) (.rat 3 1)))) (.div (.conj (.inp n!"S8udRR_1232")) (.rat 2 1))) (.mul (.rat 48 1) (.rat 3 1)))) (.div (.add (.mul (.rat (-2) 1) (.inp n!"V1udduLR_2321")) (.div (.inp n!"V8udduLR_2321") (.rat 3 1))) (.mul (.rat 48 1) (.rat 3 1)))) (.div (.div (.div (.sqrt (.rat 2 1)) (.rat 4 1)) (.par n!"GF")) (.mul (.ckm 1 2) (.conj (.ckm 0 1)))))),
  (n!"sbcu::c10'", (.mul (.sub (.div (.add (.add (.div (.neg (.conj (.inp n!"S1udduRR_1232"))) (.rat 2 1)) (.div (.conj (.inp n!"S8udduRR_1232")) (.mul (.rat 4 1) (.rat 3 1)))) (.div (.conj (.inp n!"S8udRR_1232")) (.rat 2 1))) (.rat 24 1)) (.div (.add (.mul (.rat (-2) 1) (.inp n!"V1udduLR_2321")) (.div (.inp n!"V8udduLR_2321") (.rat 3 1))) (.rat 24 1))) (.div (.div (.div (.sqrt (.rat 2 1)) (.rat 4 1)) (.par n!"GF")) (.mul (.ckm 1 2) (.conj (.ckm 0 1)))))),
  (n!"b->smumu::Im{c10}", (.mul (.div (.div (.div (.div (.sqrt (.rat 2 1)) (.par n!"GF")) (.ckm 2 2)) (.conj (.ckm 2 1))) (.rat 4 1)) (.im (.mul (.div (.mul (.rat 16 1) (.mul .pi .pi)) (.mul (.sqrt (.mul (.mul (.rat 4 1) .pi) (.par n!"alpha_e"))) (.sqrt (.mul (.mul (.rat 4 1) .pi) (.par n!"alpha_e"))))) (.sub (.div (.inp n!"VdeLR_2322") (.rat 2 1)) (.div (.inp n!"VedLL_2223") (.rat 2 1))))))),
  (n!"dbcu::c6'", (.mul (.add (.div (.mul (.rat (-2) 1) (.add (.add (.div (.neg (.conj (.inp n!"S1udduRR_1132"))) (.rat 2 1)) (.div (.conj (.inp n!"S8udduRR_1132")) (.mul (.rat 4 1) (.rat 3 1)))) (.div (.conj (.inp n!"S8udRR_1231")) (.rat 2 1)))) (.rat 3 1)) (.div (.mul (.rat 8 1) (.add (.mul (.rat (-2) 1) (.inp n!"V1udduLR_2311")) (.div (.inp n!"V8udduLR_2311") (.rat 3 1)))) (.rat 3 1))) (.div (.div (.div (.sqrt (.rat 2 1)) (.rat 4 1)) (.par n!"GF")) (.mul (.ckm 1 2) (.conj (.ckm 0 0)))))),
  (n!"b->smumu::Re{c10}", (.mul (.div (.div (.div (.div (.sqrt (.rat 2 1)) (.par n!"GF")) (.ckm 2 2)) (.conj (.ckm 2 1))) (.rat 4 1)) (.re (.mul (.div (.mul (.rat 16 1) (.mul .pi .pi)) (.mul (.sqrt (.mul (.mul (.rat 4 1) .pi) (.par n!"alpha_e"))) (.sqrt (.mul (.mul (.rat 4 1) .pi) (.par n!"alpha_e"))))) (.sub (.div (.inp n!"VdeLR_2322") (.rat 2 1)) (.div (.inp n!"VedLL_2223") (.rat 2 1))))))),
  (n!"sbcu::c8", (.mul (.sub (.add (.mul (.rat 2 1) (.add (.div (.neg (.inp n!"S1udduRR_2321")) (.rat 8 1)) (.div (.inp n!"S8udduRR_2321") (.mul (.rat 16 1) (.rat 3 1))))) (.div (.mul (.rat 2 1) (.add (.add (.div (.neg (.inp n!"S1udduRR_2321")) (.rat 2 1)) (.div (.inp n!"S8udduRR_2321") (.mul (.rat 4 1) (.rat 3 1)))) (.div (.inp n!"S8udRR_2123") (.rat 2 1)))) (.rat 3 1))) (.div (.mul (.rat 2 1) (.add (.mul (.rat (-2) 1) (.conj (.inp n!"V1udduLR_1232"))) (.div (.conj (.inp n!"V8udduLR_1232")) (.rat 3 1)))) (.rat 3 1))) (.div (.div (.div (.sqrt (.rat 2 1)) (.rat 4 1)) (.par n!"GF")) (.mul (.ckm 1 2) (.conj (.ckm 0 1)))))),
  (n!"b->s::c3", (.mul (.div (.div (.div (.div (.sqrt (.rat 2 1)) (.par n!"GF")) (.ckm 2 2)) (.conj (.ckm 2 1))) (.rat 4 1)) (.re (.add (.add (.add (.sub (.add (.add (.sub (.add (.add (.add (.sub (.add (.add (.add (.add (.div (.mul (.rat (-2) 1) (.inp n!"VddLL_2333")) (.rat 27 1)) (.div (.mul (.rat 4 1) (.sub (.inp n!"V1ddLR_2333") (.div (.inp n!"V8ddLR_2333") (.mul (.rat 2 1) (.rat 3 1))))) (.rat 15 1))) (.div (.mul (.rat 4 1) (.div (.inp n!"V8ddLR_2333") (.rat 2 1))) (.rat 45 1))) (.div (.mul (.rat 4 1) (.sub (.inp n!"V1duLR_2322") (.div (.inp n!"V8duLR_2322") (.mul (.rat 2 1) (.rat 3 1))))) (.rat 15 1))) (.div (.mul (.rat 4 1) (.div (.inp n!"V8duLR_2322") (.rat 2 1))) (.rat 45 1))) (.div (.mul (.rat 5 1) (.inp n!"VddLL_1123")) (.rat 54 1))) (.div (.conj (.inp n!"VddLL_1231")) (.rat 54 1))) (.div (.mul (.rat 4 1) (.sub (.inp n!"V1ddLR_2311") (.div (.inp n!"V8ddLR_2311") (.mul (.rat 2 1) (.rat 3 1))))) (.rat 15 1))) (.div (.mul (.rat 4 1) (.div (.inp n!"V8ddLR_2311") (.rat 2 1))) (.rat 45 1))) (.div (.mul (.rat 2 1) (.inp n!"VddLL_2223")) (.rat 27 1))) (.div (.mul (.rat 4 1) (.sub (.inp n!"V1ddLR_2322") (.div (.inp n!"V8ddLR_2322") (.mul (.rat 2 1) (.rat 3 1))))) (.rat 15 1))) (.div (.mul (.rat 4 1) (.div (.inp n!"V8ddLR_2322") (.rat 2 1))) (.rat 45 1))) (.div (.mul (.rat 5 1) (.sub (.inp n!"V1udLL_1123") (.div (.inp n!"V8udLL_1123") (.mul (.rat 2 1) (.rat 3 1))))) (.rat 54 1))) (.div (.div (.inp n!"V8udLL_1123") (.rat 2 1)) (.rat 54 1))) (.div (.mul (.rat 4 1) (.sub (.inp n!"V1duLR_2311") (.div (.inp n!"V8duLR_2311") (.mul (.rat 2 1) (.rat 3 1))))) (.rat 15 1))) (.div (.mul (.rat 4 1) (.div (.inp n!"V8duLR_2311") (.rat 2 1))) (.rat 45 1)))))),
  (n!"cbenue::cVL", (.mul (.div (.div (.div (.neg (.sqrt (.rat 2 1))) (.par n!"GF")) (.ckm 1 2)) (.rat 4 1)) (.conj (.inp n!"VnueduLL_1132")))),
  (n!"dbcu::c2", (.mul (.add (.div (.mul (.rat (-2) 1) (.div (.conj (.inp n!"V8udLL_1231")) (.rat 2 1))) (.rat 3 1)) (.div (.mul (.rat 8 1) (.div (.inp n!"V8duLR_1321") (.rat 2 1))) (.rat 3 1))) (.div (.div (.div (.sqrt (.rat 2 1)) (.rat 4 1)) (.par n!"GF")) (.mul (.ckm 1 2) (.conj (.ckm 0 0)))))),
  (n!"ubmunumu::cVL", (.mul (.div (.div (.div (.neg (.sqrt (.rat 2 1))) (.par n!"GF")) (.ckm 0 2)) (.rat 4 1)) (.conj (.inp n!"VnueduLL_2231")))),
  (n!"cbtaunutau::cVL", (.mul (.div (.div (.div (.neg (.sqrt (.rat 2 1))) (.par n!"GF")) (.ckm 1 2)) (.rat 4 1)) (.conj (.inp n!"VnueduLL_3332")))),
  (n!"b->smumu::Im{cT}", (.mul (.div (.div (.div (.div (.sqrt (.rat 2 1)) (.par n!"GF")) (.ckm 2 2)) (.conj (.ckm 2 1))) (.rat 4 1)) (.im (.mul (.div (.mul (.rat 16 1) (.mul .pi .pi)) (.mul (.sqrt (.mul (.mul (.rat 4 1) .pi) (.par n!"alpha_e"))) (.sqrt (.mul (.mul (.rat 4 1) .pi) (.par n!"alpha_e"))))) (.add (.div (.inp n!"TedRR_2223") (.rat 2 1)) (.div (.conj (.inp n!"TedRR_2232")) (.rat 2 1)))))))]

/-- the items returned by `JMS_to_EOS` (in the order of the search tree of the model) -/
def JMS_to_EOS : List (ℕ × Sym) :=
  JMS_to_EOS_0 ++ (JMS_to_EOS_1 ++ (JMS_to_EOS_2))

/-- the arrays returned by `JMS_to_EOS` -/
def JMS_to_EOS_arrays : List (ℕ × List Sym) := [
  (n!"b->s::c5", [(.mul (.div (.div (.div (.div (.sqrt (.rat 2 1)) (.par n!"GF")) (.ckm 2 2)) (.conj (.ckm 2 1))) (.rat 4 1)) (.re (.sub (.sub (.sub (.add (.sub (.sub (.add (.sub (.sub (.sub (.add (.sub (.sub (.sub (.sub (.div (.inp n!"VddLL_2333") (.rat 54 1)) (.div (.sub (.inp n!"V1ddLR_2333") (.div (.inp n!"V8ddLR_2333") (.mul (.rat 2 1) (.rat 3 1)))) (.rat 60 1))) (.div (.div (.inp n!"V8ddLR_2333") (.rat 2 1)) (.rat 180 1))) (.div (.sub (.inp n!"V1duLR_2322") (.div (.inp n!"V8duLR_2322") (.mul (.rat 2 1) (.rat 3 1)))) (.rat 60 1))) (.div (.div (.inp n!"V8duLR_2322") (.rat 2 1)) (.rat 180 1))) (.div (.mul (.rat 5 1) (.inp n!"VddLL_1123")) (.rat 216 1))) (.div (.conj (.inp n!"VddLL_1231")) (.rat 216 1))) (.div (.sub (.inp n!"V1ddLR_2311") (.div (.inp n!"V8ddLR_2311") (.mul (.rat 2 1) (.rat 3 1)))) (.rat 60 1))) (.div (.div (.inp n!"V8ddLR_2311") (.rat 2 1)) (.rat 180 1))) (.div (.inp n!"VddLL_2223") (.rat 54 1))) (.div (.sub (.inp n!"V1ddLR_2322") (.div (.inp n!"V8ddLR_2322") (.mul (.rat 2 1) (.rat 3 1)))) (.rat 60 1))) (.div (.div (.inp n!"V8ddLR_2322") (.rat 2 1)) (.rat 180 1))) (.div (.mul (.rat 5 1) (.sub (.inp n!"V1udLL_1123") (.div (.inp n!"V8udLL_1123") (.mul (.rat 2 1) (.rat 3 1))))) (.rat 216 1))) (.div (.div (.inp n!"V8udLL_1123") (.rat 2 1)) (.rat 216 1))) (.div (.sub (.inp n!"V1duLR_2311") (.div (.inp n!"V8duLR_2311") (.mul (.rat 2 1) (.rat 3 1)))) (.rat 60 1))) (.div (.div (.inp n!"V8duLR_2311") (.rat 2 1)) (.rat 180 1)))))])]

end Verif.Gen.WetOut
