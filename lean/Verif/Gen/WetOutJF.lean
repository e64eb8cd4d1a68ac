import Verif.Model.Py

/-!
# The dictionary returned by `JMS_to_flavio`

GENERATED by tools/gen_wetout.lean; that this is what the translator returns is proved in
`Lemmas/WetRunsJF`.
-/

set_option autoImplicit false
set_option maxRecDepth 20000

namespace Verif.Gen.WetOut
open Verif.Py

def JMS_to_flavio_0 : List (ℕ × Sym) := [
  (n!"CT_bumunutau", (.mul (.div (.div (.div (.neg (.sqrt (.rat 2 1))) (.par n!"GF")) (.ckm 0 2)) (.rat 4 1)) (.conj (.inp n!"TnueduRR_3231")))),
  (n!"CVLL_numunumutautau", (.mul (.div (.div (.sqrt (.rat 2 1)) (.par n!"GF")) (.rat 4 1)) (.inp n!"VnueLL_2233"))),
  (n!"CVLL_numunutaubb", (.mul (.div (.div (.sqrt (.rat 2 1)) (.par n!"GF")) (.rat 4 1)) (.inp n!"VnudLL_2333"))),
  (n!"CP_sdmumu", (.mul (.div (.div (.div (.sqrt (.rat 2 1)) (.par n!"GF")) (.mul (.ckm 2 1) (.conj (.ckm 2 0)))) (.rat 4 1)) (.mul (.div (.div (.mul (.rat 16 1) (.mul .pi .pi)) (.mul (.sqrt (.mul (.mul (.rat 4 1) .pi) (.par n!"alpha_e"))) (.sqrt (.mul (.mul (.rat 4 1) .pi) (.par n!"alpha_e"))))) (.par n!"m_s")) (.add (.div (.neg (.conj (.inp n!"SedRL_2221"))) (.rat 2 1)) (.div (.inp n!"SedRR_2212") (.rat 2 1)))))),
  (n!"CSLL_bscc", (.mul (.div (.div (.div (.sqrt (.rat 2 1)) (.par n!"GF")) (.mul (.ckm 2 2) (.conj (.ckm 2 1)))) (.rat 4 1)) (.sub (.sub (.conj (.inp n!"S1udRR_2232")) (.div (.conj (.inp n!"S8udduRR_2232")) (.rat 4 1))) (.div (.conj (.inp n!"S8udRR_2232")) (.mul (.rat 2 1) (.rat 3 1)))))),
  (n!"CVRL_bsdd", (.mul (.div (.div (.div (.sqrt (.rat 2 1)) (.par n!"GF")) (.mul (.ckm 2 2) (.conj (.ckm 2 1)))) (.rat 4 1)) (.sub (.inp n!"V1ddLR_1123") (.div (.inp n!"V8ddLR_1123") (.mul (.rat 2 1) (.rat 3 1)))))),
  (n!"CVLL_uuuu", (.mul (.div (.div (.sqrt (.rat 2 1)) (.par n!"GF")) (.rat 4 1)) (.inp n!"VuuLL_1111"))),
  (n!"CT_dumunumu", (.mul (.div (.div (.div (.neg (.sqrt (.rat 2 1))) (.par n!"GF")) (.ckm 0 0)) (.rat 4 1)) (.conj (.inp n!"TnueduRR_2211")))),
  (n!"CVLL_nuenueee", (.mul (.div (.div (.sqrt (.rat 2 1)) (.par n!"GF")) (.rat 4 1)) (.inp n!"VnueLL_1111"))),
  (n!"CVLR_bscc", (.mul (.div (.div (.div (.sqrt (.rat 2 1)) (.par n!"GF")) (.mul (.ckm 2 2) (.conj (.ckm 2 1)))) (.rat 4 1)) (.sub (.inp n!"V1duLR_2322") (.div (.inp n!"V8duLR_2322") (.mul (.rat 2 1) (.rat 3 1)))))),
  (n!"CV8LL_uuss", (.mul (.div (.div (.sqrt (.rat 2 1)) (.par n!"GF")) (.rat 4 1)) (.inp n!"V8udLL_1122"))),
  (n!"CSRR_sdbb", (.mul (.div (.div (.div (.sqrt (.rat 2 1)) (.par n!"GF")) (.mul (.ckm 2 1) (.conj (.ckm 2 0)))) (.rat 4 1)) (.sub (.sub (.inp n!"S1ddRR_1233") (.div (.inp n!"S8ddRR_1332") (.rat 4 1))) (.div (.inp n!"S8ddRR_1233") (.mul (.rat 2 1) (.rat 3 1)))))),
  (n!"CSRR_eedd", (.mul (.div (.div (.sqrt (.rat 2 1)) (.par n!"GF")) (.rat 4 1)) (.inp n!"SedRR_1111"))),
  (n!"C10p_bstaumu", (.mul (.div (.div (.div (.sqrt (.rat 2 1)) (.par n!"GF")) (.mul (.ckm 2 2) (.conj (.ckm 2 1)))) (.rat 4 1)) (.mul (.div (.mul (.rat 16 1) (.mul .pi .pi)) (.mul (.sqrt (.mul (.mul (.rat 4 1) .pi) (.par n!"alpha_e"))) (.sqrt (.mul (.mul (.rat 4 1) .pi) (.par n!"alpha_e"))))) (.add (.div (.neg (.inp n!"VedLR_2323")) (.rat 2 1)) (.div (.inp n!"VedRR_2323") (.rat 2 1)))))),
  (n!"CSp_sdemu", (.mul (.div (.div (.div (.sqrt (.rat 2 1)) (.par n!"GF")) (.mul (.ckm 2 1) (.conj (.ckm 2 0)))) (.rat 4 1)) (.mul (.div (.div (.mul (.rat 16 1) (.mul .pi .pi)) (.mul (.sqrt (.mul (.mul (.rat 4 1) .pi) (.par n!"alpha_e"))) (.sqrt (.mul (.mul (.rat 4 1) .pi) (.par n!"alpha_e"))))) (.par n!"m_s")) (.add (.div (.inp n!"SedRL_2112") (.rat 2 1)) (.div (.conj (.inp n!"SedRR_1221")) (.rat 2 1)))))),
  (n!"CVRL_cubb", (.mul (.div (.div (.div (.sqrt (.rat 2 1)) (.par n!"GF")) (.mul (.conj (.ckm 1 2)) (.ckm 0 2))) (.rat 4 1)) (.sub (.inp n!"V1duLR_3312") (.div (.inp n!"V8duLR_3312") (.mul (.rat 2 1) (.rat 3 1)))))),
  (n!"CSR_dumunumu", (.mul (.div (.div (.div (.neg (.sqrt (.rat 2 1))) (.par n!"GF")) (.ckm 0 0)) (.rat 4 1)) (.conj (.inp n!"SnueduRL_2211")))),
  (n!"CVLR_nuenuecc", (.mul (.div (.div (.sqrt (.rat 2 1)) (.par n!"GF")) (.rat 4 1)) (.inp n!"VnuuLR_1122"))),
  (n!"CVRLt_sduu", (.mul (.div (.div (.div (.sqrt (.rat 2 1)) (.par n!"GF")) (.mul (.ckm 2 1) (.conj (.ckm 2 0)))) (.rat 4 1)) (.div (.inp n!"V8udLR_1112") (.rat 2 1)))),
  (n!"CTRR_bdbd", (.mul (.div (.rat (-1) 1) (.rat 8 1)) (.div (.inp n!"S8ddRR_1313") (.rat 2 1)))),
  (n!"CSRR_bsss", (.mul (.div (.div (.div (.sqrt (.rat 2 1)) (.par n!"GF")) (.mul (.ckm 2 2) (.conj (.ckm 2 1)))) (.rat 4 1)) (.sub (.sub (.inp n!"S1ddRR_2223") (.div (.inp n!"S8ddRR_2223") (.rat 4 1))) (.div (.inp n!"S8ddRR_2223") (.mul (.rat 2 1) (.rat 3 1)))))),
  (n!"CVR_scenutau", (.mul (.div (.div (.div (.neg (.sqrt (.rat 2 1))) (.par n!"GF")) (.ckm 1 1)) (.rat 4 1)) (.conj (.inp n!"VnueduLR_3122")))),
  (n!"CS8RR_ccbb", (.mul (.div (.div (.sqrt (.rat 2 1)) (.par n!"GF")) (.rat 4 1)) (.inp n!"S8udRR_2233"))),
  (n!"CTRR_sdsd", (.mul (.div (.rat (-1) 1) (.rat 8 1)) (.div (.inp n!"S8ddRR_1212") (.rat 2 1)))),
  (n!"CSL_duenumu", (.mul (.div (.div (.div (.neg (.sqrt (.rat 2 1))) (.par n!"GF")) (.ckm 0 0)) (.rat 4 1)) (.conj (.inp n!"SnueduRR_2111")))),
  (n!"CVLR_numunutaucc", (.mul (.div (.div (.sqrt (.rat 2 1)) (.par n!"GF")) (.rat 4 1)) (.inp n!"VnuuLR_2322"))),
  (n!"C9p_bdee", (.mul (.div (.div (.div (.sqrt (.rat 2 1)) (.par n!"GF")) (.mul (.ckm 2 2) (.conj (.ckm 2 0)))) (.rat 4 1)) (.mul (.div (.mul (.rat 16 1) (.mul .pi .pi)) (.mul (.sqrt (.mul (.mul (.rat 4 1) .pi) (.par n!"alpha_e"))) (.sqrt (.mul (.mul (.rat 4 1) .pi) (.par n!"alpha_e"))))) (.add (.div (.inp n!"VedLR_1113") (.rat 2 1)) (.div (.inp n!"VedRR_1113") (.rat 2 1)))))),
  (n!"CS1RR_uubb", (.mul (.div (.div (.sqrt (.rat 2 1)) (.par n!"GF")) (.rat 4 1)) (.inp n!"S1udRR_1133"))),
  (n!"CS8RR_uccu", (.mul (.div (.div (.sqrt (.rat 2 1)) (.par n!"GF")) (.rat 4 1)) (.inp n!"S8uuRR_1221"))),
  (n!"C8_uu", (.mul (.div (.div (.sqrt (.rat 2 1)) (.par n!"GF")) (.rat 4 1)) (.mul (.div (.div (.mul (.rat 16 1) (.mul .pi .pi)) (.sqrt (.mul (.mul (.rat 4 1) .pi) (.par n!"alpha_s")))) (.par n!"m_u")) (.inp n!"uG_11")))),
  (n!"CTRRt_sduu", (.mul (.div (.div (.div (.sqrt (.rat 2 1)) (.par n!"GF")) (.mul (.ckm 2 1) (.conj (.ckm 2 0)))) (.rat 4 1)) (.add (.div (.neg (.inp n!"S1udduRR_1211")) (.rat 8 1)) (.div (.inp n!"S8udduRR_1211") (.mul (.rat 16 1) (.rat 3 1)))))),
  (n!"CSL_dutaunue", (.mul (.div (.div (.div (.neg (.sqrt (.rat 2 1))) (.par n!"GF")) (.ckm 0 0)) (.rat 4 1)) (.conj (.inp n!"SnueduRR_1311")))),
  (n!"CSLR_bdbd", (.neg (.inp n!"V8ddLR_1313"))),
  (n!"CR_bdnutaunumu", (.mul (.div (.div (.div (.sqrt (.rat 2 1)) (.par n!"GF")) (.mul (.ckm 2 2) (.conj (.ckm 2 0)))) (.rat 4 1)) (.mul (.div (.mul (.rat 8 1) (.mul .pi .pi)) (.mul (.sqrt (.mul (.mul (.rat 4 1) .pi) (.par n!"alpha_e"))) (.sqrt (.mul (.mul (.rat 4 1) .pi) (.par n!"alpha_e"))))) (.inp n!"VnudLR_2313")))),
  (n!"CV1LR_bbuu", (.mul (.div (.div (.sqrt (.rat 2 1)) (.par n!"GF")) (.rat 4 1)) (.inp n!"V1duLR_3311"))),
  (n!"CSLR_sdsd", (.neg (.inp n!"V8ddLR_1212"))),
  (n!"CVLR_numunumuuu", (.mul (.div (.div (.sqrt (.rat 2 1)) (.par n!"GF")) (.rat 4 1)) (.inp n!"VnuuLR_2211"))),
  (n!"CV8LR_dduu", (.mul (.div (.div (.sqrt (.rat 2 1)) (.par n!"GF")) (.rat 4 1)) (.inp n!"V8duLR_1111"))),
  (n!"CT_buenutau", (.mul (.div (.div (.div (.neg (.sqrt (.rat 2 1))) (.par n!"GF")) (.ckm 0 2)) (.rat 4 1)) (.conj (.inp n!"TnueduRR_3131")))),
  (n!"CV8LR_ssuu", (.mul (.div (.div (.sqrt (.rat 2 1)) (.par n!"GF")) (.rat 4 1)) (.inp n!"V8duLR_2211"))),
  (n!"CVR_dutaunutau", (.mul (.div (.div (.div (.neg (.sqrt (.rat 2 1))) (.par n!"GF")) (.ckm 0 0)) (.rat 4 1)) (.conj (.inp n!"VnueduLR_3311")))),
  (n!"CVRLt_bdss", (.mul (.div (.div (.div (.sqrt (.rat 2 1)) (.par n!"GF")) (.mul (.ckm 2 2) (.conj (.ckm 2 0)))) (.rat 4 1)) (.div (.inp n!"V8ddLR_2213") (.rat 2 1)))),
  (n!"CSLL_sddd", (.mul (.div (.div (.div (.sqrt (.rat 2 1)) (.par n!"GF")) (.mul (.ckm 2 1) (.conj (.ckm 2 0)))) (.rat 4 1)) (.sub (.sub (.conj (.inp n!"S1ddRR_1121")) (.div (.conj (.inp n!"S8ddRR_1121")) (.rat 4 1))) (.div (.div (.conj (.inp n!"S8ddRR_1121")) (.rat 2 1)) (.rat 3 1))))),
  (n!"CL_bsnutaunumu", (.mul (.div (.div (.div (.sqrt (.rat 2 1)) (.par n!"GF")) (.mul (.ckm 2 2) (.conj (.ckm 2 1)))) (.rat 4 1)) (.mul (.div (.mul (.rat 8 1) (.mul .pi .pi)) (.mul (.sqrt (.mul (.mul (.rat 4 1) .pi) (.par n!"alpha_e"))) (.sqrt (.mul (.mul (.rat 4 1) .pi) (.par n!"alpha_e"))))) (.inp n!"VnudLL_2323")))),
  (n!"CSR_buenutau", (.mul (.div (.div (.div (.neg (.sqrt (.rat 2 1))) (.par n!"GF")) (.ckm 0 2)) (.rat 4 1)) (.conj (.inp n!"SnueduRL_3131")))),
  (n!"CVL_bumunutau", (.mul (.div (.div (.div (.neg (.sqrt (.rat 2 1))) (.par n!"GF")) (.ckm 0 2)) (.rat 4 1)) (.conj (.inp n!"VnueduLL_3231")))),
  (n!"CVLR_sddd", (.mul (.div (.div (.div (.sqrt (.rat 2 1)) (.par n!"GF")) (.mul (.ckm 2 1) (.conj (.ckm 2 0)))) (.rat 4 1)) (.sub (.inp n!"V1ddLR_1211") (.div (.inp n!"V8ddLR_1211") (.mul (.rat 2 1) (.rat 3 1)))))),
  (n!"CVLL_dbbd", (.mul (.div (.div (.sqrt (.rat 2 1)) (.par n!"GF")) (.rat 4 1)) (.inp n!"VddLL_1331"))),
  (n!"CS_bdtaumu", (.mul (.div (.div (.div (.sqrt (.rat 2 1)) (.par n!"GF")) (.mul (.ckm 2 2) (.conj (.ckm 2 0)))) (.rat 4 1)) (.mul (.div (.div (.mul (.rat 16 1) (.mul .pi .pi)) (.mul (.sqrt (.mul (.mul (.rat 4 1) .pi) (.par n!"alpha_e"))) (.sqrt (.mul (.mul (.rat 4 1) .pi) (.par n!"alpha_e"))))) (.par n!"m_b")) (.add (.div (.conj (.inp n!"SedRL_3231")) (.rat 2 1)) (.div (.inp n!"SedRR_2313") (.rat 2 1)))))),
  (n!"CSLL_bsuu", (.mul (.div (.div (.div (.sqrt (.rat 2 1)) (.par n!"GF")) (.mul (.ckm 2 2) (.conj (.ckm 2 1)))) (.rat 4 1)) (.sub (.sub (.conj (.inp n!"S1udRR_1132")) (.div (.conj (.inp n!"S8udduRR_1231")) (.rat 4 1))) (.div (.conj (.inp n!"S8udRR_1132")) (.mul (.rat 2 1) (.rat 3 1))))))]

def JMS_to_flavio_1 : List (ℕ × Sym) := [
  (n!"CTRRt_bdss", (.mul (.div (.div (.div (.sqrt (.rat 2 1)) (.par n!"GF")) (.mul (.ckm 2 2) (.conj (.ckm 2 0)))) (.rat 4 1)) (.add (.div (.neg (.inp n!"S1ddRR_1223")) (.rat 8 1)) (.div (.inp n!"S8ddRR_1223") (.mul (.rat 16 1) (.rat 3 1)))))),
  (n!"CVLRt_bsdd", (.mul (.div (.div (.div (.sqrt (.rat 2 1)) (.par n!"GF")) (.mul (.ckm 2 2) (.conj (.ckm 2 1)))) (.rat 4 1)) (.div (.inp n!"V8ddLR_2311") (.rat 2 1)))),
  (n!"CV1LR_ccdd", (.mul (.div (.div (.sqrt (.rat 2 1)) (.par n!"GF")) (.rat 4 1)) (.inp n!"V1udLR_2211"))),
  (n!"C9_sdmumu", (.mul (.div (.div (.div (.sqrt (.rat 2 1)) (.par n!"GF")) (.mul (.ckm 2 1) (.conj (.ckm 2 0)))) (.rat 4 1)) (.mul (.div (.mul (.rat 16 1) (.mul .pi .pi)) (.mul (.sqrt (.mul (.mul (.rat 4 1) .pi) (.par n!"alpha_e"))) (.sqrt (.mul (.mul (.rat 4 1) .pi) (.par n!"alpha_e"))))) (.add (.div (.inp n!"VdeLR_1222") (.rat 2 1)) (.div (.inp n!"VedLL_2212") (.rat 2 1)))))),
  (n!"CVLL_nuenuemumu", (.mul (.div (.div (.sqrt (.rat 2 1)) (.par n!"GF")) (.rat 4 1)) (.inp n!"VnueLL_1122"))),
  (n!"CVRR_cccc", (.mul (.div (.div (.sqrt (.rat 2 1)) (.par n!"GF")) (.rat 4 1)) (.inp n!"VuuRR_2222"))),
  (n!"CVLR_bsuu", (.mul (.div (.div (.div (.sqrt (.rat 2 1)) (.par n!"GF")) (.mul (.ckm 2 2) (.conj (.ckm 2 1)))) (.rat 4 1)) (.sub (.inp n!"V1duLR_2311") (.div (.inp n!"V8duLR_2311") (.mul (.rat 2 1) (.rat 3 1)))))),
  (n!"CVLR_nutaunutauss", (.mul (.div (.div (.sqrt (.rat 2 1)) (.par n!"GF")) (.rat 4 1)) (.inp n!"VnudLR_3322"))),
  (n!"C9p_bsetau", (.mul (.div (.div (.div (.sqrt (.rat 2 1)) (.par n!"GF")) (.mul (.ckm 2 2) (.conj (.ckm 2 1)))) (.rat 4 1)) (.mul (.div (.mul (.rat 16 1) (.mul .pi .pi)) (.mul (.sqrt (.mul (.mul (.rat 4 1) .pi) (.par n!"alpha_e"))) (.sqrt (.mul (.mul (.rat 4 1) .pi) (.par n!"alpha_e"))))) (.add (.div (.conj (.inp n!"VedLR_1332")) (.rat 2 1)) (.div (.conj (.inp n!"VedRR_1332")) (.rat 2 1)))))),
  (n!"CSLL_cuss", (.mul (.div (.div (.div (.sqrt (.rat 2 1)) (.par n!"GF")) (.mul (.conj (.ckm 1 2)) (.ckm 0 2))) (.rat 4 1)) (.sub (.sub (.conj (.inp n!"S1udRR_2122")) (.div (.conj (.inp n!"S8udduRR_2221")) (.rat 4 1))) (.div (.conj (.inp n!"S8udRR_2122")) (.mul (.rat 2 1) (.rat 3 1)))))),
  (n!"CVLRt_cubb", (.mul (.div (.div (.div (.sqrt (.rat 2 1)) (.par n!"GF")) (.mul (.conj (.ckm 1 2)) (.ckm 0 2))) (.rat 4 1)) (.div (.inp n!"V8udLR_1233") (.rat 2 1)))),
  (n!"CVLL_nuenutautautau", (.mul (.div (.div (.sqrt (.rat 2 1)) (.par n!"GF")) (.rat 4 1)) (.inp n!"VnueLL_1333"))),
  (n!"CVLR_nuenueuu", (.mul (.div (.div (.sqrt (.rat 2 1)) (.par n!"GF")) (.rat 4 1)) (.inp n!"VnuuLR_1111"))),
  (n!"CSLL_bdbb", (.mul (.div (.div (.div (.sqrt (.rat 2 1)) (.par n!"GF")) (.mul (.ckm 2 2) (.conj (.ckm 2 0)))) (.rat 4 1)) (.sub (.sub (.conj (.inp n!"S1ddRR_3133")) (.div (.conj (.inp n!"S8ddRR_3133")) (.rat 4 1))) (.div (.div (.conj (.inp n!"S8ddRR_3133")) (.rat 2 1)) (.rat 3 1))))),
  (n!"CVRL_bdcc", (.mul (.div (.div (.div (.sqrt (.rat 2 1)) (.par n!"GF")) (.mul (.ckm 2 2) (.conj (.ckm 2 0)))) (.rat 4 1)) (.sub (.inp n!"V1udLR_2213") (.div (.inp n!"V8udLR_2213") (.mul (.rat 2 1) (.rat 3 1)))))),
  (n!"CV8LR_ussu", (.mul (.div (.div (.sqrt (.rat 2 1)) (.par n!"GF")) (.rat 4 1)) (.inp n!"V8udduLR_1221"))),
  (n!"CVLR_cuss", (.mul (.div (.div (.div (.sqrt (.rat 2 1)) (.par n!"GF")) (.mul (.conj (.ckm 1 2)) (.ckm 0 2))) (.rat 4 1)) (.sub (.inp n!"V1udLR_1222") (.div (.inp n!"V8udLR_1222") (.mul (.rat 2 1) (.rat 3 1)))))),
  (n!"C10_bstaumu", (.mul (.div (.div (.div (.sqrt (.rat 2 1)) (.par n!"GF")) (.mul (.ckm 2 2) (.conj (.ckm 2 1)))) (.rat 4 1)) (.mul (.div (.mul (.rat 16 1) (.mul .pi .pi)) (.mul (.sqrt (.mul (.mul (.rat 4 1) .pi) (.par n!"alpha_e"))) (.sqrt (.mul (.mul (.rat 4 1) .pi) (.par n!"alpha_e"))))) (.sub (.div (.inp n!"VdeLR_2323") (.rat 2 1)) (.div (.inp n!"VedLL_2323") (.rat 2 1)))))),
  (n!"CS1RR_sbbs", (.mul (.div (.div (.sqrt (.rat 2 1)) (.par n!"GF")) (.rat 4 1)) (.inp n!"S1ddRR_2332"))),
  (n!"CVLR_bdbb", (.mul (.div (.div (.div (.sqrt (.rat 2 1)) (.par n!"GF")) (.mul (.ckm 2 2) (.conj (.ckm 2 0)))) (.rat 4 1)) (.sub (.inp n!"V1ddLR_1333") (.div (.inp n!"V8ddLR_1333") (.mul (.rat 2 1) (.rat 3 1)))))),
  (n!"CSRRt_sdcc", (.mul (.div (.div (.div (.sqrt (.rat 2 1)) (.par n!"GF")) (.mul (.ckm 2 1) (.conj (.ckm 2 0)))) (.rat 4 1)) (.add (.add (.div (.neg (.inp n!"S1udduRR_2212")) (.rat 2 1)) (.div (.inp n!"S8udduRR_2212") (.mul (.rat 4 1) (.rat 3 1)))) (.div (.inp n!"S8udRR_2212") (.rat 2 1))))),
  (n!"CVLR_numunutauuu", (.mul (.div (.div (.sqrt (.rat 2 1)) (.par n!"GF")) (.rat 4 1)) (.inp n!"VnuuLR_2311"))),
  (n!"CSR_scmunutau", (.mul (.div (.div (.div (.neg (.sqrt (.rat 2 1))) (.par n!"GF")) (.ckm 1 1)) (.rat 4 1)) (.conj (.inp n!"SnueduRL_3222")))),
  (n!"C10p_sdemu", (.mul (.div (.div (.div (.sqrt (.rat 2 1)) (.par n!"GF")) (.mul (.ckm 2 1) (.conj (.ckm 2 0)))) (.rat 4 1)) (.mul (.div (.mul (.rat 16 1) (.mul .pi .pi)) (.mul (.sqrt (.mul (.mul (.rat 4 1) .pi) (.par n!"alpha_e"))) (.sqrt (.mul (.mul (.rat 4 1) .pi) (.par n!"alpha_e"))))) (.add (.div (.neg (.conj (.inp n!"VedLR_1221"))) (.rat 2 1)) (.div (.conj (.inp n!"VedRR_1221")) (.rat 2 1)))))),
  (n!"CSL_buenumu", (.mul (.div (.div (.div (.neg (.sqrt (.rat 2 1))) (.par n!"GF")) (.ckm 0 2)) (.rat 4 1)) (.conj (.inp n!"SnueduRR_2131")))),
  (n!"CSL_scenumu", (.mul (.div (.div (.div (.neg (.sqrt (.rat 2 1))) (.par n!"GF")) (.ckm 1 1)) (.rat 4 1)) (.conj (.inp n!"SnueduRR_2122")))),
  (n!"CVR_bctaunue", (.mul (.div (.div (.div (.neg (.sqrt (.rat 2 1))) (.par n!"GF")) (.ckm 1 2)) (.rat 4 1)) (.conj (.inp n!"VnueduLR_1332")))),
  (n!"CVR_bctaunumu", (.mul (.div (.div (.div (.neg (.sqrt (.rat 2 1))) (.par n!"GF")) (.ckm 1 2)) (.rat 4 1)) (.conj (.inp n!"VnueduLR_2332")))),
  (n!"CR_bdnuenumu", (.mul (.div (.div (.div (.sqrt (.rat 2 1)) (.par n!"GF")) (.mul (.ckm 2 2) (.conj (.ckm 2 0)))) (.rat 4 1)) (.mul (.div (.mul (.rat 8 1) (.mul .pi .pi)) (.mul (.sqrt (.mul (.mul (.rat 4 1) .pi) (.par n!"alpha_e"))) (.sqrt (.mul (.mul (.rat 4 1) .pi) (.par n!"alpha_e"))))) (.conj (.inp n!"VnudLR_1231"))))),
  (n!"CVL_dcenutau", (.mul (.div (.div (.div (.neg (.sqrt (.rat 2 1))) (.par n!"GF")) (.ckm 1 0)) (.rat 4 1)) (.conj (.inp n!"VnueduLL_3112")))),
  (n!"CSR_dcmunue", (.mul (.div (.div (.div (.neg (.sqrt (.rat 2 1))) (.par n!"GF")) (.ckm 1 0)) (.rat 4 1)) (.conj (.inp n!"SnueduRL_1212")))),
  (n!"CV1LR_uddu", (.mul (.div (.div (.sqrt (.rat 2 1)) (.par n!"GF")) (.rat 4 1)) (.inp n!"V1udduLR_1111"))),
  (n!"CVLL_nuenumudd", (.mul (.div (.div (.sqrt (.rat 2 1)) (.par n!"GF")) (.rat 4 1)) (.inp n!"VnudLL_1211"))),
  (n!"CSp_bstaue", (.mul (.div (.div (.div (.sqrt (.rat 2 1)) (.par n!"GF")) (.mul (.ckm 2 2) (.conj (.ckm 2 1)))) (.rat 4 1)) (.mul (.div (.div (.mul (.rat 16 1) (.mul .pi .pi)) (.mul (.sqrt (.mul (.mul (.rat 4 1) .pi) (.par n!"alpha_e"))) (.sqrt (.mul (.mul (.rat 4 1) .pi) (.par n!"alpha_e"))))) (.par n!"m_b")) (.add (.div (.inp n!"SedRL_1323") (.rat 2 1)) (.div (.conj (.inp n!"SedRR_3132")) (.rat 2 1)))))),
  (n!"CP_bdmumu", (.mul (.div (.div (.div (.sqrt (.rat 2 1)) (.par n!"GF")) (.mul (.ckm 2 2) (.conj (.ckm 2 0)))) (.rat 4 1)) (.mul (.div (.div (.mul (.rat 16 1) (.mul .pi .pi)) (.mul (.sqrt (.mul (.mul (.rat 4 1) .pi) (.par n!"alpha_e"))) (.sqrt (.mul (.mul (.rat 4 1) .pi) (.par n!"alpha_e"))))) (.par n!"m_b")) (.add (.div (.neg (.conj (.inp n!"SedRL_2231"))) (.rat 2 1)) (.div (.inp n!"SedRR_2213") (.rat 2 1)))))),
  (n!"CSp_bdtautau", (.mul (.div (.div (.div (.sqrt (.rat 2 1)) (.par n!"GF")) (.mul (.ckm 2 2) (.conj (.ckm 2 0)))) (.rat 4 1)) (.mul (.div (.div (.mul (.rat 16 1) (.mul .pi .pi)) (.mul (.sqrt (.mul (.mul (.rat 4 1) .pi) (.par n!"alpha_e"))) (.sqrt (.mul (.mul (.rat 4 1) .pi) (.par n!"alpha_e"))))) (.par n!"m_b")) (.add (.div (.inp n!"SedRL_3313") (.rat 2 1)) (.div (.conj (.inp n!"SedRR_3331")) (.rat 2 1)))))),
  (n!"C9_cuee", (.mul (.div (.div (.div (.sqrt (.rat 2 1)) (.par n!"GF")) (.mul (.conj (.ckm 1 2)) (.ckm 0 2))) (.rat 4 1)) (.mul (.div (.mul (.rat 16 1) (.mul .pi .pi)) (.mul (.sqrt (.mul (.mul (.rat 4 1) .pi) (.par n!"alpha_e"))) (.sqrt (.mul (.mul (.rat 4 1) .pi) (.par n!"alpha_e"))))) (.add (.div (.inp n!"VueLR_1211") (.rat 2 1)) (.div (.inp n!"VeuLL_1112") (.rat 2 1)))))),
  (n!"CS_cumumu", (.mul (.div (.div (.div (.sqrt (.rat 2 1)) (.par n!"GF")) (.mul (.conj (.ckm 1 2)) (.ckm 0 2))) (.rat 4 1)) (.mul (.div (.div (.mul (.rat 16 1) (.mul .pi .pi)) (.mul (.sqrt (.mul (.mul (.rat 4 1) .pi) (.par n!"alpha_e"))) (.sqrt (.mul (.mul (.rat 4 1) .pi) (.par n!"alpha_e"))))) (.par n!"m_c")) (.add (.div (.conj (.inp n!"SeuRL_2221")) (.rat 2 1)) (.div (.inp n!"SeuRR_2212") (.rat 2 1)))))),
  (n!"CT_butaunumu", (.mul (.div (.div (.div (.neg (.sqrt (.rat 2 1))) (.par n!"GF")) (.ckm 0 2)) (.rat 4 1)) (.conj (.inp n!"TnueduRR_2331")))),
  (n!"CV8RR_ccss", (.mul (.div (.div (.sqrt (.rat 2 1)) (.par n!"GF")) (.rat 4 1)) (.inp n!"V8udRR_2222"))),
  (n!"CVRRt_sdbb", (.mul (.div (.div (.div (.sqrt (.rat 2 1)) (.par n!"GF")) (.mul (.ckm 2 1) (.conj (.ckm 2 0)))) (.rat 4 1)) (.inp n!"VddRR_1332"))),
  (n!"CV1RR_uuss", (.mul (.div (.div (.sqrt (.rat 2 1)) (.par n!"GF")) (.rat 4 1)) (.inp n!"V1udRR_1122"))),
  (n!"CVRL_bduu", (.mul (.div (.div (.div (.sqrt (.rat 2 1)) (.par n!"GF")) (.mul (.ckm 2 2) (.conj (.ckm 2 0)))) (.rat 4 1)) (.sub (.inp n!"V1udLR_1113") (.div (.inp n!"V8udLR_1113") (.mul (.rat 2 1) (.rat 3 1)))))),
  (n!"CVLRt_bdcc", (.mul (.div (.div (.div (.sqrt (.rat 2 1)) (.par n!"GF")) (.mul (.ckm 2 2) (.conj (.ckm 2 0)))) (.rat 4 1)) (.div (.inp n!"V8duLR_1322") (.rat 2 1)))),
  (n!"CR_sdnutaunue", (.mul (.div (.div (.div (.sqrt (.rat 2 1)) (.par n!"GF")) (.mul (.ckm 2 1) (.conj (.ckm 2 0)))) (.rat 4 1)) (.mul (.div (.mul (.rat 8 1) (.mul .pi .pi)) (.mul (.sqrt (.mul (.mul (.rat 4 1) .pi) (.par n!"alpha_e"))) (.sqrt (.mul (.mul (.rat 4 1) .pi) (.par n!"alpha_e"))))) (.inp n!"VnudLR_1312")))),
  (n!"CSLL_ucuc", (.sub (.sub (.conj (.inp n!"S1uuRR_1212")) (.div (.conj (.inp n!"S8uuRR_1212")) (.mul (.rat 2 1) (.rat 3 1)))) (.mul (.div (.rat 1 1) (.rat 2 1)) (.div (.conj (.inp n!"S8uuRR_1212")) (.rat 2 1))))),
  (n!"CVL_suenutau", (.mul (.div (.div (.div (.neg (.sqrt (.rat 2 1))) (.par n!"GF")) (.ckm 0 1)) (.rat 4 1)) (.conj (.inp n!"VnueduLL_3121")))),
  (n!"CSRRt_sduu", (.mul (.div (.div (.div (.sqrt (.rat 2 1)) (.par n!"GF")) (.mul (.ckm 2 1) (.conj (.ckm 2 0)))) (.rat 4 1)) (.add (.add (.div (.neg (.inp n!"S1udduRR_1211")) (.rat 2 1)) (.div (.inp n!"S8udduRR_1211") (.mul (.rat 4 1) (.rat 3 1)))) (.div (.inp n!"S8udRR_1112") (.rat 2 1))))),
  (n!"CVRR_dddd", (.mul (.div (.div (.sqrt (.rat 2 1)) (.par n!"GF")) (.rat 4 1)) (.inp n!"VddRR_1111"))),
  (n!"CVLR_cctautau", (.mul (.div (.div (.sqrt (.rat 2 1)) (.par n!"GF")) (.rat 4 1)) (.inp n!"VueLR_2233")))]

def JMS_to_flavio_2 : List (ℕ × Sym) := [
  (n!"CVLR_ucuc", (.mul (.div (.rat (-1) 1) (.rat 2 1)) (.add (.mul (.rat (-2) 1) (.conj (.inp n!"V1uuLR_1212"))) (.div (.conj (.inp n!"V8uuLR_1212")) (.rat 3 1))))),
  (n!"CS_bdtautau", (.mul (.div (.div (.div (.sqrt (.rat 2 1)) (.par n!"GF")) (.mul (.ckm 2 2) (.conj (.ckm 2 0)))) (.rat 4 1)) (.mul (.div (.div (.mul (.rat 16 1) (.mul .pi .pi)) (.mul (.sqrt (.mul (.mul (.rat 4 1) .pi) (.par n!"alpha_e"))) (.sqrt (.mul (.mul (.rat 4 1) .pi) (.par n!"alpha_e"))))) (.par n!"m_b")) (.add (.div (.conj (.inp n!"SedRL_3331")) (.rat 2 1)) (.div (.inp n!"SedRR_3313") (.rat 2 1)))))),
  (n!"CPp_bstautau", (.mul (.div (.div (.div (.sqrt (.rat 2 1)) (.par n!"GF")) (.mul (.ckm 2 2) (.conj (.ckm 2 1)))) (.rat 4 1)) (.mul (.div (.div (.mul (.rat 16 1) (.mul .pi .pi)) (.mul (.sqrt (.mul (.mul (.rat 4 1) .pi) (.par n!"alpha_e"))) (.sqrt (.mul (.mul (.rat 4 1) .pi) (.par n!"alpha_e"))))) (.par n!"m_b")) (.sub (.div (.inp n!"SedRL_3323") (.rat 2 1)) (.div (.conj (.inp n!"SedRR_3332")) (.rat 2 1)))))),
  (n!"CP_bsee", (.mul (.div (.div (.div (.sqrt (.rat 2 1)) (.par n!"GF")) (.mul (.ckm 2 2) (.conj (.ckm 2 1)))) (.rat 4 1)) (.mul (.div (.div (.mul (.rat 16 1) (.mul .pi .pi)) (.mul (.sqrt (.mul (.mul (.rat 4 1) .pi) (.par n!"alpha_e"))) (.sqrt (.mul (.mul (.rat 4 1) .pi) (.par n!"alpha_e"))))) (.par n!"m_b")) (.add (.div (.neg (.conj (.inp n!"SedRL_1132"))) (.rat 2 1)) (.div (.inp n!"SedRR_1123") (.rat 2 1)))))),
  (n!"C10_sdemu", (.mul (.div (.div (.div (.sqrt (.rat 2 1)) (.par n!"GF")) (.mul (.ckm 2 1) (.conj (.ckm 2 0)))) (.rat 4 1)) (.mul (.div (.mul (.rat 16 1) (.mul .pi .pi)) (.mul (.sqrt (.mul (.mul (.rat 4 1) .pi) (.par n!"alpha_e"))) (.sqrt (.mul (.mul (.rat 4 1) .pi) (.par n!"alpha_e"))))) (.sub (.div (.inp n!"VdeLR_1221") (.rat 2 1)) (.div (.conj (.inp n!"VedLL_1221")) (.rat 2 1)))))),
  (n!"CSp_bsmue", (.mul (.div (.div (.div (.sqrt (.rat 2 1)) (.par n!"GF")) (.mul (.ckm 2 2) (.conj (.ckm 2 1)))) (.rat 4 1)) (.mul (.div (.div (.mul (.rat 16 1) (.mul .pi .pi)) (.mul (.sqrt (.mul (.mul (.rat 4 1) .pi) (.par n!"alpha_e"))) (.sqrt (.mul (.mul (.rat 4 1) .pi) (.par n!"alpha_e"))))) (.par n!"m_b")) (.add (.div (.inp n!"SedRL_1223") (.rat 2 1)) (.div (.conj (.inp n!"SedRR_2132")) (.rat 2 1)))))),
  (n!"CSL_sumunutau", (.mul (.div (.div (.div (.neg (.sqrt (.rat 2 1))) (.par n!"GF")) (.ckm 0 1)) (.rat 4 1)) (.conj (.inp n!"SnueduRR_3221")))),
  (n!"C8_sd", (.mul (.div (.div (.div (.sqrt (.rat 2 1)) (.par n!"GF")) (.mul (.ckm 2 1) (.conj (.ckm 2 0)))) (.rat 4 1)) (.mul (.div (.div (.mul (.rat 16 1) (.mul .pi .pi)) (.sqrt (.mul (.mul (.rat 4 1) .pi) (.par n!"alpha_s")))) (.par n!"m_s")) (.inp n!"dG_12")))),
  (n!"CVL_suenue", (.mul (.div (.div (.div (.neg (.sqrt (.rat 2 1))) (.par n!"GF")) (.ckm 0 1)) (.rat 4 1)) (.conj (.inp n!"VnueduLL_1121")))),
  (n!"CVLL_tautaubb", (.mul (.div (.div (.sqrt (.rat 2 1)) (.par n!"GF")) (.rat 4 1)) (.inp n!"VedLL_3333"))),
  (n!"CSRL_bsbb", (.mul (.div (.div (.div (.sqrt (.rat 2 1)) (.par n!"GF")) (.mul (.ckm 2 2) (.conj (.ckm 2 1)))) (.rat 4 1)) (.neg (.inp n!"V8ddLR_2333")))),
  (n!"CSRRt_bdss", (.mul (.div (.div (.div (.sqrt (.rat 2 1)) (.par n!"GF")) (.mul (.ckm 2 2) (.conj (.ckm 2 0)))) (.rat 4 1)) (.add (.add (.div (.neg (.inp n!"S1ddRR_1223")) (.rat 2 1)) (.div (.inp n!"S8ddRR_1223") (.mul (.rat 4 1) (.rat 3 1)))) (.div (.inp n!"S8ddRR_1322") (.rat 2 1))))),
  (n!"CPp_cumumu", (.mul (.div (.div (.div (.sqrt (.rat 2 1)) (.par n!"GF")) (.mul (.conj (.ckm 1 2)) (.ckm 0 2))) (.rat 4 1)) (.mul (.div (.div (.mul (.rat 16 1) (.mul .pi .pi)) (.mul (.sqrt (.mul (.mul (.rat 4 1) .pi) (.par n!"alpha_e"))) (.sqrt (.mul (.mul (.rat 4 1) .pi) (.par n!"alpha_e"))))) (.par n!"m_c")) (.sub (.div (.inp n!"SeuRL_2212") (.rat 2 1)) (.div (.conj (.inp n!"SeuRR_2221")) (.rat 2 1)))))),
  (n!"CVR_sctaunutau", (.mul (.div (.div (.div (.neg (.sqrt (.rat 2 1))) (.par n!"GF")) (.ckm 1 1)) (.rat 4 1)) (.conj (.inp n!"VnueduLR_3322")))),
  (n!"CVRR_bsbb", (.mul (.div (.div (.div (.sqrt (.rat 2 1)) (.par n!"GF")) (.mul (.ckm 2 2) (.conj (.ckm 2 1)))) (.rat 4 1)) (.inp n!"VddRR_2333"))),
  (n!"CS1RR_ccdd", (.mul (.div (.div (.sqrt (.rat 2 1)) (.par n!"GF")) (.rat 4 1)) (.inp n!"S1udRR_2211"))),
  (n!"C9_bdmumu", (.mul (.div (.div (.div (.sqrt (.rat 2 1)) (.par n!"GF")) (.mul (.ckm 2 2) (.conj (.ckm 2 0)))) (.rat 4 1)) (.mul (.div (.mul (.rat 16 1) (.mul .pi .pi)) (.mul (.sqrt (.mul (.mul (.rat 4 1) .pi) (.par n!"alpha_e"))) (.sqrt (.mul (.mul (.rat 4 1) .pi) (.par n!"alpha_e"))))) (.add (.div (.inp n!"VdeLR_1322") (.rat 2 1)) (.div (.inp n!"VedLL_2213") (.rat 2 1)))))),
  (n!"CSR_bcmunue", (.mul (.div (.div (.div (.neg (.sqrt (.rat 2 1))) (.par n!"GF")) (.ckm 1 2)) (.rat 4 1)) (.conj (.inp n!"SnueduRL_1232")))),
  (n!"CVLR_nuenumuss", (.mul (.div (.div (.sqrt (.rat 2 1)) (.par n!"GF")) (.rat 4 1)) (.inp n!"VnudLR_1222"))),
  (n!"CVL_butaunumu", (.mul (.div (.div (.div (.neg (.sqrt (.rat 2 1))) (.par n!"GF")) (.ckm 0 2)) (.rat 4 1)) (.conj (.inp n!"VnueduLL_2331")))),
  (n!"CSL_scenutau", (.mul (.div (.div (.div (.neg (.sqrt (.rat 2 1))) (.par n!"GF")) (.ckm 1 1)) (.rat 4 1)) (.conj (.inp n!"SnueduRR_3122")))),
  (n!"CVLRt_bduu", (.mul (.div (.div (.div (.sqrt (.rat 2 1)) (.par n!"GF")) (.mul (.ckm 2 2) (.conj (.ckm 2 0)))) (.rat 4 1)) (.div (.inp n!"V8duLR_1311") (.rat 2 1)))),
  (n!"CTLL_bscc", (.mul (.div (.div (.div (.sqrt (.rat 2 1)) (.par n!"GF")) (.mul (.ckm 2 2) (.conj (.ckm 2 1)))) (.rat 4 1)) (.div (.neg (.conj (.inp n!"S8udduRR_2232"))) (.rat 16 1)))),
  (n!"CVLR_mumubb", (.mul (.div (.div (.sqrt (.rat 2 1)) (.par n!"GF")) (.rat 4 1)) (.inp n!"VedLR_2233"))),
  (n!"C10_cumumu", (.mul (.div (.div (.div (.sqrt (.rat 2 1)) (.par n!"GF")) (.mul (.conj (.ckm 1 2)) (.ckm 0 2))) (.rat 4 1)) (.mul (.div (.mul (.rat 16 1) (.mul .pi .pi)) (.mul (.sqrt (.mul (.mul (.rat 4 1) .pi) (.par n!"alpha_e"))) (.sqrt (.mul (.mul (.rat 4 1) .pi) (.par n!"alpha_e"))))) (.sub (.div (.inp n!"VueLR_1222") (.rat 2 1)) (.div (.inp n!"VeuLL_2212") (.rat 2 1)))))),
  (n!"CS8RR_ussu", (.mul (.div (.div (.sqrt (.rat 2 1)) (.par n!"GF")) (.rat 4 1)) (.inp n!"S8udduRR_1221"))),
  (n!"CVLL_numunumuss", (.mul (.div (.div (.sqrt (.rat 2 1)) (.par n!"GF")) (.rat 4 1)) (.inp n!"VnudLL_2222"))),
  (n!"CVR_bumunumu", (.mul (.div (.div (.div (.neg (.sqrt (.rat 2 1))) (.par n!"GF")) (.ckm 0 2)) (.rat 4 1)) (.conj (.inp n!"VnueduLR_2231")))),
  (n!"CVRR_tautaucc", (.mul (.div (.div (.sqrt (.rat 2 1)) (.par n!"GF")) (.rat 4 1)) (.inp n!"VeuRR_3322"))),
  (n!"CTRR_sdbb", (.mul (.div (.div (.div (.sqrt (.rat 2 1)) (.par n!"GF")) (.mul (.ckm 2 1) (.conj (.ckm 2 0)))) (.rat 4 1)) (.div (.neg (.inp n!"S8ddRR_1332")) (.rat 16 1)))),
  (n!"CTRR_eedd", (.mul (.div (.div (.sqrt (.rat 2 1)) (.par n!"GF")) (.rat 4 1)) (.inp n!"TedRR_1111"))),
  (n!"CVLL_bsdd", (.mul (.div (.div (.div (.sqrt (.rat 2 1)) (.par n!"GF")) (.mul (.ckm 2 2) (.conj (.ckm 2 1)))) (.rat 4 1)) (.inp n!"VddLL_1123"))),
  (n!"CSRL_sdcc", (.mul (.div (.div (.div (.sqrt (.rat 2 1)) (.par n!"GF")) (.mul (.ckm 2 1) (.conj (.ckm 2 0)))) (.rat 4 1)) (.neg (.conj (.inp n!"V8udduLR_2122"))))),
  (n!"CSR_sctaunumu", (.mul (.div (.div (.div (.neg (.sqrt (.rat 2 1))) (.par n!"GF")) (.ckm 1 1)) (.rat 4 1)) (.conj (.inp n!"SnueduRL_2322")))),
  (n!"CTRR_bsss", (.mul (.div (.div (.div (.sqrt (.rat 2 1)) (.par n!"GF")) (.mul (.ckm 2 2) (.conj (.ckm 2 1)))) (.rat 4 1)) (.div (.neg (.inp n!"S8ddRR_2223")) (.rat 16 1)))),
  (n!"CVL_butaunue", (.mul (.div (.div (.div (.neg (.sqrt (.rat 2 1))) (.par n!"GF")) (.ckm 0 2)) (.rat 4 1)) (.conj (.inp n!"VnueduLL_1331")))),
  (n!"CSLR_sdbb", (.mul (.div (.div (.div (.sqrt (.rat 2 1)) (.par n!"GF")) (.mul (.ckm 2 1) (.conj (.ckm 2 0)))) (.rat 4 1)) (.neg (.conj (.inp n!"V8ddLR_2331"))))),
  (n!"CVRR_sdcc", (.mul (.div (.div (.div (.sqrt (.rat 2 1)) (.par n!"GF")) (.mul (.ckm 2 1) (.conj (.ckm 2 0)))) (.rat 4 1)) (.sub (.inp n!"V1udRR_2212") (.div (.inp n!"V8udRR_2212") (.mul (.rat 2 1) (.rat 3 1)))))),
  (n!"CVRR_eeee", (.mul (.div (.div (.sqrt (.rat 2 1)) (.par n!"GF")) (.rat 4 1)) (.inp n!"VeeRR_1111"))),
  (n!"C7_dd", (.mul (.div (.div (.sqrt (.rat 2 1)) (.par n!"GF")) (.rat 4 1)) (.mul (.div (.div (.mul (.rat 16 1) (.mul .pi .pi)) (.sqrt (.mul (.mul (.rat 4 1) .pi) (.par n!"alpha_e")))) (.par n!"m_d")) (.inp n!"dgamma_11")))),
  (n!"CVLL_cubb", (.mul (.div (.div (.div (.sqrt (.rat 2 1)) (.par n!"GF")) (.mul (.conj (.ckm 1 2)) (.ckm 0 2))) (.rat 4 1)) (.sub (.inp n!"V1udLL_1233") (.div (.inp n!"V8udLL_1233") (.mul (.rat 2 1) (.rat 3 1)))))),
  (n!"CV8LR_cbbc", (.mul (.div (.div (.sqrt (.rat 2 1)) (.par n!"GF")) (.rat 4 1)) (.inp n!"V8udduLR_2332"))),
  (n!"CVLL_nutaunutaucc", (.mul (.div (.div (.sqrt (.rat 2 1)) (.par n!"GF")) (.rat 4 1)) (.inp n!"VnuuLL_3322"))),
  (n!"CSLR_bsss", (.mul (.div (.div (.div (.sqrt (.rat 2 1)) (.par n!"GF")) (.mul (.ckm 2 2) (.conj (.ckm 2 1)))) (.rat 4 1)) (.neg (.inp n!"V8ddLR_2322")))),
  (n!"C9_bdemu", (.mul (.div (.div (.div (.sqrt (.rat 2 1)) (.par n!"GF")) (.mul (.ckm 2 2) (.conj (.ckm 2 0)))) (.rat 4 1)) (.mul (.div (.mul (.rat 16 1) (.mul .pi .pi)) (.mul (.sqrt (.mul (.mul (.rat 4 1) .pi) (.par n!"alpha_e"))) (.sqrt (.mul (.mul (.rat 4 1) .pi) (.par n!"alpha_e"))))) (.add (.div (.inp n!"VdeLR_1321") (.rat 2 1)) (.div (.conj (.inp n!"VedLL_1231")) (.rat 2 1)))))),
  (n!"CS1RR_uddu", (.mul (.div (.div (.sqrt (.rat 2 1)) (.par n!"GF")) (.rat 4 1)) (.inp n!"S1udduRR_1111"))),
  (n!"CT_bcmunumu", (.mul (.div (.div (.div (.neg (.sqrt (.rat 2 1))) (.par n!"GF")) (.ckm 1 2)) (.rat 4 1)) (.conj (.inp n!"TnueduRR_2232")))),
  (n!"C10p_bsmue", (.mul (.div (.div (.div (.sqrt (.rat 2 1)) (.par n!"GF")) (.mul (.ckm 2 2) (.conj (.ckm 2 1)))) (.rat 4 1)) (.mul (.div (.mul (.rat 16 1) (.mul .pi .pi)) (.mul (.sqrt (.mul (.mul (.rat 4 1) .pi) (.par n!"alpha_e"))) (.sqrt (.mul (.mul (.rat 4 1) .pi) (.par n!"alpha_e"))))) (.add (.div (.neg (.inp n!"VedLR_1223")) (.rat 2 1)) (.div (.inp n!"VedRR_1223") (.rat 2 1)))))),
  (n!"CP_bdmutau", (.mul (.div (.div (.div (.sqrt (.rat 2 1)) (.par n!"GF")) (.mul (.ckm 2 2) (.conj (.ckm 2 0)))) (.rat 4 1)) (.mul (.div (.div (.mul (.rat 16 1) (.mul .pi .pi)) (.mul (.sqrt (.mul (.mul (.rat 4 1) .pi) (.par n!"alpha_e"))) (.sqrt (.mul (.mul (.rat 4 1) .pi) (.par n!"alpha_e"))))) (.par n!"m_b")) (.add (.div (.neg (.conj (.inp n!"SedRL_2331"))) (.rat 2 1)) (.div (.inp n!"SedRR_3213") (.rat 2 1)))))),
  (n!"CTLL_sddd", (.mul (.div (.div (.div (.sqrt (.rat 2 1)) (.par n!"GF")) (.mul (.ckm 2 1) (.conj (.ckm 2 0)))) (.rat 4 1)) (.div (.neg (.conj (.inp n!"S8ddRR_1121"))) (.rat 16 1))))]

def JMS_to_flavio_3 : List (ℕ × Sym) := [
  (n!"CL_bdnumunue", (.mul (.div (.div (.div (.sqrt (.rat 2 1)) (.par n!"GF")) (.mul (.ckm 2 2) (.conj (.ckm 2 0)))) (.rat 4 1)) (.mul (.div (.mul (.rat 8 1) (.mul .pi .pi)) (.mul (.sqrt (.mul (.mul (.rat 4 1) .pi) (.par n!"alpha_e"))) (.sqrt (.mul (.mul (.rat 4 1) .pi) (.par n!"alpha_e"))))) (.inp n!"VnudLL_1213")))),
  (n!"CR_sdnuenue", (.mul (.div (.div (.div (.sqrt (.rat 2 1)) (.par n!"GF")) (.mul (.ckm 2 1) (.conj (.ckm 2 0)))) (.rat 4 1)) (.mul (.div (.mul (.rat 8 1) (.mul .pi .pi)) (.mul (.sqrt (.mul (.mul (.rat 4 1) .pi) (.par n!"alpha_e"))) (.sqrt (.mul (.mul (.rat 4 1) .pi) (.par n!"alpha_e"))))) (.inp n!"VnudLR_1112")))),
  (n!"CSR_bcmunumu", (.mul (.div (.div (.div (.neg (.sqrt (.rat 2 1))) (.par n!"GF")) (.ckm 1 2)) (.rat 4 1)) (.conj (.inp n!"SnueduRL_2232")))),
  (n!"CTLL_bsuu", (.mul (.div (.div (.div (.sqrt (.rat 2 1)) (.par n!"GF")) (.mul (.ckm 2 2) (.conj (.ckm 2 1)))) (.rat 4 1)) (.div (.neg (.conj (.inp n!"S8udduRR_1231"))) (.rat 16 1)))),
  (n!"C8_cu", (.mul (.div (.div (.div (.sqrt (.rat 2 1)) (.par n!"GF")) (.mul (.conj (.ckm 1 2)) (.ckm 0 2))) (.rat 4 1)) (.mul (.div (.div (.mul (.rat 16 1) (.mul .pi .pi)) (.sqrt (.mul (.mul (.rat 4 1) .pi) (.par n!"alpha_s")))) (.par n!"m_c")) (.inp n!"uG_12")))),
  (n!"CVLR_nuenutauss", (.mul (.div (.div (.sqrt (.rat 2 1)) (.par n!"GF")) (.rat 4 1)) (.inp n!"VnudLR_1322"))),
  (n!"CSRL_mumudd", (.mul (.div (.div (.sqrt (.rat 2 1)) (.par n!"GF")) (.rat 4 1)) (.inp n!"SedRL_2211"))),
  (n!"CSR_sutaunutau", (.mul (.div (.div (.div (.neg (.sqrt (.rat 2 1))) (.par n!"GF")) (.ckm 0 1)) (.rat 4 1)) (.conj (.inp n!"SnueduRL_3321")))),
  (n!"CVRR_tautauuu", (.mul (.div (.div (.sqrt (.rat 2 1)) (.par n!"GF")) (.rat 4 1)) (.inp n!"VeuRR_3311"))),
  (n!"CTLL_cuss", (.mul (.div (.div (.div (.sqrt (.rat 2 1)) (.par n!"GF")) (.mul (.conj (.ckm 1 2)) (.ckm 0 2))) (.rat 4 1)) (.div (.neg (.conj (.inp n!"S8udduRR_2221"))) (.rat 16 1)))),
  (n!"CVLLt_bsdd", (.mul (.div (.div (.div (.sqrt (.rat 2 1)) (.par n!"GF")) (.mul (.ckm 2 2) (.conj (.ckm 2 1)))) (.rat 4 1)) (.conj (.inp n!"VddLL_1231")))),
  (n!"CSL_bctaunue", (.mul (.div (.div (.div (.neg (.sqrt (.rat 2 1))) (.par n!"GF")) (.ckm 1 2)) (.rat 4 1)) (.conj (.inp n!"SnueduRR_1332")))),
  (n!"CTLL_bdbb", (.mul (.div (.div (.div (.sqrt (.rat 2 1)) (.par n!"GF")) (.mul (.ckm 2 2) (.conj (.ckm 2 0)))) (.rat 4 1)) (.div (.neg (.conj (.inp n!"S8ddRR_3133"))) (.rat 16 1)))),
  (n!"CVL_suenumu", (.mul (.div (.div (.div (.neg (.sqrt (.rat 2 1))) (.par n!"GF")) (.ckm 0 1)) (.rat 4 1)) (.conj (.inp n!"VnueduLL_2121")))),
  (n!"CSRL_sduu", (.mul (.div (.div (.div (.sqrt (.rat 2 1)) (.par n!"GF")) (.mul (.ckm 2 1) (.conj (.ckm 2 0)))) (.rat 4 1)) (.neg (.conj (.inp n!"V8udduLR_1121"))))),
  (n!"CL_sdnumunumu", (.mul (.div (.div (.div (.sqrt (.rat 2 1)) (.par n!"GF")) (.mul (.ckm 2 1) (.conj (.ckm 2 0)))) (.rat 4 1)) (.mul (.div (.mul (.rat 8 1) (.mul .pi .pi)) (.mul (.sqrt (.mul (.mul (.rat 4 1) .pi) (.par n!"alpha_e"))) (.sqrt (.mul (.mul (.rat 4 1) .pi) (.par n!"alpha_e"))))) (.inp n!"VnudLL_2212")))),
  (n!"CP_bsemu", (.mul (.div (.div (.div (.sqrt (.rat 2 1)) (.par n!"GF")) (.mul (.ckm 2 2) (.conj (.ckm 2 1)))) (.rat 4 1)) (.mul (.div (.div (.mul (.rat 16 1) (.mul .pi .pi)) (.mul (.sqrt (.mul (.mul (.rat 4 1) .pi) (.par n!"alpha_e"))) (.sqrt (.mul (.mul (.rat 4 1) .pi) (.par n!"alpha_e"))))) (.par n!"m_b")) (.add (.div (.neg (.conj (.inp n!"SedRL_1232"))) (.rat 2 1)) (.div (.inp n!"SedRR_2123") (.rat 2 1)))))),
  (n!"CVRR_sduu", (.mul (.div (.div (.div (.sqrt (.rat 2 1)) (.par n!"GF")) (.mul (.ckm 2 1) (.conj (.ckm 2 0)))) (.rat 4 1)) (.sub (.inp n!"V1udRR_1112") (.div (.inp n!"V8udRR_1112") (.mul (.rat 2 1) (.rat 3 1)))))),
  (n!"CSRL_tautaudd", (.mul (.div (.div (.sqrt (.rat 2 1)) (.par n!"GF")) (.rat 4 1)) (.inp n!"SedRL_3311"))),
  (n!"CVL_scenue", (.mul (.div (.div (.div (.neg (.sqrt (.rat 2 1))) (.par n!"GF")) (.ckm 1 1)) (.rat 4 1)) (.conj (.inp n!"VnueduLL_1122")))),
  (n!"CVLLt_cubb", (.mul (.div (.div (.div (.sqrt (.rat 2 1)) (.par n!"GF")) (.mul (.conj (.ckm 1 2)) (.ckm 0 2))) (.rat 4 1)) (.div (.inp n!"V8udLL_1233") (.rat 2 1)))),
  (n!"CPp_cutautau", (.mul (.div (.div (.div (.sqrt (.rat 2 1)) (.par n!"GF")) (.mul (.conj (.ckm 1 2)) (.ckm 0 2))) (.rat 4 1)) (.mul (.div (.div (.mul (.rat 16 1) (.mul .pi .pi)) (.mul (.sqrt (.mul (.mul (.rat 4 1) .pi) (.par n!"alpha_e"))) (.sqrt (.mul (.mul (.rat 4 1) .pi) (.par n!"alpha_e"))))) (.par n!"m_c")) (.sub (.div (.inp n!"SeuRL_3312") (.rat 2 1)) (.div (.conj (.inp n!"SeuRR_3321")) (.rat 2 1)))))),
  (n!"CT_suenumu", (.mul (.div (.div (.div (.neg (.sqrt (.rat 2 1))) (.par n!"GF")) (.ckm 0 1)) (.rat 4 1)) (.conj (.inp n!"TnueduRR_2121")))),
  (n!"CVLR_numunutautautau", (.mul (.div (.div (.sqrt (.rat 2 1)) (.par n!"GF")) (.rat 4 1)) (.inp n!"VnueLR_2333"))),
  (n!"CVR_dumunue", (.mul (.div (.div (.div (.neg (.sqrt (.rat 2 1))) (.par n!"GF")) (.ckm 0 0)) (.rat 4 1)) (.conj (.inp n!"VnueduLR_1211")))),
  (n!"CVLL_bdcc", (.mul (.div (.div (.div (.sqrt (.rat 2 1)) (.par n!"GF")) (.mul (.ckm 2 2) (.conj (.ckm 2 0)))) (.rat 4 1)) (.sub (.inp n!"V1udLL_2213") (.div (.inp n!"V8udLL_2213") (.mul (.rat 2 1) (.rat 3 1)))))),
  (n!"CVLL_nutaunutaumumu", (.mul (.div (.div (.sqrt (.rat 2 1)) (.par n!"GF")) (.rat 4 1)) (.inp n!"VnueLL_3322"))),
  (n!"CVLL_nutaunutauuu", (.mul (.div (.div (.sqrt (.rat 2 1)) (.par n!"GF")) (.rat 4 1)) (.inp n!"VnuuLL_3311"))),
  (n!"CP_sdetau", (.mul (.div (.div (.div (.sqrt (.rat 2 1)) (.par n!"GF")) (.mul (.ckm 2 1) (.conj (.ckm 2 0)))) (.rat 4 1)) (.mul (.div (.div (.mul (.rat 16 1) (.mul .pi .pi)) (.mul (.sqrt (.mul (.mul (.rat 4 1) .pi) (.par n!"alpha_e"))) (.sqrt (.mul (.mul (.rat 4 1) .pi) (.par n!"alpha_e"))))) (.par n!"m_s")) (.add (.div (.neg (.conj (.inp n!"SedRL_1321"))) (.rat 2 1)) (.div (.inp n!"SedRR_3112") (.rat 2 1)))))),
  (n!"CSRR_tautaubb", (.mul (.div (.div (.sqrt (.rat 2 1)) (.par n!"GF")) (.rat 4 1)) (.inp n!"SedRR_3333"))),
  (n!"CVL_buenue", (.mul (.div (.div (.div (.neg (.sqrt (.rat 2 1))) (.par n!"GF")) (.ckm 0 2)) (.rat 4 1)) (.conj (.inp n!"VnueduLL_1131")))),
  (n!"CL_bsnutaunutau", (.mul (.div (.div (.div (.sqrt (.rat 2 1)) (.par n!"GF")) (.mul (.ckm 2 2) (.conj (.ckm 2 1)))) (.rat 4 1)) (.mul (.div (.mul (.rat 8 1) (.mul .pi .pi)) (.mul (.sqrt (.mul (.mul (.rat 4 1) .pi) (.par n!"alpha_e"))) (.sqrt (.mul (.mul (.rat 4 1) .pi) (.par n!"alpha_e"))))) (.inp n!"VnudLL_3323")))),
  (n!"CS_sdee", (.mul (.div (.div (.div (.sqrt (.rat 2 1)) (.par n!"GF")) (.mul (.ckm 2 1) (.conj (.ckm 2 0)))) (.rat 4 1)) (.mul (.div (.div (.mul (.rat 16 1) (.mul .pi .pi)) (.mul (.sqrt (.mul (.mul (.rat 4 1) .pi) (.par n!"alpha_e"))) (.sqrt (.mul (.mul (.rat 4 1) .pi) (.par n!"alpha_e"))))) (.par n!"m_s")) (.add (.div (.conj (.inp n!"SedRL_1121")) (.rat 2 1)) (.div (.inp n!"SedRR_1112") (.rat 2 1)))))),
  (n!"CSRLt_sdcc", (.mul (.div (.div (.div (.sqrt (.rat 2 1)) (.par n!"GF")) (.mul (.ckm 2 1) (.conj (.ckm 2 0)))) (.rat 4 1)) (.add (.mul (.rat (-2) 1) (.conj (.inp n!"V1udduLR_2122"))) (.div (.conj (.inp n!"V8udduLR_2122")) (.rat 3 1))))),
  (n!"CSL_sutaunumu", (.mul (.div (.div (.div (.neg (.sqrt (.rat 2 1))) (.par n!"GF")) (.ckm 0 1)) (.rat 4 1)) (.conj (.inp n!"SnueduRR_2321")))),
  (n!"CVLL_eess", (.mul (.div (.div (.sqrt (.rat 2 1)) (.par n!"GF")) (.rat 4 1)) (.inp n!"VedLL_1122"))),
  (n!"CSRL_bdss", (.mul (.div (.div (.div (.sqrt (.rat 2 1)) (.par n!"GF")) (.mul (.ckm 2 2) (.conj (.ckm 2 0)))) (.rat 4 1)) (.neg (.inp n!"V8ddLR_1223")))),
  (n!"CSp_sdmumu", (.mul (.div (.div (.div (.sqrt (.rat 2 1)) (.par n!"GF")) (.mul (.ckm 2 1) (.conj (.ckm 2 0)))) (.rat 4 1)) (.mul (.div (.div (.mul (.rat 16 1) (.mul .pi .pi)) (.mul (.sqrt (.mul (.mul (.rat 4 1) .pi) (.par n!"alpha_e"))) (.sqrt (.mul (.mul (.rat 4 1) .pi) (.par n!"alpha_e"))))) (.par n!"m_s")) (.add (.div (.inp n!"SedRL_2212") (.rat 2 1)) (.div (.conj (.inp n!"SedRR_2221")) (.rat 2 1)))))),
  (n!"C10p_bstautau", (.mul (.div (.div (.div (.sqrt (.rat 2 1)) (.par n!"GF")) (.mul (.ckm 2 2) (.conj (.ckm 2 1)))) (.rat 4 1)) (.mul (.div (.mul (.rat 16 1) (.mul .pi .pi)) (.mul (.sqrt (.mul (.mul (.rat 4 1) .pi) (.par n!"alpha_e"))) (.sqrt (.mul (.mul (.rat 4 1) .pi) (.par n!"alpha_e"))))) (.add (.div (.neg (.inp n!"VedLR_3323")) (.rat 2 1)) (.div (.inp n!"VedRR_3323") (.rat 2 1)))))),
  (n!"C10_bsmue", (.mul (.div (.div (.div (.sqrt (.rat 2 1)) (.par n!"GF")) (.mul (.ckm 2 2) (.conj (.ckm 2 1)))) (.rat 4 1)) (.mul (.div (.mul (.rat 16 1) (.mul .pi .pi)) (.mul (.sqrt (.mul (.mul (.rat 4 1) .pi) (.par n!"alpha_e"))) (.sqrt (.mul (.mul (.rat 4 1) .pi) (.par n!"alpha_e"))))) (.sub (.div (.inp n!"VdeLR_2312") (.rat 2 1)) (.div (.inp n!"VedLL_1223") (.rat 2 1)))))),
  (n!"CVRR_bdss", (.mul (.div (.div (.div (.sqrt (.rat 2 1)) (.par n!"GF")) (.mul (.ckm 2 2) (.conj (.ckm 2 0)))) (.rat 4 1)) (.inp n!"VddRR_1322"))),
  (n!"CV8RR_uudd", (.mul (.div (.div (.sqrt (.rat 2 1)) (.par n!"GF")) (.rat 4 1)) (.inp n!"V8udRR_1111"))),
  (n!"CR_bsnumunutau", (.mul (.div (.div (.div (.sqrt (.rat 2 1)) (.par n!"GF")) (.mul (.ckm 2 2) (.conj (.ckm 2 1)))) (.rat 4 1)) (.mul (.div (.mul (.rat 8 1) (.mul .pi .pi)) (.mul (.sqrt (.mul (.mul (.rat 4 1) .pi) (.par n!"alpha_e"))) (.sqrt (.mul (.mul (.rat 4 1) .pi) (.par n!"alpha_e"))))) (.conj (.inp n!"VnudLR_2332"))))),
  (n!"CVLR_ddmumu", (.mul (.div (.div (.sqrt (.rat 2 1)) (.par n!"GF")) (.rat 4 1)) (.inp n!"VdeLR_1122"))),
  (n!"C9p_bsee", (.mul (.div (.div (.div (.sqrt (.rat 2 1)) (.par n!"GF")) (.mul (.ckm 2 2) (.conj (.ckm 2 1)))) (.rat 4 1)) (.mul (.div (.mul (.rat 16 1) (.mul .pi .pi)) (.mul (.sqrt (.mul (.mul (.rat 4 1) .pi) (.par n!"alpha_e"))) (.sqrt (.mul (.mul (.rat 4 1) .pi) (.par n!"alpha_e"))))) (.add (.div (.inp n!"VedLR_1123") (.rat 2 1)) (.div (.inp n!"VedRR_1123") (.rat 2 1)))))),
  (n!"C9_bdtautau", (.mul (.div (.div (.div (.sqrt (.rat 2 1)) (.par n!"GF")) (.mul (.ckm 2 2) (.conj (.ckm 2 0)))) (.rat 4 1)) (.mul (.div (.mul (.rat 16 1) (.mul .pi .pi)) (.mul (.sqrt (.mul (.mul (.rat 4 1) .pi) (.par n!"alpha_e"))) (.sqrt (.mul (.mul (.rat 4 1) .pi) (.par n!"alpha_e"))))) (.add (.div (.inp n!"VdeLR_1333") (.rat 2 1)) (.div (.inp n!"VedLL_3313") (.rat 2 1)))))),
  (n!"CTLL_ucuc", (.mul (.div (.rat (-1) 1) (.rat 8 1)) (.div (.conj (.inp n!"S8uuRR_1212")) (.rat 2 1)))),
  (n!"CV8LR_ccss", (.mul (.div (.div (.sqrt (.rat 2 1)) (.par n!"GF")) (.rat 4 1)) (.inp n!"V8udLR_2222"))),
  (n!"CVRLt_sdbb", (.mul (.div (.div (.div (.sqrt (.rat 2 1)) (.par n!"GF")) (.mul (.ckm 2 1) (.conj (.ckm 2 0)))) (.rat 4 1)) (.div (.inp n!"V8ddLR_3312") (.rat 2 1)))),
  (n!"CVL_scmunumu", (.mul (.div (.div (.div (.neg (.sqrt (.rat 2 1))) (.par n!"GF")) (.ckm 1 1)) (.rat 4 1)) (.conj (.inp n!"VnueduLL_2222"))))]

def JMS_to_flavio_4 : List (ℕ × Sym) := [
  (n!"CV1LR_uuss", (.mul (.div (.div (.sqrt (.rat 2 1)) (.par n!"GF")) (.rat 4 1)) (.inp n!"V1udLR_1122"))),
  (n!"CVLL_bduu", (.mul (.div (.div (.div (.sqrt (.rat 2 1)) (.par n!"GF")) (.mul (.ckm 2 2) (.conj (.ckm 2 0)))) (.rat 4 1)) (.sub (.inp n!"V1udLL_1113") (.div (.inp n!"V8udLL_1113") (.mul (.rat 2 1) (.rat 3 1)))))),
  (n!"CSRR_mumuss", (.mul (.div (.div (.sqrt (.rat 2 1)) (.par n!"GF")) (.rat 4 1)) (.inp n!"SedRR_2222"))),
  (n!"CVLLt_bdcc", (.mul (.div (.div (.div (.sqrt (.rat 2 1)) (.par n!"GF")) (.mul (.ckm 2 2) (.conj (.ckm 2 0)))) (.rat 4 1)) (.div (.inp n!"V8udLL_2213") (.rat 2 1)))),
  (n!"CT_duenue", (.mul (.div (.div (.div (.neg (.sqrt (.rat 2 1))) (.par n!"GF")) (.ckm 0 0)) (.rat 4 1)) (.conj (.inp n!"TnueduRR_1111")))),
  (n!"C8_bb", (.mul (.div (.div (.sqrt (.rat 2 1)) (.par n!"GF")) (.rat 4 1)) (.mul (.div (.div (.mul (.rat 16 1) (.mul .pi .pi)) (.sqrt (.mul (.mul (.rat 4 1) .pi) (.par n!"alpha_s")))) (.par n!"m_b")) (.inp n!"dG_33")))),
  (n!"CS8RR_cbbc", (.mul (.div (.div (.sqrt (.rat 2 1)) (.par n!"GF")) (.rat 4 1)) (.inp n!"S8udduRR_2332"))),
  (n!"CTRRt_sdbb", (.mul (.div (.div (.div (.sqrt (.rat 2 1)) (.par n!"GF")) (.mul (.ckm 2 1) (.conj (.ckm 2 0)))) (.rat 4 1)) (.add (.div (.neg (.inp n!"S1ddRR_1332")) (.rat 8 1)) (.div (.inp n!"S8ddRR_1332") (.mul (.rat 16 1) (.rat 3 1)))))),
  (n!"CSRLt_sduu", (.mul (.div (.div (.div (.sqrt (.rat 2 1)) (.par n!"GF")) (.mul (.ckm 2 1) (.conj (.ckm 2 0)))) (.rat 4 1)) (.add (.mul (.rat (-2) 1) (.conj (.inp n!"V1udduLR_1121"))) (.div (.conj (.inp n!"V8udduLR_1121")) (.rat 3 1))))),
  (n!"C9_sdetau", (.mul (.div (.div (.div (.sqrt (.rat 2 1)) (.par n!"GF")) (.mul (.ckm 2 1) (.conj (.ckm 2 0)))) (.rat 4 1)) (.mul (.div (.mul (.rat 16 1) (.mul .pi .pi)) (.mul (.sqrt (.mul (.mul (.rat 4 1) .pi) (.par n!"alpha_e"))) (.sqrt (.mul (.mul (.rat 4 1) .pi) (.par n!"alpha_e"))))) (.add (.div (.inp n!"VdeLR_1231") (.rat 2 1)) (.div (.conj (.inp n!"VedLL_1321")) (.rat 2 1)))))),
  (n!"CVR_bumunue", (.mul (.div (.div (.div (.neg (.sqrt (.rat 2 1))) (.par n!"GF")) (.ckm 0 2)) (.rat 4 1)) (.conj (.inp n!"VnueduLR_1231")))),
  (n!"CV1LR_bbbb", (.mul (.div (.div (.sqrt (.rat 2 1)) (.par n!"GF")) (.rat 4 1)) (.inp n!"V1ddLR_3333"))),
  (n!"CVLR_numunumubb", (.mul (.div (.div (.sqrt (.rat 2 1)) (.par n!"GF")) (.rat 4 1)) (.inp n!"VnudLR_2233"))),
  (n!"CV8LR_ddbb", (.mul (.div (.div (.sqrt (.rat 2 1)) (.par n!"GF")) (.rat 4 1)) (.inp n!"V8ddLR_1133"))),
  (n!"CVR_scmunue", (.mul (.div (.div (.div (.neg (.sqrt (.rat 2 1))) (.par n!"GF")) (.ckm 1 1)) (.rat 4 1)) (.conj (.inp n!"VnueduLR_1222")))),
  (n!"CR_bdnuenutau", (.mul (.div (.div (.div (.sqrt (.rat 2 1)) (.par n!"GF")) (.mul (.ckm 2 2) (.conj (.ckm 2 0)))) (.rat 4 1)) (.mul (.div (.mul (.rat 8 1) (.mul .pi .pi)) (.mul (.sqrt (.mul (.mul (.rat 4 1) .pi) (.par n!"alpha_e"))) (.sqrt (.mul (.mul (.rat 4 1) .pi) (.par n!"alpha_e"))))) (.conj (.inp n!"VnudLR_1331"))))),
  (n!"CVLL_mumumumu", (.mul (.div (.div (.sqrt (.rat 2 1)) (.par n!"GF")) (.rat 4 1)) (.inp n!"VeeLL_2222"))),
  (n!"CV8LR_ssbb", (.mul (.div (.div (.sqrt (.rat 2 1)) (.par n!"GF")) (.rat 4 1)) (.inp n!"V8ddLR_2233"))),
  (n!"CS_sdemu", (.mul (.div (.div (.div (.sqrt (.rat 2 1)) (.par n!"GF")) (.mul (.ckm 2 1) (.conj (.ckm 2 0)))) (.rat 4 1)) (.mul (.div (.div (.mul (.rat 16 1) (.mul .pi .pi)) (.mul (.sqrt (.mul (.mul (.rat 4 1) .pi) (.par n!"alpha_e"))) (.sqrt (.mul (.mul (.rat 4 1) .pi) (.par n!"alpha_e"))))) (.par n!"m_s")) (.add (.div (.conj (.inp n!"SedRL_1221")) (.rat 2 1)) (.div (.inp n!"SedRR_2112") (.rat 2 1)))))),
  (n!"CPp_bdee", (.mul (.div (.div (.div (.sqrt (.rat 2 1)) (.par n!"GF")) (.mul (.ckm 2 2) (.conj (.ckm 2 0)))) (.rat 4 1)) (.mul (.div (.div (.mul (.rat 16 1) (.mul .pi .pi)) (.mul (.sqrt (.mul (.mul (.rat 4 1) .pi) (.par n!"alpha_e"))) (.sqrt (.mul (.mul (.rat 4 1) .pi) (.par n!"alpha_e"))))) (.par n!"m_b")) (.sub (.div (.inp n!"SedRL_1113") (.rat 2 1)) (.div (.conj (.inp n!"SedRR_1131")) (.rat 2 1)))))),
  (n!"CSL_bumunumu", (.mul (.div (.div (.div (.neg (.sqrt (.rat 2 1))) (.par n!"GF")) (.ckm 0 2)) (.rat 4 1)) (.conj (.inp n!"SnueduRR_2231")))),
  (n!"CVLL_sbbs", (.mul (.div (.div (.sqrt (.rat 2 1)) (.par n!"GF")) (.rat 4 1)) (.inp n!"VddLL_2332"))),
  (n!"CSRR_cudd", (.mul (.div (.div (.div (.sqrt (.rat 2 1)) (.par n!"GF")) (.mul (.conj (.ckm 1 2)) (.ckm 0 2))) (.rat 4 1)) (.sub (.sub (.inp n!"S1udRR_1211") (.div (.inp n!"S8udduRR_1112") (.rat 4 1))) (.div (.inp n!"S8udRR_1211") (.mul (.rat 2 1) (.rat 3 1)))))),
  (n!"CPp_bsemu", (.mul (.div (.div (.div (.sqrt (.rat 2 1)) (.par n!"GF")) (.mul (.ckm 2 2) (.conj (.ckm 2 1)))) (.rat 4 1)) (.mul (.div (.div (.mul (.rat 16 1) (.mul .pi .pi)) (.mul (.sqrt (.mul (.mul (.rat 4 1) .pi) (.par n!"alpha_e"))) (.sqrt (.mul (.mul (.rat 4 1) .pi) (.par n!"alpha_e"))))) (.par n!"m_b")) (.sub (.div (.inp n!"SedRL_2123") (.rat 2 1)) (.div (.conj (.inp n!"SedRR_1232")) (.rat 2 1)))))),
  (n!"CSLL_bsbb", (.mul (.div (.div (.div (.sqrt (.rat 2 1)) (.par n!"GF")) (.mul (.ckm 2 2) (.conj (.ckm 2 1)))) (.rat 4 1)) (.sub (.sub (.conj (.inp n!"S1ddRR_3233")) (.div (.conj (.inp n!"S8ddRR_3233")) (.rat 4 1))) (.div (.div (.conj (.inp n!"S8ddRR_3233")) (.rat 2 1)) (.rat 3 1))))),
  (n!"CVRL_bscc", (.mul (.div (.div (.div (.sqrt (.rat 2 1)) (.par n!"GF")) (.mul (.ckm 2 2) (.conj (.ckm 2 1)))) (.rat 4 1)) (.sub (.inp n!"V1udLR_2223") (.div (.inp n!"V8udLR_2223") (.mul (.rat 2 1) (.rat 3 1)))))),
  (n!"CSRLt_bdss", (.mul (.div (.div (.div (.sqrt (.rat 2 1)) (.par n!"GF")) (.mul (.ckm 2 2) (.conj (.ckm 2 0)))) (.rat 4 1)) (.add (.mul (.rat (-2) 1) (.inp n!"V1ddLR_1223")) (.div (.inp n!"V8ddLR_1223") (.rat 3 1))))),
  (n!"CVR_scmunutau", (.mul (.div (.div (.div (.neg (.sqrt (.rat 2 1))) (.par n!"GF")) (.ckm 1 1)) (.rat 4 1)) (.conj (.inp n!"VnueduLR_3222")))),
  (n!"CVLL_nuenuedd", (.mul (.div (.div (.sqrt (.rat 2 1)) (.par n!"GF")) (.rat 4 1)) (.inp n!"VnudLL_1111"))),
  (n!"CVLR_bsbb", (.mul (.div (.div (.div (.sqrt (.rat 2 1)) (.par n!"GF")) (.mul (.ckm 2 2) (.conj (.ckm 2 1)))) (.rat 4 1)) (.sub (.inp n!"V1ddLR_2333") (.div (.inp n!"V8ddLR_2333") (.mul (.rat 2 1) (.rat 3 1)))))),
  (n!"CVLL_nuenutauee", (.mul (.div (.div (.sqrt (.rat 2 1)) (.par n!"GF")) (.rat 4 1)) (.inp n!"VnueLL_1311"))),
  (n!"CVLL_nuenumumumu", (.mul (.div (.div (.sqrt (.rat 2 1)) (.par n!"GF")) (.rat 4 1)) (.inp n!"VnueLL_1222"))),
  (n!"CP_bdtaumu", (.mul (.div (.div (.div (.sqrt (.rat 2 1)) (.par n!"GF")) (.mul (.ckm 2 2) (.conj (.ckm 2 0)))) (.rat 4 1)) (.mul (.div (.div (.mul (.rat 16 1) (.mul .pi .pi)) (.mul (.sqrt (.mul (.mul (.rat 4 1) .pi) (.par n!"alpha_e"))) (.sqrt (.mul (.mul (.rat 4 1) .pi) (.par n!"alpha_e"))))) (.par n!"m_b")) (.add (.div (.neg (.conj (.inp n!"SedRL_3231"))) (.rat 2 1)) (.div (.inp n!"SedRR_2313") (.rat 2 1)))))),
  (n!"CSLRt_bsdd", (.mul (.div (.div (.div (.sqrt (.rat 2 1)) (.par n!"GF")) (.mul (.ckm 2 2) (.conj (.ckm 2 1)))) (.rat 4 1)) (.add (.mul (.rat (-2) 1) (.inp n!"V1ddLR_1321")) (.div (.inp n!"V8ddLR_1321") (.rat 3 1))))),
  (n!"CSRR_eecc", (.mul (.div (.div (.sqrt (.rat 2 1)) (.par n!"GF")) (.rat 4 1)) (.inp n!"SeuRR_1122"))),
  (n!"CSRR_tautautautau", (.mul (.div (.div (.sqrt (.rat 2 1)) (.par n!"GF")) (.rat 4 1)) (.inp n!"SeeRR_3333"))),
  (n!"CVLR_nuenuebb", (.mul (.div (.div (.sqrt (.rat 2 1)) (.par n!"GF")) (.rat 4 1)) (.inp n!"VnudLR_1133"))),
  (n!"CTRR_tautaudd", (.mul (.div (.div (.sqrt (.rat 2 1)) (.par n!"GF")) (.rat 4 1)) (.inp n!"TedRR_3311"))),
  (n!"CT_sumunutau", (.mul (.div (.div (.div (.neg (.sqrt (.rat 2 1))) (.par n!"GF")) (.ckm 0 1)) (.rat 4 1)) (.conj (.inp n!"TnueduRR_3221")))),
  (n!"CL_bsnuenutau", (.mul (.div (.div (.div (.sqrt (.rat 2 1)) (.par n!"GF")) (.mul (.ckm 2 2) (.conj (.ckm 2 1)))) (.rat 4 1)) (.mul (.div (.mul (.rat 8 1) (.mul .pi .pi)) (.mul (.sqrt (.mul (.mul (.rat 4 1) .pi) (.par n!"alpha_e"))) (.sqrt (.mul (.mul (.rat 4 1) .pi) (.par n!"alpha_e"))))) (.conj (.inp n!"VnudLL_1332"))))),
  (n!"CVLLt_bduu", (.mul (.div (.div (.div (.sqrt (.rat 2 1)) (.par n!"GF")) (.mul (.ckm 2 2) (.conj (.ckm 2 0)))) (.rat 4 1)) (.div (.inp n!"V8udLL_1113") (.rat 2 1)))),
  (n!"CS_bstaue", (.mul (.div (.div (.div (.sqrt (.rat 2 1)) (.par n!"GF")) (.mul (.ckm 2 2) (.conj (.ckm 2 1)))) (.rat 4 1)) (.mul (.div (.div (.mul (.rat 16 1) (.mul .pi .pi)) (.mul (.sqrt (.mul (.mul (.rat 4 1) .pi) (.par n!"alpha_e"))) (.sqrt (.mul (.mul (.rat 4 1) .pi) (.par n!"alpha_e"))))) (.par n!"m_b")) (.add (.div (.conj (.inp n!"SedRL_3132")) (.rat 2 1)) (.div (.inp n!"SedRR_1323") (.rat 2 1)))))),
  (n!"CVLR_numunutaubb", (.mul (.div (.div (.sqrt (.rat 2 1)) (.par n!"GF")) (.rat 4 1)) (.inp n!"VnudLR_2333"))),
  (n!"CVL_bcenue", (.mul (.div (.div (.div (.neg (.sqrt (.rat 2 1))) (.par n!"GF")) (.ckm 1 2)) (.rat 4 1)) (.conj (.inp n!"VnueduLL_1132")))),
  (n!"CSLRt_cubb", (.mul (.div (.div (.div (.sqrt (.rat 2 1)) (.par n!"GF")) (.mul (.conj (.ckm 1 2)) (.ckm 0 2))) (.rat 4 1)) (.add (.mul (.rat (-2) 1) (.conj (.inp n!"V1udduLR_2331"))) (.div (.conj (.inp n!"V8udduLR_2331")) (.rat 3 1))))),
  (n!"CVL_dcmunue", (.mul (.div (.div (.div (.neg (.sqrt (.rat 2 1))) (.par n!"GF")) (.ckm 1 0)) (.rat 4 1)) (.conj (.inp n!"VnueduLL_1212")))),
  (n!"CP_bdetau", (.mul (.div (.div (.div (.sqrt (.rat 2 1)) (.par n!"GF")) (.mul (.ckm 2 2) (.conj (.ckm 2 0)))) (.rat 4 1)) (.mul (.div (.div (.mul (.rat 16 1) (.mul .pi .pi)) (.mul (.sqrt (.mul (.mul (.rat 4 1) .pi) (.par n!"alpha_e"))) (.sqrt (.mul (.mul (.rat 4 1) .pi) (.par n!"alpha_e"))))) (.par n!"m_b")) (.add (.div (.neg (.conj (.inp n!"SedRL_1331"))) (.rat 2 1)) (.div (.inp n!"SedRR_3113") (.rat 2 1)))))),
  (n!"CVRR_bdbd", (.inp n!"VddRR_1313")),
  (n!"CVRR_sdsd", (.inp n!"VddRR_1212")),
  (n!"CT_dcmunue", (.mul (.div (.div (.div (.neg (.sqrt (.rat 2 1))) (.par n!"GF")) (.ckm 1 0)) (.rat 4 1)) (.conj (.inp n!"TnueduRR_1212"))))]

def JMS_to_flavio_5 : List (ℕ × Sym) := [
  (n!"C8p_bd", (.mul (.div (.div (.div (.sqrt (.rat 2 1)) (.par n!"GF")) (.mul (.ckm 2 2) (.conj (.ckm 2 0)))) (.rat 4 1)) (.mul (.div (.div (.mul (.rat 16 1) (.mul .pi .pi)) (.sqrt (.mul (.mul (.rat 4 1) .pi) (.par n!"alpha_s")))) (.par n!"m_b")) (.conj (.inp n!"dG_31"))))),
  (n!"C10p_sdtaue", (.mul (.div (.div (.div (.sqrt (.rat 2 1)) (.par n!"GF")) (.mul (.ckm 2 1) (.conj (.ckm 2 0)))) (.rat 4 1)) (.mul (.div (.mul (.rat 16 1) (.mul .pi .pi)) (.mul (.sqrt (.mul (.mul (.rat 4 1) .pi) (.par n!"alpha_e"))) (.sqrt (.mul (.mul (.rat 4 1) .pi) (.par n!"alpha_e"))))) (.add (.div (.neg (.inp n!"VedLR_1312")) (.rat 2 1)) (.div (.inp n!"VedRR_1312") (.rat 2 1)))))),
  (n!"CSLL_sdcc", (.mul (.div (.div (.div (.sqrt (.rat 2 1)) (.par n!"GF")) (.mul (.ckm 2 1) (.conj (.ckm 2 0)))) (.rat 4 1)) (.sub (.sub (.conj (.inp n!"S1udRR_2221")) (.div (.conj (.inp n!"S8udduRR_2122")) (.rat 4 1))) (.div (.conj (.inp n!"S8udRR_2221")) (.mul (.rat 2 1) (.rat 3 1)))))),
  (n!"CVRL_sddd", (.mul (.div (.div (.div (.sqrt (.rat 2 1)) (.par n!"GF")) (.mul (.ckm 2 1) (.conj (.ckm 2 0)))) (.rat 4 1)) (.sub (.inp n!"V1ddLR_1112") (.div (.inp n!"V8ddLR_1112") (.mul (.rat 2 1) (.rat 3 1)))))),
  (n!"CSp_bdmumu", (.mul (.div (.div (.div (.sqrt (.rat 2 1)) (.par n!"GF")) (.mul (.ckm 2 2) (.conj (.ckm 2 0)))) (.rat 4 1)) (.mul (.div (.div (.mul (.rat 16 1) (.mul .pi .pi)) (.mul (.sqrt (.mul (.mul (.rat 4 1) .pi) (.par n!"alpha_e"))) (.sqrt (.mul (.mul (.rat 4 1) .pi) (.par n!"alpha_e"))))) (.par n!"m_b")) (.add (.div (.inp n!"SedRL_2213") (.rat 2 1)) (.div (.conj (.inp n!"SedRR_2231")) (.rat 2 1)))))),
  (n!"C9p_cumumu", (.mul (.div (.div (.div (.sqrt (.rat 2 1)) (.par n!"GF")) (.mul (.conj (.ckm 1 2)) (.ckm 0 2))) (.rat 4 1)) (.mul (.div (.mul (.rat 16 1) (.mul .pi .pi)) (.mul (.sqrt (.mul (.mul (.rat 4 1) .pi) (.par n!"alpha_e"))) (.sqrt (.mul (.mul (.rat 4 1) .pi) (.par n!"alpha_e"))))) (.add (.div (.inp n!"VeuLR_2212") (.rat 2 1)) (.div (.inp n!"VeuRR_2212") (.rat 2 1)))))),
  (n!"C10p_cutautau", (.mul (.div (.div (.div (.sqrt (.rat 2 1)) (.par n!"GF")) (.mul (.conj (.ckm 1 2)) (.ckm 0 2))) (.rat 4 1)) (.mul (.div (.mul (.rat 16 1) (.mul .pi .pi)) (.mul (.sqrt (.mul (.mul (.rat 4 1) .pi) (.par n!"alpha_e"))) (.sqrt (.mul (.mul (.rat 4 1) .pi) (.par n!"alpha_e"))))) (.add (.div (.neg (.inp n!"VeuLR_3312")) (.rat 2 1)) (.div (.inp n!"VeuRR_3312") (.rat 2 1)))))),
  (n!"CVLR_sdcc", (.mul (.div (.div (.div (.sqrt (.rat 2 1)) (.par n!"GF")) (.mul (.ckm 2 1) (.conj (.ckm 2 0)))) (.rat 4 1)) (.sub (.inp n!"V1duLR_1222") (.div (.inp n!"V8duLR_1222") (.mul (.rat 2 1) (.rat 3 1)))))),
  (n!"CVLL_numunutauss", (.mul (.div (.div (.sqrt (.rat 2 1)) (.par n!"GF")) (.rat 4 1)) (.inp n!"VnudLL_2322"))),
  (n!"CT_duenutau", (.mul (.div (.div (.div (.neg (.sqrt (.rat 2 1))) (.par n!"GF")) (.ckm 0 0)) (.rat 4 1)) (.conj (.inp n!"TnueduRR_3111")))),
  (n!"CVLR_eeee", (.mul (.div (.div (.sqrt (.rat 2 1)) (.par n!"GF")) (.rat 4 1)) (.inp n!"VeeLR_1111"))),
  (n!"CVLR_sstautau", (.mul (.div (.div (.sqrt (.rat 2 1)) (.par n!"GF")) (.rat 4 1)) (.inp n!"VdeLR_2233"))),
  (n!"CVRL_bsuu", (.mul (.div (.div (.div (.sqrt (.rat 2 1)) (.par n!"GF")) (.mul (.ckm 2 2) (.conj (.ckm 2 1)))) (.rat 4 1)) (.sub (.inp n!"V1udLR_1123") (.div (.inp n!"V8udLR_1123") (.mul (.rat 2 1) (.rat 3 1)))))),
  (n!"CVLRt_bscc", (.mul (.div (.div (.div (.sqrt (.rat 2 1)) (.par n!"GF")) (.mul (.ckm 2 2) (.conj (.ckm 2 1)))) (.rat 4 1)) (.div (.inp n!"V8duLR_2322") (.rat 2 1)))),
  (n!"CV1LR_cccc", (.mul (.div (.div (.sqrt (.rat 2 1)) (.par n!"GF")) (.rat 4 1)) (.inp n!"V1uuLR_2222"))),
  (n!"C9p_bsemu", (.mul (.div (.div (.div (.sqrt (.rat 2 1)) (.par n!"GF")) (.mul (.ckm 2 2) (.conj (.ckm 2 1)))) (.rat 4 1)) (.mul (.div (.mul (.rat 16 1) (.mul .pi .pi)) (.mul (.sqrt (.mul (.mul (.rat 4 1) .pi) (.par n!"alpha_e"))) (.sqrt (.mul (.mul (.rat 4 1) .pi) (.par n!"alpha_e"))))) (.add (.div (.conj (.inp n!"VedLR_1232")) (.rat 2 1)) (.div (.conj (.inp n!"VedRR_1232")) (.rat 2 1)))))),
  (n!"CVLR_mumutautau", (.mul (.div (.div (.sqrt (.rat 2 1)) (.par n!"GF")) (.rat 4 1)) (.inp n!"VeeLR_2233"))),
  (n!"CSR_duenutau", (.mul (.div (.div (.div (.neg (.sqrt (.rat 2 1))) (.par n!"GF")) (.ckm 0 0)) (.rat 4 1)) (.conj (.inp n!"SnueduRL_3111")))),
  (n!"CVRR_uccu", (.mul (.div (.div (.sqrt (.rat 2 1)) (.par n!"GF")) (.rat 4 1)) (.inp n!"VuuRR_1221"))),
  (n!"CSRR_sdss", (.mul (.div (.div (.div (.sqrt (.rat 2 1)) (.par n!"GF")) (.mul (.ckm 2 1) (.conj (.ckm 2 0)))) (.rat 4 1)) (.sub (.sub (.inp n!"S1ddRR_1222") (.div (.inp n!"S8ddRR_1222") (.rat 4 1))) (.div (.inp n!"S8ddRR_1222") (.mul (.rat 2 1) (.rat 3 1)))))),
  (n!"CSRR_eeuu", (.mul (.div (.div (.sqrt (.rat 2 1)) (.par n!"GF")) (.rat 4 1)) (.inp n!"SeuRR_1111"))),
  (n!"CVRL_cuss", (.mul (.div (.div (.div (.sqrt (.rat 2 1)) (.par n!"GF")) (.mul (.conj (.ckm 1 2)) (.ckm 0 2))) (.rat 4 1)) (.sub (.inp n!"V1duLR_2212") (.div (.inp n!"V8duLR_2212") (.mul (.rat 2 1) (.rat 3 1)))))),
  (n!"CPp_bstaue", (.mul (.div (.div (.div (.sqrt (.rat 2 1)) (.par n!"GF")) (.mul (.ckm 2 2) (.conj (.ckm 2 1)))) (.rat 4 1)) (.mul (.div (.div (.mul (.rat 16 1) (.mul .pi .pi)) (.mul (.sqrt (.mul (.mul (.rat 4 1) .pi) (.par n!"alpha_e"))) (.sqrt (.mul (.mul (.rat 4 1) .pi) (.par n!"alpha_e"))))) (.par n!"m_b")) (.sub (.div (.inp n!"SedRL_1323") (.rat 2 1)) (.div (.conj (.inp n!"SedRR_3132")) (.rat 2 1)))))),
  (n!"CVRL_bdbb", (.mul (.div (.div (.div (.sqrt (.rat 2 1)) (.par n!"GF")) (.mul (.ckm 2 2) (.conj (.ckm 2 0)))) (.rat 4 1)) (.sub (.inp n!"V1ddLR_3313") (.div (.inp n!"V8ddLR_3313") (.mul (.rat 2 1) (.rat 3 1)))))),
  (n!"CR_bsnutaunumu", (.mul (.div (.div (.div (.sqrt (.rat 2 1)) (.par n!"GF")) (.mul (.ckm 2 2) (.conj (.ckm 2 1)))) (.rat 4 1)) (.mul (.div (.mul (.rat 8 1) (.mul .pi .pi)) (.mul (.sqrt (.mul (.mul (.rat 4 1) .pi) (.par n!"alpha_e"))) (.sqrt (.mul (.mul (.rat 4 1) .pi) (.par n!"alpha_e"))))) (.inp n!"VnudLR_2323")))),
  (n!"CT_dcenue", (.mul (.div (.div (.div (.neg (.sqrt (.rat 2 1))) (.par n!"GF")) (.ckm 1 0)) (.rat 4 1)) (.conj (.inp n!"TnueduRR_1112")))),
  (n!"CS_sdmutau", (.mul (.div (.div (.div (.sqrt (.rat 2 1)) (.par n!"GF")) (.mul (.ckm 2 1) (.conj (.ckm 2 0)))) (.rat 4 1)) (.mul (.div (.div (.mul (.rat 16 1) (.mul .pi .pi)) (.mul (.sqrt (.mul (.mul (.rat 4 1) .pi) (.par n!"alpha_e"))) (.sqrt (.mul (.mul (.rat 4 1) .pi) (.par n!"alpha_e"))))) (.par n!"m_s")) (.add (.div (.conj (.inp n!"SedRL_2321")) (.rat 2 1)) (.div (.inp n!"SedRR_3212") (.rat 2 1)))))),
  (n!"CVL_sumunutau", (.mul (.div (.div (.div (.neg (.sqrt (.rat 2 1))) (.par n!"GF")) (.ckm 0 1)) (.rat 4 1)) (.conj (.inp n!"VnueduLL_3221")))),
  (n!"CS8RR_ccss", (.mul (.div (.div (.sqrt (.rat 2 1)) (.par n!"GF")) (.rat 4 1)) (.inp n!"S8udRR_2222"))),
  (n!"CSRRt_sdbb", (.mul (.div (.div (.div (.sqrt (.rat 2 1)) (.par n!"GF")) (.mul (.ckm 2 1) (.conj (.ckm 2 0)))) (.rat 4 1)) (.add (.add (.div (.neg (.inp n!"S1ddRR_1332")) (.rat 2 1)) (.div (.inp n!"S8ddRR_1332") (.mul (.rat 4 1) (.rat 3 1)))) (.div (.inp n!"S8ddRR_1233") (.rat 2 1))))),
  (n!"CSp_bdmue", (.mul (.div (.div (.div (.sqrt (.rat 2 1)) (.par n!"GF")) (.mul (.ckm 2 2) (.conj (.ckm 2 0)))) (.rat 4 1)) (.mul (.div (.div (.mul (.rat 16 1) (.mul .pi .pi)) (.mul (.sqrt (.mul (.mul (.rat 4 1) .pi) (.par n!"alpha_e"))) (.sqrt (.mul (.mul (.rat 4 1) .pi) (.par n!"alpha_e"))))) (.par n!"m_b")) (.add (.div (.inp n!"SedRL_1213") (.rat 2 1)) (.div (.conj (.inp n!"SedRR_2131")) (.rat 2 1)))))),
  (n!"CS1RR_uuss", (.mul (.div (.div (.sqrt (.rat 2 1)) (.par n!"GF")) (.rat 4 1)) (.inp n!"S1udRR_1122"))),
  (n!"CSLRt_bdcc", (.mul (.div (.div (.div (.sqrt (.rat 2 1)) (.par n!"GF")) (.mul (.ckm 2 2) (.conj (.ckm 2 0)))) (.rat 4 1)) (.add (.mul (.rat (-2) 1) (.inp n!"V1udduLR_2312")) (.div (.inp n!"V8udduLR_2312") (.rat 3 1))))),
  (n!"CVLR_eetautau", (.mul (.div (.div (.sqrt (.rat 2 1)) (.par n!"GF")) (.rat 4 1)) (.inp n!"VeeLR_1133"))),
  (n!"CVR_sutaunutau", (.mul (.div (.div (.div (.neg (.sqrt (.rat 2 1))) (.par n!"GF")) (.ckm 0 1)) (.rat 4 1)) (.conj (.inp n!"VnueduLR_3321")))),
  (n!"C9_sdmue", (.mul (.div (.div (.div (.sqrt (.rat 2 1)) (.par n!"GF")) (.mul (.ckm 2 1) (.conj (.ckm 2 0)))) (.rat 4 1)) (.mul (.div (.mul (.rat 16 1) (.mul .pi .pi)) (.mul (.sqrt (.mul (.mul (.rat 4 1) .pi) (.par n!"alpha_e"))) (.sqrt (.mul (.mul (.rat 4 1) .pi) (.par n!"alpha_e"))))) (.add (.div (.inp n!"VdeLR_1212") (.rat 2 1)) (.div (.inp n!"VedLL_1212") (.rat 2 1)))))),
  (n!"C9_bdetau", (.mul (.div (.div (.div (.sqrt (.rat 2 1)) (.par n!"GF")) (.mul (.ckm 2 2) (.conj (.ckm 2 0)))) (.rat 4 1)) (.mul (.div (.mul (.rat 16 1) (.mul .pi .pi)) (.mul (.sqrt (.mul (.mul (.rat 4 1) .pi) (.par n!"alpha_e"))) (.sqrt (.mul (.mul (.rat 4 1) .pi) (.par n!"alpha_e"))))) (.add (.div (.inp n!"VdeLR_1331") (.rat 2 1)) (.div (.conj (.inp n!"VedLL_1331")) (.rat 2 1)))))),
  (n!"CVL_bcmunue", (.mul (.div (.div (.div (.neg (.sqrt (.rat 2 1))) (.par n!"GF")) (.ckm 1 2)) (.rat 4 1)) (.conj (.inp n!"VnueduLL_1232")))),
  (n!"CVLL_numunutaumumu", (.mul (.div (.div (.sqrt (.rat 2 1)) (.par n!"GF")) (.rat 4 1)) (.inp n!"VnueLL_2322"))),
  (n!"CV8LR_dssd", (.mul (.div (.div (.sqrt (.rat 2 1)) (.par n!"GF")) (.rat 4 1)) (.inp n!"V8ddLR_1221"))),
  (n!"C10_bstaue", (.mul (.div (.div (.div (.sqrt (.rat 2 1)) (.par n!"GF")) (.mul (.ckm 2 2) (.conj (.ckm 2 1)))) (.rat 4 1)) (.mul (.div (.mul (.rat 16 1) (.mul .pi .pi)) (.mul (.sqrt (.mul (.mul (.rat 4 1) .pi) (.par n!"alpha_e"))) (.sqrt (.mul (.mul (.rat 4 1) .pi) (.par n!"alpha_e"))))) (.sub (.div (.inp n!"VdeLR_2313") (.rat 2 1)) (.div (.inp n!"VedLL_1323") (.rat 2 1)))))),
  (n!"CS1RR_bbbb", (.mul (.div (.div (.sqrt (.rat 2 1)) (.par n!"GF")) (.rat 4 1)) (.inp n!"S1ddRR_3333"))),
  (n!"CS8RR_ddbb", (.mul (.div (.div (.sqrt (.rat 2 1)) (.par n!"GF")) (.rat 4 1)) (.inp n!"S8ddRR_1133"))),
  (n!"CSLL_sduu", (.mul (.div (.div (.div (.sqrt (.rat 2 1)) (.par n!"GF")) (.mul (.ckm 2 1) (.conj (.ckm 2 0)))) (.rat 4 1)) (.sub (.sub (.conj (.inp n!"S1udRR_1121")) (.div (.conj (.inp n!"S8udduRR_1121")) (.rat 4 1))) (.div (.conj (.inp n!"S8udRR_1121")) (.mul (.rat 2 1) (.rat 3 1)))))),
  (n!"CV8LL_ccbb", (.mul (.div (.div (.sqrt (.rat 2 1)) (.par n!"GF")) (.rat 4 1)) (.inp n!"V8udLL_2233"))),
  (n!"CSRR_mumumumu", (.mul (.div (.div (.sqrt (.rat 2 1)) (.par n!"GF")) (.rat 4 1)) (.inp n!"SeeRR_2222"))),
  (n!"CS8RR_ssbb", (.mul (.div (.div (.sqrt (.rat 2 1)) (.par n!"GF")) (.rat 4 1)) (.inp n!"S8ddRR_2233"))),
  (n!"CV1LL_uubb", (.mul (.div (.div (.sqrt (.rat 2 1)) (.par n!"GF")) (.rat 4 1)) (.inp n!"V1udLL_1133"))),
  (n!"CT_bcmunue", (.mul (.div (.div (.div (.neg (.sqrt (.rat 2 1))) (.par n!"GF")) (.ckm 1 2)) (.rat 4 1)) (.conj (.inp n!"TnueduRR_1232")))),
  (n!"CTLLt_bsdd", (.mul (.div (.div (.div (.sqrt (.rat 2 1)) (.par n!"GF")) (.mul (.ckm 2 2) (.conj (.ckm 2 1)))) (.rat 4 1)) (.add (.div (.neg (.conj (.inp n!"S1ddRR_1231"))) (.rat 8 1)) (.div (.div (.conj (.inp n!"S8ddRR_1231")) (.rat 16 1)) (.rat 3 1)))))]

def JMS_to_flavio_6 : List (ℕ × Sym) := [
  (n!"CVLR_sduu", (.mul (.div (.div (.div (.sqrt (.rat 2 1)) (.par n!"GF")) (.mul (.ckm 2 1) (.conj (.ckm 2 0)))) (.rat 4 1)) (.sub (.inp n!"V1duLR_1211") (.div (.inp n!"V8duLR_1211") (.mul (.rat 2 1) (.rat 3 1)))))),
  (n!"CVRRt_cudd", (.mul (.div (.div (.div (.sqrt (.rat 2 1)) (.par n!"GF")) (.mul (.conj (.ckm 1 2)) (.ckm 0 2))) (.rat 4 1)) (.div (.inp n!"V8udRR_1211") (.rat 2 1)))),
  (n!"CVLRt_bsuu", (.mul (.div (.div (.div (.sqrt (.rat 2 1)) (.par n!"GF")) (.mul (.ckm 2 2) (.conj (.ckm 2 1)))) (.rat 4 1)) (.div (.inp n!"V8duLR_2311") (.rat 2 1)))),
  (n!"CVLL_nuenumucc", (.mul (.div (.div (.sqrt (.rat 2 1)) (.par n!"GF")) (.rat 4 1)) (.inp n!"VnuuLL_1222"))),
  (n!"CV1LR_ccuu", (.mul (.div (.div (.sqrt (.rat 2 1)) (.par n!"GF")) (.rat 4 1)) (.inp n!"V1uuLR_2211"))),
  (n!"CVR_dctaunue", (.mul (.div (.div (.div (.neg (.sqrt (.rat 2 1))) (.par n!"GF")) (.ckm 1 0)) (.rat 4 1)) (.conj (.inp n!"VnueduLR_1312")))),
  (n!"CSL_suenue", (.mul (.div (.div (.div (.neg (.sqrt (.rat 2 1))) (.par n!"GF")) (.ckm 0 1)) (.rat 4 1)) (.conj (.inp n!"SnueduRR_1121")))),
  (n!"C9_bdmutau", (.mul (.div (.div (.div (.sqrt (.rat 2 1)) (.par n!"GF")) (.mul (.ckm 2 2) (.conj (.ckm 2 0)))) (.rat 4 1)) (.mul (.div (.mul (.rat 16 1) (.mul .pi .pi)) (.mul (.sqrt (.mul (.mul (.rat 4 1) .pi) (.par n!"alpha_e"))) (.sqrt (.mul (.mul (.rat 4 1) .pi) (.par n!"alpha_e"))))) (.add (.div (.inp n!"VdeLR_1332") (.rat 2 1)) (.div (.conj (.inp n!"VedLL_2331")) (.rat 2 1)))))),
  (n!"CTLLt_cubb", (.mul (.div (.div (.div (.sqrt (.rat 2 1)) (.par n!"GF")) (.mul (.conj (.ckm 1 2)) (.ckm 0 2))) (.rat 4 1)) (.add (.div (.neg (.conj (.inp n!"S1udduRR_2331"))) (.rat 8 1)) (.div (.div (.conj (.inp n!"S8udduRR_2331")) (.rat 16 1)) (.rat 3 1))))),
  (n!"CVLRt_cuss", (.mul (.div (.div (.div (.sqrt (.rat 2 1)) (.par n!"GF")) (.mul (.conj (.ckm 1 2)) (.ckm 0 2))) (.rat 4 1)) (.div (.inp n!"V8udLR_1222") (.rat 2 1)))),
  (n!"CVR_duenue", (.mul (.div (.div (.div (.neg (.sqrt (.rat 2 1))) (.par n!"GF")) (.ckm 0 0)) (.rat 4 1)) (.conj (.inp n!"VnueduLR_1111")))),
  (n!"CSLL_bdss", (.mul (.div (.div (.div (.sqrt (.rat 2 1)) (.par n!"GF")) (.mul (.ckm 2 2) (.conj (.ckm 2 0)))) (.rat 4 1)) (.sub (.sub (.conj (.inp n!"S1ddRR_2231")) (.div (.conj (.inp n!"S8ddRR_2132")) (.rat 4 1))) (.div (.div (.conj (.inp n!"S8ddRR_2231")) (.rat 2 1)) (.rat 3 1))))),
  (n!"CS_bsmue", (.mul (.div (.div (.div (.sqrt (.rat 2 1)) (.par n!"GF")) (.mul (.ckm 2 2) (.conj (.ckm 2 1)))) (.rat 4 1)) (.mul (.div (.div (.mul (.rat 16 1) (.mul .pi .pi)) (.mul (.sqrt (.mul (.mul (.rat 4 1) .pi) (.par n!"alpha_e"))) (.sqrt (.mul (.mul (.rat 4 1) .pi) (.par n!"alpha_e"))))) (.par n!"m_b")) (.add (.div (.conj (.inp n!"SedRL_2132")) (.rat 2 1)) (.div (.inp n!"SedRR_1223") (.rat 2 1)))))),
  (n!"CVR_sctaunumu", (.mul (.div (.div (.div (.neg (.sqrt (.rat 2 1))) (.par n!"GF")) (.ckm 1 1)) (.rat 4 1)) (.conj (.inp n!"VnueduLR_2322")))),
  (n!"CR_sdnuenumu", (.mul (.div (.div (.div (.sqrt (.rat 2 1)) (.par n!"GF")) (.mul (.ckm 2 1) (.conj (.ckm 2 0)))) (.rat 4 1)) (.mul (.div (.mul (.rat 8 1) (.mul .pi .pi)) (.mul (.sqrt (.mul (.mul (.rat 4 1) .pi) (.par n!"alpha_e"))) (.sqrt (.mul (.mul (.rat 4 1) .pi) (.par n!"alpha_e"))))) (.conj (.inp n!"VnudLR_1221"))))),
  (n!"CVLR_bdss", (.mul (.div (.div (.div (.sqrt (.rat 2 1)) (.par n!"GF")) (.mul (.ckm 2 2) (.conj (.ckm 2 0)))) (.rat 4 1)) (.sub (.inp n!"V1ddLR_1322") (.div (.inp n!"V8ddLR_1322") (.mul (.rat 2 1) (.rat 3 1)))))),
  (n!"CV1LR_dddd", (.mul (.div (.div (.sqrt (.rat 2 1)) (.par n!"GF")) (.rat 4 1)) (.inp n!"V1ddLR_1111"))),
  (n!"CV1LR_ssdd", (.mul (.div (.div (.sqrt (.rat 2 1)) (.par n!"GF")) (.rat 4 1)) (.inp n!"V1ddLR_2211"))),
  (n!"CVR_sutaunue", (.mul (.div (.div (.div (.neg (.sqrt (.rat 2 1))) (.par n!"GF")) (.ckm 0 1)) (.rat 4 1)) (.conj (.inp n!"VnueduLR_1321")))),
  (n!"CV8LR_uudd", (.mul (.div (.div (.sqrt (.rat 2 1)) (.par n!"GF")) (.rat 4 1)) (.inp n!"V8udLR_1111"))),
  (n!"CP_bdtautau", (.mul (.div (.div (.div (.sqrt (.rat 2 1)) (.par n!"GF")) (.mul (.ckm 2 2) (.conj (.ckm 2 0)))) (.rat 4 1)) (.mul (.div (.div (.mul (.rat 16 1) (.mul .pi .pi)) (.mul (.sqrt (.mul (.mul (.rat 4 1) .pi) (.par n!"alpha_e"))) (.sqrt (.mul (.mul (.rat 4 1) .pi) (.par n!"alpha_e"))))) (.par n!"m_b")) (.add (.div (.neg (.conj (.inp n!"SedRL_3331"))) (.rat 2 1)) (.div (.inp n!"SedRR_3313") (.rat 2 1)))))),
  (n!"CSLRt_bduu", (.mul (.div (.div (.div (.sqrt (.rat 2 1)) (.par n!"GF")) (.mul (.ckm 2 2) (.conj (.ckm 2 0)))) (.rat 4 1)) (.add (.mul (.rat (-2) 1) (.inp n!"V1udduLR_1311")) (.div (.inp n!"V8udduLR_1311") (.rat 3 1))))),
  (n!"CT_sutaunumu", (.mul (.div (.div (.div (.neg (.sqrt (.rat 2 1))) (.par n!"GF")) (.ckm 0 1)) (.rat 4 1)) (.conj (.inp n!"TnueduRR_2321")))),
  (n!"C10p_bdmue", (.mul (.div (.div (.div (.sqrt (.rat 2 1)) (.par n!"GF")) (.mul (.ckm 2 2) (.conj (.ckm 2 0)))) (.rat 4 1)) (.mul (.div (.mul (.rat 16 1) (.mul .pi .pi)) (.mul (.sqrt (.mul (.mul (.rat 4 1) .pi) (.par n!"alpha_e"))) (.sqrt (.mul (.mul (.rat 4 1) .pi) (.par n!"alpha_e"))))) (.add (.div (.neg (.inp n!"VedLR_1213")) (.rat 2 1)) (.div (.inp n!"VedRR_1213") (.rat 2 1)))))),
  (n!"C10p_bdtaue", (.mul (.div (.div (.div (.sqrt (.rat 2 1)) (.par n!"GF")) (.mul (.ckm 2 2) (.conj (.ckm 2 0)))) (.rat 4 1)) (.mul (.div (.mul (.rat 16 1) (.mul .pi .pi)) (.mul (.sqrt (.mul (.mul (.rat 4 1) .pi) (.par n!"alpha_e"))) (.sqrt (.mul (.mul (.rat 4 1) .pi) (.par n!"alpha_e"))))) (.add (.div (.neg (.inp n!"VedLR_1313")) (.rat 2 1)) (.div (.inp n!"VedRR_1313") (.rat 2 1)))))),
  (n!"CTRR_mumudd", (.mul (.div (.div (.sqrt (.rat 2 1)) (.par n!"GF")) (.rat 4 1)) (.inp n!"TedRR_2211"))),
  (n!"CVLL_nuenumuuu", (.mul (.div (.div (.sqrt (.rat 2 1)) (.par n!"GF")) (.rat 4 1)) (.inp n!"VnuuLL_1211"))),
  (n!"CVLL_mumudd", (.mul (.div (.div (.sqrt (.rat 2 1)) (.par n!"GF")) (.rat 4 1)) (.inp n!"VedLL_2211"))),
  (n!"CVLR_tautautautau", (.mul (.div (.div (.sqrt (.rat 2 1)) (.par n!"GF")) (.rat 4 1)) (.inp n!"VeeLR_3333"))),
  (n!"CT_sctaunue", (.mul (.div (.div (.div (.neg (.sqrt (.rat 2 1))) (.par n!"GF")) (.ckm 1 1)) (.rat 4 1)) (.conj (.inp n!"TnueduRR_1322")))),
  (n!"CR_bsnumunumu", (.mul (.div (.div (.div (.sqrt (.rat 2 1)) (.par n!"GF")) (.mul (.ckm 2 2) (.conj (.ckm 2 1)))) (.rat 4 1)) (.mul (.div (.mul (.rat 8 1) (.mul .pi .pi)) (.mul (.sqrt (.mul (.mul (.rat 4 1) .pi) (.par n!"alpha_e"))) (.sqrt (.mul (.mul (.rat 4 1) .pi) (.par n!"alpha_e"))))) (.inp n!"VnudLR_2223")))),
  (n!"C9_bdee", (.mul (.div (.div (.div (.sqrt (.rat 2 1)) (.par n!"GF")) (.mul (.ckm 2 2) (.conj (.ckm 2 0)))) (.rat 4 1)) (.mul (.div (.mul (.rat 16 1) (.mul .pi .pi)) (.mul (.sqrt (.mul (.mul (.rat 4 1) .pi) (.par n!"alpha_e"))) (.sqrt (.mul (.mul (.rat 4 1) .pi) (.par n!"alpha_e"))))) (.add (.div (.inp n!"VdeLR_1311") (.rat 2 1)) (.div (.inp n!"VedLL_1113") (.rat 2 1)))))),
  (n!"CS1RR_cccc", (.mul (.div (.div (.sqrt (.rat 2 1)) (.par n!"GF")) (.rat 4 1)) (.inp n!"S1uuRR_2222"))),
  (n!"CTLLt_bdcc", (.mul (.div (.div (.div (.sqrt (.rat 2 1)) (.par n!"GF")) (.mul (.ckm 2 2) (.conj (.ckm 2 0)))) (.rat 4 1)) (.add (.div (.neg (.conj (.inp n!"S1udduRR_2132"))) (.rat 8 1)) (.div (.div (.conj (.inp n!"S8udduRR_2132")) (.rat 16 1)) (.rat 3 1))))),
  (n!"CL_bsnuenue", (.mul (.div (.div (.div (.sqrt (.rat 2 1)) (.par n!"GF")) (.mul (.ckm 2 2) (.conj (.ckm 2 1)))) (.rat 4 1)) (.mul (.div (.mul (.rat 8 1) (.mul .pi .pi)) (.mul (.sqrt (.mul (.mul (.rat 4 1) .pi) (.par n!"alpha_e"))) (.sqrt (.mul (.mul (.rat 4 1) .pi) (.par n!"alpha_e"))))) (.inp n!"VnudLL_1123")))),
  (n!"CSR_sctaunue", (.mul (.div (.div (.div (.neg (.sqrt (.rat 2 1))) (.par n!"GF")) (.ckm 1 1)) (.rat 4 1)) (.conj (.inp n!"SnueduRL_1322")))),
  (n!"CTRR_cudd", (.mul (.div (.div (.div (.sqrt (.rat 2 1)) (.par n!"GF")) (.mul (.conj (.ckm 1 2)) (.ckm 0 2))) (.rat 4 1)) (.div (.neg (.inp n!"S8udduRR_1112")) (.rat 16 1)))),
  (n!"CTLL_bsbb", (.mul (.div (.div (.div (.sqrt (.rat 2 1)) (.par n!"GF")) (.mul (.ckm 2 2) (.conj (.ckm 2 1)))) (.rat 4 1)) (.div (.neg (.conj (.inp n!"S8ddRR_3233"))) (.rat 16 1)))),
  (n!"CVLR_tautauee", (.mul (.div (.div (.sqrt (.rat 2 1)) (.par n!"GF")) (.rat 4 1)) (.inp n!"VeeLR_3311"))),
  (n!"CP_bdemu", (.mul (.div (.div (.div (.sqrt (.rat 2 1)) (.par n!"GF")) (.mul (.ckm 2 2) (.conj (.ckm 2 0)))) (.rat 4 1)) (.mul (.div (.div (.mul (.rat 16 1) (.mul .pi .pi)) (.mul (.sqrt (.mul (.mul (.rat 4 1) .pi) (.par n!"alpha_e"))) (.sqrt (.mul (.mul (.rat 4 1) .pi) (.par n!"alpha_e"))))) (.par n!"m_b")) (.add (.div (.neg (.conj (.inp n!"SedRL_1231"))) (.rat 2 1)) (.div (.inp n!"SedRR_2113") (.rat 2 1)))))),
  (n!"CSL_dcmunutau", (.mul (.div (.div (.div (.neg (.sqrt (.rat 2 1))) (.par n!"GF")) (.ckm 1 0)) (.rat 4 1)) (.conj (.inp n!"SnueduRR_3212")))),
  (n!"CL_sdnutaunutau", (.mul (.div (.div (.div (.sqrt (.rat 2 1)) (.par n!"GF")) (.mul (.ckm 2 1) (.conj (.ckm 2 0)))) (.rat 4 1)) (.mul (.div (.mul (.rat 8 1) (.mul .pi .pi)) (.mul (.sqrt (.mul (.mul (.rat 4 1) .pi) (.par n!"alpha_e"))) (.sqrt (.mul (.mul (.rat 4 1) .pi) (.par n!"alpha_e"))))) (.inp n!"VnudLL_3312")))),
  (n!"CP_sdee", (.mul (.div (.div (.div (.sqrt (.rat 2 1)) (.par n!"GF")) (.mul (.ckm 2 1) (.conj (.ckm 2 0)))) (.rat 4 1)) (.mul (.div (.div (.mul (.rat 16 1) (.mul .pi .pi)) (.mul (.sqrt (.mul (.mul (.rat 4 1) .pi) (.par n!"alpha_e"))) (.sqrt (.mul (.mul (.rat 4 1) .pi) (.par n!"alpha_e"))))) (.par n!"m_s")) (.add (.div (.neg (.conj (.inp n!"SedRL_1121"))) (.rat 2 1)) (.div (.inp n!"SedRR_1112") (.rat 2 1)))))),
  (n!"CPp_sdtautau", (.mul (.div (.div (.div (.sqrt (.rat 2 1)) (.par n!"GF")) (.mul (.ckm 2 1) (.conj (.ckm 2 0)))) (.rat 4 1)) (.mul (.div (.div (.mul (.rat 16 1) (.mul .pi .pi)) (.mul (.sqrt (.mul (.mul (.rat 4 1) .pi) (.par n!"alpha_e"))) (.sqrt (.mul (.mul (.rat 4 1) .pi) (.par n!"alpha_e"))))) (.par n!"m_s")) (.sub (.div (.inp n!"SedRL_3312") (.rat 2 1)) (.div (.conj (.inp n!"SedRR_3321")) (.rat 2 1)))))),
  (n!"CSLR_cudd", (.mul (.div (.div (.div (.sqrt (.rat 2 1)) (.par n!"GF")) (.mul (.conj (.ckm 1 2)) (.ckm 0 2))) (.rat 4 1)) (.neg (.conj (.inp n!"V8udduLR_2111"))))),
  (n!"CVRR_tautaubb", (.mul (.div (.div (.sqrt (.rat 2 1)) (.par n!"GF")) (.rat 4 1)) (.inp n!"VedRR_3333"))),
  (n!"CS_sdmumu", (.mul (.div (.div (.div (.sqrt (.rat 2 1)) (.par n!"GF")) (.mul (.ckm 2 1) (.conj (.ckm 2 0)))) (.rat 4 1)) (.mul (.div (.div (.mul (.rat 16 1) (.mul .pi .pi)) (.mul (.sqrt (.mul (.mul (.rat 4 1) .pi) (.par n!"alpha_e"))) (.sqrt (.mul (.mul (.rat 4 1) .pi) (.par n!"alpha_e"))))) (.par n!"m_s")) (.add (.div (.conj (.inp n!"SedRL_2221")) (.rat 2 1)) (.div (.inp n!"SedRR_2212") (.rat 2 1)))))),
  (n!"CTRR_eecc", (.mul (.div (.div (.sqrt (.rat 2 1)) (.par n!"GF")) (.rat 4 1)) (.inp n!"TeuRR_1122"))),
  (n!"CVLL_bscc", (.mul (.div (.div (.div (.sqrt (.rat 2 1)) (.par n!"GF")) (.mul (.ckm 2 2) (.conj (.ckm 2 1)))) (.rat 4 1)) (.sub (.inp n!"V1udLL_2223") (.div (.inp n!"V8udLL_2223") (.mul (.rat 2 1) (.rat 3 1)))))),
  (n!"CVL_sutaunumu", (.mul (.div (.div (.div (.neg (.sqrt (.rat 2 1))) (.par n!"GF")) (.ckm 0 1)) (.rat 4 1)) (.conj (.inp n!"VnueduLL_2321"))))]

def JMS_to_flavio_7 : List (ℕ × Sym) := [
  (n!"CSRL_sdbb", (.mul (.div (.div (.div (.sqrt (.rat 2 1)) (.par n!"GF")) (.mul (.ckm 2 1) (.conj (.ckm 2 0)))) (.rat 4 1)) (.neg (.inp n!"V8ddLR_1332")))),
  (n!"CSp_sdetau", (.mul (.div (.div (.div (.sqrt (.rat 2 1)) (.par n!"GF")) (.mul (.ckm 2 1) (.conj (.ckm 2 0)))) (.rat 4 1)) (.mul (.div (.div (.mul (.rat 16 1) (.mul .pi .pi)) (.mul (.sqrt (.mul (.mul (.rat 4 1) .pi) (.par n!"alpha_e"))) (.sqrt (.mul (.mul (.rat 4 1) .pi) (.par n!"alpha_e"))))) (.par n!"m_s")) (.add (.div (.inp n!"SedRL_3112") (.rat 2 1)) (.div (.conj (.inp n!"SedRR_1321")) (.rat 2 1)))))),
  (n!"CSRL_eedd", (.mul (.div (.div (.sqrt (.rat 2 1)) (.par n!"GF")) (.rat 4 1)) (.inp n!"SedRL_1111"))),
  (n!"CVR_dumunumu", (.mul (.div (.div (.div (.neg (.sqrt (.rat 2 1))) (.par n!"GF")) (.ckm 0 0)) (.rat 4 1)) (.conj (.inp n!"VnueduLR_2211")))),
  (n!"CVRR_sdbb", (.mul (.div (.div (.div (.sqrt (.rat 2 1)) (.par n!"GF")) (.mul (.ckm 2 1) (.conj (.ckm 2 0)))) (.rat 4 1)) (.inp n!"VddRR_1233"))),
  (n!"CSLLt_bsdd", (.mul (.div (.div (.div (.sqrt (.rat 2 1)) (.par n!"GF")) (.mul (.ckm 2 2) (.conj (.ckm 2 1)))) (.rat 4 1)) (.add (.add (.div (.neg (.conj (.inp n!"S1ddRR_1231"))) (.rat 2 1)) (.div (.div (.conj (.inp n!"S8ddRR_1231")) (.rat 4 1)) (.rat 3 1))) (.div (.conj (.inp n!"S8ddRR_1132")) (.rat 2 1))))),
  (n!"CVRR_eedd", (.mul (.div (.div (.sqrt (.rat 2 1)) (.par n!"GF")) (.rat 4 1)) (.inp n!"VedRR_1111"))),
  (n!"CS8RR_dssd", (.mul (.div (.div (.sqrt (.rat 2 1)) (.par n!"GF")) (.rat 4 1)) (.inp n!"S8ddRR_1221"))),
  (n!"C7_cc", (.mul (.div (.div (.sqrt (.rat 2 1)) (.par n!"GF")) (.rat 4 1)) (.mul (.div (.div (.mul (.rat 16 1) (.mul .pi .pi)) (.sqrt (.mul (.mul (.rat 4 1) .pi) (.par n!"alpha_e")))) (.par n!"m_c")) (.inp n!"ugamma_22")))),
  (n!"CVLL_tautauss", (.mul (.div (.div (.sqrt (.rat 2 1)) (.par n!"GF")) (.rat 4 1)) (.inp n!"VedLL_3322"))),
  (n!"CSRL_bsss", (.mul (.div (.div (.div (.sqrt (.rat 2 1)) (.par n!"GF")) (.mul (.ckm 2 2) (.conj (.ckm 2 1)))) (.rat 4 1)) (.neg (.inp n!"V8ddLR_2223")))),
  (n!"CS_sdtaumu", (.mul (.div (.div (.div (.sqrt (.rat 2 1)) (.par n!"GF")) (.mul (.ckm 2 1) (.conj (.ckm 2 0)))) (.rat 4 1)) (.mul (.div (.div (.mul (.rat 16 1) (.mul .pi .pi)) (.mul (.sqrt (.mul (.mul (.rat 4 1) .pi) (.par n!"alpha_e"))) (.sqrt (.mul (.mul (.rat 4 1) .pi) (.par n!"alpha_e"))))) (.par n!"m_s")) (.add (.div (.conj (.inp n!"SedRL_3221")) (.rat 2 1)) (.div (.inp n!"SedRR_2312") (.rat 2 1)))))),
  (n!"CV1RR_ccbb", (.mul (.div (.div (.sqrt (.rat 2 1)) (.par n!"GF")) (.rat 4 1)) (.inp n!"V1udRR_2233"))),
  (n!"C10_bdmue", (.mul (.div (.div (.div (.sqrt (.rat 2 1)) (.par n!"GF")) (.mul (.ckm 2 2) (.conj (.ckm 2 0)))) (.rat 4 1)) (.mul (.div (.mul (.rat 16 1) (.mul .pi .pi)) (.mul (.sqrt (.mul (.mul (.rat 4 1) .pi) (.par n!"alpha_e"))) (.sqrt (.mul (.mul (.rat 4 1) .pi) (.par n!"alpha_e"))))) (.sub (.div (.inp n!"VdeLR_1312") (.rat 2 1)) (.div (.inp n!"VedLL_1213") (.rat 2 1)))))),
  (n!"CVLL_nutaunutaubb", (.mul (.div (.div (.sqrt (.rat 2 1)) (.par n!"GF")) (.rat 4 1)) (.inp n!"VnudLL_3333"))),
  (n!"CV1LR_cssc", (.mul (.div (.div (.sqrt (.rat 2 1)) (.par n!"GF")) (.rat 4 1)) (.inp n!"V1udduLR_2222"))),
  (n!"CVRR_bsss", (.mul (.div (.div (.div (.sqrt (.rat 2 1)) (.par n!"GF")) (.mul (.ckm 2 2) (.conj (.ckm 2 1)))) (.rat 4 1)) (.inp n!"VddRR_2223"))),
  (n!"CV8LR_ubbu", (.mul (.div (.div (.sqrt (.rat 2 1)) (.par n!"GF")) (.rat 4 1)) (.inp n!"V8udduLR_1331"))),
  (n!"CVL_dutaunue", (.mul (.div (.div (.div (.neg (.sqrt (.rat 2 1))) (.par n!"GF")) (.ckm 0 0)) (.rat 4 1)) (.conj (.inp n!"VnueduLL_1311")))),
  (n!"CSL_scenue", (.mul (.div (.div (.div (.neg (.sqrt (.rat 2 1))) (.par n!"GF")) (.ckm 1 1)) (.rat 4 1)) (.conj (.inp n!"SnueduRR_1122")))),
  (n!"CSLLt_cubb", (.mul (.div (.div (.div (.sqrt (.rat 2 1)) (.par n!"GF")) (.mul (.conj (.ckm 1 2)) (.ckm 0 2))) (.rat 4 1)) (.add (.add (.div (.neg (.conj (.inp n!"S1udduRR_2331"))) (.rat 2 1)) (.div (.conj (.inp n!"S8udduRR_2331")) (.mul (.rat 4 1) (.rat 3 1)))) (.div (.conj (.inp n!"S8udRR_2133")) (.rat 2 1))))),
  (n!"CSLL_bdbd", (.sub (.sub (.conj (.inp n!"S1ddRR_3131")) (.div (.conj (.inp n!"S8ddRR_3131")) (.mul (.rat 2 1) (.rat 3 1)))) (.mul (.div (.rat 1 1) (.rat 2 1)) (.div (.conj (.inp n!"S8ddRR_3131")) (.rat 2 1))))),
  (n!"CSLL_sdsd", (.sub (.sub (.conj (.inp n!"S1ddRR_2121")) (.div (.conj (.inp n!"S8ddRR_2121")) (.mul (.rat 2 1) (.rat 3 1)))) (.mul (.div (.rat 1 1) (.rat 2 1)) (.div (.conj (.inp n!"S8ddRR_2121")) (.rat 2 1))))),
  (n!"CTLL_sdcc", (.mul (.div (.div (.div (.sqrt (.rat 2 1)) (.par n!"GF")) (.mul (.ckm 2 1) (.conj (.ckm 2 0)))) (.rat 4 1)) (.div (.neg (.conj (.inp n!"S8udduRR_2122"))) (.rat 16 1)))),
  (n!"CVLR_bdbd", (.mul (.div (.rat (-1) 1) (.rat 2 1)) (.add (.mul (.rat (-2) 1) (.inp n!"V1ddLR_1313")) (.div (.inp n!"V8ddLR_1313") (.rat 3 1))))),
  (n!"CSL_buenue", (.mul (.div (.div (.div (.neg (.sqrt (.rat 2 1))) (.par n!"GF")) (.ckm 0 2)) (.rat 4 1)) (.conj (.inp n!"SnueduRR_1131")))),
  (n!"CTLLt_bduu", (.mul (.div (.div (.div (.sqrt (.rat 2 1)) (.par n!"GF")) (.mul (.ckm 2 2) (.conj (.ckm 2 0)))) (.rat 4 1)) (.add (.div (.neg (.conj (.inp n!"S1udduRR_1131"))) (.rat 8 1)) (.div (.div (.conj (.inp n!"S8udduRR_1131")) (.rat 16 1)) (.rat 3 1))))),
  (n!"CVR_dcenue", (.mul (.div (.div (.div (.neg (.sqrt (.rat 2 1))) (.par n!"GF")) (.ckm 1 0)) (.rat 4 1)) (.conj (.inp n!"VnueduLR_1112")))),
  (n!"CVLR_sdsd", (.mul (.div (.rat (-1) 1) (.rat 2 1)) (.add (.mul (.rat (-2) 1) (.inp n!"V1ddLR_1212")) (.div (.inp n!"V8ddLR_1212") (.rat 3 1))))),
  (n!"CT_dcmunumu", (.mul (.div (.div (.div (.neg (.sqrt (.rat 2 1))) (.par n!"GF")) (.ckm 1 0)) (.rat 4 1)) (.conj (.inp n!"TnueduRR_2212")))),
  (n!"CVR_buenutau", (.mul (.div (.div (.div (.neg (.sqrt (.rat 2 1))) (.par n!"GF")) (.ckm 0 2)) (.rat 4 1)) (.conj (.inp n!"VnueduLR_3131")))),
  (n!"CVLR_mumuss", (.mul (.div (.div (.sqrt (.rat 2 1)) (.par n!"GF")) (.rat 4 1)) (.inp n!"VedLR_2222"))),
  (n!"CPp_sdmumu", (.mul (.div (.div (.div (.sqrt (.rat 2 1)) (.par n!"GF")) (.mul (.ckm 2 1) (.conj (.ckm 2 0)))) (.rat 4 1)) (.mul (.div (.div (.mul (.rat 16 1) (.mul .pi .pi)) (.mul (.sqrt (.mul (.mul (.rat 4 1) .pi) (.par n!"alpha_e"))) (.sqrt (.mul (.mul (.rat 4 1) .pi) (.par n!"alpha_e"))))) (.par n!"m_s")) (.sub (.div (.inp n!"SedRL_2212") (.rat 2 1)) (.div (.conj (.inp n!"SedRR_2221")) (.rat 2 1)))))),
  (n!"CVLL_sddd", (.mul (.div (.div (.div (.sqrt (.rat 2 1)) (.par n!"GF")) (.mul (.ckm 2 1) (.conj (.ckm 2 0)))) (.rat 4 1)) (.inp n!"VddLL_1112"))),
  (n!"CS1RR_dddd", (.mul (.div (.div (.sqrt (.rat 2 1)) (.par n!"GF")) (.rat 4 1)) (.inp n!"S1ddRR_1111"))),
  (n!"CSRL_mumucc", (.mul (.div (.div (.sqrt (.rat 2 1)) (.par n!"GF")) (.rat 4 1)) (.inp n!"SeuRL_2222"))),
  (n!"CV1LL_ccdd", (.mul (.div (.div (.sqrt (.rat 2 1)) (.par n!"GF")) (.rat 4 1)) (.inp n!"V1udLL_2211"))),
  (n!"CTRR_sdss", (.mul (.div (.div (.div (.sqrt (.rat 2 1)) (.par n!"GF")) (.mul (.ckm 2 1) (.conj (.ckm 2 0)))) (.rat 4 1)) (.div (.neg (.inp n!"S8ddRR_1222")) (.rat 16 1)))),
  (n!"CS8RR_uudd", (.mul (.div (.div (.sqrt (.rat 2 1)) (.par n!"GF")) (.rat 4 1)) (.inp n!"S8udRR_1111"))),
  (n!"CSR_dcmunumu", (.mul (.div (.div (.div (.neg (.sqrt (.rat 2 1))) (.par n!"GF")) (.ckm 1 0)) (.rat 4 1)) (.conj (.inp n!"SnueduRL_2212")))),
  (n!"CSL_suenumu", (.mul (.div (.div (.div (.neg (.sqrt (.rat 2 1))) (.par n!"GF")) (.ckm 0 1)) (.rat 4 1)) (.conj (.inp n!"SnueduRR_2121")))),
  (n!"CTRR_eeuu", (.mul (.div (.div (.sqrt (.rat 2 1)) (.par n!"GF")) (.rat 4 1)) (.inp n!"TeuRR_1111"))),
  (n!"CVLL_bsuu", (.mul (.div (.div (.div (.sqrt (.rat 2 1)) (.par n!"GF")) (.mul (.ckm 2 2) (.conj (.ckm 2 1)))) (.rat 4 1)) (.sub (.inp n!"V1udLL_1123") (.div (.inp n!"V8udLL_1123") (.mul (.rat 2 1) (.rat 3 1)))))),
  (n!"CVLLt_bscc", (.mul (.div (.div (.div (.sqrt (.rat 2 1)) (.par n!"GF")) (.mul (.ckm 2 2) (.conj (.ckm 2 1)))) (.rat 4 1)) (.div (.inp n!"V8udLL_2223") (.rat 2 1)))),
  (n!"C9_bdtaumu", (.mul (.div (.div (.div (.sqrt (.rat 2 1)) (.par n!"GF")) (.mul (.ckm 2 2) (.conj (.ckm 2 0)))) (.rat 4 1)) (.mul (.div (.mul (.rat 16 1) (.mul .pi .pi)) (.mul (.sqrt (.mul (.mul (.rat 4 1) .pi) (.par n!"alpha_e"))) (.sqrt (.mul (.mul (.rat 4 1) .pi) (.par n!"alpha_e"))))) (.add (.div (.inp n!"VdeLR_1323") (.rat 2 1)) (.div (.inp n!"VedLL_2313") (.rat 2 1)))))),
  (n!"CL_sdnumunue", (.mul (.div (.div (.div (.sqrt (.rat 2 1)) (.par n!"GF")) (.mul (.ckm 2 1) (.conj (.ckm 2 0)))) (.rat 4 1)) (.mul (.div (.mul (.rat 8 1) (.mul .pi .pi)) (.mul (.sqrt (.mul (.mul (.rat 4 1) .pi) (.par n!"alpha_e"))) (.sqrt (.mul (.mul (.rat 4 1) .pi) (.par n!"alpha_e"))))) (.inp n!"VnudLL_1212")))),
  (n!"CVLR_nuenuemumu", (.mul (.div (.div (.sqrt (.rat 2 1)) (.par n!"GF")) (.rat 4 1)) (.inp n!"VnueLR_1122"))),
  (n!"CT_sumunumu", (.mul (.div (.div (.div (.neg (.sqrt (.rat 2 1))) (.par n!"GF")) (.ckm 0 1)) (.rat 4 1)) (.conj (.inp n!"TnueduRR_2221")))),
  (n!"CSLR_sdss", (.mul (.div (.div (.div (.sqrt (.rat 2 1)) (.par n!"GF")) (.mul (.ckm 2 1) (.conj (.ckm 2 0)))) (.rat 4 1)) (.neg (.inp n!"V8ddLR_2212")))),
  (n!"CSR_dumunue", (.mul (.div (.div (.div (.neg (.sqrt (.rat 2 1))) (.par n!"GF")) (.ckm 0 0)) (.rat 4 1)) (.conj (.inp n!"SnueduRL_1211"))))]

def JMS_to_flavio_8 : List (ℕ × Sym) := [
  (n!"CSRL_tautaucc", (.mul (.div (.div (.sqrt (.rat 2 1)) (.par n!"GF")) (.rat 4 1)) (.inp n!"SeuRL_3322"))),
  (n!"C7_uu", (.mul (.div (.div (.sqrt (.rat 2 1)) (.par n!"GF")) (.rat 4 1)) (.mul (.div (.div (.mul (.rat 16 1) (.mul .pi .pi)) (.sqrt (.mul (.mul (.rat 4 1) .pi) (.par n!"alpha_e")))) (.par n!"m_u")) (.inp n!"ugamma_11")))),
  (n!"CVLL_cuss", (.mul (.div (.div (.div (.sqrt (.rat 2 1)) (.par n!"GF")) (.mul (.conj (.ckm 1 2)) (.ckm 0 2))) (.rat 4 1)) (.sub (.inp n!"V1udLL_1222") (.div (.inp n!"V8udLL_1222") (.mul (.rat 2 1) (.rat 3 1)))))),
  (n!"CSL_dctaunue", (.mul (.div (.div (.div (.neg (.sqrt (.rat 2 1))) (.par n!"GF")) (.ckm 1 0)) (.rat 4 1)) (.conj (.inp n!"SnueduRR_1312")))),
  (n!"C10_sdmumu", (.mul (.div (.div (.div (.sqrt (.rat 2 1)) (.par n!"GF")) (.mul (.ckm 2 1) (.conj (.ckm 2 0)))) (.rat 4 1)) (.mul (.div (.mul (.rat 16 1) (.mul .pi .pi)) (.mul (.sqrt (.mul (.mul (.rat 4 1) .pi) (.par n!"alpha_e"))) (.sqrt (.mul (.mul (.rat 4 1) .pi) (.par n!"alpha_e"))))) (.sub (.div (.inp n!"VdeLR_1222") (.rat 2 1)) (.div (.inp n!"VedLL_2212") (.rat 2 1)))))),
  (n!"CVLL_bdbb", (.mul (.div (.div (.div (.sqrt (.rat 2 1)) (.par n!"GF")) (.mul (.ckm 2 2) (.conj (.ckm 2 0)))) (.rat 4 1)) (.inp n!"VddLL_1333"))),
  (n!"C10p_bsmumu", (.mul (.div (.div (.div (.sqrt (.rat 2 1)) (.par n!"GF")) (.mul (.ckm 2 2) (.conj (.ckm 2 1)))) (.rat 4 1)) (.mul (.div (.mul (.rat 16 1) (.mul .pi .pi)) (.mul (.sqrt (.mul (.mul (.rat 4 1) .pi) (.par n!"alpha_e"))) (.sqrt (.mul (.mul (.rat 4 1) .pi) (.par n!"alpha_e"))))) (.add (.div (.neg (.inp n!"VedLR_2223")) (.rat 2 1)) (.div (.inp n!"VedRR_2223") (.rat 2 1)))))),
  (n!"CPp_bsee", (.mul (.div (.div (.div (.sqrt (.rat 2 1)) (.par n!"GF")) (.mul (.ckm 2 2) (.conj (.ckm 2 1)))) (.rat 4 1)) (.mul (.div (.div (.mul (.rat 16 1) (.mul .pi .pi)) (.mul (.sqrt (.mul (.mul (.rat 4 1) .pi) (.par n!"alpha_e"))) (.sqrt (.mul (.mul (.rat 4 1) .pi) (.par n!"alpha_e"))))) (.par n!"m_b")) (.sub (.div (.inp n!"SedRL_1123") (.rat 2 1)) (.div (.conj (.inp n!"SedRR_1132")) (.rat 2 1)))))),
  (n!"CSR_sumunumu", (.mul (.div (.div (.div (.neg (.sqrt (.rat 2 1))) (.par n!"GF")) (.ckm 0 1)) (.rat 4 1)) (.conj (.inp n!"SnueduRL_2221")))),
  (n!"CT_bcenutau", (.mul (.div (.div (.div (.neg (.sqrt (.rat 2 1))) (.par n!"GF")) (.ckm 1 2)) (.rat 4 1)) (.conj (.inp n!"TnueduRR_3132")))),
  (n!"CSRLt_sdbb", (.mul (.div (.div (.div (.sqrt (.rat 2 1)) (.par n!"GF")) (.mul (.ckm 2 1) (.conj (.ckm 2 0)))) (.rat 4 1)) (.add (.mul (.rat (-2) 1) (.inp n!"V1ddLR_1332")) (.div (.inp n!"V8ddLR_1332") (.rat 3 1))))),
  (n!"CSLLt_bdcc", (.mul (.div (.div (.div (.sqrt (.rat 2 1)) (.par n!"GF")) (.mul (.ckm 2 2) (.conj (.ckm 2 0)))) (.rat 4 1)) (.add (.add (.div (.neg (.conj (.inp n!"S1udduRR_2132"))) (.rat 2 1)) (.div (.conj (.inp n!"S8udduRR_2132")) (.mul (.rat 4 1) (.rat 3 1)))) (.div (.conj (.inp n!"S8udRR_2231")) (.rat 2 1))))),
  (n!"CPp_bdemu", (.mul (.div (.div (.div (.sqrt (.rat 2 1)) (.par n!"GF")) (.mul (.ckm 2 2) (.conj (.ckm 2 0)))) (.rat 4 1)) (.mul (.div (.div (.mul (.rat 16 1) (.mul .pi .pi)) (.mul (.sqrt (.mul (.mul (.rat 4 1) .pi) (.par n!"alpha_e"))) (.sqrt (.mul (.mul (.rat 4 1) .pi) (.par n!"alpha_e"))))) (.par n!"m_b")) (.sub (.div (.inp n!"SedRL_2113") (.rat 2 1)) (.div (.conj (.inp n!"SedRR_1231")) (.rat 2 1)))))),
  (n!"CTLL_sduu", (.mul (.div (.div (.div (.sqrt (.rat 2 1)) (.par n!"GF")) (.mul (.ckm 2 1) (.conj (.ckm 2 0)))) (.rat 4 1)) (.div (.neg (.conj (.inp n!"S8udduRR_1121"))) (.rat 16 1)))),
  (n!"CSR_bcenutau", (.mul (.div (.div (.div (.neg (.sqrt (.rat 2 1))) (.par n!"GF")) (.ckm 1 2)) (.rat 4 1)) (.conj (.inp n!"SnueduRL_3132")))),
  (n!"CSL_sutaunue", (.mul (.div (.div (.div (.neg (.sqrt (.rat 2 1))) (.par n!"GF")) (.ckm 0 1)) (.rat 4 1)) (.conj (.inp n!"SnueduRR_1321")))),
  (n!"CSRL_mumuuu", (.mul (.div (.div (.sqrt (.rat 2 1)) (.par n!"GF")) (.rat 4 1)) (.inp n!"SeuRL_2211"))),
  (n!"CSR_dumunutau", (.mul (.div (.div (.div (.neg (.sqrt (.rat 2 1))) (.par n!"GF")) (.ckm 0 0)) (.rat 4 1)) (.conj (.inp n!"SnueduRL_3211")))),
  (n!"CVRLt_cudd", (.mul (.div (.div (.div (.sqrt (.rat 2 1)) (.par n!"GF")) (.mul (.conj (.ckm 1 2)) (.ckm 0 2))) (.rat 4 1)) (.div (.inp n!"V8duLR_1112") (.rat 2 1)))),
  (n!"CVLLt_bsuu", (.mul (.div (.div (.div (.sqrt (.rat 2 1)) (.par n!"GF")) (.mul (.ckm 2 2) (.conj (.ckm 2 1)))) (.rat 4 1)) (.div (.inp n!"V8udLL_1123") (.rat 2 1)))),
  (n!"CL_sdnuenutau", (.mul (.div (.div (.div (.sqrt (.rat 2 1)) (.par n!"GF")) (.mul (.ckm 2 1) (.conj (.ckm 2 0)))) (.rat 4 1)) (.mul (.div (.mul (.rat 8 1) (.mul .pi .pi)) (.mul (.sqrt (.mul (.mul (.rat 4 1) .pi) (.par n!"alpha_e"))) (.sqrt (.mul (.mul (.rat 4 1) .pi) (.par n!"alpha_e"))))) (.conj (.inp n!"VnudLL_1321"))))),
  (n!"CTLL_bdss", (.mul (.div (.div (.div (.sqrt (.rat 2 1)) (.par n!"GF")) (.mul (.ckm 2 2) (.conj (.ckm 2 0)))) (.rat 4 1)) (.div (.neg (.conj (.inp n!"S8ddRR_2132"))) (.rat 16 1)))),
  (n!"CS_bdmumu", (.mul (.div (.div (.div (.sqrt (.rat 2 1)) (.par n!"GF")) (.mul (.ckm 2 2) (.conj (.ckm 2 0)))) (.rat 4 1)) (.mul (.div (.div (.mul (.rat 16 1) (.mul .pi .pi)) (.mul (.sqrt (.mul (.mul (.rat 4 1) .pi) (.par n!"alpha_e"))) (.sqrt (.mul (.mul (.rat 4 1) .pi) (.par n!"alpha_e"))))) (.par n!"m_b")) (.add (.div (.conj (.inp n!"SedRL_2231")) (.rat 2 1)) (.div (.inp n!"SedRR_2213") (.rat 2 1)))))),
  (n!"C9p_bstaue", (.mul (.div (.div (.div (.sqrt (.rat 2 1)) (.par n!"GF")) (.mul (.ckm 2 2) (.conj (.ckm 2 1)))) (.rat 4 1)) (.mul (.div (.mul (.rat 16 1) (.mul .pi .pi)) (.mul (.sqrt (.mul (.mul (.rat 4 1) .pi) (.par n!"alpha_e"))) (.sqrt (.mul (.mul (.rat 4 1) .pi) (.par n!"alpha_e"))))) (.add (.div (.inp n!"VedLR_1323") (.rat 2 1)) (.div (.inp n!"VedRR_1323") (.rat 2 1)))))),
  (n!"CSL_dctaunumu", (.mul (.div (.div (.div (.neg (.sqrt (.rat 2 1))) (.par n!"GF")) (.ckm 1 0)) (.rat 4 1)) (.conj (.inp n!"SnueduRR_2312")))),
  (n!"CTRRt_cudd", (.mul (.div (.div (.div (.sqrt (.rat 2 1)) (.par n!"GF")) (.mul (.conj (.ckm 1 2)) (.ckm 0 2))) (.rat 4 1)) (.add (.div (.neg (.inp n!"S1udduRR_1112")) (.rat 8 1)) (.div (.inp n!"S8udduRR_1112") (.mul (.rat 16 1) (.rat 3 1)))))),
  (n!"CSRL_tautauuu", (.mul (.div (.div (.sqrt (.rat 2 1)) (.par n!"GF")) (.rat 4 1)) (.inp n!"SeuRL_3311"))),
  (n!"CSp_bdetau", (.mul (.div (.div (.div (.sqrt (.rat 2 1)) (.par n!"GF")) (.mul (.ckm 2 2) (.conj (.ckm 2 0)))) (.rat 4 1)) (.mul (.div (.div (.mul (.rat 16 1) (.mul .pi .pi)) (.mul (.sqrt (.mul (.mul (.rat 4 1) .pi) (.par n!"alpha_e"))) (.sqrt (.mul (.mul (.rat 4 1) .pi) (.par n!"alpha_e"))))) (.par n!"m_b")) (.add (.div (.inp n!"SedRL_3113") (.rat 2 1)) (.div (.conj (.inp n!"SedRR_1331")) (.rat 2 1)))))),
  (n!"CVLLt_cuss", (.mul (.div (.div (.div (.sqrt (.rat 2 1)) (.par n!"GF")) (.mul (.conj (.ckm 1 2)) (.ckm 0 2))) (.rat 4 1)) (.div (.inp n!"V8udLL_1222") (.rat 2 1)))),
  (n!"C10_bdtautau", (.mul (.div (.div (.div (.sqrt (.rat 2 1)) (.par n!"GF")) (.mul (.ckm 2 2) (.conj (.ckm 2 0)))) (.rat 4 1)) (.mul (.div (.mul (.rat 16 1) (.mul .pi .pi)) (.mul (.sqrt (.mul (.mul (.rat 4 1) .pi) (.par n!"alpha_e"))) (.sqrt (.mul (.mul (.rat 4 1) .pi) (.par n!"alpha_e"))))) (.sub (.div (.inp n!"VdeLR_1333") (.rat 2 1)) (.div (.inp n!"VedLL_3313") (.rat 2 1)))))),
  (n!"CSRR_tautauss", (.mul (.div (.div (.sqrt (.rat 2 1)) (.par n!"GF")) (.rat 4 1)) (.inp n!"SedRR_3322"))),
  (n!"CVLL_ucuc", (.conj (.inp n!"VuuLL_1212"))),
  (n!"CSR_bumunue", (.mul (.div (.div (.div (.neg (.sqrt (.rat 2 1))) (.par n!"GF")) (.ckm 0 2)) (.rat 4 1)) (.conj (.inp n!"SnueduRL_1231")))),
  (n!"CSL_bctaunutau", (.mul (.div (.div (.div (.neg (.sqrt (.rat 2 1))) (.par n!"GF")) (.ckm 1 2)) (.rat 4 1)) (.conj (.inp n!"SnueduRR_3332")))),
  (n!"CS1RR_cssc", (.mul (.div (.div (.sqrt (.rat 2 1)) (.par n!"GF")) (.rat 4 1)) (.inp n!"S1udduRR_2222"))),
  (n!"C10p_sdtautau", (.mul (.div (.div (.div (.sqrt (.rat 2 1)) (.par n!"GF")) (.mul (.ckm 2 1) (.conj (.ckm 2 0)))) (.rat 4 1)) (.mul (.div (.mul (.rat 16 1) (.mul .pi .pi)) (.mul (.sqrt (.mul (.mul (.rat 4 1) .pi) (.par n!"alpha_e"))) (.sqrt (.mul (.mul (.rat 4 1) .pi) (.par n!"alpha_e"))))) (.add (.div (.neg (.inp n!"VedLR_3312")) (.rat 2 1)) (.div (.inp n!"VedRR_3312") (.rat 2 1)))))),
  (n!"C10_cuee", (.mul (.div (.div (.div (.sqrt (.rat 2 1)) (.par n!"GF")) (.mul (.conj (.ckm 1 2)) (.ckm 0 2))) (.rat 4 1)) (.mul (.div (.mul (.rat 16 1) (.mul .pi .pi)) (.mul (.sqrt (.mul (.mul (.rat 4 1) .pi) (.par n!"alpha_e"))) (.sqrt (.mul (.mul (.rat 4 1) .pi) (.par n!"alpha_e"))))) (.sub (.div (.inp n!"VueLR_1211") (.rat 2 1)) (.div (.inp n!"VeuLL_1112") (.rat 2 1)))))),
  (n!"CS8RR_ubbu", (.mul (.div (.div (.sqrt (.rat 2 1)) (.par n!"GF")) (.rat 4 1)) (.inp n!"S8udduRR_1331"))),
  (n!"CVR_dcenumu", (.mul (.div (.div (.div (.neg (.sqrt (.rat 2 1))) (.par n!"GF")) (.ckm 1 0)) (.rat 4 1)) (.conj (.inp n!"VnueduLR_2112")))),
  (n!"CSLLt_bduu", (.mul (.div (.div (.div (.sqrt (.rat 2 1)) (.par n!"GF")) (.mul (.ckm 2 2) (.conj (.ckm 2 0)))) (.rat 4 1)) (.add (.add (.div (.neg (.conj (.inp n!"S1udduRR_1131"))) (.rat 2 1)) (.div (.conj (.inp n!"S8udduRR_1131")) (.mul (.rat 4 1) (.rat 3 1)))) (.div (.conj (.inp n!"S8udRR_1131")) (.rat 2 1))))),
  (n!"CSR_scmunue", (.mul (.div (.div (.div (.neg (.sqrt (.rat 2 1))) (.par n!"GF")) (.ckm 1 1)) (.rat 4 1)) (.conj (.inp n!"SnueduRL_1222")))),
  (n!"CSL_bcenue", (.mul (.div (.div (.div (.neg (.sqrt (.rat 2 1))) (.par n!"GF")) (.ckm 1 2)) (.rat 4 1)) (.conj (.inp n!"SnueduRR_1132")))),
  (n!"CSp_bstautau", (.mul (.div (.div (.div (.sqrt (.rat 2 1)) (.par n!"GF")) (.mul (.ckm 2 2) (.conj (.ckm 2 1)))) (.rat 4 1)) (.mul (.div (.div (.mul (.rat 16 1) (.mul .pi .pi)) (.mul (.sqrt (.mul (.mul (.rat 4 1) .pi) (.par n!"alpha_e"))) (.sqrt (.mul (.mul (.rat 4 1) .pi) (.par n!"alpha_e"))))) (.par n!"m_b")) (.add (.div (.inp n!"SedRL_3323") (.rat 2 1)) (.div (.conj (.inp n!"SedRR_3332")) (.rat 2 1)))))),
  (n!"C9p_bdemu", (.mul (.div (.div (.div (.sqrt (.rat 2 1)) (.par n!"GF")) (.mul (.ckm 2 2) (.conj (.ckm 2 0)))) (.rat 4 1)) (.mul (.div (.mul (.rat 16 1) (.mul .pi .pi)) (.mul (.sqrt (.mul (.mul (.rat 4 1) .pi) (.par n!"alpha_e"))) (.sqrt (.mul (.mul (.rat 4 1) .pi) (.par n!"alpha_e"))))) (.add (.div (.conj (.inp n!"VedLR_1231")) (.rat 2 1)) (.div (.conj (.inp n!"VedRR_1231")) (.rat 2 1)))))),
  (n!"CS_bsmutau", (.mul (.div (.div (.div (.sqrt (.rat 2 1)) (.par n!"GF")) (.mul (.ckm 2 2) (.conj (.ckm 2 1)))) (.rat 4 1)) (.mul (.div (.div (.mul (.rat 16 1) (.mul .pi .pi)) (.mul (.sqrt (.mul (.mul (.rat 4 1) .pi) (.par n!"alpha_e"))) (.sqrt (.mul (.mul (.rat 4 1) .pi) (.par n!"alpha_e"))))) (.par n!"m_b")) (.add (.div (.conj (.inp n!"SedRL_2332")) (.rat 2 1)) (.div (.inp n!"SedRR_3223") (.rat 2 1)))))),
  (n!"CSRR_bsbs", (.sub (.sub (.inp n!"S1ddRR_2323") (.div (.inp n!"S8ddRR_2323") (.mul (.rat 2 1) (.rat 3 1)))) (.mul (.div (.rat 1 1) (.rat 2 1)) (.div (.inp n!"S8ddRR_2323") (.rat 2 1))))),
  (n!"CSp_bdmutau", (.mul (.div (.div (.div (.sqrt (.rat 2 1)) (.par n!"GF")) (.mul (.ckm 2 2) (.conj (.ckm 2 0)))) (.rat 4 1)) (.mul (.div (.div (.mul (.rat 16 1) (.mul .pi .pi)) (.mul (.sqrt (.mul (.mul (.rat 4 1) .pi) (.par n!"alpha_e"))) (.sqrt (.mul (.mul (.rat 4 1) .pi) (.par n!"alpha_e"))))) (.par n!"m_b")) (.add (.div (.inp n!"SedRL_3213") (.rat 2 1)) (.div (.conj (.inp n!"SedRR_2331")) (.rat 2 1)))))),
  (n!"CSRR_cucc", (.mul (.div (.div (.div (.sqrt (.rat 2 1)) (.par n!"GF")) (.mul (.conj (.ckm 1 2)) (.ckm 0 2))) (.rat 4 1)) (.sub (.sub (.inp n!"S1uuRR_1222") (.div (.inp n!"S8uuRR_1222") (.rat 4 1))) (.div (.inp n!"S8uuRR_1222") (.mul (.rat 2 1) (.rat 3 1)))))),
  (n!"C9p_sdee", (.mul (.div (.div (.div (.sqrt (.rat 2 1)) (.par n!"GF")) (.mul (.ckm 2 1) (.conj (.ckm 2 0)))) (.rat 4 1)) (.mul (.div (.mul (.rat 16 1) (.mul .pi .pi)) (.mul (.sqrt (.mul (.mul (.rat 4 1) .pi) (.par n!"alpha_e"))) (.sqrt (.mul (.mul (.rat 4 1) .pi) (.par n!"alpha_e"))))) (.add (.div (.inp n!"VedLR_1112") (.rat 2 1)) (.div (.inp n!"VedRR_1112") (.rat 2 1)))))),
  (n!"CVRL_bsbb", (.mul (.div (.div (.div (.sqrt (.rat 2 1)) (.par n!"GF")) (.mul (.ckm 2 2) (.conj (.ckm 2 1)))) (.rat 4 1)) (.sub (.inp n!"V1ddLR_3323") (.div (.inp n!"V8ddLR_3323") (.mul (.rat 2 1) (.rat 3 1))))))]

def JMS_to_flavio_9 : List (ℕ × Sym) := [
  (n!"CVLR_uutautau", (.mul (.div (.div (.sqrt (.rat 2 1)) (.par n!"GF")) (.rat 4 1)) (.inp n!"VueLR_1133"))),
  (n!"CPp_bdmumu", (.mul (.div (.div (.div (.sqrt (.rat 2 1)) (.par n!"GF")) (.mul (.ckm 2 2) (.conj (.ckm 2 0)))) (.rat 4 1)) (.mul (.div (.div (.mul (.rat 16 1) (.mul .pi .pi)) (.mul (.sqrt (.mul (.mul (.rat 4 1) .pi) (.par n!"alpha_e"))) (.sqrt (.mul (.mul (.rat 4 1) .pi) (.par n!"alpha_e"))))) (.par n!"m_b")) (.sub (.div (.inp n!"SedRL_2213") (.rat 2 1)) (.div (.conj (.inp n!"SedRR_2231")) (.rat 2 1)))))),
  (n!"C10p_cuee", (.mul (.div (.div (.div (.sqrt (.rat 2 1)) (.par n!"GF")) (.mul (.conj (.ckm 1 2)) (.ckm 0 2))) (.rat 4 1)) (.mul (.div (.mul (.rat 16 1) (.mul .pi .pi)) (.mul (.sqrt (.mul (.mul (.rat 4 1) .pi) (.par n!"alpha_e"))) (.sqrt (.mul (.mul (.rat 4 1) .pi) (.par n!"alpha_e"))))) (.add (.div (.neg (.inp n!"VeuLR_1112")) (.rat 2 1)) (.div (.inp n!"VeuRR_1112") (.rat 2 1)))))),
  (n!"CSL_dumunumu", (.mul (.div (.div (.div (.neg (.sqrt (.rat 2 1))) (.par n!"GF")) (.ckm 0 0)) (.rat 4 1)) (.conj (.inp n!"SnueduRR_2211")))),
  (n!"CVLL_nuenuecc", (.mul (.div (.div (.sqrt (.rat 2 1)) (.par n!"GF")) (.rat 4 1)) (.inp n!"VnuuLL_1122"))),
  (n!"CVLL_nuenutaudd", (.mul (.div (.div (.sqrt (.rat 2 1)) (.par n!"GF")) (.rat 4 1)) (.inp n!"VnudLL_1311"))),
  (n!"CR_bsnuenumu", (.mul (.div (.div (.div (.sqrt (.rat 2 1)) (.par n!"GF")) (.mul (.ckm 2 2) (.conj (.ckm 2 1)))) (.rat 4 1)) (.mul (.div (.mul (.rat 8 1) (.mul .pi .pi)) (.mul (.sqrt (.mul (.mul (.rat 4 1) .pi) (.par n!"alpha_e"))) (.sqrt (.mul (.mul (.rat 4 1) .pi) (.par n!"alpha_e"))))) (.conj (.inp n!"VnudLR_1232"))))),
  (n!"CSLRt_bscc", (.mul (.div (.div (.div (.sqrt (.rat 2 1)) (.par n!"GF")) (.mul (.ckm 2 2) (.conj (.ckm 2 1)))) (.rat 4 1)) (.add (.mul (.rat (-2) 1) (.inp n!"V1udduLR_2322")) (.div (.inp n!"V8udduLR_2322") (.rat 3 1))))),
  (n!"CS_bstautau", (.mul (.div (.div (.div (.sqrt (.rat 2 1)) (.par n!"GF")) (.mul (.ckm 2 2) (.conj (.ckm 2 1)))) (.rat 4 1)) (.mul (.div (.div (.mul (.rat 16 1) (.mul .pi .pi)) (.mul (.sqrt (.mul (.mul (.rat 4 1) .pi) (.par n!"alpha_e"))) (.sqrt (.mul (.mul (.rat 4 1) .pi) (.par n!"alpha_e"))))) (.par n!"m_b")) (.add (.div (.conj (.inp n!"SedRL_3332")) (.rat 2 1)) (.div (.inp n!"SedRR_3323") (.rat 2 1)))))),
  (n!"CSRR_eebb", (.mul (.div (.div (.sqrt (.rat 2 1)) (.par n!"GF")) (.rat 4 1)) (.inp n!"SedRR_1133"))),
  (n!"CVL_scenutau", (.mul (.div (.div (.div (.neg (.sqrt (.rat 2 1))) (.par n!"GF")) (.ckm 1 1)) (.rat 4 1)) (.conj (.inp n!"VnueduLL_3122")))),
  (n!"CTRR_tautaucc", (.mul (.div (.div (.sqrt (.rat 2 1)) (.par n!"GF")) (.rat 4 1)) (.inp n!"TeuRR_3322"))),
  (n!"C7_mumu", (.mul (.div (.div (.sqrt (.rat 2 1)) (.par n!"GF")) (.rat 4 1)) (.mul (.div (.div (.mul (.rat 16 1) (.mul .pi .pi)) (.sqrt (.mul (.mul (.rat 4 1) .pi) (.par n!"alpha_e")))) (.par n!"m_mu")) (.inp n!"egamma_22")))),
  (n!"CVLL_bbbb", (.mul (.div (.div (.sqrt (.rat 2 1)) (.par n!"GF")) (.rat 4 1)) (.inp n!"VddLL_3333"))),
  (n!"CSL_dcmunue", (.mul (.div (.div (.div (.neg (.sqrt (.rat 2 1))) (.par n!"GF")) (.ckm 1 0)) (.rat 4 1)) (.conj (.inp n!"SnueduRR_1212")))),
  (n!"CVRR_mumumumu", (.mul (.div (.div (.sqrt (.rat 2 1)) (.par n!"GF")) (.rat 4 1)) (.inp n!"VeeRR_2222"))),
  (n!"CVLR_nutaunutauee", (.mul (.div (.div (.sqrt (.rat 2 1)) (.par n!"GF")) (.rat 4 1)) (.inp n!"VnueLR_3311"))),
  (n!"C8_ss", (.mul (.div (.div (.sqrt (.rat 2 1)) (.par n!"GF")) (.rat 4 1)) (.mul (.div (.div (.mul (.rat 16 1) (.mul .pi .pi)) (.sqrt (.mul (.mul (.rat 4 1) .pi) (.par n!"alpha_s")))) (.par n!"m_s")) (.inp n!"dG_22")))),
  (n!"C10_bdmumu", (.mul (.div (.div (.div (.sqrt (.rat 2 1)) (.par n!"GF")) (.mul (.ckm 2 2) (.conj (.ckm 2 0)))) (.rat 4 1)) (.mul (.div (.mul (.rat 16 1) (.mul .pi .pi)) (.mul (.sqrt (.mul (.mul (.rat 4 1) .pi) (.par n!"alpha_e"))) (.sqrt (.mul (.mul (.rat 4 1) .pi) (.par n!"alpha_e"))))) (.sub (.div (.inp n!"VdeLR_1322") (.rat 2 1)) (.div (.inp n!"VedLL_2213") (.rat 2 1)))))),
  (n!"CVLR_tautaumumu", (.mul (.div (.div (.sqrt (.rat 2 1)) (.par n!"GF")) (.rat 4 1)) (.inp n!"VeeLR_3322"))),
  (n!"CP_sdmutau", (.mul (.div (.div (.div (.sqrt (.rat 2 1)) (.par n!"GF")) (.mul (.ckm 2 1) (.conj (.ckm 2 0)))) (.rat 4 1)) (.mul (.div (.div (.mul (.rat 16 1) (.mul .pi .pi)) (.mul (.sqrt (.mul (.mul (.rat 4 1) .pi) (.par n!"alpha_e"))) (.sqrt (.mul (.mul (.rat 4 1) .pi) (.par n!"alpha_e"))))) (.par n!"m_s")) (.add (.div (.neg (.conj (.inp n!"SedRL_2321"))) (.rat 2 1)) (.div (.inp n!"SedRR_3212") (.rat 2 1)))))),
  (n!"CV1LR_bbss", (.mul (.div (.div (.sqrt (.rat 2 1)) (.par n!"GF")) (.rat 4 1)) (.inp n!"V1ddLR_3322"))),
  (n!"CVLR_nuenumumumu", (.mul (.div (.div (.sqrt (.rat 2 1)) (.par n!"GF")) (.rat 4 1)) (.inp n!"VnueLR_1222"))),
  (n!"CVLR_numunumuss", (.mul (.div (.div (.sqrt (.rat 2 1)) (.par n!"GF")) (.rat 4 1)) (.inp n!"VnudLR_2222"))),
  (n!"CV8LR_ddss", (.mul (.div (.div (.sqrt (.rat 2 1)) (.par n!"GF")) (.rat 4 1)) (.inp n!"V8ddLR_1122"))),
  (n!"C7_sd", (.mul (.div (.div (.div (.sqrt (.rat 2 1)) (.par n!"GF")) (.mul (.ckm 2 1) (.conj (.ckm 2 0)))) (.rat 4 1)) (.mul (.div (.div (.mul (.rat 16 1) (.mul .pi .pi)) (.sqrt (.mul (.mul (.rat 4 1) .pi) (.par n!"alpha_e")))) (.par n!"m_s")) (.inp n!"dgamma_12")))),
  (n!"CV8LR_ssss", (.mul (.div (.div (.sqrt (.rat 2 1)) (.par n!"GF")) (.rat 4 1)) (.inp n!"V8ddLR_2222"))),
  (n!"CSL_buenutau", (.mul (.div (.div (.div (.neg (.sqrt (.rat 2 1))) (.par n!"GF")) (.ckm 0 2)) (.rat 4 1)) (.conj (.inp n!"SnueduRR_3131")))),
  (n!"CSL_bcmunutau", (.mul (.div (.div (.div (.neg (.sqrt (.rat 2 1))) (.par n!"GF")) (.ckm 1 2)) (.rat 4 1)) (.conj (.inp n!"SnueduRR_3232")))),
  (n!"CSLL_sdbb", (.mul (.div (.div (.div (.sqrt (.rat 2 1)) (.par n!"GF")) (.mul (.ckm 2 1) (.conj (.ckm 2 0)))) (.rat 4 1)) (.sub (.sub (.conj (.inp n!"S1ddRR_2133")) (.div (.conj (.inp n!"S8ddRR_2331")) (.rat 4 1))) (.div (.div (.conj (.inp n!"S8ddRR_2133")) (.rat 2 1)) (.rat 3 1))))),
  (n!"CVR_bcenumu", (.mul (.div (.div (.div (.neg (.sqrt (.rat 2 1))) (.par n!"GF")) (.ckm 1 2)) (.rat 4 1)) (.conj (.inp n!"VnueduLR_2132")))),
  (n!"CVRL_sdcc", (.mul (.div (.div (.div (.sqrt (.rat 2 1)) (.par n!"GF")) (.mul (.ckm 2 1) (.conj (.ckm 2 0)))) (.rat 4 1)) (.sub (.inp n!"V1udLR_2212") (.div (.inp n!"V8udLR_2212") (.mul (.rat 2 1) (.rat 3 1)))))),
  (n!"CVLR_ccmumu", (.mul (.div (.div (.sqrt (.rat 2 1)) (.par n!"GF")) (.rat 4 1)) (.inp n!"VueLR_2222"))),
  (n!"CP_sdmue", (.mul (.div (.div (.div (.sqrt (.rat 2 1)) (.par n!"GF")) (.mul (.ckm 2 1) (.conj (.ckm 2 0)))) (.rat 4 1)) (.mul (.div (.div (.mul (.rat 16 1) (.mul .pi .pi)) (.mul (.sqrt (.mul (.mul (.rat 4 1) .pi) (.par n!"alpha_e"))) (.sqrt (.mul (.mul (.rat 4 1) .pi) (.par n!"alpha_e"))))) (.par n!"m_s")) (.add (.div (.neg (.conj (.inp n!"SedRL_2121"))) (.rat 2 1)) (.div (.inp n!"SedRR_1212") (.rat 2 1)))))),
  (n!"CVLR_sdbb", (.mul (.div (.div (.div (.sqrt (.rat 2 1)) (.par n!"GF")) (.mul (.ckm 2 1) (.conj (.ckm 2 0)))) (.rat 4 1)) (.sub (.inp n!"V1ddLR_1233") (.div (.inp n!"V8ddLR_1233") (.mul (.rat 2 1) (.rat 3 1)))))),
  (n!"CVLR_eedd", (.mul (.div (.div (.sqrt (.rat 2 1)) (.par n!"GF")) (.rat 4 1)) (.inp n!"VedLR_1111"))),
  (n!"CTLL_bdbd", (.mul (.div (.rat (-1) 1) (.rat 8 1)) (.div (.conj (.inp n!"S8ddRR_3131")) (.rat 2 1)))),
  (n!"CSRR_cuuu", (.mul (.div (.div (.div (.sqrt (.rat 2 1)) (.par n!"GF")) (.mul (.conj (.ckm 1 2)) (.ckm 0 2))) (.rat 4 1)) (.sub (.sub (.inp n!"S1uuRR_1112") (.div (.inp n!"S8uuRR_1112") (.rat 4 1))) (.div (.inp n!"S8uuRR_1112") (.mul (.rat 2 1) (.rat 3 1)))))),
  (n!"CS_bdmue", (.mul (.div (.div (.div (.sqrt (.rat 2 1)) (.par n!"GF")) (.mul (.ckm 2 2) (.conj (.ckm 2 0)))) (.rat 4 1)) (.mul (.div (.div (.mul (.rat 16 1) (.mul .pi .pi)) (.mul (.sqrt (.mul (.mul (.rat 4 1) .pi) (.par n!"alpha_e"))) (.sqrt (.mul (.mul (.rat 4 1) .pi) (.par n!"alpha_e"))))) (.par n!"m_b")) (.add (.div (.conj (.inp n!"SedRL_2131")) (.rat 2 1)) (.div (.inp n!"SedRR_1213") (.rat 2 1)))))),
  (n!"CSLL_bsss", (.mul (.div (.div (.div (.sqrt (.rat 2 1)) (.par n!"GF")) (.mul (.ckm 2 2) (.conj (.ckm 2 1)))) (.rat 4 1)) (.sub (.sub (.conj (.inp n!"S1ddRR_2232")) (.div (.conj (.inp n!"S8ddRR_2232")) (.rat 4 1))) (.div (.div (.conj (.inp n!"S8ddRR_2232")) (.rat 2 1)) (.rat 3 1))))),
  (n!"CT_dcmunutau", (.mul (.div (.div (.div (.neg (.sqrt (.rat 2 1))) (.par n!"GF")) (.ckm 1 0)) (.rat 4 1)) (.conj (.inp n!"TnueduRR_3212")))),
  (n!"CSRR_bddd", (.mul (.div (.div (.div (.sqrt (.rat 2 1)) (.par n!"GF")) (.mul (.ckm 2 2) (.conj (.ckm 2 0)))) (.rat 4 1)) (.sub (.sub (.inp n!"S1ddRR_1113") (.div (.inp n!"S8ddRR_1113") (.rat 4 1))) (.div (.inp n!"S8ddRR_1113") (.mul (.rat 2 1) (.rat 3 1)))))),
  (n!"CTLL_sdsd", (.mul (.div (.rat (-1) 1) (.rat 8 1)) (.div (.conj (.inp n!"S8ddRR_2121")) (.rat 2 1)))),
  (n!"CV1LR_ccbb", (.mul (.div (.div (.sqrt (.rat 2 1)) (.par n!"GF")) (.rat 4 1)) (.inp n!"V1udLR_2233"))),
  (n!"CVLL_nuenueuu", (.mul (.div (.div (.sqrt (.rat 2 1)) (.par n!"GF")) (.rat 4 1)) (.inp n!"VnuuLL_1111"))),
  (n!"CVLR_bsss", (.mul (.div (.div (.div (.sqrt (.rat 2 1)) (.par n!"GF")) (.mul (.ckm 2 2) (.conj (.ckm 2 1)))) (.rat 4 1)) (.sub (.inp n!"V1ddLR_2322") (.div (.inp n!"V8ddLR_2322") (.mul (.rat 2 1) (.rat 3 1)))))),
  (n!"CV1LR_uccu", (.mul (.div (.div (.sqrt (.rat 2 1)) (.par n!"GF")) (.rat 4 1)) (.inp n!"V1uuLR_1221"))),
  (n!"CSRRt_cudd", (.mul (.div (.div (.div (.sqrt (.rat 2 1)) (.par n!"GF")) (.mul (.conj (.ckm 1 2)) (.ckm 0 2))) (.rat 4 1)) (.add (.add (.div (.neg (.inp n!"S1udduRR_1112")) (.rat 2 1)) (.div (.inp n!"S8udduRR_1112") (.mul (.rat 4 1) (.rat 3 1)))) (.div (.inp n!"S8udRR_1211") (.rat 2 1))))),
  (n!"CSLRt_bsuu", (.mul (.div (.div (.div (.sqrt (.rat 2 1)) (.par n!"GF")) (.mul (.ckm 2 2) (.conj (.ckm 2 1)))) (.rat 4 1)) (.add (.mul (.rat (-2) 1) (.inp n!"V1udduLR_1321")) (.div (.inp n!"V8udduLR_1321") (.rat 3 1))))),
  (n!"CVLR_nuenuess", (.mul (.div (.div (.sqrt (.rat 2 1)) (.par n!"GF")) (.rat 4 1)) (.inp n!"VnudLR_1122")))]

def JMS_to_flavio_10 : List (ℕ × Sym) := [
  (n!"CTRR_tautauuu", (.mul (.div (.div (.sqrt (.rat 2 1)) (.par n!"GF")) (.rat 4 1)) (.inp n!"TeuRR_3311"))),
  (n!"CSR_dutaunumu", (.mul (.div (.div (.div (.neg (.sqrt (.rat 2 1))) (.par n!"GF")) (.ckm 0 0)) (.rat 4 1)) (.conj (.inp n!"SnueduRL_2311")))),
  (n!"CVR_bcmunumu", (.mul (.div (.div (.div (.neg (.sqrt (.rat 2 1))) (.par n!"GF")) (.ckm 1 2)) (.rat 4 1)) (.conj (.inp n!"VnueduLR_2232")))),
  (n!"CVLR_numunutauss", (.mul (.div (.div (.sqrt (.rat 2 1)) (.par n!"GF")) (.rat 4 1)) (.inp n!"VnudLR_2322"))),
  (n!"CSLRt_cuss", (.mul (.div (.div (.div (.sqrt (.rat 2 1)) (.par n!"GF")) (.mul (.conj (.ckm 1 2)) (.ckm 0 2))) (.rat 4 1)) (.add (.mul (.rat (-2) 1) (.conj (.inp n!"V1udduLR_2221"))) (.div (.conj (.inp n!"V8udduLR_2221")) (.rat 3 1))))),
  (n!"CSR_duenue", (.mul (.div (.div (.div (.neg (.sqrt (.rat 2 1))) (.par n!"GF")) (.ckm 0 0)) (.rat 4 1)) (.conj (.inp n!"SnueduRL_1111")))),
  (n!"CVLR_numunumumumu", (.mul (.div (.div (.sqrt (.rat 2 1)) (.par n!"GF")) (.rat 4 1)) (.inp n!"VnueLR_2222"))),
  (n!"CVRR_mumutautau", (.mul (.div (.div (.sqrt (.rat 2 1)) (.par n!"GF")) (.rat 4 1)) (.inp n!"VeeRR_2233"))),
  (n!"CSL_bcmunue", (.mul (.div (.div (.div (.neg (.sqrt (.rat 2 1))) (.par n!"GF")) (.ckm 1 2)) (.rat 4 1)) (.conj (.inp n!"SnueduRR_1232")))),
  (n!"C7p_sd", (.mul (.div (.div (.div (.sqrt (.rat 2 1)) (.par n!"GF")) (.mul (.ckm 2 1) (.conj (.ckm 2 0)))) (.rat 4 1)) (.mul (.div (.div (.mul (.rat 16 1) (.mul .pi .pi)) (.sqrt (.mul (.mul (.rat 4 1) .pi) (.par n!"alpha_e")))) (.par n!"m_s")) (.conj (.inp n!"dgamma_21"))))),
  (n!"CVL_bctaunue", (.mul (.div (.div (.div (.neg (.sqrt (.rat 2 1))) (.par n!"GF")) (.ckm 1 2)) (.rat 4 1)) (.conj (.inp n!"VnueduLL_1332")))),
  (n!"CVLL_cccc", (.mul (.div (.div (.sqrt (.rat 2 1)) (.par n!"GF")) (.rat 4 1)) (.inp n!"VuuLL_2222"))),
  (n!"C7_tautau", (.mul (.div (.div (.sqrt (.rat 2 1)) (.par n!"GF")) (.rat 4 1)) (.mul (.div (.div (.mul (.rat 16 1) (.mul .pi .pi)) (.sqrt (.mul (.mul (.rat 4 1) .pi) (.par n!"alpha_e")))) (.par n!"m_tau")) (.inp n!"egamma_33")))),
  (n!"CVRL_sduu", (.mul (.div (.div (.div (.sqrt (.rat 2 1)) (.par n!"GF")) (.mul (.ckm 2 1) (.conj (.ckm 2 0)))) (.rat 4 1)) (.sub (.inp n!"V1udLR_1112") (.div (.inp n!"V8udLR_1112") (.mul (.rat 2 1) (.rat 3 1)))))),
  (n!"CVLRt_sdcc", (.mul (.div (.div (.div (.sqrt (.rat 2 1)) (.par n!"GF")) (.mul (.ckm 2 1) (.conj (.ckm 2 0)))) (.rat 4 1)) (.div (.inp n!"V8duLR_1222") (.rat 2 1)))),
  (n!"CVLR_nuenumutautau", (.mul (.div (.div (.sqrt (.rat 2 1)) (.par n!"GF")) (.rat 4 1)) (.inp n!"VnueLR_1233"))),
  (n!"C9_bsee", (.mul (.div (.div (.div (.sqrt (.rat 2 1)) (.par n!"GF")) (.mul (.ckm 2 2) (.conj (.ckm 2 1)))) (.rat 4 1)) (.mul (.div (.mul (.rat 16 1) (.mul .pi .pi)) (.mul (.sqrt (.mul (.mul (.rat 4 1) .pi) (.par n!"alpha_e"))) (.sqrt (.mul (.mul (.rat 4 1) .pi) (.par n!"alpha_e"))))) (.add (.div (.inp n!"VdeLR_2311") (.rat 2 1)) (.div (.inp n!"VedLL_1123") (.rat 2 1)))))),
  (n!"CSp_cutautau", (.mul (.div (.div (.div (.sqrt (.rat 2 1)) (.par n!"GF")) (.mul (.conj (.ckm 1 2)) (.ckm 0 2))) (.rat 4 1)) (.mul (.div (.div (.mul (.rat 16 1) (.mul .pi .pi)) (.mul (.sqrt (.mul (.mul (.rat 4 1) .pi) (.par n!"alpha_e"))) (.sqrt (.mul (.mul (.rat 4 1) .pi) (.par n!"alpha_e"))))) (.par n!"m_c")) (.add (.div (.inp n!"SeuRL_3312") (.rat 2 1)) (.div (.conj (.inp n!"SeuRR_3321")) (.rat 2 1)))))),
  (n!"CR_sdnumunumu", (.mul (.div (.div (.div (.sqrt (.rat 2 1)) (.par n!"GF")) (.mul (.ckm 2 1) (.conj (.ckm 2 0)))) (.rat 4 1)) (.mul (.div (.mul (.rat 8 1) (.mul .pi .pi)) (.mul (.sqrt (.mul (.mul (.rat 4 1) .pi) (.par n!"alpha_e"))) (.sqrt (.mul (.mul (.rat 4 1) .pi) (.par n!"alpha_e"))))) (.inp n!"VnudLR_2212")))),
  (n!"CTLLt_bscc", (.mul (.div (.div (.div (.sqrt (.rat 2 1)) (.par n!"GF")) (.mul (.ckm 2 2) (.conj (.ckm 2 1)))) (.rat 4 1)) (.add (.div (.neg (.conj (.inp n!"S1udduRR_2232"))) (.rat 8 1)) (.div (.div (.conj (.inp n!"S8udduRR_2232")) (.rat 16 1)) (.rat 3 1))))),
  (n!"CVLL_nuenumubb", (.mul (.div (.div (.sqrt (.rat 2 1)) (.par n!"GF")) (.rat 4 1)) (.inp n!"VnudLL_1233"))),
  (n!"CVL_dcmunutau", (.mul (.div (.div (.div (.neg (.sqrt (.rat 2 1))) (.par n!"GF")) (.ckm 1 0)) (.rat 4 1)) (.conj (.inp n!"VnueduLL_3212")))),
  (n!"CS_sdetau", (.mul (.div (.div (.div (.sqrt (.rat 2 1)) (.par n!"GF")) (.mul (.ckm 2 1) (.conj (.ckm 2 0)))) (.rat 4 1)) (.mul (.div (.div (.mul (.rat 16 1) (.mul .pi .pi)) (.mul (.sqrt (.mul (.mul (.rat 4 1) .pi) (.par n!"alpha_e"))) (.sqrt (.mul (.mul (.rat 4 1) .pi) (.par n!"alpha_e"))))) (.par n!"m_s")) (.add (.div (.conj (.inp n!"SedRL_1321")) (.rat 2 1)) (.div (.inp n!"SedRR_3112") (.rat 2 1)))))),
  (n!"C7_cu", (.mul (.div (.div (.div (.sqrt (.rat 2 1)) (.par n!"GF")) (.mul (.conj (.ckm 1 2)) (.ckm 0 2))) (.rat 4 1)) (.mul (.div (.div (.mul (.rat 16 1) (.mul .pi .pi)) (.sqrt (.mul (.mul (.rat 4 1) .pi) (.par n!"alpha_e")))) (.par n!"m_c")) (.inp n!"ugamma_12")))),
  (n!"CVRL_bdss", (.mul (.div (.div (.div (.sqrt (.rat 2 1)) (.par n!"GF")) (.mul (.ckm 2 2) (.conj (.ckm 2 0)))) (.rat 4 1)) (.sub (.inp n!"V1ddLR_2213") (.div (.inp n!"V8ddLR_2213") (.mul (.rat 2 1) (.rat 3 1)))))),
  (n!"C8_bd", (.mul (.div (.div (.div (.sqrt (.rat 2 1)) (.par n!"GF")) (.mul (.ckm 2 2) (.conj (.ckm 2 0)))) (.rat 4 1)) (.mul (.div (.div (.mul (.rat 16 1) (.mul .pi .pi)) (.sqrt (.mul (.mul (.rat 4 1) .pi) (.par n!"alpha_s")))) (.par n!"m_b")) (.inp n!"dG_13")))),
  (n!"CS_bstaumu", (.mul (.div (.div (.div (.sqrt (.rat 2 1)) (.par n!"GF")) (.mul (.ckm 2 2) (.conj (.ckm 2 1)))) (.rat 4 1)) (.mul (.div (.div (.mul (.rat 16 1) (.mul .pi .pi)) (.mul (.sqrt (.mul (.mul (.rat 4 1) .pi) (.par n!"alpha_e"))) (.sqrt (.mul (.mul (.rat 4 1) .pi) (.par n!"alpha_e"))))) (.par n!"m_b")) (.add (.div (.conj (.inp n!"SedRL_3232")) (.rat 2 1)) (.div (.inp n!"SedRR_2323") (.rat 2 1)))))),
  (n!"C9p_sdmumu", (.mul (.div (.div (.div (.sqrt (.rat 2 1)) (.par n!"GF")) (.mul (.ckm 2 1) (.conj (.ckm 2 0)))) (.rat 4 1)) (.mul (.div (.mul (.rat 16 1) (.mul .pi .pi)) (.mul (.sqrt (.mul (.mul (.rat 4 1) .pi) (.par n!"alpha_e"))) (.sqrt (.mul (.mul (.rat 4 1) .pi) (.par n!"alpha_e"))))) (.add (.div (.inp n!"VedLR_2212") (.rat 2 1)) (.div (.inp n!"VedRR_2212") (.rat 2 1)))))),
  (n!"CVLR_uuee", (.mul (.div (.div (.sqrt (.rat 2 1)) (.par n!"GF")) (.rat 4 1)) (.inp n!"VueLR_1111"))),
  (n!"CS_cutautau", (.mul (.div (.div (.div (.sqrt (.rat 2 1)) (.par n!"GF")) (.mul (.conj (.ckm 1 2)) (.ckm 0 2))) (.rat 4 1)) (.mul (.div (.div (.mul (.rat 16 1) (.mul .pi .pi)) (.mul (.sqrt (.mul (.mul (.rat 4 1) .pi) (.par n!"alpha_e"))) (.sqrt (.mul (.mul (.rat 4 1) .pi) (.par n!"alpha_e"))))) (.par n!"m_c")) (.add (.div (.conj (.inp n!"SeuRL_3321")) (.rat 2 1)) (.div (.inp n!"SeuRR_3312") (.rat 2 1)))))),
  (n!"CV1LR_ddcc", (.mul (.div (.div (.sqrt (.rat 2 1)) (.par n!"GF")) (.rat 4 1)) (.inp n!"V1duLR_1122"))),
  (n!"CSp_bdtaumu", (.mul (.div (.div (.div (.sqrt (.rat 2 1)) (.par n!"GF")) (.mul (.ckm 2 2) (.conj (.ckm 2 0)))) (.rat 4 1)) (.mul (.div (.div (.mul (.rat 16 1) (.mul .pi .pi)) (.mul (.sqrt (.mul (.mul (.rat 4 1) .pi) (.par n!"alpha_e"))) (.sqrt (.mul (.mul (.rat 4 1) .pi) (.par n!"alpha_e"))))) (.par n!"m_b")) (.add (.div (.inp n!"SedRL_2313") (.rat 2 1)) (.div (.conj (.inp n!"SedRR_3231")) (.rat 2 1)))))),
  (n!"CL_bdnutaunue", (.mul (.div (.div (.div (.sqrt (.rat 2 1)) (.par n!"GF")) (.mul (.ckm 2 2) (.conj (.ckm 2 0)))) (.rat 4 1)) (.mul (.div (.mul (.rat 8 1) (.mul .pi .pi)) (.mul (.sqrt (.mul (.mul (.rat 4 1) .pi) (.par n!"alpha_e"))) (.sqrt (.mul (.mul (.rat 4 1) .pi) (.par n!"alpha_e"))))) (.inp n!"VnudLL_1313")))),
  (n!"CL_bsnumunue", (.mul (.div (.div (.div (.sqrt (.rat 2 1)) (.par n!"GF")) (.mul (.ckm 2 2) (.conj (.ckm 2 1)))) (.rat 4 1)) (.mul (.div (.mul (.rat 8 1) (.mul .pi .pi)) (.mul (.sqrt (.mul (.mul (.rat 4 1) .pi) (.par n!"alpha_e"))) (.sqrt (.mul (.mul (.rat 4 1) .pi) (.par n!"alpha_e"))))) (.inp n!"VnudLL_1223")))),
  (n!"CV1LR_sscc", (.mul (.div (.div (.sqrt (.rat 2 1)) (.par n!"GF")) (.rat 4 1)) (.inp n!"V1duLR_2222"))),
  (n!"CVRR_ddbb", (.mul (.div (.div (.sqrt (.rat 2 1)) (.par n!"GF")) (.rat 4 1)) (.inp n!"VddRR_1133"))),
  (n!"CV8LR_uucc", (.mul (.div (.div (.sqrt (.rat 2 1)) (.par n!"GF")) (.rat 4 1)) (.inp n!"V8uuLR_1122"))),
  (n!"CVRR_ssbb", (.mul (.div (.div (.sqrt (.rat 2 1)) (.par n!"GF")) (.rat 4 1)) (.inp n!"VddRR_2233"))),
  (n!"CVLR_nuenumuee", (.mul (.div (.div (.sqrt (.rat 2 1)) (.par n!"GF")) (.rat 4 1)) (.inp n!"VnueLR_1211"))),
  (n!"CVR_sumunue", (.mul (.div (.div (.div (.neg (.sqrt (.rat 2 1))) (.par n!"GF")) (.ckm 0 1)) (.rat 4 1)) (.conj (.inp n!"VnueduLR_1221")))),
  (n!"CPp_sdmue", (.mul (.div (.div (.div (.sqrt (.rat 2 1)) (.par n!"GF")) (.mul (.ckm 2 1) (.conj (.ckm 2 0)))) (.rat 4 1)) (.mul (.div (.div (.mul (.rat 16 1) (.mul .pi .pi)) (.mul (.sqrt (.mul (.mul (.rat 4 1) .pi) (.par n!"alpha_e"))) (.sqrt (.mul (.mul (.rat 4 1) .pi) (.par n!"alpha_e"))))) (.par n!"m_s")) (.sub (.div (.inp n!"SedRL_1212") (.rat 2 1)) (.div (.conj (.inp n!"SedRR_2121")) (.rat 2 1)))))),
  (n!"CS8RR_ddss", (.mul (.div (.div (.sqrt (.rat 2 1)) (.par n!"GF")) (.rat 4 1)) (.inp n!"S8ddRR_1122"))),
  (n!"CVLRt_sduu", (.mul (.div (.div (.div (.sqrt (.rat 2 1)) (.par n!"GF")) (.mul (.ckm 2 1) (.conj (.ckm 2 0)))) (.rat 4 1)) (.div (.inp n!"V8duLR_1211") (.rat 2 1)))),
  (n!"CV8LL_ccss", (.mul (.div (.div (.sqrt (.rat 2 1)) (.par n!"GF")) (.rat 4 1)) (.inp n!"V8udLL_2222"))),
  (n!"CS8RR_ssss", (.mul (.div (.div (.sqrt (.rat 2 1)) (.par n!"GF")) (.rat 4 1)) (.inp n!"S8ddRR_2222"))),
  (n!"CVLL_numunumuee", (.mul (.div (.div (.sqrt (.rat 2 1)) (.par n!"GF")) (.rat 4 1)) (.inp n!"VnueLL_2211"))),
  (n!"CSR_bumunutau", (.mul (.div (.div (.div (.neg (.sqrt (.rat 2 1))) (.par n!"GF")) (.ckm 0 2)) (.rat 4 1)) (.conj (.inp n!"SnueduRL_3231")))),
  (n!"CV1LL_uuss", (.mul (.div (.div (.sqrt (.rat 2 1)) (.par n!"GF")) (.rat 4 1)) (.inp n!"V1udLL_1122"))),
  (n!"CTLLt_bsuu", (.mul (.div (.div (.div (.sqrt (.rat 2 1)) (.par n!"GF")) (.mul (.ckm 2 2) (.conj (.ckm 2 1)))) (.rat 4 1)) (.add (.div (.neg (.conj (.inp n!"S1udduRR_1231"))) (.rat 8 1)) (.div (.div (.conj (.inp n!"S8udduRR_1231")) (.rat 16 1)) (.rat 3 1))))),
  (n!"CPp_sdetau", (.mul (.div (.div (.div (.sqrt (.rat 2 1)) (.par n!"GF")) (.mul (.ckm 2 1) (.conj (.ckm 2 0)))) (.rat 4 1)) (.mul (.div (.div (.mul (.rat 16 1) (.mul .pi .pi)) (.mul (.sqrt (.mul (.mul (.rat 4 1) .pi) (.par n!"alpha_e"))) (.sqrt (.mul (.mul (.rat 4 1) .pi) (.par n!"alpha_e"))))) (.par n!"m_s")) (.sub (.div (.inp n!"SedRL_3112") (.rat 2 1)) (.div (.conj (.inp n!"SedRR_1321")) (.rat 2 1))))))]

def JMS_to_flavio_11 : List (ℕ × Sym) := [
  (n!"CP_sdtaue", (.mul (.div (.div (.div (.sqrt (.rat 2 1)) (.par n!"GF")) (.mul (.ckm 2 1) (.conj (.ckm 2 0)))) (.rat 4 1)) (.mul (.div (.div (.mul (.rat 16 1) (.mul .pi .pi)) (.mul (.sqrt (.mul (.mul (.rat 4 1) .pi) (.par n!"alpha_e"))) (.sqrt (.mul (.mul (.rat 4 1) .pi) (.par n!"alpha_e"))))) (.par n!"m_s")) (.add (.div (.neg (.conj (.inp n!"SedRL_3121"))) (.rat 2 1)) (.div (.inp n!"SedRR_1312") (.rat 2 1)))))),
  (n!"CTRR_mumucc", (.mul (.div (.div (.sqrt (.rat 2 1)) (.par n!"GF")) (.rat 4 1)) (.inp n!"TeuRR_2222"))),
  (n!"CVLL_mumucc", (.mul (.div (.div (.sqrt (.rat 2 1)) (.par n!"GF")) (.rat 4 1)) (.inp n!"VeuLL_2222"))),
  (n!"C9p_bdmutau", (.mul (.div (.div (.div (.sqrt (.rat 2 1)) (.par n!"GF")) (.mul (.ckm 2 2) (.conj (.ckm 2 0)))) (.rat 4 1)) (.mul (.div (.mul (.rat 16 1) (.mul .pi .pi)) (.mul (.sqrt (.mul (.mul (.rat 4 1) .pi) (.par n!"alpha_e"))) (.sqrt (.mul (.mul (.rat 4 1) .pi) (.par n!"alpha_e"))))) (.add (.div (.conj (.inp n!"VedLR_2331")) (.rat 2 1)) (.div (.conj (.inp n!"VedRR_2331")) (.rat 2 1)))))),
  (n!"CVL_bctaunutau", (.mul (.div (.div (.div (.neg (.sqrt (.rat 2 1))) (.par n!"GF")) (.ckm 1 2)) (.rat 4 1)) (.conj (.inp n!"VnueduLL_3332")))),
  (n!"CVLL_dddd", (.mul (.div (.div (.sqrt (.rat 2 1)) (.par n!"GF")) (.rat 4 1)) (.inp n!"VddLL_1111"))),
  (n!"CSL_bctaunumu", (.mul (.div (.div (.div (.neg (.sqrt (.rat 2 1))) (.par n!"GF")) (.ckm 1 2)) (.rat 4 1)) (.conj (.inp n!"SnueduRR_2332")))),
  (n!"CP_sdtaumu", (.mul (.div (.div (.div (.sqrt (.rat 2 1)) (.par n!"GF")) (.mul (.ckm 2 1) (.conj (.ckm 2 0)))) (.rat 4 1)) (.mul (.div (.div (.mul (.rat 16 1) (.mul .pi .pi)) (.mul (.sqrt (.mul (.mul (.rat 4 1) .pi) (.par n!"alpha_e"))) (.sqrt (.mul (.mul (.rat 4 1) .pi) (.par n!"alpha_e"))))) (.par n!"m_s")) (.add (.div (.neg (.conj (.inp n!"SedRL_3221"))) (.rat 2 1)) (.div (.inp n!"SedRR_2312") (.rat 2 1)))))),
  (n!"CS1RR_ccbb", (.mul (.div (.div (.sqrt (.rat 2 1)) (.par n!"GF")) (.rat 4 1)) (.inp n!"S1udRR_2233"))),
  (n!"CTLLt_cuss", (.mul (.div (.div (.div (.sqrt (.rat 2 1)) (.par n!"GF")) (.mul (.conj (.ckm 1 2)) (.ckm 0 2))) (.rat 4 1)) (.add (.div (.neg (.conj (.inp n!"S1udduRR_2221"))) (.rat 8 1)) (.div (.div (.conj (.inp n!"S8udduRR_2221")) (.rat 16 1)) (.rat 3 1))))),
  (n!"C7p_cu", (.mul (.div (.div (.div (.sqrt (.rat 2 1)) (.par n!"GF")) (.mul (.conj (.ckm 1 2)) (.ckm 0 2))) (.rat 4 1)) (.mul (.div (.div (.mul (.rat 16 1) (.mul .pi .pi)) (.sqrt (.mul (.mul (.rat 4 1) .pi) (.par n!"alpha_e")))) (.par n!"m_c")) (.conj (.inp n!"ugamma_21"))))),
  (n!"CTRR_bsbs", (.mul (.div (.rat (-1) 1) (.rat 8 1)) (.div (.inp n!"S8ddRR_2323") (.rat 2 1)))),
  (n!"CS1RR_uccu", (.mul (.div (.div (.sqrt (.rat 2 1)) (.par n!"GF")) (.rat 4 1)) (.inp n!"S1uuRR_1221"))),
  (n!"CT_dctaunumu", (.mul (.div (.div (.div (.neg (.sqrt (.rat 2 1))) (.par n!"GF")) (.ckm 1 0)) (.rat 4 1)) (.conj (.inp n!"TnueduRR_2312")))),
  (n!"CVLRt_bdss", (.mul (.div (.div (.div (.sqrt (.rat 2 1)) (.par n!"GF")) (.mul (.ckm 2 2) (.conj (.ckm 2 0)))) (.rat 4 1)) (.div (.inp n!"V8ddLR_1322") (.rat 2 1)))),
  (n!"CVL_dumunue", (.mul (.div (.div (.div (.neg (.sqrt (.rat 2 1))) (.par n!"GF")) (.ckm 0 0)) (.rat 4 1)) (.conj (.inp n!"VnueduLL_1211")))),
  (n!"CTRR_cucc", (.mul (.div (.div (.div (.sqrt (.rat 2 1)) (.par n!"GF")) (.mul (.conj (.ckm 1 2)) (.ckm 0 2))) (.rat 4 1)) (.div (.neg (.inp n!"S8uuRR_1222")) (.rat 16 1)))),
  (n!"CVLL_eemumu", (.mul (.div (.div (.sqrt (.rat 2 1)) (.par n!"GF")) (.rat 4 1)) (.inp n!"VeeLL_1122"))),
  (n!"CVL_bumunumu", (.mul (.div (.div (.div (.neg (.sqrt (.rat 2 1))) (.par n!"GF")) (.ckm 0 2)) (.rat 4 1)) (.conj (.inp n!"VnueduLL_2231")))),
  (n!"C9_bstautau", (.mul (.div (.div (.div (.sqrt (.rat 2 1)) (.par n!"GF")) (.mul (.ckm 2 2) (.conj (.ckm 2 1)))) (.rat 4 1)) (.mul (.div (.mul (.rat 16 1) (.mul .pi .pi)) (.mul (.sqrt (.mul (.mul (.rat 4 1) .pi) (.par n!"alpha_e"))) (.sqrt (.mul (.mul (.rat 4 1) .pi) (.par n!"alpha_e"))))) (.add (.div (.inp n!"VdeLR_2333") (.rat 2 1)) (.div (.inp n!"VedLL_3323") (.rat 2 1)))))),
  (n!"CVLR_tautaudd", (.mul (.div (.div (.sqrt (.rat 2 1)) (.par n!"GF")) (.rat 4 1)) (.inp n!"VedLR_3311"))),
  (n!"CV1LR_dduu", (.mul (.div (.div (.sqrt (.rat 2 1)) (.par n!"GF")) (.rat 4 1)) (.inp n!"V1duLR_1111"))),
  (n!"C10_sdetau", (.mul (.div (.div (.div (.sqrt (.rat 2 1)) (.par n!"GF")) (.mul (.ckm 2 1) (.conj (.ckm 2 0)))) (.rat 4 1)) (.mul (.div (.mul (.rat 16 1) (.mul .pi .pi)) (.mul (.sqrt (.mul (.mul (.rat 4 1) .pi) (.par n!"alpha_e"))) (.sqrt (.mul (.mul (.rat 4 1) .pi) (.par n!"alpha_e"))))) (.sub (.div (.inp n!"VdeLR_1231") (.rat 2 1)) (.div (.conj (.inp n!"VedLL_1321")) (.rat 2 1)))))),
  (n!"C10p_bsetau", (.mul (.div (.div (.div (.sqrt (.rat 2 1)) (.par n!"GF")) (.mul (.ckm 2 2) (.conj (.ckm 2 1)))) (.rat 4 1)) (.mul (.div (.mul (.rat 16 1) (.mul .pi .pi)) (.mul (.sqrt (.mul (.mul (.rat 4 1) .pi) (.par n!"alpha_e"))) (.sqrt (.mul (.mul (.rat 4 1) .pi) (.par n!"alpha_e"))))) (.add (.div (.neg (.conj (.inp n!"VedLR_1332"))) (.rat 2 1)) (.div (.conj (.inp n!"VedRR_1332")) (.rat 2 1)))))),
  (n!"CSLR_bsbs", (.neg (.inp n!"V8ddLR_2323"))),
  (n!"CV1LR_ssuu", (.mul (.div (.div (.sqrt (.rat 2 1)) (.par n!"GF")) (.rat 4 1)) (.inp n!"V1duLR_2211"))),
  (n!"CSR_dcenue", (.mul (.div (.div (.div (.neg (.sqrt (.rat 2 1))) (.par n!"GF")) (.ckm 1 0)) (.rat 4 1)) (.conj (.inp n!"SnueduRL_1112")))),
  (n!"CSRL_cudd", (.mul (.div (.div (.div (.sqrt (.rat 2 1)) (.par n!"GF")) (.mul (.conj (.ckm 1 2)) (.ckm 0 2))) (.rat 4 1)) (.neg (.inp n!"V8udduLR_1112")))),
  (n!"CV8LR_uuuu", (.mul (.div (.div (.sqrt (.rat 2 1)) (.par n!"GF")) (.rat 4 1)) (.inp n!"V8uuLR_1111"))),
  (n!"CGtilde", (.mul (.div (.div (.sqrt (.rat 2 1)) (.par n!"GF")) (.rat 4 1)) (.inp n!"Gtilde"))),
  (n!"CT_dumunue", (.mul (.div (.div (.div (.neg (.sqrt (.rat 2 1))) (.par n!"GF")) (.ckm 0 0)) (.rat 4 1)) (.conj (.inp n!"TnueduRR_1211")))),
  (n!"CSLR_cucc", (.mul (.div (.div (.div (.sqrt (.rat 2 1)) (.par n!"GF")) (.mul (.conj (.ckm 1 2)) (.ckm 0 2))) (.rat 4 1)) (.neg (.inp n!"V8uuLR_2212")))),
  (n!"CVRR_cudd", (.mul (.div (.div (.div (.sqrt (.rat 2 1)) (.par n!"GF")) (.mul (.conj (.ckm 1 2)) (.ckm 0 2))) (.rat 4 1)) (.sub (.inp n!"V1udRR_1211") (.div (.inp n!"V8udRR_1211") (.mul (.rat 2 1) (.rat 3 1)))))),
  (n!"CVLR_mutautaumu", (.mul (.div (.div (.sqrt (.rat 2 1)) (.par n!"GF")) (.rat 4 1)) (.inp n!"VeeLR_2332"))),
  (n!"CSp_cuee", (.mul (.div (.div (.div (.sqrt (.rat 2 1)) (.par n!"GF")) (.mul (.conj (.ckm 1 2)) (.ckm 0 2))) (.rat 4 1)) (.mul (.div (.div (.mul (.rat 16 1) (.mul .pi .pi)) (.mul (.sqrt (.mul (.mul (.rat 4 1) .pi) (.par n!"alpha_e"))) (.sqrt (.mul (.mul (.rat 4 1) .pi) (.par n!"alpha_e"))))) (.par n!"m_c")) (.add (.div (.inp n!"SeuRL_1112") (.rat 2 1)) (.div (.conj (.inp n!"SeuRR_1121")) (.rat 2 1)))))),
  (n!"CTRR_eebb", (.mul (.div (.div (.sqrt (.rat 2 1)) (.par n!"GF")) (.rat 4 1)) (.inp n!"TedRR_1133"))),
  (n!"CSp_bsemu", (.mul (.div (.div (.div (.sqrt (.rat 2 1)) (.par n!"GF")) (.mul (.ckm 2 2) (.conj (.ckm 2 1)))) (.rat 4 1)) (.mul (.div (.div (.mul (.rat 16 1) (.mul .pi .pi)) (.mul (.sqrt (.mul (.mul (.rat 4 1) .pi) (.par n!"alpha_e"))) (.sqrt (.mul (.mul (.rat 4 1) .pi) (.par n!"alpha_e"))))) (.par n!"m_b")) (.add (.div (.inp n!"SedRL_2123") (.rat 2 1)) (.div (.conj (.inp n!"SedRR_1232")) (.rat 2 1)))))),
  (n!"CVLL_bsbb", (.mul (.div (.div (.div (.sqrt (.rat 2 1)) (.par n!"GF")) (.mul (.ckm 2 2) (.conj (.ckm 2 1)))) (.rat 4 1)) (.inp n!"VddLL_2333"))),
  (n!"CSRL_eecc", (.mul (.div (.div (.sqrt (.rat 2 1)) (.par n!"GF")) (.rat 4 1)) (.inp n!"SeuRL_1122"))),
  (n!"C9p_sdmue", (.mul (.div (.div (.div (.sqrt (.rat 2 1)) (.par n!"GF")) (.mul (.ckm 2 1) (.conj (.ckm 2 0)))) (.rat 4 1)) (.mul (.div (.mul (.rat 16 1) (.mul .pi .pi)) (.mul (.sqrt (.mul (.mul (.rat 4 1) .pi) (.par n!"alpha_e"))) (.sqrt (.mul (.mul (.rat 4 1) .pi) (.par n!"alpha_e"))))) (.add (.div (.inp n!"VedLR_1212") (.rat 2 1)) (.div (.inp n!"VedRR_1212") (.rat 2 1)))))),
  (n!"CV8LR_bbdd", (.mul (.div (.div (.sqrt (.rat 2 1)) (.par n!"GF")) (.rat 4 1)) (.inp n!"V8ddLR_3311"))),
  (n!"CVLR_nuenutauee", (.mul (.div (.div (.sqrt (.rat 2 1)) (.par n!"GF")) (.rat 4 1)) (.inp n!"VnueLR_1311"))),
  (n!"CSLLt_bscc", (.mul (.div (.div (.div (.sqrt (.rat 2 1)) (.par n!"GF")) (.mul (.ckm 2 2) (.conj (.ckm 2 1)))) (.rat 4 1)) (.add (.add (.div (.neg (.conj (.inp n!"S1udduRR_2232"))) (.rat 2 1)) (.div (.conj (.inp n!"S8udduRR_2232")) (.mul (.rat 4 1) (.rat 3 1)))) (.div (.conj (.inp n!"S8udRR_2232")) (.rat 2 1))))),
  (n!"CVRR_eecc", (.mul (.div (.div (.sqrt (.rat 2 1)) (.par n!"GF")) (.rat 4 1)) (.inp n!"VeuRR_1122"))),
  (n!"CR_bdnutaunutau", (.mul (.div (.div (.div (.sqrt (.rat 2 1)) (.par n!"GF")) (.mul (.ckm 2 2) (.conj (.ckm 2 0)))) (.rat 4 1)) (.mul (.div (.mul (.rat 8 1) (.mul .pi .pi)) (.mul (.sqrt (.mul (.mul (.rat 4 1) .pi) (.par n!"alpha_e"))) (.sqrt (.mul (.mul (.rat 4 1) .pi) (.par n!"alpha_e"))))) (.inp n!"VnudLR_3313")))),
  (n!"C7_bb", (.mul (.div (.div (.sqrt (.rat 2 1)) (.par n!"GF")) (.rat 4 1)) (.mul (.div (.div (.mul (.rat 16 1) (.mul .pi .pi)) (.sqrt (.mul (.mul (.rat 4 1) .pi) (.par n!"alpha_e")))) (.par n!"m_b")) (.inp n!"dgamma_33")))),
  (n!"CTRR_mumuuu", (.mul (.div (.div (.sqrt (.rat 2 1)) (.par n!"GF")) (.rat 4 1)) (.inp n!"TeuRR_2211"))),
  (n!"CR_bsnuenutau", (.mul (.div (.div (.div (.sqrt (.rat 2 1)) (.par n!"GF")) (.mul (.ckm 2 2) (.conj (.ckm 2 1)))) (.rat 4 1)) (.mul (.div (.mul (.rat 8 1) (.mul .pi .pi)) (.mul (.sqrt (.mul (.mul (.rat 4 1) .pi) (.par n!"alpha_e"))) (.sqrt (.mul (.mul (.rat 4 1) .pi) (.par n!"alpha_e"))))) (.conj (.inp n!"VnudLR_1332"))))),
  (n!"CVLL_mumuuu", (.mul (.div (.div (.sqrt (.rat 2 1)) (.par n!"GF")) (.rat 4 1)) (.inp n!"VeuLL_2211"))),
  (n!"CVLR_nuenutaumumu", (.mul (.div (.div (.sqrt (.rat 2 1)) (.par n!"GF")) (.rat 4 1)) (.inp n!"VnueLR_1322")))]

def JMS_to_flavio_12 : List (ℕ × Sym) := [
  (n!"CV1LR_ussu", (.mul (.div (.div (.sqrt (.rat 2 1)) (.par n!"GF")) (.rat 4 1)) (.inp n!"V1udduLR_1221"))),
  (n!"C9_sdtaue", (.mul (.div (.div (.div (.sqrt (.rat 2 1)) (.par n!"GF")) (.mul (.ckm 2 1) (.conj (.ckm 2 0)))) (.rat 4 1)) (.mul (.div (.mul (.rat 16 1) (.mul .pi .pi)) (.mul (.sqrt (.mul (.mul (.rat 4 1) .pi) (.par n!"alpha_e"))) (.sqrt (.mul (.mul (.rat 4 1) .pi) (.par n!"alpha_e"))))) (.add (.div (.inp n!"VdeLR_1213") (.rat 2 1)) (.div (.inp n!"VedLL_1312") (.rat 2 1)))))),
  (n!"CT_bctaunutau", (.mul (.div (.div (.div (.neg (.sqrt (.rat 2 1))) (.par n!"GF")) (.ckm 1 2)) (.rat 4 1)) (.conj (.inp n!"TnueduRR_3332")))),
  (n!"CL_sdnuenue", (.mul (.div (.div (.div (.sqrt (.rat 2 1)) (.par n!"GF")) (.mul (.ckm 2 1) (.conj (.ckm 2 0)))) (.rat 4 1)) (.mul (.div (.mul (.rat 8 1) (.mul .pi .pi)) (.mul (.sqrt (.mul (.mul (.rat 4 1) .pi) (.par n!"alpha_e"))) (.sqrt (.mul (.mul (.rat 4 1) .pi) (.par n!"alpha_e"))))) (.inp n!"VnudLL_1112")))),
  (n!"CVR_dumunutau", (.mul (.div (.div (.div (.neg (.sqrt (.rat 2 1))) (.par n!"GF")) (.ckm 0 0)) (.rat 4 1)) (.conj (.inp n!"VnueduLR_3211")))),
  (n!"CSL_bcmunumu", (.mul (.div (.div (.div (.neg (.sqrt (.rat 2 1))) (.par n!"GF")) (.ckm 1 2)) (.rat 4 1)) (.conj (.inp n!"SnueduRR_2232")))),
  (n!"CTLL_sdbb", (.mul (.div (.div (.div (.sqrt (.rat 2 1)) (.par n!"GF")) (.mul (.ckm 2 1) (.conj (.ckm 2 0)))) (.rat 4 1)) (.div (.neg (.conj (.inp n!"S8ddRR_2331"))) (.rat 16 1)))),
  (n!"CS_bdetau", (.mul (.div (.div (.div (.sqrt (.rat 2 1)) (.par n!"GF")) (.mul (.ckm 2 2) (.conj (.ckm 2 0)))) (.rat 4 1)) (.mul (.div (.div (.mul (.rat 16 1) (.mul .pi .pi)) (.mul (.sqrt (.mul (.mul (.rat 4 1) .pi) (.par n!"alpha_e"))) (.sqrt (.mul (.mul (.rat 4 1) .pi) (.par n!"alpha_e"))))) (.par n!"m_b")) (.add (.div (.conj (.inp n!"SedRL_1331")) (.rat 2 1)) (.div (.inp n!"SedRR_3113") (.rat 2 1)))))),
  (n!"CTRR_cuuu", (.mul (.div (.div (.div (.sqrt (.rat 2 1)) (.par n!"GF")) (.mul (.conj (.ckm 1 2)) (.ckm 0 2))) (.rat 4 1)) (.div (.neg (.inp n!"S8uuRR_1112")) (.rat 16 1)))),
  (n!"CVL_dctaunumu", (.mul (.div (.div (.div (.neg (.sqrt (.rat 2 1))) (.par n!"GF")) (.ckm 1 0)) (.rat 4 1)) (.conj (.inp n!"VnueduLL_2312")))),
  (n!"CTLL_bsss", (.mul (.div (.div (.div (.sqrt (.rat 2 1)) (.par n!"GF")) (.mul (.ckm 2 2) (.conj (.ckm 2 1)))) (.rat 4 1)) (.div (.neg (.conj (.inp n!"S8ddRR_2232"))) (.rat 16 1)))),
  (n!"CTRR_bddd", (.mul (.div (.div (.div (.sqrt (.rat 2 1)) (.par n!"GF")) (.mul (.ckm 2 2) (.conj (.ckm 2 0)))) (.rat 4 1)) (.div (.neg (.inp n!"S8ddRR_1113")) (.rat 16 1)))),
  (n!"CV8LR_dbbd", (.mul (.div (.div (.sqrt (.rat 2 1)) (.par n!"GF")) (.rat 4 1)) (.inp n!"V8ddLR_1331"))),
  (n!"CVLL_sdcc", (.mul (.div (.div (.div (.sqrt (.rat 2 1)) (.par n!"GF")) (.mul (.ckm 2 1) (.conj (.ckm 2 0)))) (.rat 4 1)) (.sub (.inp n!"V1udLL_2212") (.div (.inp n!"V8udLL_2212") (.mul (.rat 2 1) (.rat 3 1)))))),
  (n!"CVLL_eeee", (.mul (.div (.div (.sqrt (.rat 2 1)) (.par n!"GF")) (.rat 4 1)) (.inp n!"VeeLL_1111"))),
  (n!"C9p_bdmumu", (.mul (.div (.div (.div (.sqrt (.rat 2 1)) (.par n!"GF")) (.mul (.ckm 2 2) (.conj (.ckm 2 0)))) (.rat 4 1)) (.mul (.div (.mul (.rat 16 1) (.mul .pi .pi)) (.mul (.sqrt (.mul (.mul (.rat 4 1) .pi) (.par n!"alpha_e"))) (.sqrt (.mul (.mul (.rat 4 1) .pi) (.par n!"alpha_e"))))) (.add (.div (.inp n!"VedLR_2213") (.rat 2 1)) (.div (.inp n!"VedRR_2213") (.rat 2 1)))))),
  (n!"CSRL_mumubb", (.mul (.div (.div (.sqrt (.rat 2 1)) (.par n!"GF")) (.rat 4 1)) (.inp n!"SedRL_2233"))),
  (n!"CVL_bumunue", (.mul (.div (.div (.div (.neg (.sqrt (.rat 2 1))) (.par n!"GF")) (.ckm 0 2)) (.rat 4 1)) (.conj (.inp n!"VnueduLL_1231")))),
  (n!"CVRR_dssd", (.mul (.div (.div (.sqrt (.rat 2 1)) (.par n!"GF")) (.rat 4 1)) (.inp n!"VddRR_1221"))),
  (n!"CSLR_cuuu", (.mul (.div (.div (.div (.sqrt (.rat 2 1)) (.par n!"GF")) (.mul (.conj (.ckm 1 2)) (.ckm 0 2))) (.rat 4 1)) (.neg (.inp n!"V8uuLR_1211")))),
  (n!"CVRR_tautauss", (.mul (.div (.div (.sqrt (.rat 2 1)) (.par n!"GF")) (.rat 4 1)) (.inp n!"VedRR_3322"))),
  (n!"CS8RR_uucc", (.mul (.div (.div (.sqrt (.rat 2 1)) (.par n!"GF")) (.rat 4 1)) (.inp n!"S8uuRR_1122"))),
  (n!"CSL_butaunutau", (.mul (.div (.div (.div (.neg (.sqrt (.rat 2 1))) (.par n!"GF")) (.ckm 0 2)) (.rat 4 1)) (.conj (.inp n!"SnueduRR_3331")))),
  (n!"CSLR_bddd", (.mul (.div (.div (.div (.sqrt (.rat 2 1)) (.par n!"GF")) (.mul (.ckm 2 2) (.conj (.ckm 2 0)))) (.rat 4 1)) (.neg (.inp n!"V8ddLR_1311")))),
  (n!"CVL_scmunue", (.mul (.div (.div (.div (.neg (.sqrt (.rat 2 1))) (.par n!"GF")) (.ckm 1 1)) (.rat 4 1)) (.conj (.inp n!"VnueduLL_1222")))),
  (n!"CVR_duenutau", (.mul (.div (.div (.div (.neg (.sqrt (.rat 2 1))) (.par n!"GF")) (.ckm 0 0)) (.rat 4 1)) (.conj (.inp n!"VnueduLR_3111")))),
  (n!"CSRL_sdss", (.mul (.div (.div (.div (.sqrt (.rat 2 1)) (.par n!"GF")) (.mul (.ckm 2 1) (.conj (.ckm 2 0)))) (.rat 4 1)) (.neg (.inp n!"V8ddLR_1222")))),
  (n!"CSRL_eeuu", (.mul (.div (.div (.sqrt (.rat 2 1)) (.par n!"GF")) (.rat 4 1)) (.inp n!"SeuRL_1111"))),
  (n!"CT_bumunue", (.mul (.div (.div (.div (.neg (.sqrt (.rat 2 1))) (.par n!"GF")) (.ckm 0 2)) (.rat 4 1)) (.conj (.inp n!"TnueduRR_1231")))),
  (n!"CSRLt_cudd", (.mul (.div (.div (.div (.sqrt (.rat 2 1)) (.par n!"GF")) (.mul (.conj (.ckm 1 2)) (.ckm 0 2))) (.rat 4 1)) (.add (.mul (.rat (-2) 1) (.inp n!"V1udduLR_1112")) (.div (.inp n!"V8udduLR_1112") (.rat 3 1))))),
  (n!"CT_bcmunutau", (.mul (.div (.div (.div (.neg (.sqrt (.rat 2 1))) (.par n!"GF")) (.ckm 1 2)) (.rat 4 1)) (.conj (.inp n!"TnueduRR_3232")))),
  (n!"CVRR_sdss", (.mul (.div (.div (.div (.sqrt (.rat 2 1)) (.par n!"GF")) (.mul (.ckm 2 1) (.conj (.ckm 2 0)))) (.rat 4 1)) (.inp n!"VddRR_1222"))),
  (n!"CSLLt_bsuu", (.mul (.div (.div (.div (.sqrt (.rat 2 1)) (.par n!"GF")) (.mul (.ckm 2 2) (.conj (.ckm 2 1)))) (.rat 4 1)) (.add (.add (.div (.neg (.conj (.inp n!"S1udduRR_1231"))) (.rat 2 1)) (.div (.conj (.inp n!"S8udduRR_1231")) (.mul (.rat 4 1) (.rat 3 1)))) (.div (.conj (.inp n!"S8udRR_1132")) (.rat 2 1))))),
  (n!"CSRL_tautaubb", (.mul (.div (.div (.sqrt (.rat 2 1)) (.par n!"GF")) (.rat 4 1)) (.inp n!"SedRL_3333"))),
  (n!"CVRR_eeuu", (.mul (.div (.div (.sqrt (.rat 2 1)) (.par n!"GF")) (.rat 4 1)) (.inp n!"VeuRR_1111"))),
  (n!"CT_scmunue", (.mul (.div (.div (.div (.neg (.sqrt (.rat 2 1))) (.par n!"GF")) (.ckm 1 1)) (.rat 4 1)) (.conj (.inp n!"TnueduRR_1222")))),
  (n!"C8p_bs", (.mul (.div (.div (.div (.sqrt (.rat 2 1)) (.par n!"GF")) (.mul (.ckm 2 2) (.conj (.ckm 2 1)))) (.rat 4 1)) (.mul (.div (.div (.mul (.rat 16 1) (.mul .pi .pi)) (.sqrt (.mul (.mul (.rat 4 1) .pi) (.par n!"alpha_s")))) (.par n!"m_b")) (.conj (.inp n!"dG_32"))))),
  (n!"CV1RR_ccss", (.mul (.div (.div (.sqrt (.rat 2 1)) (.par n!"GF")) (.rat 4 1)) (.inp n!"V1udRR_2222"))),
  (n!"C10p_bsemu", (.mul (.div (.div (.div (.sqrt (.rat 2 1)) (.par n!"GF")) (.mul (.ckm 2 2) (.conj (.ckm 2 1)))) (.rat 4 1)) (.mul (.div (.mul (.rat 16 1) (.mul .pi .pi)) (.mul (.sqrt (.mul (.mul (.rat 4 1) .pi) (.par n!"alpha_e"))) (.sqrt (.mul (.mul (.rat 4 1) .pi) (.par n!"alpha_e"))))) (.add (.div (.neg (.conj (.inp n!"VedLR_1232"))) (.rat 2 1)) (.div (.conj (.inp n!"VedRR_1232")) (.rat 2 1)))))),
  (n!"CVLL_nutaunutauss", (.mul (.div (.div (.sqrt (.rat 2 1)) (.par n!"GF")) (.rat 4 1)) (.inp n!"VnudLL_3322"))),
  (n!"C9_sdmutau", (.mul (.div (.div (.div (.sqrt (.rat 2 1)) (.par n!"GF")) (.mul (.ckm 2 1) (.conj (.ckm 2 0)))) (.rat 4 1)) (.mul (.div (.mul (.rat 16 1) (.mul .pi .pi)) (.mul (.sqrt (.mul (.mul (.rat 4 1) .pi) (.par n!"alpha_e"))) (.sqrt (.mul (.mul (.rat 4 1) .pi) (.par n!"alpha_e"))))) (.add (.div (.inp n!"VdeLR_1232") (.rat 2 1)) (.div (.conj (.inp n!"VedLL_2321")) (.rat 2 1)))))),
  (n!"CPp_bdetau", (.mul (.div (.div (.div (.sqrt (.rat 2 1)) (.par n!"GF")) (.mul (.ckm 2 2) (.conj (.ckm 2 0)))) (.rat 4 1)) (.mul (.div (.div (.mul (.rat 16 1) (.mul .pi .pi)) (.mul (.sqrt (.mul (.mul (.rat 4 1) .pi) (.par n!"alpha_e"))) (.sqrt (.mul (.mul (.rat 4 1) .pi) (.par n!"alpha_e"))))) (.par n!"m_b")) (.sub (.div (.inp n!"SedRL_3113") (.rat 2 1)) (.div (.conj (.inp n!"SedRR_1331")) (.rat 2 1)))))),
  (n!"CSLLt_cuss", (.mul (.div (.div (.div (.sqrt (.rat 2 1)) (.par n!"GF")) (.mul (.conj (.ckm 1 2)) (.ckm 0 2))) (.rat 4 1)) (.add (.add (.div (.neg (.conj (.inp n!"S1udduRR_2221"))) (.rat 2 1)) (.div (.conj (.inp n!"S8udduRR_2221")) (.mul (.rat 4 1) (.rat 3 1)))) (.div (.conj (.inp n!"S8udRR_2122")) (.rat 2 1))))),
  (n!"CP_bdtaue", (.mul (.div (.div (.div (.sqrt (.rat 2 1)) (.par n!"GF")) (.mul (.ckm 2 2) (.conj (.ckm 2 0)))) (.rat 4 1)) (.mul (.div (.div (.mul (.rat 16 1) (.mul .pi .pi)) (.mul (.sqrt (.mul (.mul (.rat 4 1) .pi) (.par n!"alpha_e"))) (.sqrt (.mul (.mul (.rat 4 1) .pi) (.par n!"alpha_e"))))) (.par n!"m_b")) (.add (.div (.neg (.conj (.inp n!"SedRL_3131"))) (.rat 2 1)) (.div (.inp n!"SedRR_1313") (.rat 2 1)))))),
  (n!"CSR_butaunumu", (.mul (.div (.div (.div (.neg (.sqrt (.rat 2 1))) (.par n!"GF")) (.ckm 0 2)) (.rat 4 1)) (.conj (.inp n!"SnueduRL_2331")))),
  (n!"CT_dcenutau", (.mul (.div (.div (.div (.neg (.sqrt (.rat 2 1))) (.par n!"GF")) (.ckm 1 0)) (.rat 4 1)) (.conj (.inp n!"TnueduRR_3112")))),
  (n!"CVRR_mumudd", (.mul (.div (.div (.sqrt (.rat 2 1)) (.par n!"GF")) (.rat 4 1)) (.inp n!"VedRR_2211"))),
  (n!"CV8RR_uubb", (.mul (.div (.div (.sqrt (.rat 2 1)) (.par n!"GF")) (.rat 4 1)) (.inp n!"V8udRR_1133"))),
  (n!"CVLR_nuenuetautau", (.mul (.div (.div (.sqrt (.rat 2 1)) (.par n!"GF")) (.rat 4 1)) (.inp n!"VnueLR_1133"))),
  (n!"CVLL_sduu", (.mul (.div (.div (.div (.sqrt (.rat 2 1)) (.par n!"GF")) (.mul (.ckm 2 1) (.conj (.ckm 2 0)))) (.rat 4 1)) (.sub (.inp n!"V1udLL_1112") (.div (.inp n!"V8udLL_1112") (.mul (.rat 2 1) (.rat 3 1))))))]

def JMS_to_flavio_13 : List (ℕ × Sym) := [
  (n!"CVLLt_sdcc", (.mul (.div (.div (.div (.sqrt (.rat 2 1)) (.par n!"GF")) (.mul (.ckm 2 1) (.conj (.ckm 2 0)))) (.rat 4 1)) (.div (.inp n!"V8udLL_2212") (.rat 2 1)))),
  (n!"CSR_dcenutau", (.mul (.div (.div (.div (.neg (.sqrt (.rat 2 1))) (.par n!"GF")) (.ckm 1 0)) (.rat 4 1)) (.conj (.inp n!"SnueduRL_3112")))),
  (n!"CP_bsmutau", (.mul (.div (.div (.div (.sqrt (.rat 2 1)) (.par n!"GF")) (.mul (.ckm 2 2) (.conj (.ckm 2 1)))) (.rat 4 1)) (.mul (.div (.div (.mul (.rat 16 1) (.mul .pi .pi)) (.mul (.sqrt (.mul (.mul (.rat 4 1) .pi) (.par n!"alpha_e"))) (.sqrt (.mul (.mul (.rat 4 1) .pi) (.par n!"alpha_e"))))) (.par n!"m_b")) (.add (.div (.neg (.conj (.inp n!"SedRL_2332"))) (.rat 2 1)) (.div (.inp n!"SedRR_3223") (.rat 2 1)))))),
  (n!"C10_bdetau", (.mul (.div (.div (.div (.sqrt (.rat 2 1)) (.par n!"GF")) (.mul (.ckm 2 2) (.conj (.ckm 2 0)))) (.rat 4 1)) (.mul (.div (.mul (.rat 16 1) (.mul .pi .pi)) (.mul (.sqrt (.mul (.mul (.rat 4 1) .pi) (.par n!"alpha_e"))) (.sqrt (.mul (.mul (.rat 4 1) .pi) (.par n!"alpha_e"))))) (.sub (.div (.inp n!"VdeLR_1331") (.rat 2 1)) (.div (.conj (.inp n!"VedLL_1331")) (.rat 2 1)))))),
  (n!"C9_cutautau", (.mul (.div (.div (.div (.sqrt (.rat 2 1)) (.par n!"GF")) (.mul (.conj (.ckm 1 2)) (.ckm 0 2))) (.rat 4 1)) (.mul (.div (.mul (.rat 16 1) (.mul .pi .pi)) (.mul (.sqrt (.mul (.mul (.rat 4 1) .pi) (.par n!"alpha_e"))) (.sqrt (.mul (.mul (.rat 4 1) .pi) (.par n!"alpha_e"))))) (.add (.div (.inp n!"VueLR_1233") (.rat 2 1)) (.div (.inp n!"VeuLL_3312") (.rat 2 1)))))),
  (n!"CS8RR_uuuu", (.mul (.div (.div (.sqrt (.rat 2 1)) (.par n!"GF")) (.rat 4 1)) (.inp n!"S8uuRR_1111"))),
  (n!"C9p_bdtaumu", (.mul (.div (.div (.div (.sqrt (.rat 2 1)) (.par n!"GF")) (.mul (.ckm 2 2) (.conj (.ckm 2 0)))) (.rat 4 1)) (.mul (.div (.mul (.rat 16 1) (.mul .pi .pi)) (.mul (.sqrt (.mul (.mul (.rat 4 1) .pi) (.par n!"alpha_e"))) (.sqrt (.mul (.mul (.rat 4 1) .pi) (.par n!"alpha_e"))))) (.add (.div (.inp n!"VedLR_2313") (.rat 2 1)) (.div (.inp n!"VedRR_2313") (.rat 2 1)))))),
  (n!"CT_suenutau", (.mul (.div (.div (.div (.neg (.sqrt (.rat 2 1))) (.par n!"GF")) (.ckm 0 1)) (.rat 4 1)) (.conj (.inp n!"TnueduRR_3121")))),
  (n!"CPp_sdee", (.mul (.div (.div (.div (.sqrt (.rat 2 1)) (.par n!"GF")) (.mul (.ckm 2 1) (.conj (.ckm 2 0)))) (.rat 4 1)) (.mul (.div (.div (.mul (.rat 16 1) (.mul .pi .pi)) (.mul (.sqrt (.mul (.mul (.rat 4 1) .pi) (.par n!"alpha_e"))) (.sqrt (.mul (.mul (.rat 4 1) .pi) (.par n!"alpha_e"))))) (.par n!"m_s")) (.sub (.div (.inp n!"SedRL_1112") (.rat 2 1)) (.div (.conj (.inp n!"SedRR_1121")) (.rat 2 1)))))),
  (n!"CVL_bcmunutau", (.mul (.div (.div (.div (.neg (.sqrt (.rat 2 1))) (.par n!"GF")) (.ckm 1 2)) (.rat 4 1)) (.conj (.inp n!"VnueduLL_3232")))),
  (n!"CVLL_bdss", (.mul (.div (.div (.div (.sqrt (.rat 2 1)) (.par n!"GF")) (.mul (.ckm 2 2) (.conj (.ckm 2 0)))) (.rat 4 1)) (.inp n!"VddLL_1322"))),
  (n!"CSR_suenutau", (.mul (.div (.div (.div (.neg (.sqrt (.rat 2 1))) (.par n!"GF")) (.ckm 0 1)) (.rat 4 1)) (.conj (.inp n!"SnueduRL_3121")))),
  (n!"CV8LL_uudd", (.mul (.div (.div (.sqrt (.rat 2 1)) (.par n!"GF")) (.rat 4 1)) (.inp n!"V8udLL_1111"))),
  (n!"CSR_dcenumu", (.mul (.div (.div (.div (.neg (.sqrt (.rat 2 1))) (.par n!"GF")) (.ckm 1 0)) (.rat 4 1)) (.conj (.inp n!"SnueduRL_2112")))),
  (n!"CV8LR_cddc", (.mul (.div (.div (.sqrt (.rat 2 1)) (.par n!"GF")) (.rat 4 1)) (.inp n!"V8udduLR_2112"))),
  (n!"C10_bsemu", (.mul (.div (.div (.div (.sqrt (.rat 2 1)) (.par n!"GF")) (.mul (.ckm 2 2) (.conj (.ckm 2 1)))) (.rat 4 1)) (.mul (.div (.mul (.rat 16 1) (.mul .pi .pi)) (.mul (.sqrt (.mul (.mul (.rat 4 1) .pi) (.par n!"alpha_e"))) (.sqrt (.mul (.mul (.rat 4 1) .pi) (.par n!"alpha_e"))))) (.sub (.div (.inp n!"VdeLR_2321") (.rat 2 1)) (.div (.conj (.inp n!"VedLL_1232")) (.rat 2 1)))))),
  (n!"CS1RR_ussu", (.mul (.div (.div (.sqrt (.rat 2 1)) (.par n!"GF")) (.rat 4 1)) (.inp n!"S1udduRR_1221"))),
  (n!"C9_bdtaue", (.mul (.div (.div (.div (.sqrt (.rat 2 1)) (.par n!"GF")) (.mul (.ckm 2 2) (.conj (.ckm 2 0)))) (.rat 4 1)) (.mul (.div (.mul (.rat 16 1) (.mul .pi .pi)) (.mul (.sqrt (.mul (.mul (.rat 4 1) .pi) (.par n!"alpha_e"))) (.sqrt (.mul (.mul (.rat 4 1) .pi) (.par n!"alpha_e"))))) (.add (.div (.inp n!"VdeLR_1313") (.rat 2 1)) (.div (.inp n!"VedLL_1313") (.rat 2 1)))))),
  (n!"CSRR_bsdd", (.mul (.div (.div (.div (.sqrt (.rat 2 1)) (.par n!"GF")) (.mul (.ckm 2 2) (.conj (.ckm 2 1)))) (.rat 4 1)) (.sub (.sub (.inp n!"S1ddRR_1123") (.div (.inp n!"S8ddRR_1321") (.rat 4 1))) (.div (.inp n!"S8ddRR_1123") (.mul (.rat 2 1) (.rat 3 1)))))),
  (n!"CPp_bdmutau", (.mul (.div (.div (.div (.sqrt (.rat 2 1)) (.par n!"GF")) (.mul (.ckm 2 2) (.conj (.ckm 2 0)))) (.rat 4 1)) (.mul (.div (.div (.mul (.rat 16 1) (.mul .pi .pi)) (.mul (.sqrt (.mul (.mul (.rat 4 1) .pi) (.par n!"alpha_e"))) (.sqrt (.mul (.mul (.rat 4 1) .pi) (.par n!"alpha_e"))))) (.par n!"m_b")) (.sub (.div (.inp n!"SedRL_3213") (.rat 2 1)) (.div (.conj (.inp n!"SedRR_2331")) (.rat 2 1)))))),
  (n!"CVLR_bbtautau", (.mul (.div (.div (.sqrt (.rat 2 1)) (.par n!"GF")) (.rat 4 1)) (.inp n!"VdeLR_3333"))),
  (n!"CVLLt_sduu", (.mul (.div (.div (.div (.sqrt (.rat 2 1)) (.par n!"GF")) (.mul (.ckm 2 1) (.conj (.ckm 2 0)))) (.rat 4 1)) (.div (.inp n!"V8udLL_1112") (.rat 2 1)))),
  (n!"CVR_dutaunumu", (.mul (.div (.div (.div (.neg (.sqrt (.rat 2 1))) (.par n!"GF")) (.ckm 0 0)) (.rat 4 1)) (.conj (.inp n!"VnueduLR_2311")))),
  (n!"CSRR_cubb", (.mul (.div (.div (.div (.sqrt (.rat 2 1)) (.par n!"GF")) (.mul (.conj (.ckm 1 2)) (.ckm 0 2))) (.rat 4 1)) (.sub (.sub (.inp n!"S1udRR_1233") (.div (.inp n!"S8udduRR_1332") (.rat 4 1))) (.div (.inp n!"S8udRR_1233") (.mul (.rat 2 1) (.rat 3 1)))))),
  (n!"CS8RR_dbbd", (.mul (.div (.div (.sqrt (.rat 2 1)) (.par n!"GF")) (.rat 4 1)) (.inp n!"S8ddRR_1331"))),
  (n!"CVLL_nuenuebb", (.mul (.div (.div (.sqrt (.rat 2 1)) (.par n!"GF")) (.rat 4 1)) (.inp n!"VnudLL_1133"))),
  (n!"CVLL_nuenutaucc", (.mul (.div (.div (.sqrt (.rat 2 1)) (.par n!"GF")) (.rat 4 1)) (.inp n!"VnuuLL_1322"))),
  (n!"CP_bstautau", (.mul (.div (.div (.div (.sqrt (.rat 2 1)) (.par n!"GF")) (.mul (.ckm 2 2) (.conj (.ckm 2 1)))) (.rat 4 1)) (.mul (.div (.div (.mul (.rat 16 1) (.mul .pi .pi)) (.mul (.sqrt (.mul (.mul (.rat 4 1) .pi) (.par n!"alpha_e"))) (.sqrt (.mul (.mul (.rat 4 1) .pi) (.par n!"alpha_e"))))) (.par n!"m_b")) (.add (.div (.neg (.conj (.inp n!"SedRL_3332"))) (.rat 2 1)) (.div (.inp n!"SedRR_3323") (.rat 2 1)))))),
  (n!"CV1LR_cbbc", (.mul (.div (.div (.sqrt (.rat 2 1)) (.par n!"GF")) (.rat 4 1)) (.inp n!"V1udduLR_2332"))),
  (n!"CVLL_numunutauee", (.mul (.div (.div (.sqrt (.rat 2 1)) (.par n!"GF")) (.rat 4 1)) (.inp n!"VnueLL_2311"))),
  (n!"CTRR_tautaubb", (.mul (.div (.div (.sqrt (.rat 2 1)) (.par n!"GF")) (.rat 4 1)) (.inp n!"TedRR_3333"))),
  (n!"CVR_sctaunue", (.mul (.div (.div (.div (.neg (.sqrt (.rat 2 1))) (.par n!"GF")) (.ckm 1 1)) (.rat 4 1)) (.conj (.inp n!"VnueduLR_1322")))),
  (n!"CVLLt_bdss", (.mul (.div (.div (.div (.sqrt (.rat 2 1)) (.par n!"GF")) (.mul (.ckm 2 2) (.conj (.ckm 2 0)))) (.rat 4 1)) (.inp n!"VddLL_1223"))),
  (n!"CVLR_nutaunutaudd", (.mul (.div (.div (.sqrt (.rat 2 1)) (.par n!"GF")) (.rat 4 1)) (.inp n!"VnudLR_3311"))),
  (n!"CSLL_cudd", (.mul (.div (.div (.div (.sqrt (.rat 2 1)) (.par n!"GF")) (.mul (.conj (.ckm 1 2)) (.ckm 0 2))) (.rat 4 1)) (.sub (.sub (.conj (.inp n!"S1udRR_2111")) (.div (.conj (.inp n!"S8udduRR_2111")) (.rat 4 1))) (.div (.conj (.inp n!"S8udRR_2111")) (.mul (.rat 2 1) (.rat 3 1)))))),
  (n!"CSp_sdtautau", (.mul (.div (.div (.div (.sqrt (.rat 2 1)) (.par n!"GF")) (.mul (.ckm 2 1) (.conj (.ckm 2 0)))) (.rat 4 1)) (.mul (.div (.div (.mul (.rat 16 1) (.mul .pi .pi)) (.mul (.sqrt (.mul (.mul (.rat 4 1) .pi) (.par n!"alpha_e"))) (.sqrt (.mul (.mul (.rat 4 1) .pi) (.par n!"alpha_e"))))) (.par n!"m_s")) (.add (.div (.inp n!"SedRL_3312") (.rat 2 1)) (.div (.conj (.inp n!"SedRR_3321")) (.rat 2 1)))))),
  (n!"CT_butaunue", (.mul (.div (.div (.div (.neg (.sqrt (.rat 2 1))) (.par n!"GF")) (.ckm 0 2)) (.rat 4 1)) (.conj (.inp n!"TnueduRR_1331")))),
  (n!"CT_bctaunumu", (.mul (.div (.div (.div (.neg (.sqrt (.rat 2 1))) (.par n!"GF")) (.ckm 1 2)) (.rat 4 1)) (.conj (.inp n!"TnueduRR_2332")))),
  (n!"CP_bsmumu", (.mul (.div (.div (.div (.sqrt (.rat 2 1)) (.par n!"GF")) (.mul (.ckm 2 2) (.conj (.ckm 2 1)))) (.rat 4 1)) (.mul (.div (.div (.mul (.rat 16 1) (.mul .pi .pi)) (.mul (.sqrt (.mul (.mul (.rat 4 1) .pi) (.par n!"alpha_e"))) (.sqrt (.mul (.mul (.rat 4 1) .pi) (.par n!"alpha_e"))))) (.par n!"m_b")) (.add (.div (.neg (.conj (.inp n!"SedRL_2232"))) (.rat 2 1)) (.div (.inp n!"SedRR_2223") (.rat 2 1)))))),
  (n!"C10_bdee", (.mul (.div (.div (.div (.sqrt (.rat 2 1)) (.par n!"GF")) (.mul (.ckm 2 2) (.conj (.ckm 2 0)))) (.rat 4 1)) (.mul (.div (.mul (.rat 16 1) (.mul .pi .pi)) (.mul (.sqrt (.mul (.mul (.rat 4 1) .pi) (.par n!"alpha_e"))) (.sqrt (.mul (.mul (.rat 4 1) .pi) (.par n!"alpha_e"))))) (.sub (.div (.inp n!"VdeLR_1311") (.rat 2 1)) (.div (.inp n!"VedLL_1113") (.rat 2 1)))))),
  (n!"CVLR_cudd", (.mul (.div (.div (.div (.sqrt (.rat 2 1)) (.par n!"GF")) (.mul (.conj (.ckm 1 2)) (.ckm 0 2))) (.rat 4 1)) (.sub (.inp n!"V1udLR_1211") (.div (.inp n!"V8udLR_1211") (.mul (.rat 2 1) (.rat 3 1)))))),
  (n!"CSR_bcenumu", (.mul (.div (.div (.div (.neg (.sqrt (.rat 2 1))) (.par n!"GF")) (.ckm 1 2)) (.rat 4 1)) (.conj (.inp n!"SnueduRL_2132")))),
  (n!"C9p_bdtautau", (.mul (.div (.div (.div (.sqrt (.rat 2 1)) (.par n!"GF")) (.mul (.ckm 2 2) (.conj (.ckm 2 0)))) (.rat 4 1)) (.mul (.div (.mul (.rat 16 1) (.mul .pi .pi)) (.mul (.sqrt (.mul (.mul (.rat 4 1) .pi) (.par n!"alpha_e"))) (.sqrt (.mul (.mul (.rat 4 1) .pi) (.par n!"alpha_e"))))) (.add (.div (.inp n!"VedLR_3313") (.rat 2 1)) (.div (.inp n!"VedRR_3313") (.rat 2 1)))))),
  (n!"CT_suenue", (.mul (.div (.div (.div (.neg (.sqrt (.rat 2 1))) (.par n!"GF")) (.ckm 0 1)) (.rat 4 1)) (.conj (.inp n!"TnueduRR_1121")))),
  (n!"CSR_butaunue", (.mul (.div (.div (.div (.neg (.sqrt (.rat 2 1))) (.par n!"GF")) (.ckm 0 2)) (.rat 4 1)) (.conj (.inp n!"SnueduRL_1331")))),
  (n!"CVRL_sdbb", (.mul (.div (.div (.div (.sqrt (.rat 2 1)) (.par n!"GF")) (.mul (.ckm 2 1) (.conj (.ckm 2 0)))) (.rat 4 1)) (.sub (.inp n!"V1ddLR_3312") (.div (.inp n!"V8ddLR_3312") (.mul (.rat 2 1) (.rat 3 1)))))),
  (n!"C9p_sdetau", (.mul (.div (.div (.div (.sqrt (.rat 2 1)) (.par n!"GF")) (.mul (.ckm 2 1) (.conj (.ckm 2 0)))) (.rat 4 1)) (.mul (.div (.mul (.rat 16 1) (.mul .pi .pi)) (.mul (.sqrt (.mul (.mul (.rat 4 1) .pi) (.par n!"alpha_e"))) (.sqrt (.mul (.mul (.rat 4 1) .pi) (.par n!"alpha_e"))))) (.add (.div (.conj (.inp n!"VedLR_1321")) (.rat 2 1)) (.div (.conj (.inp n!"VedRR_1321")) (.rat 2 1)))))),
  (n!"CVLR_eecc", (.mul (.div (.div (.sqrt (.rat 2 1)) (.par n!"GF")) (.rat 4 1)) (.inp n!"VeuLR_1122"))),
  (n!"CVLL_numunutautautau", (.mul (.div (.div (.sqrt (.rat 2 1)) (.par n!"GF")) (.rat 4 1)) (.inp n!"VnueLL_2333"))),
  (n!"CSL_duenutau", (.mul (.div (.div (.div (.neg (.sqrt (.rat 2 1))) (.par n!"GF")) (.ckm 0 0)) (.rat 4 1)) (.conj (.inp n!"SnueduRR_3111"))))]

def JMS_to_flavio_14 : List (ℕ × Sym) := [
  (n!"CVRL_bsss", (.mul (.div (.div (.div (.sqrt (.rat 2 1)) (.par n!"GF")) (.mul (.ckm 2 2) (.conj (.ckm 2 1)))) (.rat 4 1)) (.sub (.inp n!"V1ddLR_2223") (.div (.inp n!"V8ddLR_2223") (.mul (.rat 2 1) (.rat 3 1)))))),
  (n!"CSRR_bdcc", (.mul (.div (.div (.div (.sqrt (.rat 2 1)) (.par n!"GF")) (.mul (.ckm 2 2) (.conj (.ckm 2 0)))) (.rat 4 1)) (.sub (.sub (.inp n!"S1udRR_2213") (.div (.inp n!"S8udduRR_2312") (.rat 4 1))) (.div (.inp n!"S8udRR_2213") (.mul (.rat 2 1) (.rat 3 1)))))),
  (n!"CSLRt_sdcc", (.mul (.div (.div (.div (.sqrt (.rat 2 1)) (.par n!"GF")) (.mul (.ckm 2 1) (.conj (.ckm 2 0)))) (.rat 4 1)) (.add (.mul (.rat (-2) 1) (.inp n!"V1udduLR_2212")) (.div (.inp n!"V8udduLR_2212") (.rat 3 1))))),
  (n!"CS_sdtautau", (.mul (.div (.div (.div (.sqrt (.rat 2 1)) (.par n!"GF")) (.mul (.ckm 2 1) (.conj (.ckm 2 0)))) (.rat 4 1)) (.mul (.div (.div (.mul (.rat 16 1) (.mul .pi .pi)) (.mul (.sqrt (.mul (.mul (.rat 4 1) .pi) (.par n!"alpha_e"))) (.sqrt (.mul (.mul (.rat 4 1) .pi) (.par n!"alpha_e"))))) (.par n!"m_s")) (.add (.div (.conj (.inp n!"SedRL_3321")) (.rat 2 1)) (.div (.inp n!"SedRR_3312") (.rat 2 1)))))),
  (n!"C9_sdtaumu", (.mul (.div (.div (.div (.sqrt (.rat 2 1)) (.par n!"GF")) (.mul (.ckm 2 1) (.conj (.ckm 2 0)))) (.rat 4 1)) (.mul (.div (.mul (.rat 16 1) (.mul .pi .pi)) (.mul (.sqrt (.mul (.mul (.rat 4 1) .pi) (.par n!"alpha_e"))) (.sqrt (.mul (.mul (.rat 4 1) .pi) (.par n!"alpha_e"))))) (.add (.div (.inp n!"VdeLR_1223") (.rat 2 1)) (.div (.inp n!"VedLL_2312") (.rat 2 1)))))),
  (n!"CVLL_nuenutauuu", (.mul (.div (.div (.sqrt (.rat 2 1)) (.par n!"GF")) (.rat 4 1)) (.inp n!"VnuuLL_1311"))),
  (n!"C10p_bdee", (.mul (.div (.div (.div (.sqrt (.rat 2 1)) (.par n!"GF")) (.mul (.ckm 2 2) (.conj (.ckm 2 0)))) (.rat 4 1)) (.mul (.div (.mul (.rat 16 1) (.mul .pi .pi)) (.mul (.sqrt (.mul (.mul (.rat 4 1) .pi) (.par n!"alpha_e"))) (.sqrt (.mul (.mul (.rat 4 1) .pi) (.par n!"alpha_e"))))) (.add (.div (.neg (.inp n!"VedLR_1113")) (.rat 2 1)) (.div (.inp n!"VedRR_1113") (.rat 2 1)))))),
  (n!"CVLL_bdbd", (.inp n!"VddLL_1313")),
  (n!"CSRR_eess", (.mul (.div (.div (.sqrt (.rat 2 1)) (.par n!"GF")) (.rat 4 1)) (.inp n!"SedRR_1122"))),
  (n!"CSL_scmunutau", (.mul (.div (.div (.div (.neg (.sqrt (.rat 2 1))) (.par n!"GF")) (.ckm 1 1)) (.rat 4 1)) (.conj (.inp n!"SnueduRR_3222")))),
  (n!"CVLL_sdsd", (.inp n!"VddLL_1212")),
  (n!"CVLL_eetautau", (.mul (.div (.div (.sqrt (.rat 2 1)) (.par n!"GF")) (.rat 4 1)) (.inp n!"VeeLL_1133"))),
  (n!"CVR_bumunutau", (.mul (.div (.div (.div (.neg (.sqrt (.rat 2 1))) (.par n!"GF")) (.ckm 0 2)) (.rat 4 1)) (.conj (.inp n!"VnueduLR_3231")))),
  (n!"CP_bstaumu", (.mul (.div (.div (.div (.sqrt (.rat 2 1)) (.par n!"GF")) (.mul (.ckm 2 2) (.conj (.ckm 2 1)))) (.rat 4 1)) (.mul (.div (.div (.mul (.rat 16 1) (.mul .pi .pi)) (.mul (.sqrt (.mul (.mul (.rat 4 1) .pi) (.par n!"alpha_e"))) (.sqrt (.mul (.mul (.rat 4 1) .pi) (.par n!"alpha_e"))))) (.par n!"m_b")) (.add (.div (.neg (.conj (.inp n!"SedRL_3232"))) (.rat 2 1)) (.div (.inp n!"SedRR_2323") (.rat 2 1)))))),
  (n!"CV8RR_ccdd", (.mul (.div (.div (.sqrt (.rat 2 1)) (.par n!"GF")) (.rat 4 1)) (.inp n!"V8udRR_2211"))),
  (n!"CVR_dcmunumu", (.mul (.div (.div (.div (.neg (.sqrt (.rat 2 1))) (.par n!"GF")) (.ckm 1 0)) (.rat 4 1)) (.conj (.inp n!"VnueduLR_2212")))),
  (n!"CV1RR_uudd", (.mul (.div (.div (.sqrt (.rat 2 1)) (.par n!"GF")) (.rat 4 1)) (.inp n!"V1udRR_1111"))),
  (n!"CVL_butaunutau", (.mul (.div (.div (.div (.neg (.sqrt (.rat 2 1))) (.par n!"GF")) (.ckm 0 2)) (.rat 4 1)) (.conj (.inp n!"VnueduLL_3331")))),
  (n!"CS8RR_cddc", (.mul (.div (.div (.sqrt (.rat 2 1)) (.par n!"GF")) (.rat 4 1)) (.inp n!"S8udduRR_2112"))),
  (n!"CVL_bctaunumu", (.mul (.div (.div (.div (.neg (.sqrt (.rat 2 1))) (.par n!"GF")) (.ckm 1 2)) (.rat 4 1)) (.conj (.inp n!"VnueduLL_2332")))),
  (n!"C9_bsmumu", (.mul (.div (.div (.div (.sqrt (.rat 2 1)) (.par n!"GF")) (.mul (.ckm 2 2) (.conj (.ckm 2 1)))) (.rat 4 1)) (.mul (.div (.mul (.rat 16 1) (.mul .pi .pi)) (.mul (.sqrt (.mul (.mul (.rat 4 1) .pi) (.par n!"alpha_e"))) (.sqrt (.mul (.mul (.rat 4 1) .pi) (.par n!"alpha_e"))))) (.add (.div (.inp n!"VdeLR_2322") (.rat 2 1)) (.div (.inp n!"VedLL_2223") (.rat 2 1)))))),
  (n!"CVRRt_bsdd", (.mul (.div (.div (.div (.sqrt (.rat 2 1)) (.par n!"GF")) (.mul (.ckm 2 2) (.conj (.ckm 2 1)))) (.rat 4 1)) (.conj (.inp n!"VddRR_1231")))),
  (n!"CSp_sdtaue", (.mul (.div (.div (.div (.sqrt (.rat 2 1)) (.par n!"GF")) (.mul (.ckm 2 1) (.conj (.ckm 2 0)))) (.rat 4 1)) (.mul (.div (.div (.mul (.rat 16 1) (.mul .pi .pi)) (.mul (.sqrt (.mul (.mul (.rat 4 1) .pi) (.par n!"alpha_e"))) (.sqrt (.mul (.mul (.rat 4 1) .pi) (.par n!"alpha_e"))))) (.par n!"m_s")) (.add (.div (.inp n!"SedRL_1312") (.rat 2 1)) (.div (.conj (.inp n!"SedRR_3121")) (.rat 2 1)))))),
  (n!"CL_bdnuenumu", (.mul (.div (.div (.div (.sqrt (.rat 2 1)) (.par n!"GF")) (.mul (.ckm 2 2) (.conj (.ckm 2 0)))) (.rat 4 1)) (.mul (.div (.mul (.rat 8 1) (.mul .pi .pi)) (.mul (.sqrt (.mul (.mul (.rat 4 1) .pi) (.par n!"alpha_e"))) (.sqrt (.mul (.mul (.rat 4 1) .pi) (.par n!"alpha_e"))))) (.conj (.inp n!"VnudLL_1231"))))),
  (n!"CVLR_uumumu", (.mul (.div (.div (.sqrt (.rat 2 1)) (.par n!"GF")) (.rat 4 1)) (.inp n!"VueLR_1122"))),
  (n!"CVLL_uccu", (.mul (.div (.div (.sqrt (.rat 2 1)) (.par n!"GF")) (.rat 4 1)) (.inp n!"VuuLL_1221"))),
  (n!"CSLL_sdss", (.mul (.div (.div (.div (.sqrt (.rat 2 1)) (.par n!"GF")) (.mul (.ckm 2 1) (.conj (.ckm 2 0)))) (.rat 4 1)) (.sub (.sub (.conj (.inp n!"S1ddRR_2122")) (.div (.conj (.inp n!"S8ddRR_2122")) (.rat 4 1))) (.div (.div (.conj (.inp n!"S8ddRR_2122")) (.rat 2 1)) (.rat 3 1))))),
  (n!"CVLRt_sdbb", (.mul (.div (.div (.div (.sqrt (.rat 2 1)) (.par n!"GF")) (.mul (.ckm 2 1) (.conj (.ckm 2 0)))) (.rat 4 1)) (.div (.inp n!"V8ddLR_1233") (.rat 2 1)))),
  (n!"CVLR_numunumutautau", (.mul (.div (.div (.sqrt (.rat 2 1)) (.par n!"GF")) (.rat 4 1)) (.inp n!"VnueLR_2233"))),
  (n!"CVL_dctaunue", (.mul (.div (.div (.div (.neg (.sqrt (.rat 2 1))) (.par n!"GF")) (.ckm 1 0)) (.rat 4 1)) (.conj (.inp n!"VnueduLL_1312")))),
  (n!"CSL_dctaunutau", (.mul (.div (.div (.div (.neg (.sqrt (.rat 2 1))) (.par n!"GF")) (.ckm 1 0)) (.rat 4 1)) (.conj (.inp n!"SnueduRR_3312")))),
  (n!"CVLR_sdss", (.mul (.div (.div (.div (.sqrt (.rat 2 1)) (.par n!"GF")) (.mul (.ckm 2 1) (.conj (.ckm 2 0)))) (.rat 4 1)) (.sub (.inp n!"V1ddLR_1222") (.div (.inp n!"V8ddLR_1222") (.mul (.rat 2 1) (.rat 3 1)))))),
  (n!"CVLR_eeuu", (.mul (.div (.div (.sqrt (.rat 2 1)) (.par n!"GF")) (.rat 4 1)) (.inp n!"VeuLR_1111"))),
  (n!"CVRRt_cubb", (.mul (.div (.div (.div (.sqrt (.rat 2 1)) (.par n!"GF")) (.mul (.conj (.ckm 1 2)) (.ckm 0 2))) (.rat 4 1)) (.div (.inp n!"V8udRR_1233") (.rat 2 1)))),
  (n!"CSRR_bduu", (.mul (.div (.div (.div (.sqrt (.rat 2 1)) (.par n!"GF")) (.mul (.ckm 2 2) (.conj (.ckm 2 0)))) (.rat 4 1)) (.sub (.sub (.inp n!"S1udRR_1113") (.div (.inp n!"S8udduRR_1311") (.rat 4 1))) (.div (.inp n!"S8udRR_1113") (.mul (.rat 2 1) (.rat 3 1)))))),
  (n!"CSLRt_sduu", (.mul (.div (.div (.div (.sqrt (.rat 2 1)) (.par n!"GF")) (.mul (.ckm 2 1) (.conj (.ckm 2 0)))) (.rat 4 1)) (.add (.mul (.rat (-2) 1) (.inp n!"V1udduLR_1211")) (.div (.inp n!"V8udduLR_1211") (.rat 3 1))))),
  (n!"CVR_sumunumu", (.mul (.div (.div (.div (.neg (.sqrt (.rat 2 1))) (.par n!"GF")) (.ckm 0 1)) (.rat 4 1)) (.conj (.inp n!"VnueduLR_2221")))),
  (n!"CV1LR_ccss", (.mul (.div (.div (.sqrt (.rat 2 1)) (.par n!"GF")) (.rat 4 1)) (.inp n!"V1udLR_2222"))),
  (n!"CVR_bcenutau", (.mul (.div (.div (.div (.neg (.sqrt (.rat 2 1))) (.par n!"GF")) (.ckm 1 2)) (.rat 4 1)) (.conj (.inp n!"VnueduLR_3132")))),
  (n!"CS1RR_cbbc", (.mul (.div (.div (.sqrt (.rat 2 1)) (.par n!"GF")) (.rat 4 1)) (.inp n!"S1udduRR_2332"))),
  (n!"CSp_bdemu", (.mul (.div (.div (.div (.sqrt (.rat 2 1)) (.par n!"GF")) (.mul (.ckm 2 2) (.conj (.ckm 2 0)))) (.rat 4 1)) (.mul (.div (.div (.mul (.rat 16 1) (.mul .pi .pi)) (.mul (.sqrt (.mul (.mul (.rat 4 1) .pi) (.par n!"alpha_e"))) (.sqrt (.mul (.mul (.rat 4 1) .pi) (.par n!"alpha_e"))))) (.par n!"m_b")) (.add (.div (.inp n!"SedRL_2113") (.rat 2 1)) (.div (.conj (.inp n!"SedRR_1231")) (.rat 2 1)))))),
  (n!"CL_sdnumunutau", (.mul (.div (.div (.div (.sqrt (.rat 2 1)) (.par n!"GF")) (.mul (.ckm 2 1) (.conj (.ckm 2 0)))) (.rat 4 1)) (.mul (.div (.mul (.rat 8 1) (.mul .pi .pi)) (.mul (.sqrt (.mul (.mul (.rat 4 1) .pi) (.par n!"alpha_e"))) (.sqrt (.mul (.mul (.rat 4 1) .pi) (.par n!"alpha_e"))))) (.conj (.inp n!"VnudLL_2321"))))),
  (n!"CVL_sutaunue", (.mul (.div (.div (.div (.neg (.sqrt (.rat 2 1))) (.par n!"GF")) (.ckm 0 1)) (.rat 4 1)) (.conj (.inp n!"VnueduLL_1321")))),
  (n!"CP_cutautau", (.mul (.div (.div (.div (.sqrt (.rat 2 1)) (.par n!"GF")) (.mul (.conj (.ckm 1 2)) (.ckm 0 2))) (.rat 4 1)) (.mul (.div (.div (.mul (.rat 16 1) (.mul .pi .pi)) (.mul (.sqrt (.mul (.mul (.rat 4 1) .pi) (.par n!"alpha_e"))) (.sqrt (.mul (.mul (.rat 4 1) .pi) (.par n!"alpha_e"))))) (.par n!"m_c")) (.add (.div (.neg (.conj (.inp n!"SeuRL_3321"))) (.rat 2 1)) (.div (.inp n!"SeuRR_3312") (.rat 2 1)))))),
  (n!"CPp_bdtaumu", (.mul (.div (.div (.div (.sqrt (.rat 2 1)) (.par n!"GF")) (.mul (.ckm 2 2) (.conj (.ckm 2 0)))) (.rat 4 1)) (.mul (.div (.div (.mul (.rat 16 1) (.mul .pi .pi)) (.mul (.sqrt (.mul (.mul (.rat 4 1) .pi) (.par n!"alpha_e"))) (.sqrt (.mul (.mul (.rat 4 1) .pi) (.par n!"alpha_e"))))) (.par n!"m_b")) (.sub (.div (.inp n!"SedRL_2313") (.rat 2 1)) (.div (.conj (.inp n!"SedRR_3231")) (.rat 2 1)))))),
  (n!"C9_sdemu", (.mul (.div (.div (.div (.sqrt (.rat 2 1)) (.par n!"GF")) (.mul (.ckm 2 1) (.conj (.ckm 2 0)))) (.rat 4 1)) (.mul (.div (.mul (.rat 16 1) (.mul .pi .pi)) (.mul (.sqrt (.mul (.mul (.rat 4 1) .pi) (.par n!"alpha_e"))) (.sqrt (.mul (.mul (.rat 4 1) .pi) (.par n!"alpha_e"))))) (.add (.div (.inp n!"VdeLR_1221") (.rat 2 1)) (.div (.conj (.inp n!"VedLL_1221")) (.rat 2 1)))))),
  (n!"CV1LR_ddbb", (.mul (.div (.div (.sqrt (.rat 2 1)) (.par n!"GF")) (.rat 4 1)) (.inp n!"V1ddLR_1133"))),
  (n!"CVR_duenumu", (.mul (.div (.div (.div (.neg (.sqrt (.rat 2 1))) (.par n!"GF")) (.ckm 0 0)) (.rat 4 1)) (.conj (.inp n!"VnueduLR_2111")))),
  (n!"CSR_sumunue", (.mul (.div (.div (.div (.neg (.sqrt (.rat 2 1))) (.par n!"GF")) (.ckm 0 1)) (.rat 4 1)) (.conj (.inp n!"SnueduRL_1221")))),
  (n!"CV1LR_ssbb", (.mul (.div (.div (.sqrt (.rat 2 1)) (.par n!"GF")) (.rat 4 1)) (.inp n!"V1ddLR_2233")))]

def JMS_to_flavio_15 : List (ℕ × Sym) := [
  (n!"CV8LR_uubb", (.mul (.div (.div (.sqrt (.rat 2 1)) (.par n!"GF")) (.rat 4 1)) (.inp n!"V8udLR_1133"))),
  (n!"CSLRt_bdss", (.mul (.div (.div (.div (.sqrt (.rat 2 1)) (.par n!"GF")) (.mul (.ckm 2 2) (.conj (.ckm 2 0)))) (.rat 4 1)) (.add (.mul (.rat (-2) 1) (.inp n!"V1ddLR_2312")) (.div (.inp n!"V8ddLR_2312") (.rat 3 1))))),
  (n!"CVLR_nuenumudd", (.mul (.div (.div (.sqrt (.rat 2 1)) (.par n!"GF")) (.rat 4 1)) (.inp n!"VnudLR_1211"))),
  (n!"CT_scmunumu", (.mul (.div (.div (.div (.neg (.sqrt (.rat 2 1))) (.par n!"GF")) (.ckm 1 1)) (.rat 4 1)) (.conj (.inp n!"TnueduRR_2222")))),
  (n!"C9_sdee", (.mul (.div (.div (.div (.sqrt (.rat 2 1)) (.par n!"GF")) (.mul (.ckm 2 1) (.conj (.ckm 2 0)))) (.rat 4 1)) (.mul (.div (.mul (.rat 16 1) (.mul .pi .pi)) (.mul (.sqrt (.mul (.mul (.rat 4 1) .pi) (.par n!"alpha_e"))) (.sqrt (.mul (.mul (.rat 4 1) .pi) (.par n!"alpha_e"))))) (.add (.div (.inp n!"VdeLR_1211") (.rat 2 1)) (.div (.inp n!"VedLL_1112") (.rat 2 1)))))),
  (n!"CT_butaunutau", (.mul (.div (.div (.div (.neg (.sqrt (.rat 2 1))) (.par n!"GF")) (.ckm 0 2)) (.rat 4 1)) (.conj (.inp n!"TnueduRR_3331")))),
  (n!"CT_scenue", (.mul (.div (.div (.div (.neg (.sqrt (.rat 2 1))) (.par n!"GF")) (.ckm 1 1)) (.rat 4 1)) (.conj (.inp n!"TnueduRR_1122")))),
  (n!"CTLLt_sdcc", (.mul (.div (.div (.div (.sqrt (.rat 2 1)) (.par n!"GF")) (.mul (.ckm 2 1) (.conj (.ckm 2 0)))) (.rat 4 1)) (.add (.div (.neg (.conj (.inp n!"S1udduRR_2122"))) (.rat 8 1)) (.div (.div (.conj (.inp n!"S8udduRR_2122")) (.rat 16 1)) (.rat 3 1))))),
  (n!"CVLR_bbmumu", (.mul (.div (.div (.sqrt (.rat 2 1)) (.par n!"GF")) (.rat 4 1)) (.inp n!"VdeLR_3322"))),
  (n!"CR_sdnuenutau", (.mul (.div (.div (.div (.sqrt (.rat 2 1)) (.par n!"GF")) (.mul (.ckm 2 1) (.conj (.ckm 2 0)))) (.rat 4 1)) (.mul (.div (.mul (.rat 8 1) (.mul .pi .pi)) (.mul (.sqrt (.mul (.mul (.rat 4 1) .pi) (.par n!"alpha_e"))) (.sqrt (.mul (.mul (.rat 4 1) .pi) (.par n!"alpha_e"))))) (.conj (.inp n!"VnudLR_1321"))))),
  (n!"CSp_sdmutau", (.mul (.div (.div (.div (.sqrt (.rat 2 1)) (.par n!"GF")) (.mul (.ckm 2 1) (.conj (.ckm 2 0)))) (.rat 4 1)) (.mul (.div (.div (.mul (.rat 16 1) (.mul .pi .pi)) (.mul (.sqrt (.mul (.mul (.rat 4 1) .pi) (.par n!"alpha_e"))) (.sqrt (.mul (.mul (.rat 4 1) .pi) (.par n!"alpha_e"))))) (.par n!"m_s")) (.add (.div (.inp n!"SedRL_3212") (.rat 2 1)) (.div (.conj (.inp n!"SedRR_2321")) (.rat 2 1)))))),
  (n!"CSR_scmunumu", (.mul (.div (.div (.div (.neg (.sqrt (.rat 2 1))) (.par n!"GF")) (.ckm 1 1)) (.rat 4 1)) (.conj (.inp n!"SnueduRL_2222")))),
  (n!"CVLL_numunumudd", (.mul (.div (.div (.sqrt (.rat 2 1)) (.par n!"GF")) (.rat 4 1)) (.inp n!"VnudLL_2211"))),
  (n!"CT_buenue", (.mul (.div (.div (.div (.neg (.sqrt (.rat 2 1))) (.par n!"GF")) (.ckm 0 2)) (.rat 4 1)) (.conj (.inp n!"TnueduRR_1131")))),
  (n!"C9p_bdetau", (.mul (.div (.div (.div (.sqrt (.rat 2 1)) (.par n!"GF")) (.mul (.ckm 2 2) (.conj (.ckm 2 0)))) (.rat 4 1)) (.mul (.div (.mul (.rat 16 1) (.mul .pi .pi)) (.mul (.sqrt (.mul (.mul (.rat 4 1) .pi) (.par n!"alpha_e"))) (.sqrt (.mul (.mul (.rat 4 1) .pi) (.par n!"alpha_e"))))) (.add (.div (.conj (.inp n!"VedLR_1331")) (.rat 2 1)) (.div (.conj (.inp n!"VedRR_1331")) (.rat 2 1)))))),
  (n!"CTRR_mumubb", (.mul (.div (.div (.sqrt (.rat 2 1)) (.par n!"GF")) (.rat 4 1)) (.inp n!"TedRR_2233"))),
  (n!"CVLL_nuenumuss", (.mul (.div (.div (.sqrt (.rat 2 1)) (.par n!"GF")) (.rat 4 1)) (.inp n!"VnudLL_1222"))),
  (n!"CVLL_mumubb", (.mul (.div (.div (.sqrt (.rat 2 1)) (.par n!"GF")) (.rat 4 1)) (.inp n!"VedLL_2233"))),
  (n!"CVRRt_bdcc", (.mul (.div (.div (.div (.sqrt (.rat 2 1)) (.par n!"GF")) (.mul (.ckm 2 2) (.conj (.ckm 2 0)))) (.rat 4 1)) (.div (.inp n!"V8udRR_2213") (.rat 2 1)))),
  (n!"CTRR_bsdd", (.mul (.div (.div (.div (.sqrt (.rat 2 1)) (.par n!"GF")) (.mul (.ckm 2 2) (.conj (.ckm 2 1)))) (.rat 4 1)) (.div (.neg (.inp n!"S8ddRR_1321")) (.rat 16 1)))),
  (n!"CSL_sctaunue", (.mul (.div (.div (.div (.neg (.sqrt (.rat 2 1))) (.par n!"GF")) (.ckm 1 1)) (.rat 4 1)) (.conj (.inp n!"SnueduRR_1322")))),
  (n!"CS_bsemu", (.mul (.div (.div (.div (.sqrt (.rat 2 1)) (.par n!"GF")) (.mul (.ckm 2 2) (.conj (.ckm 2 1)))) (.rat 4 1)) (.mul (.div (.div (.mul (.rat 16 1) (.mul .pi .pi)) (.mul (.sqrt (.mul (.mul (.rat 4 1) .pi) (.par n!"alpha_e"))) (.sqrt (.mul (.mul (.rat 4 1) .pi) (.par n!"alpha_e"))))) (.par n!"m_b")) (.add (.div (.conj (.inp n!"SedRL_1232")) (.rat 2 1)) (.div (.inp n!"SedRR_2123") (.rat 2 1)))))),
  (n!"C10p_cumumu", (.mul (.div (.div (.div (.sqrt (.rat 2 1)) (.par n!"GF")) (.mul (.conj (.ckm 1 2)) (.ckm 0 2))) (.rat 4 1)) (.mul (.div (.mul (.rat 16 1) (.mul .pi .pi)) (.mul (.sqrt (.mul (.mul (.rat 4 1) .pi) (.par n!"alpha_e"))) (.sqrt (.mul (.mul (.rat 4 1) .pi) (.par n!"alpha_e"))))) (.add (.div (.neg (.inp n!"VeuLR_2212")) (.rat 2 1)) (.div (.inp n!"VeuRR_2212") (.rat 2 1)))))),
  (n!"C10p_bdmutau", (.mul (.div (.div (.div (.sqrt (.rat 2 1)) (.par n!"GF")) (.mul (.ckm 2 2) (.conj (.ckm 2 0)))) (.rat 4 1)) (.mul (.div (.mul (.rat 16 1) (.mul .pi .pi)) (.mul (.sqrt (.mul (.mul (.rat 4 1) .pi) (.par n!"alpha_e"))) (.sqrt (.mul (.mul (.rat 4 1) .pi) (.par n!"alpha_e"))))) (.add (.div (.neg (.conj (.inp n!"VedLR_2331"))) (.rat 2 1)) (.div (.conj (.inp n!"VedRR_2331")) (.rat 2 1)))))),
  (n!"CVLR_nuenutautautau", (.mul (.div (.div (.sqrt (.rat 2 1)) (.par n!"GF")) (.rat 4 1)) (.inp n!"VnueLR_1333"))),
  (n!"CSR_bctaunutau", (.mul (.div (.div (.div (.neg (.sqrt (.rat 2 1))) (.par n!"GF")) (.ckm 1 2)) (.rat 4 1)) (.conj (.inp n!"SnueduRL_3332")))),
  (n!"CVLR_etautaue", (.mul (.div (.div (.sqrt (.rat 2 1)) (.par n!"GF")) (.rat 4 1)) (.inp n!"VeeLR_1331"))),
  (n!"CSL_dumunue", (.mul (.div (.div (.div (.neg (.sqrt (.rat 2 1))) (.par n!"GF")) (.ckm 0 0)) (.rat 4 1)) (.conj (.inp n!"SnueduRR_1211")))),
  (n!"CSR_sumunutau", (.mul (.div (.div (.div (.neg (.sqrt (.rat 2 1))) (.par n!"GF")) (.ckm 0 1)) (.rat 4 1)) (.conj (.inp n!"SnueduRL_3221")))),
  (n!"CSLR_bsdd", (.mul (.div (.div (.div (.sqrt (.rat 2 1)) (.par n!"GF")) (.mul (.ckm 2 2) (.conj (.ckm 2 1)))) (.rat 4 1)) (.neg (.inp n!"V8ddLR_1321")))),
  (n!"CTRR_cubb", (.mul (.div (.div (.div (.sqrt (.rat 2 1)) (.par n!"GF")) (.mul (.conj (.ckm 1 2)) (.ckm 0 2))) (.rat 4 1)) (.div (.neg (.inp n!"S8udduRR_1332")) (.rat 16 1)))),
  (n!"CV8LR_sbbs", (.mul (.div (.div (.sqrt (.rat 2 1)) (.par n!"GF")) (.rat 4 1)) (.inp n!"V8ddLR_2332"))),
  (n!"CVLR_nutaunutautautau", (.mul (.div (.div (.sqrt (.rat 2 1)) (.par n!"GF")) (.rat 4 1)) (.inp n!"VnueLR_3333"))),
  (n!"CVLR_tautaucc", (.mul (.div (.div (.sqrt (.rat 2 1)) (.par n!"GF")) (.rat 4 1)) (.inp n!"VeuLR_3322"))),
  (n!"C9_bsmutau", (.mul (.div (.div (.div (.sqrt (.rat 2 1)) (.par n!"GF")) (.mul (.ckm 2 2) (.conj (.ckm 2 1)))) (.rat 4 1)) (.mul (.div (.mul (.rat 16 1) (.mul .pi .pi)) (.mul (.sqrt (.mul (.mul (.rat 4 1) .pi) (.par n!"alpha_e"))) (.sqrt (.mul (.mul (.rat 4 1) .pi) (.par n!"alpha_e"))))) (.add (.div (.inp n!"VdeLR_2332") (.rat 2 1)) (.div (.conj (.inp n!"VedLL_2332")) (.rat 2 1)))))),
  (n!"CVRR_bsbs", (.inp n!"VddRR_2323")),
  (n!"CSRR_eetautau", (.mul (.div (.div (.sqrt (.rat 2 1)) (.par n!"GF")) (.rat 4 1)) (.inp n!"SeeRR_1133"))),
  (n!"CSRL_cucc", (.mul (.div (.div (.div (.sqrt (.rat 2 1)) (.par n!"GF")) (.mul (.conj (.ckm 1 2)) (.ckm 0 2))) (.rat 4 1)) (.neg (.inp n!"V8uuLR_1222")))),
  (n!"CVRR_ddss", (.mul (.div (.div (.sqrt (.rat 2 1)) (.par n!"GF")) (.rat 4 1)) (.inp n!"VddRR_1122"))),
  (n!"CSRR_mumutautau", (.mul (.div (.div (.sqrt (.rat 2 1)) (.par n!"GF")) (.rat 4 1)) (.inp n!"SeeRR_2233"))),
  (n!"CVRR_ssss", (.mul (.div (.div (.sqrt (.rat 2 1)) (.par n!"GF")) (.rat 4 1)) (.inp n!"VddRR_2222"))),
  (n!"C10_bstautau", (.mul (.div (.div (.div (.sqrt (.rat 2 1)) (.par n!"GF")) (.mul (.ckm 2 2) (.conj (.ckm 2 1)))) (.rat 4 1)) (.mul (.div (.mul (.rat 16 1) (.mul .pi .pi)) (.mul (.sqrt (.mul (.mul (.rat 4 1) .pi) (.par n!"alpha_e"))) (.sqrt (.mul (.mul (.rat 4 1) .pi) (.par n!"alpha_e"))))) (.sub (.div (.inp n!"VdeLR_2333") (.rat 2 1)) (.div (.inp n!"VedLL_3323") (.rat 2 1)))))),
  (n!"CSL_sctaunumu", (.mul (.div (.div (.div (.neg (.sqrt (.rat 2 1))) (.par n!"GF")) (.ckm 1 1)) (.rat 4 1)) (.conj (.inp n!"SnueduRR_2322")))),
  (n!"CSLR_cubb", (.mul (.div (.div (.div (.sqrt (.rat 2 1)) (.par n!"GF")) (.mul (.conj (.ckm 1 2)) (.ckm 0 2))) (.rat 4 1)) (.neg (.conj (.inp n!"V8udduLR_2331"))))),
  (n!"CVRR_cucc", (.mul (.div (.div (.div (.sqrt (.rat 2 1)) (.par n!"GF")) (.mul (.conj (.ckm 1 2)) (.ckm 0 2))) (.rat 4 1)) (.inp n!"VuuRR_1222"))),
  (n!"CVL_dumunumu", (.mul (.div (.div (.div (.neg (.sqrt (.rat 2 1))) (.par n!"GF")) (.ckm 0 0)) (.rat 4 1)) (.conj (.inp n!"VnueduLL_2211")))),
  (n!"C10p_bdemu", (.mul (.div (.div (.div (.sqrt (.rat 2 1)) (.par n!"GF")) (.mul (.ckm 2 2) (.conj (.ckm 2 0)))) (.rat 4 1)) (.mul (.div (.mul (.rat 16 1) (.mul .pi .pi)) (.mul (.sqrt (.mul (.mul (.rat 4 1) .pi) (.par n!"alpha_e"))) (.sqrt (.mul (.mul (.rat 4 1) .pi) (.par n!"alpha_e"))))) (.add (.div (.neg (.conj (.inp n!"VedLR_1231"))) (.rat 2 1)) (.div (.conj (.inp n!"VedRR_1231")) (.rat 2 1)))))),
  (n!"CVR_suenue", (.mul (.div (.div (.div (.neg (.sqrt (.rat 2 1))) (.par n!"GF")) (.ckm 0 1)) (.rat 4 1)) (.conj (.inp n!"VnueduLR_1121")))),
  (n!"CVR_buenumu", (.mul (.div (.div (.div (.neg (.sqrt (.rat 2 1))) (.par n!"GF")) (.ckm 0 2)) (.rat 4 1)) (.conj (.inp n!"VnueduLR_2131")))),
  (n!"CVLR_bbee", (.mul (.div (.div (.sqrt (.rat 2 1)) (.par n!"GF")) (.rat 4 1)) (.inp n!"VdeLR_3311")))]

def JMS_to_flavio_16 : List (ℕ × Sym) := [
  (n!"CTLLt_sduu", (.mul (.div (.div (.div (.sqrt (.rat 2 1)) (.par n!"GF")) (.mul (.ckm 2 1) (.conj (.ckm 2 0)))) (.rat 4 1)) (.add (.div (.neg (.conj (.inp n!"S1udduRR_1121"))) (.rat 8 1)) (.div (.div (.conj (.inp n!"S8udduRR_1121")) (.rat 16 1)) (.rat 3 1))))),
  (n!"CVR_butaunumu", (.mul (.div (.div (.div (.neg (.sqrt (.rat 2 1))) (.par n!"GF")) (.ckm 0 2)) (.rat 4 1)) (.conj (.inp n!"VnueduLR_2331")))),
  (n!"CSRL_eebb", (.mul (.div (.div (.sqrt (.rat 2 1)) (.par n!"GF")) (.rat 4 1)) (.inp n!"SedRL_1133"))),
  (n!"CVLR_mumuee", (.mul (.div (.div (.sqrt (.rat 2 1)) (.par n!"GF")) (.rat 4 1)) (.inp n!"VeeLR_2211"))),
  (n!"CVR_scenumu", (.mul (.div (.div (.div (.neg (.sqrt (.rat 2 1))) (.par n!"GF")) (.ckm 1 1)) (.rat 4 1)) (.conj (.inp n!"VnueduLR_2122")))),
  (n!"CV8LR_bbcc", (.mul (.div (.div (.sqrt (.rat 2 1)) (.par n!"GF")) (.rat 4 1)) (.inp n!"V8duLR_3322"))),
  (n!"CVLR_nuenutaudd", (.mul (.div (.div (.sqrt (.rat 2 1)) (.par n!"GF")) (.rat 4 1)) (.inp n!"VnudLR_1311"))),
  (n!"CVRR_eebb", (.mul (.div (.div (.sqrt (.rat 2 1)) (.par n!"GF")) (.rat 4 1)) (.inp n!"VedRR_1133"))),
  (n!"CSp_bdtaue", (.mul (.div (.div (.div (.sqrt (.rat 2 1)) (.par n!"GF")) (.mul (.ckm 2 2) (.conj (.ckm 2 0)))) (.rat 4 1)) (.mul (.div (.div (.mul (.rat 16 1) (.mul .pi .pi)) (.mul (.sqrt (.mul (.mul (.rat 4 1) .pi) (.par n!"alpha_e"))) (.sqrt (.mul (.mul (.rat 4 1) .pi) (.par n!"alpha_e"))))) (.par n!"m_b")) (.add (.div (.inp n!"SedRL_1313") (.rat 2 1)) (.div (.conj (.inp n!"SedRR_3131")) (.rat 2 1)))))),
  (n!"CTLL_cudd", (.mul (.div (.div (.div (.sqrt (.rat 2 1)) (.par n!"GF")) (.mul (.conj (.ckm 1 2)) (.ckm 0 2))) (.rat 4 1)) (.div (.neg (.conj (.inp n!"S8udduRR_2111"))) (.rat 16 1)))),
  (n!"CVRRt_bduu", (.mul (.div (.div (.div (.sqrt (.rat 2 1)) (.par n!"GF")) (.mul (.ckm 2 2) (.conj (.ckm 2 0)))) (.rat 4 1)) (.div (.inp n!"V8udRR_1113") (.rat 2 1)))),
  (n!"CS1RR_ccss", (.mul (.div (.div (.sqrt (.rat 2 1)) (.par n!"GF")) (.rat 4 1)) (.inp n!"S1udRR_2222"))),
  (n!"CTLLt_bdss", (.mul (.div (.div (.div (.sqrt (.rat 2 1)) (.par n!"GF")) (.mul (.ckm 2 2) (.conj (.ckm 2 0)))) (.rat 4 1)) (.add (.div (.neg (.conj (.inp n!"S1ddRR_2132"))) (.rat 8 1)) (.div (.div (.conj (.inp n!"S8ddRR_2132")) (.rat 16 1)) (.rat 3 1))))),
  (n!"C9_sdtautau", (.mul (.div (.div (.div (.sqrt (.rat 2 1)) (.par n!"GF")) (.mul (.ckm 2 1) (.conj (.ckm 2 0)))) (.rat 4 1)) (.mul (.div (.mul (.rat 16 1) (.mul .pi .pi)) (.mul (.sqrt (.mul (.mul (.rat 4 1) .pi) (.par n!"alpha_e"))) (.sqrt (.mul (.mul (.rat 4 1) .pi) (.par n!"alpha_e"))))) (.add (.div (.inp n!"VdeLR_1233") (.rat 2 1)) (.div (.inp n!"VedLL_3312") (.rat 2 1)))))),
  (n!"CVL_buenutau", (.mul (.div (.div (.div (.neg (.sqrt (.rat 2 1))) (.par n!"GF")) (.ckm 0 2)) (.rat 4 1)) (.conj (.inp n!"VnueduLL_3131")))),
  (n!"C10_bdmutau", (.mul (.div (.div (.div (.sqrt (.rat 2 1)) (.par n!"GF")) (.mul (.ckm 2 2) (.conj (.ckm 2 0)))) (.rat 4 1)) (.mul (.div (.mul (.rat 16 1) (.mul .pi .pi)) (.mul (.sqrt (.mul (.mul (.rat 4 1) .pi) (.par n!"alpha_e"))) (.sqrt (.mul (.mul (.rat 4 1) .pi) (.par n!"alpha_e"))))) (.sub (.div (.inp n!"VdeLR_1332") (.rat 2 1)) (.div (.conj (.inp n!"VedLL_2331")) (.rat 2 1)))))),
  (n!"CVLR_tautauuu", (.mul (.div (.div (.sqrt (.rat 2 1)) (.par n!"GF")) (.rat 4 1)) (.inp n!"VeuLR_3311"))),
  (n!"CTRR_bdcc", (.mul (.div (.div (.div (.sqrt (.rat 2 1)) (.par n!"GF")) (.mul (.ckm 2 2) (.conj (.ckm 2 0)))) (.rat 4 1)) (.div (.neg (.inp n!"S8udduRR_2312")) (.rat 16 1)))),
  (n!"CSL_dcmunumu", (.mul (.div (.div (.div (.neg (.sqrt (.rat 2 1))) (.par n!"GF")) (.ckm 1 0)) (.rat 4 1)) (.conj (.inp n!"SnueduRR_2212")))),
  (n!"CVLL_sdbb", (.mul (.div (.div (.div (.sqrt (.rat 2 1)) (.par n!"GF")) (.mul (.ckm 2 1) (.conj (.ckm 2 0)))) (.rat 4 1)) (.inp n!"VddLL_1233"))),
  (n!"CSL_bumunue", (.mul (.div (.div (.div (.neg (.sqrt (.rat 2 1))) (.par n!"GF")) (.ckm 0 2)) (.rat 4 1)) (.conj (.inp n!"SnueduRR_1231")))),
  (n!"CVLL_eedd", (.mul (.div (.div (.sqrt (.rat 2 1)) (.par n!"GF")) (.rat 4 1)) (.inp n!"VedLL_1111"))),
  (n!"CSRL_cuuu", (.mul (.div (.div (.div (.sqrt (.rat 2 1)) (.par n!"GF")) (.mul (.conj (.ckm 1 2)) (.ckm 0 2))) (.rat 4 1)) (.neg (.inp n!"V8uuLR_1112")))),
  (n!"CV1LR_dssd", (.mul (.div (.div (.sqrt (.rat 2 1)) (.par n!"GF")) (.rat 4 1)) (.inp n!"V1ddLR_1221"))),
  (n!"CS1RR_ddbb", (.mul (.div (.div (.sqrt (.rat 2 1)) (.par n!"GF")) (.rat 4 1)) (.inp n!"S1ddRR_1133"))),
  (n!"CSRL_bddd", (.mul (.div (.div (.div (.sqrt (.rat 2 1)) (.par n!"GF")) (.mul (.ckm 2 2) (.conj (.ckm 2 0)))) (.rat 4 1)) (.neg (.inp n!"V8ddLR_1113")))),
  (n!"CVL_dcenumu", (.mul (.div (.div (.div (.neg (.sqrt (.rat 2 1))) (.par n!"GF")) (.ckm 1 0)) (.rat 4 1)) (.conj (.inp n!"VnueduLL_2112")))),
  (n!"CV1LL_ccbb", (.mul (.div (.div (.sqrt (.rat 2 1)) (.par n!"GF")) (.rat 4 1)) (.inp n!"V1udLL_2233"))),
  (n!"CSL_scmunue", (.mul (.div (.div (.div (.neg (.sqrt (.rat 2 1))) (.par n!"GF")) (.ckm 1 1)) (.rat 4 1)) (.conj (.inp n!"SnueduRR_1222")))),
  (n!"CS1RR_ssbb", (.mul (.div (.div (.sqrt (.rat 2 1)) (.par n!"GF")) (.rat 4 1)) (.inp n!"S1ddRR_2233"))),
  (n!"CL_sdnutaunumu", (.mul (.div (.div (.div (.sqrt (.rat 2 1)) (.par n!"GF")) (.mul (.ckm 2 1) (.conj (.ckm 2 0)))) (.rat 4 1)) (.mul (.div (.mul (.rat 8 1) (.mul .pi .pi)) (.mul (.sqrt (.mul (.mul (.rat 4 1) .pi) (.par n!"alpha_e"))) (.sqrt (.mul (.mul (.rat 4 1) .pi) (.par n!"alpha_e"))))) (.inp n!"VnudLL_2312")))),
  (n!"CVRR_cuuu", (.mul (.div (.div (.div (.sqrt (.rat 2 1)) (.par n!"GF")) (.mul (.conj (.ckm 1 2)) (.ckm 0 2))) (.rat 4 1)) (.inp n!"VuuRR_1112"))),
  (n!"CS8RR_uubb", (.mul (.div (.div (.sqrt (.rat 2 1)) (.par n!"GF")) (.rat 4 1)) (.inp n!"S8udRR_1133"))),
  (n!"CTRR_eess", (.mul (.div (.div (.sqrt (.rat 2 1)) (.par n!"GF")) (.rat 4 1)) (.inp n!"TedRR_1122"))),
  (n!"CVLL_bsss", (.mul (.div (.div (.div (.sqrt (.rat 2 1)) (.par n!"GF")) (.mul (.ckm 2 2) (.conj (.ckm 2 1)))) (.rat 4 1)) (.inp n!"VddLL_2223"))),
  (n!"CSLR_bdcc", (.mul (.div (.div (.div (.sqrt (.rat 2 1)) (.par n!"GF")) (.mul (.ckm 2 2) (.conj (.ckm 2 0)))) (.rat 4 1)) (.neg (.inp n!"V8udduLR_2312")))),
  (n!"CSLLt_sdcc", (.mul (.div (.div (.div (.sqrt (.rat 2 1)) (.par n!"GF")) (.mul (.ckm 2 1) (.conj (.ckm 2 0)))) (.rat 4 1)) (.add (.add (.div (.neg (.conj (.inp n!"S1udduRR_2122"))) (.rat 2 1)) (.div (.conj (.inp n!"S8udduRR_2122")) (.mul (.rat 4 1) (.rat 3 1)))) (.div (.conj (.inp n!"S8udRR_2221")) (.rat 2 1))))),
  (n!"CVRR_bddd", (.mul (.div (.div (.div (.sqrt (.rat 2 1)) (.par n!"GF")) (.mul (.ckm 2 2) (.conj (.ckm 2 0)))) (.rat 4 1)) (.inp n!"VddRR_1113"))),
  (n!"CSp_bdee", (.mul (.div (.div (.div (.sqrt (.rat 2 1)) (.par n!"GF")) (.mul (.ckm 2 2) (.conj (.ckm 2 0)))) (.rat 4 1)) (.mul (.div (.div (.mul (.rat 16 1) (.mul .pi .pi)) (.mul (.sqrt (.mul (.mul (.rat 4 1) .pi) (.par n!"alpha_e"))) (.sqrt (.mul (.mul (.rat 4 1) .pi) (.par n!"alpha_e"))))) (.par n!"m_b")) (.add (.div (.inp n!"SedRL_1113") (.rat 2 1)) (.div (.conj (.inp n!"SedRR_1131")) (.rat 2 1)))))),
  (n!"CR_bdnumunue", (.mul (.div (.div (.div (.sqrt (.rat 2 1)) (.par n!"GF")) (.mul (.ckm 2 2) (.conj (.ckm 2 0)))) (.rat 4 1)) (.mul (.div (.mul (.rat 8 1) (.mul .pi .pi)) (.mul (.sqrt (.mul (.mul (.rat 4 1) .pi) (.par n!"alpha_e"))) (.sqrt (.mul (.mul (.rat 4 1) .pi) (.par n!"alpha_e"))))) (.inp n!"VnudLR_1213")))),
  (n!"CT_dcenumu", (.mul (.div (.div (.div (.neg (.sqrt (.rat 2 1))) (.par n!"GF")) (.ckm 1 0)) (.rat 4 1)) (.conj (.inp n!"TnueduRR_2112")))),
  (n!"C10_bdemu", (.mul (.div (.div (.div (.sqrt (.rat 2 1)) (.par n!"GF")) (.mul (.ckm 2 2) (.conj (.ckm 2 0)))) (.rat 4 1)) (.mul (.div (.mul (.rat 16 1) (.mul .pi .pi)) (.mul (.sqrt (.mul (.mul (.rat 4 1) .pi) (.par n!"alpha_e"))) (.sqrt (.mul (.mul (.rat 4 1) .pi) (.par n!"alpha_e"))))) (.sub (.div (.inp n!"VdeLR_1321") (.rat 2 1)) (.div (.conj (.inp n!"VedLL_1231")) (.rat 2 1)))))),
  (n!"CV8LR_bbuu", (.mul (.div (.div (.sqrt (.rat 2 1)) (.par n!"GF")) (.rat 4 1)) (.inp n!"V8duLR_3311"))),
  (n!"CS_cuee", (.mul (.div (.div (.div (.sqrt (.rat 2 1)) (.par n!"GF")) (.mul (.conj (.ckm 1 2)) (.ckm 0 2))) (.rat 4 1)) (.mul (.div (.div (.mul (.rat 16 1) (.mul .pi .pi)) (.mul (.sqrt (.mul (.mul (.rat 4 1) .pi) (.par n!"alpha_e"))) (.sqrt (.mul (.mul (.rat 4 1) .pi) (.par n!"alpha_e"))))) (.par n!"m_c")) (.add (.div (.conj (.inp n!"SeuRL_1121")) (.rat 2 1)) (.div (.inp n!"SeuRR_1112") (.rat 2 1)))))),
  (n!"CT_bcenue", (.mul (.div (.div (.div (.neg (.sqrt (.rat 2 1))) (.par n!"GF")) (.ckm 1 2)) (.rat 4 1)) (.conj (.inp n!"TnueduRR_1132")))),
  (n!"CSRR_emumue", (.mul (.div (.div (.sqrt (.rat 2 1)) (.par n!"GF")) (.rat 4 1)) (.inp n!"SeeRR_1221"))),
  (n!"C7_ss", (.mul (.div (.div (.sqrt (.rat 2 1)) (.par n!"GF")) (.rat 4 1)) (.mul (.div (.div (.mul (.rat 16 1) (.mul .pi .pi)) (.sqrt (.mul (.mul (.rat 4 1) .pi) (.par n!"alpha_e")))) (.par n!"m_s")) (.inp n!"dgamma_22")))),
  (n!"CSL_sumunumu", (.mul (.div (.div (.div (.neg (.sqrt (.rat 2 1))) (.par n!"GF")) (.ckm 0 1)) (.rat 4 1)) (.conj (.inp n!"SnueduRR_2221")))),
  (n!"C9_bsmue", (.mul (.div (.div (.div (.sqrt (.rat 2 1)) (.par n!"GF")) (.mul (.ckm 2 2) (.conj (.ckm 2 1)))) (.rat 4 1)) (.mul (.div (.mul (.rat 16 1) (.mul .pi .pi)) (.mul (.sqrt (.mul (.mul (.rat 4 1) .pi) (.par n!"alpha_e"))) (.sqrt (.mul (.mul (.rat 4 1) .pi) (.par n!"alpha_e"))))) (.add (.div (.inp n!"VdeLR_2312") (.rat 2 1)) (.div (.inp n!"VedLL_1223") (.rat 2 1)))))),
  (n!"CSL_bcenutau", (.mul (.div (.div (.div (.neg (.sqrt (.rat 2 1))) (.par n!"GF")) (.ckm 1 2)) (.rat 4 1)) (.conj (.inp n!"SnueduRR_3132"))))]

def JMS_to_flavio_17 : List (ℕ × Sym) := [
  (n!"CV8LR_ccdd", (.mul (.div (.div (.sqrt (.rat 2 1)) (.par n!"GF")) (.rat 4 1)) (.inp n!"V8udLR_2211"))),
  (n!"CTLL_sdss", (.mul (.div (.div (.div (.sqrt (.rat 2 1)) (.par n!"GF")) (.mul (.ckm 2 1) (.conj (.ckm 2 0)))) (.rat 4 1)) (.div (.neg (.conj (.inp n!"S8ddRR_2122"))) (.rat 16 1)))),
  (n!"CV1LR_uudd", (.mul (.div (.div (.sqrt (.rat 2 1)) (.par n!"GF")) (.rat 4 1)) (.inp n!"V1udLR_1111"))),
  (n!"CSRR_mumudd", (.mul (.div (.div (.sqrt (.rat 2 1)) (.par n!"GF")) (.rat 4 1)) (.inp n!"SedRR_2211"))),
  (n!"CVRR_uucc", (.mul (.div (.div (.sqrt (.rat 2 1)) (.par n!"GF")) (.rat 4 1)) (.inp n!"VuuRR_1122"))),
  (n!"CT_scmunutau", (.mul (.div (.div (.div (.neg (.sqrt (.rat 2 1))) (.par n!"GF")) (.ckm 1 1)) (.rat 4 1)) (.conj (.inp n!"TnueduRR_3222")))),
  (n!"CVRR_mumucc", (.mul (.div (.div (.sqrt (.rat 2 1)) (.par n!"GF")) (.rat 4 1)) (.inp n!"VeuRR_2222"))),
  (n!"CVRLt_bsdd", (.mul (.div (.div (.div (.sqrt (.rat 2 1)) (.par n!"GF")) (.mul (.ckm 2 2) (.conj (.ckm 2 1)))) (.rat 4 1)) (.div (.inp n!"V8ddLR_1123") (.rat 2 1)))),
  (n!"CVL_dctaunutau", (.mul (.div (.div (.div (.neg (.sqrt (.rat 2 1))) (.par n!"GF")) (.ckm 1 0)) (.rat 4 1)) (.conj (.inp n!"VnueduLL_3312")))),
  (n!"CSp_sdtaumu", (.mul (.div (.div (.div (.sqrt (.rat 2 1)) (.par n!"GF")) (.mul (.ckm 2 1) (.conj (.ckm 2 0)))) (.rat 4 1)) (.mul (.div (.div (.mul (.rat 16 1) (.mul .pi .pi)) (.mul (.sqrt (.mul (.mul (.rat 4 1) .pi) (.par n!"alpha_e"))) (.sqrt (.mul (.mul (.rat 4 1) .pi) (.par n!"alpha_e"))))) (.par n!"m_s")) (.add (.div (.inp n!"SedRL_2312") (.rat 2 1)) (.div (.conj (.inp n!"SedRR_3221")) (.rat 2 1)))))),
  (n!"CTRR_bduu", (.mul (.div (.div (.div (.sqrt (.rat 2 1)) (.par n!"GF")) (.mul (.ckm 2 2) (.conj (.ckm 2 0)))) (.rat 4 1)) (.div (.neg (.inp n!"S8udduRR_1311")) (.rat 16 1)))),
  (n!"CVLR_ddtautau", (.mul (.div (.div (.sqrt (.rat 2 1)) (.par n!"GF")) (.rat 4 1)) (.inp n!"VdeLR_1133"))),
  (n!"CVLLt_sdbb", (.mul (.div (.div (.div (.sqrt (.rat 2 1)) (.par n!"GF")) (.mul (.ckm 2 1) (.conj (.ckm 2 0)))) (.rat 4 1)) (.inp n!"VddLL_1332"))),
  (n!"CS8RR_sbbs", (.mul (.div (.div (.sqrt (.rat 2 1)) (.par n!"GF")) (.rat 4 1)) (.inp n!"S8ddRR_2332"))),
  (n!"CSRL_mumuss", (.mul (.div (.div (.sqrt (.rat 2 1)) (.par n!"GF")) (.rat 4 1)) (.inp n!"SedRL_2222"))),
  (n!"CTRRt_bsdd", (.mul (.div (.div (.div (.sqrt (.rat 2 1)) (.par n!"GF")) (.mul (.ckm 2 2) (.conj (.ckm 2 1)))) (.rat 4 1)) (.add (.div (.neg (.inp n!"S1ddRR_1321")) (.rat 8 1)) (.div (.inp n!"S8ddRR_1321") (.mul (.rat 16 1) (.rat 3 1)))))),
  (n!"CVR_scenue", (.mul (.div (.div (.div (.neg (.sqrt (.rat 2 1))) (.par n!"GF")) (.ckm 1 1)) (.rat 4 1)) (.conj (.inp n!"VnueduLR_1122")))),
  (n!"CVRLt_cubb", (.mul (.div (.div (.div (.sqrt (.rat 2 1)) (.par n!"GF")) (.mul (.conj (.ckm 1 2)) (.ckm 0 2))) (.rat 4 1)) (.div (.inp n!"V8duLR_3312") (.rat 2 1)))),
  (n!"CP_bsetau", (.mul (.div (.div (.div (.sqrt (.rat 2 1)) (.par n!"GF")) (.mul (.ckm 2 2) (.conj (.ckm 2 1)))) (.rat 4 1)) (.mul (.div (.div (.mul (.rat 16 1) (.mul .pi .pi)) (.mul (.sqrt (.mul (.mul (.rat 4 1) .pi) (.par n!"alpha_e"))) (.sqrt (.mul (.mul (.rat 4 1) .pi) (.par n!"alpha_e"))))) (.par n!"m_b")) (.add (.div (.neg (.conj (.inp n!"SedRL_1332"))) (.rat 2 1)) (.div (.inp n!"SedRR_3123") (.rat 2 1)))))),
  (n!"CSR_sutaunumu", (.mul (.div (.div (.div (.neg (.sqrt (.rat 2 1))) (.par n!"GF")) (.ckm 0 1)) (.rat 4 1)) (.conj (.inp n!"SnueduRL_2321")))),
  (n!"CSLR_bduu", (.mul (.div (.div (.div (.sqrt (.rat 2 1)) (.par n!"GF")) (.mul (.ckm 2 2) (.conj (.ckm 2 0)))) (.rat 4 1)) (.neg (.inp n!"V8udduLR_1311")))),
  (n!"CSLLt_sduu", (.mul (.div (.div (.div (.sqrt (.rat 2 1)) (.par n!"GF")) (.mul (.ckm 2 1) (.conj (.ckm 2 0)))) (.rat 4 1)) (.add (.add (.div (.neg (.conj (.inp n!"S1udduRR_1121"))) (.rat 2 1)) (.div (.conj (.inp n!"S8udduRR_1121")) (.mul (.rat 4 1) (.rat 3 1)))) (.div (.conj (.inp n!"S8udRR_1121")) (.rat 2 1))))),
  (n!"CVRR_eemumu", (.mul (.div (.div (.sqrt (.rat 2 1)) (.par n!"GF")) (.rat 4 1)) (.inp n!"VeeRR_1122"))),
  (n!"C10_cutautau", (.mul (.div (.div (.div (.sqrt (.rat 2 1)) (.par n!"GF")) (.mul (.conj (.ckm 1 2)) (.ckm 0 2))) (.rat 4 1)) (.mul (.div (.mul (.rat 16 1) (.mul .pi .pi)) (.mul (.sqrt (.mul (.mul (.rat 4 1) .pi) (.par n!"alpha_e"))) (.sqrt (.mul (.mul (.rat 4 1) .pi) (.par n!"alpha_e"))))) (.sub (.div (.inp n!"VueLR_1233") (.rat 2 1)) (.div (.inp n!"VeuLL_3312") (.rat 2 1)))))),
  (n!"CVR_buenue", (.mul (.div (.div (.div (.neg (.sqrt (.rat 2 1))) (.par n!"GF")) (.ckm 0 2)) (.rat 4 1)) (.conj (.inp n!"VnueduLR_1131")))),
  (n!"C10p_bdtaumu", (.mul (.div (.div (.div (.sqrt (.rat 2 1)) (.par n!"GF")) (.mul (.ckm 2 2) (.conj (.ckm 2 0)))) (.rat 4 1)) (.mul (.div (.mul (.rat 16 1) (.mul .pi .pi)) (.mul (.sqrt (.mul (.mul (.rat 4 1) .pi) (.par n!"alpha_e"))) (.sqrt (.mul (.mul (.rat 4 1) .pi) (.par n!"alpha_e"))))) (.add (.div (.neg (.inp n!"VedLR_2313")) (.rat 2 1)) (.div (.inp n!"VedRR_2313") (.rat 2 1)))))),
  (n!"CVL_bcenumu", (.mul (.div (.div (.div (.neg (.sqrt (.rat 2 1))) (.par n!"GF")) (.ckm 1 2)) (.rat 4 1)) (.conj (.inp n!"VnueduLL_2132")))),
  (n!"CTRRt_cubb", (.mul (.div (.div (.div (.sqrt (.rat 2 1)) (.par n!"GF")) (.mul (.conj (.ckm 1 2)) (.ckm 0 2))) (.rat 4 1)) (.add (.div (.neg (.inp n!"S1udduRR_1332")) (.rat 8 1)) (.div (.inp n!"S8udduRR_1332") (.mul (.rat 16 1) (.rat 3 1)))))),
  (n!"CSRL_tautauss", (.mul (.div (.div (.sqrt (.rat 2 1)) (.par n!"GF")) (.rat 4 1)) (.inp n!"SedRL_3322"))),
  (n!"CSp_bsmumu", (.mul (.div (.div (.div (.sqrt (.rat 2 1)) (.par n!"GF")) (.mul (.ckm 2 2) (.conj (.ckm 2 1)))) (.rat 4 1)) (.mul (.div (.div (.mul (.rat 16 1) (.mul .pi .pi)) (.mul (.sqrt (.mul (.mul (.rat 4 1) .pi) (.par n!"alpha_e"))) (.sqrt (.mul (.mul (.rat 4 1) .pi) (.par n!"alpha_e"))))) (.par n!"m_b")) (.add (.div (.inp n!"SedRL_2223") (.rat 2 1)) (.div (.conj (.inp n!"SedRR_2232")) (.rat 2 1)))))),
  (n!"C10_bsee", (.mul (.div (.div (.div (.sqrt (.rat 2 1)) (.par n!"GF")) (.mul (.ckm 2 2) (.conj (.ckm 2 1)))) (.rat 4 1)) (.mul (.div (.mul (.rat 16 1) (.mul .pi .pi)) (.mul (.sqrt (.mul (.mul (.rat 4 1) .pi) (.par n!"alpha_e"))) (.sqrt (.mul (.mul (.rat 4 1) .pi) (.par n!"alpha_e"))))) (.sub (.div (.inp n!"VdeLR_2311") (.rat 2 1)) (.div (.inp n!"VedLL_1123") (.rat 2 1)))))),
  (n!"CT_bcenumu", (.mul (.div (.div (.div (.neg (.sqrt (.rat 2 1))) (.par n!"GF")) (.ckm 1 2)) (.rat 4 1)) (.conj (.inp n!"TnueduRR_2132")))),
  (n!"C9_bstaumu", (.mul (.div (.div (.div (.sqrt (.rat 2 1)) (.par n!"GF")) (.mul (.ckm 2 2) (.conj (.ckm 2 1)))) (.rat 4 1)) (.mul (.div (.mul (.rat 16 1) (.mul .pi .pi)) (.mul (.sqrt (.mul (.mul (.rat 4 1) .pi) (.par n!"alpha_e"))) (.sqrt (.mul (.mul (.rat 4 1) .pi) (.par n!"alpha_e"))))) (.add (.div (.inp n!"VdeLR_2323") (.rat 2 1)) (.div (.inp n!"VedLL_2323") (.rat 2 1)))))),
  (n!"C9p_sdmutau", (.mul (.div (.div (.div (.sqrt (.rat 2 1)) (.par n!"GF")) (.mul (.ckm 2 1) (.conj (.ckm 2 0)))) (.rat 4 1)) (.mul (.div (.mul (.rat 16 1) (.mul .pi .pi)) (.mul (.sqrt (.mul (.mul (.rat 4 1) .pi) (.par n!"alpha_e"))) (.sqrt (.mul (.mul (.rat 4 1) .pi) (.par n!"alpha_e"))))) (.add (.div (.conj (.inp n!"VedLR_2321")) (.rat 2 1)) (.div (.conj (.inp n!"VedRR_2321")) (.rat 2 1)))))),
  (n!"CR_bdnutaunue", (.mul (.div (.div (.div (.sqrt (.rat 2 1)) (.par n!"GF")) (.mul (.ckm 2 2) (.conj (.ckm 2 0)))) (.rat 4 1)) (.mul (.div (.mul (.rat 8 1) (.mul .pi .pi)) (.mul (.sqrt (.mul (.mul (.rat 4 1) .pi) (.par n!"alpha_e"))) (.sqrt (.mul (.mul (.rat 4 1) .pi) (.par n!"alpha_e"))))) (.inp n!"VnudLR_1313")))),
  (n!"CR_bdnuenue", (.mul (.div (.div (.div (.sqrt (.rat 2 1)) (.par n!"GF")) (.mul (.ckm 2 2) (.conj (.ckm 2 0)))) (.rat 4 1)) (.mul (.div (.mul (.rat 8 1) (.mul .pi .pi)) (.mul (.sqrt (.mul (.mul (.rat 4 1) .pi) (.par n!"alpha_e"))) (.sqrt (.mul (.mul (.rat 4 1) .pi) (.par n!"alpha_e"))))) (.inp n!"VnudLR_1113")))),
  (n!"CSLLt_bdss", (.mul (.div (.div (.div (.sqrt (.rat 2 1)) (.par n!"GF")) (.mul (.ckm 2 2) (.conj (.ckm 2 0)))) (.rat 4 1)) (.add (.add (.div (.neg (.conj (.inp n!"S1ddRR_2132"))) (.rat 2 1)) (.div (.div (.conj (.inp n!"S8ddRR_2132")) (.rat 4 1)) (.rat 3 1))) (.div (.conj (.inp n!"S8ddRR_2231")) (.rat 2 1))))),
  (n!"CV8LR_uddu", (.mul (.div (.div (.sqrt (.rat 2 1)) (.par n!"GF")) (.rat 4 1)) (.inp n!"V8udduLR_1111"))),
  (n!"CSRR_bscc", (.mul (.div (.div (.div (.sqrt (.rat 2 1)) (.par n!"GF")) (.mul (.ckm 2 2) (.conj (.ckm 2 1)))) (.rat 4 1)) (.sub (.sub (.inp n!"S1udRR_2223") (.div (.inp n!"S8udduRR_2322") (.rat 4 1))) (.div (.inp n!"S8udRR_2223") (.mul (.rat 2 1) (.rat 3 1)))))),
  (n!"CVRR_uuuu", (.mul (.div (.div (.sqrt (.rat 2 1)) (.par n!"GF")) (.rat 4 1)) (.inp n!"VuuRR_1111"))),
  (n!"CSp_sdmue", (.mul (.div (.div (.div (.sqrt (.rat 2 1)) (.par n!"GF")) (.mul (.ckm 2 1) (.conj (.ckm 2 0)))) (.rat 4 1)) (.mul (.div (.div (.mul (.rat 16 1) (.mul .pi .pi)) (.mul (.sqrt (.mul (.mul (.rat 4 1) .pi) (.par n!"alpha_e"))) (.sqrt (.mul (.mul (.rat 4 1) .pi) (.par n!"alpha_e"))))) (.par n!"m_s")) (.add (.div (.inp n!"SedRL_1212") (.rat 2 1)) (.div (.conj (.inp n!"SedRR_2121")) (.rat 2 1)))))),
  (n!"C10p_bsee", (.mul (.div (.div (.div (.sqrt (.rat 2 1)) (.par n!"GF")) (.mul (.ckm 2 2) (.conj (.ckm 2 1)))) (.rat 4 1)) (.mul (.div (.mul (.rat 16 1) (.mul .pi .pi)) (.mul (.sqrt (.mul (.mul (.rat 4 1) .pi) (.par n!"alpha_e"))) (.sqrt (.mul (.mul (.rat 4 1) .pi) (.par n!"alpha_e"))))) (.add (.div (.neg (.inp n!"VedLR_1123")) (.rat 2 1)) (.div (.inp n!"VedRR_1123") (.rat 2 1)))))),
  (n!"CVRR_mumuuu", (.mul (.div (.div (.sqrt (.rat 2 1)) (.par n!"GF")) (.rat 4 1)) (.inp n!"VeuRR_2211"))),
  (n!"CVL_scmunutau", (.mul (.div (.div (.div (.neg (.sqrt (.rat 2 1))) (.par n!"GF")) (.ckm 1 1)) (.rat 4 1)) (.conj (.inp n!"VnueduLL_3222")))),
  (n!"CV8RR_uuss", (.mul (.div (.div (.sqrt (.rat 2 1)) (.par n!"GF")) (.rat 4 1)) (.inp n!"V8udRR_1122"))),
  (n!"CT_dctaunutau", (.mul (.div (.div (.div (.neg (.sqrt (.rat 2 1))) (.par n!"GF")) (.ckm 1 0)) (.rat 4 1)) (.conj (.inp n!"TnueduRR_3312")))),
  (n!"C8_bs", (.mul (.div (.div (.div (.sqrt (.rat 2 1)) (.par n!"GF")) (.mul (.ckm 2 2) (.conj (.ckm 2 1)))) (.rat 4 1)) (.mul (.div (.div (.mul (.rat 16 1) (.mul .pi .pi)) (.sqrt (.mul (.mul (.rat 4 1) .pi) (.par n!"alpha_s")))) (.par n!"m_b")) (.inp n!"dG_23")))),
  (n!"CVLR_numunumuee", (.mul (.div (.div (.sqrt (.rat 2 1)) (.par n!"GF")) (.rat 4 1)) (.inp n!"VnueLR_2211"))),
  (n!"CS1RR_dssd", (.mul (.div (.div (.sqrt (.rat 2 1)) (.par n!"GF")) (.rat 4 1)) (.inp n!"S1ddRR_1221"))),
  (n!"CS_sdtaue", (.mul (.div (.div (.div (.sqrt (.rat 2 1)) (.par n!"GF")) (.mul (.ckm 2 1) (.conj (.ckm 2 0)))) (.rat 4 1)) (.mul (.div (.div (.mul (.rat 16 1) (.mul .pi .pi)) (.mul (.sqrt (.mul (.mul (.rat 4 1) .pi) (.par n!"alpha_e"))) (.sqrt (.mul (.mul (.rat 4 1) .pi) (.par n!"alpha_e"))))) (.par n!"m_s")) (.add (.div (.conj (.inp n!"SedRL_3121")) (.rat 2 1)) (.div (.inp n!"SedRR_1312") (.rat 2 1))))))]

def JMS_to_flavio_18 : List (ℕ × Sym) := [
  (n!"CVLL_nuenutaubb", (.mul (.div (.div (.sqrt (.rat 2 1)) (.par n!"GF")) (.rat 4 1)) (.inp n!"VnudLL_1333"))),
  (n!"C7_bd", (.mul (.div (.div (.div (.sqrt (.rat 2 1)) (.par n!"GF")) (.mul (.ckm 2 2) (.conj (.ckm 2 0)))) (.rat 4 1)) (.mul (.div (.div (.mul (.rat 16 1) (.mul .pi .pi)) (.sqrt (.mul (.mul (.rat 4 1) .pi) (.par n!"alpha_e")))) (.par n!"m_b")) (.inp n!"dgamma_13")))),
  (n!"CVRLt_bdcc", (.mul (.div (.div (.div (.sqrt (.rat 2 1)) (.par n!"GF")) (.mul (.ckm 2 2) (.conj (.ckm 2 0)))) (.rat 4 1)) (.div (.inp n!"V8udLR_2213") (.rat 2 1)))),
  (n!"C9_bsetau", (.mul (.div (.div (.div (.sqrt (.rat 2 1)) (.par n!"GF")) (.mul (.ckm 2 2) (.conj (.ckm 2 1)))) (.rat 4 1)) (.mul (.div (.mul (.rat 16 1) (.mul .pi .pi)) (.mul (.sqrt (.mul (.mul (.rat 4 1) .pi) (.par n!"alpha_e"))) (.sqrt (.mul (.mul (.rat 4 1) .pi) (.par n!"alpha_e"))))) (.add (.div (.inp n!"VdeLR_2331") (.rat 2 1)) (.div (.conj (.inp n!"VedLL_1332")) (.rat 2 1)))))),
  (n!"CVR_bctaunutau", (.mul (.div (.div (.div (.neg (.sqrt (.rat 2 1))) (.par n!"GF")) (.ckm 1 2)) (.rat 4 1)) (.conj (.inp n!"VnueduLR_3332")))),
  (n!"CL_bsnutaunue", (.mul (.div (.div (.div (.sqrt (.rat 2 1)) (.par n!"GF")) (.mul (.ckm 2 2) (.conj (.ckm 2 1)))) (.rat 4 1)) (.mul (.div (.mul (.rat 8 1) (.mul .pi .pi)) (.mul (.sqrt (.mul (.mul (.rat 4 1) .pi) (.par n!"alpha_e"))) (.sqrt (.mul (.mul (.rat 4 1) .pi) (.par n!"alpha_e"))))) (.inp n!"VnudLL_1323")))),
  (n!"CV1LR_ubbu", (.mul (.div (.div (.sqrt (.rat 2 1)) (.par n!"GF")) (.rat 4 1)) (.inp n!"V1udduLR_1331"))),
  (n!"CVLL_numunutaudd", (.mul (.div (.div (.sqrt (.rat 2 1)) (.par n!"GF")) (.rat 4 1)) (.inp n!"VnudLL_2311"))),
  (n!"CTRRt_bdcc", (.mul (.div (.div (.div (.sqrt (.rat 2 1)) (.par n!"GF")) (.mul (.ckm 2 2) (.conj (.ckm 2 0)))) (.rat 4 1)) (.add (.div (.neg (.inp n!"S1udduRR_2312")) (.rat 8 1)) (.div (.inp n!"S8udduRR_2312") (.mul (.rat 16 1) (.rat 3 1)))))),
  (n!"CVLL_tautautautau", (.mul (.div (.div (.sqrt (.rat 2 1)) (.par n!"GF")) (.rat 4 1)) (.inp n!"VeeLL_3333"))),
  (n!"CVLR_nutaunutaumumu", (.mul (.div (.div (.sqrt (.rat 2 1)) (.par n!"GF")) (.rat 4 1)) (.inp n!"VnueLR_3322"))),
  (n!"C10_bdtaumu", (.mul (.div (.div (.div (.sqrt (.rat 2 1)) (.par n!"GF")) (.mul (.ckm 2 2) (.conj (.ckm 2 0)))) (.rat 4 1)) (.mul (.div (.mul (.rat 16 1) (.mul .pi .pi)) (.mul (.sqrt (.mul (.mul (.rat 4 1) .pi) (.par n!"alpha_e"))) (.sqrt (.mul (.mul (.rat 4 1) .pi) (.par n!"alpha_e"))))) (.sub (.div (.inp n!"VdeLR_1323") (.rat 2 1)) (.div (.inp n!"VedLL_2313") (.rat 2 1)))))),
  (n!"CSLL_bsbs", (.sub (.sub (.conj (.inp n!"S1ddRR_3232")) (.div (.conj (.inp n!"S8ddRR_3232")) (.mul (.rat 2 1) (.rat 3 1)))) (.mul (.div (.rat 1 1) (.rat 2 1)) (.div (.conj (.inp n!"S8ddRR_3232")) (.rat 2 1))))),
  (n!"CSL_dutaunutau", (.mul (.div (.div (.div (.neg (.sqrt (.rat 2 1))) (.par n!"GF")) (.ckm 0 0)) (.rat 4 1)) (.conj (.inp n!"SnueduRR_3311")))),
  (n!"CVLR_nutaunutaucc", (.mul (.div (.div (.sqrt (.rat 2 1)) (.par n!"GF")) (.rat 4 1)) (.inp n!"VnuuLR_3322"))),
  (n!"CSRR_sddd", (.mul (.div (.div (.div (.sqrt (.rat 2 1)) (.par n!"GF")) (.mul (.ckm 2 1) (.conj (.ckm 2 0)))) (.rat 4 1)) (.sub (.sub (.inp n!"S1ddRR_1112") (.div (.inp n!"S8ddRR_1112") (.rat 4 1))) (.div (.inp n!"S8ddRR_1112") (.mul (.rat 2 1) (.rat 3 1)))))),
  (n!"CVLR_bsbs", (.mul (.div (.rat (-1) 1) (.rat 2 1)) (.add (.mul (.rat (-2) 1) (.inp n!"V1ddLR_2323")) (.div (.inp n!"V8ddLR_2323") (.rat 3 1))))),
  (n!"CSLL_cucc", (.mul (.div (.div (.div (.sqrt (.rat 2 1)) (.par n!"GF")) (.mul (.conj (.ckm 1 2)) (.ckm 0 2))) (.rat 4 1)) (.sub (.sub (.conj (.inp n!"S1uuRR_2122")) (.div (.conj (.inp n!"S8uuRR_2122")) (.rat 4 1))) (.div (.div (.conj (.inp n!"S8uuRR_2122")) (.rat 2 1)) (.rat 3 1))))),
  (n!"CVLL_nuenumutautau", (.mul (.div (.div (.sqrt (.rat 2 1)) (.par n!"GF")) (.rat 4 1)) (.inp n!"VnueLL_1233"))),
  (n!"CVRL_cudd", (.mul (.div (.div (.div (.sqrt (.rat 2 1)) (.par n!"GF")) (.mul (.conj (.ckm 1 2)) (.ckm 0 2))) (.rat 4 1)) (.sub (.inp n!"V1duLR_1112") (.div (.inp n!"V8duLR_1112") (.mul (.rat 2 1) (.rat 3 1)))))),
  (n!"CVLR_nuenueee", (.mul (.div (.div (.sqrt (.rat 2 1)) (.par n!"GF")) (.rat 4 1)) (.inp n!"VnueLR_1111"))),
  (n!"CVRR_dbbd", (.mul (.div (.div (.sqrt (.rat 2 1)) (.par n!"GF")) (.rat 4 1)) (.inp n!"VddRR_1331"))),
  (n!"CVLR_cucc", (.mul (.div (.div (.div (.sqrt (.rat 2 1)) (.par n!"GF")) (.mul (.conj (.ckm 1 2)) (.ckm 0 2))) (.rat 4 1)) (.sub (.inp n!"V1uuLR_1222") (.div (.inp n!"V8uuLR_1222") (.mul (.rat 2 1) (.rat 3 1)))))),
  (n!"CSRR_bsuu", (.mul (.div (.div (.div (.sqrt (.rat 2 1)) (.par n!"GF")) (.mul (.ckm 2 2) (.conj (.ckm 2 1)))) (.rat 4 1)) (.sub (.sub (.inp n!"S1udRR_1123") (.div (.inp n!"S8udduRR_1321") (.rat 4 1))) (.div (.inp n!"S8udRR_1123") (.mul (.rat 2 1) (.rat 3 1)))))),
  (n!"CS8RR_ccdd", (.mul (.div (.div (.sqrt (.rat 2 1)) (.par n!"GF")) (.rat 4 1)) (.inp n!"S8udRR_2211"))),
  (n!"CVLR_numunutauee", (.mul (.div (.div (.sqrt (.rat 2 1)) (.par n!"GF")) (.rat 4 1)) (.inp n!"VnueLR_2311"))),
  (n!"CS1RR_uudd", (.mul (.div (.div (.sqrt (.rat 2 1)) (.par n!"GF")) (.rat 4 1)) (.inp n!"S1udRR_1111"))),
  (n!"CT_dutaunue", (.mul (.div (.div (.div (.neg (.sqrt (.rat 2 1))) (.par n!"GF")) (.ckm 0 0)) (.rat 4 1)) (.conj (.inp n!"TnueduRR_1311")))),
  (n!"CSRRt_bsdd", (.mul (.div (.div (.div (.sqrt (.rat 2 1)) (.par n!"GF")) (.mul (.ckm 2 2) (.conj (.ckm 2 1)))) (.rat 4 1)) (.add (.add (.div (.neg (.inp n!"S1ddRR_1321")) (.rat 2 1)) (.div (.inp n!"S8ddRR_1321") (.mul (.rat 4 1) (.rat 3 1)))) (.div (.inp n!"S8ddRR_1123") (.rat 2 1))))),
  (n!"CPp_sdtaue", (.mul (.div (.div (.div (.sqrt (.rat 2 1)) (.par n!"GF")) (.mul (.ckm 2 1) (.conj (.ckm 2 0)))) (.rat 4 1)) (.mul (.div (.div (.mul (.rat 16 1) (.mul .pi .pi)) (.mul (.sqrt (.mul (.mul (.rat 4 1) .pi) (.par n!"alpha_e"))) (.sqrt (.mul (.mul (.rat 4 1) .pi) (.par n!"alpha_e"))))) (.par n!"m_s")) (.sub (.div (.inp n!"SedRL_1312") (.rat 2 1)) (.div (.conj (.inp n!"SedRR_3121")) (.rat 2 1)))))),
  (n!"CVLR_eebb", (.mul (.div (.div (.sqrt (.rat 2 1)) (.par n!"GF")) (.rat 4 1)) (.inp n!"VedLR_1133"))),
  (n!"CSRR_cuss", (.mul (.div (.div (.div (.sqrt (.rat 2 1)) (.par n!"GF")) (.mul (.conj (.ckm 1 2)) (.ckm 0 2))) (.rat 4 1)) (.sub (.sub (.inp n!"S1udRR_1222") (.div (.inp n!"S8udduRR_1222") (.rat 4 1))) (.div (.inp n!"S8udRR_1222") (.mul (.rat 2 1) (.rat 3 1)))))),
  (n!"CVL_sumunue", (.mul (.div (.div (.div (.neg (.sqrt (.rat 2 1))) (.par n!"GF")) (.ckm 0 1)) (.rat 4 1)) (.conj (.inp n!"VnueduLL_1221")))),
  (n!"CP_sdtautau", (.mul (.div (.div (.div (.sqrt (.rat 2 1)) (.par n!"GF")) (.mul (.ckm 2 1) (.conj (.ckm 2 0)))) (.rat 4 1)) (.mul (.div (.div (.mul (.rat 16 1) (.mul .pi .pi)) (.mul (.sqrt (.mul (.mul (.rat 4 1) .pi) (.par n!"alpha_e"))) (.sqrt (.mul (.mul (.rat 4 1) .pi) (.par n!"alpha_e"))))) (.par n!"m_s")) (.add (.div (.neg (.conj (.inp n!"SedRL_3321"))) (.rat 2 1)) (.div (.inp n!"SedRR_3312") (.rat 2 1)))))),
  (n!"CSRR_bdbb", (.mul (.div (.div (.div (.sqrt (.rat 2 1)) (.par n!"GF")) (.mul (.ckm 2 2) (.conj (.ckm 2 0)))) (.rat 4 1)) (.sub (.sub (.inp n!"S1ddRR_1333") (.div (.inp n!"S8ddRR_1333") (.rat 4 1))) (.div (.inp n!"S8ddRR_1333") (.mul (.rat 2 1) (.rat 3 1)))))),
  (n!"CSLRt_sdbb", (.mul (.div (.div (.div (.sqrt (.rat 2 1)) (.par n!"GF")) (.mul (.ckm 2 1) (.conj (.ckm 2 0)))) (.rat 4 1)) (.add (.mul (.rat (-2) 1) (.conj (.inp n!"V1ddLR_2331"))) (.div (.conj (.inp n!"V8ddLR_2331")) (.rat 3 1))))),
  (n!"CSR_dutaunue", (.mul (.div (.div (.div (.neg (.sqrt (.rat 2 1))) (.par n!"GF")) (.ckm 0 0)) (.rat 4 1)) (.conj (.inp n!"SnueduRL_1311")))),
  (n!"C7p_bd", (.mul (.div (.div (.div (.sqrt (.rat 2 1)) (.par n!"GF")) (.mul (.ckm 2 2) (.conj (.ckm 2 0)))) (.rat 4 1)) (.mul (.div (.div (.mul (.rat 16 1) (.mul .pi .pi)) (.sqrt (.mul (.mul (.rat 4 1) .pi) (.par n!"alpha_e")))) (.par n!"m_b")) (.conj (.inp n!"dgamma_31"))))),
  (n!"CT_sctaunumu", (.mul (.div (.div (.div (.neg (.sqrt (.rat 2 1))) (.par n!"GF")) (.ckm 1 1)) (.rat 4 1)) (.conj (.inp n!"TnueduRR_2322")))),
  (n!"C10p_sdmue", (.mul (.div (.div (.div (.sqrt (.rat 2 1)) (.par n!"GF")) (.mul (.ckm 2 1) (.conj (.ckm 2 0)))) (.rat 4 1)) (.mul (.div (.mul (.rat 16 1) (.mul .pi .pi)) (.mul (.sqrt (.mul (.mul (.rat 4 1) .pi) (.par n!"alpha_e"))) (.sqrt (.mul (.mul (.rat 4 1) .pi) (.par n!"alpha_e"))))) (.add (.div (.neg (.inp n!"VedLR_1212")) (.rat 2 1)) (.div (.inp n!"VedRR_1212") (.rat 2 1)))))),
  (n!"CVLL_nuenuess", (.mul (.div (.div (.sqrt (.rat 2 1)) (.par n!"GF")) (.rat 4 1)) (.inp n!"VnudLL_1122"))),
  (n!"CVRLt_bduu", (.mul (.div (.div (.div (.sqrt (.rat 2 1)) (.par n!"GF")) (.mul (.ckm 2 2) (.conj (.ckm 2 0)))) (.rat 4 1)) (.div (.inp n!"V8udLR_1113") (.rat 2 1)))),
  (n!"CVL_bcmunumu", (.mul (.div (.div (.div (.neg (.sqrt (.rat 2 1))) (.par n!"GF")) (.ckm 1 2)) (.rat 4 1)) (.conj (.inp n!"VnueduLL_2232")))),
  (n!"CT_sumunue", (.mul (.div (.div (.div (.neg (.sqrt (.rat 2 1))) (.par n!"GF")) (.ckm 0 1)) (.rat 4 1)) (.conj (.inp n!"TnueduRR_1221")))),
  (n!"CVR_bcenue", (.mul (.div (.div (.div (.neg (.sqrt (.rat 2 1))) (.par n!"GF")) (.ckm 1 2)) (.rat 4 1)) (.conj (.inp n!"VnueduLR_1132")))),
  (n!"CSRRt_cubb", (.mul (.div (.div (.div (.sqrt (.rat 2 1)) (.par n!"GF")) (.mul (.conj (.ckm 1 2)) (.ckm 0 2))) (.rat 4 1)) (.add (.add (.div (.neg (.inp n!"S1udduRR_1332")) (.rat 2 1)) (.div (.inp n!"S8udduRR_1332") (.mul (.rat 4 1) (.rat 3 1)))) (.div (.inp n!"S8udRR_1233") (.rat 2 1))))),
  (n!"CSp_bsmutau", (.mul (.div (.div (.div (.sqrt (.rat 2 1)) (.par n!"GF")) (.mul (.ckm 2 2) (.conj (.ckm 2 1)))) (.rat 4 1)) (.mul (.div (.div (.mul (.rat 16 1) (.mul .pi .pi)) (.mul (.sqrt (.mul (.mul (.rat 4 1) .pi) (.par n!"alpha_e"))) (.sqrt (.mul (.mul (.rat 4 1) .pi) (.par n!"alpha_e"))))) (.par n!"m_b")) (.add (.div (.inp n!"SedRL_3223") (.rat 2 1)) (.div (.conj (.inp n!"SedRR_2332")) (.rat 2 1)))))),
  (n!"CTRR_tautauss", (.mul (.div (.div (.sqrt (.rat 2 1)) (.par n!"GF")) (.rat 4 1)) (.inp n!"TedRR_3322"))),
  (n!"CTRRt_bduu", (.mul (.div (.div (.div (.sqrt (.rat 2 1)) (.par n!"GF")) (.mul (.ckm 2 2) (.conj (.ckm 2 0)))) (.rat 4 1)) (.add (.div (.neg (.inp n!"S1udduRR_1311")) (.rat 8 1)) (.div (.inp n!"S8udduRR_1311") (.mul (.rat 16 1) (.rat 3 1)))))),
  (n!"C10_sdtaue", (.mul (.div (.div (.div (.sqrt (.rat 2 1)) (.par n!"GF")) (.mul (.ckm 2 1) (.conj (.ckm 2 0)))) (.rat 4 1)) (.mul (.div (.mul (.rat 16 1) (.mul .pi .pi)) (.mul (.sqrt (.mul (.mul (.rat 4 1) .pi) (.par n!"alpha_e"))) (.sqrt (.mul (.mul (.rat 4 1) .pi) (.par n!"alpha_e"))))) (.sub (.div (.inp n!"VdeLR_1213") (.rat 2 1)) (.div (.inp n!"VedLL_1312") (.rat 2 1))))))]

def JMS_to_flavio_19 : List (ℕ × Sym) := [
  (n!"C10p_bstaue", (.mul (.div (.div (.div (.sqrt (.rat 2 1)) (.par n!"GF")) (.mul (.ckm 2 2) (.conj (.ckm 2 1)))) (.rat 4 1)) (.mul (.div (.mul (.rat 16 1) (.mul .pi .pi)) (.mul (.sqrt (.mul (.mul (.rat 4 1) .pi) (.par n!"alpha_e"))) (.sqrt (.mul (.mul (.rat 4 1) .pi) (.par n!"alpha_e"))))) (.add (.div (.neg (.inp n!"VedLR_1323")) (.rat 2 1)) (.div (.inp n!"VedRR_1323") (.rat 2 1)))))),
  (n!"CVLR_nutaunutauuu", (.mul (.div (.div (.sqrt (.rat 2 1)) (.par n!"GF")) (.rat 4 1)) (.inp n!"VnuuLR_3311"))),
  (n!"CR_bsnutaunutau", (.mul (.div (.div (.div (.sqrt (.rat 2 1)) (.par n!"GF")) (.mul (.ckm 2 2) (.conj (.ckm 2 1)))) (.rat 4 1)) (.mul (.div (.mul (.rat 8 1) (.mul .pi .pi)) (.mul (.sqrt (.mul (.mul (.rat 4 1) .pi) (.par n!"alpha_e"))) (.sqrt (.mul (.mul (.rat 4 1) .pi) (.par n!"alpha_e"))))) (.inp n!"VnudLR_3323")))),
  (n!"CSLL_cuuu", (.mul (.div (.div (.div (.sqrt (.rat 2 1)) (.par n!"GF")) (.mul (.conj (.ckm 1 2)) (.ckm 0 2))) (.rat 4 1)) (.sub (.sub (.conj (.inp n!"S1uuRR_1121")) (.div (.conj (.inp n!"S8uuRR_1121")) (.rat 4 1))) (.div (.div (.conj (.inp n!"S8uuRR_1121")) (.rat 2 1)) (.rat 3 1))))),
  (n!"CVLRt_cudd", (.mul (.div (.div (.div (.sqrt (.rat 2 1)) (.par n!"GF")) (.mul (.conj (.ckm 1 2)) (.ckm 0 2))) (.rat 4 1)) (.div (.inp n!"V8udLR_1211") (.rat 2 1)))),
  (n!"CSLL_bddd", (.mul (.div (.div (.div (.sqrt (.rat 2 1)) (.par n!"GF")) (.mul (.ckm 2 2) (.conj (.ckm 2 0)))) (.rat 4 1)) (.sub (.sub (.conj (.inp n!"S1ddRR_1131")) (.div (.conj (.inp n!"S8ddRR_1131")) (.rat 4 1))) (.div (.div (.conj (.inp n!"S8ddRR_1131")) (.rat 2 1)) (.rat 3 1))))),
  (n!"CVLR_cuuu", (.mul (.div (.div (.div (.sqrt (.rat 2 1)) (.par n!"GF")) (.mul (.conj (.ckm 1 2)) (.ckm 0 2))) (.rat 4 1)) (.sub (.inp n!"V1uuLR_1211") (.div (.inp n!"V8uuLR_1211") (.mul (.rat 2 1) (.rat 3 1)))))),
  (n!"CS8RR_uddu", (.mul (.div (.div (.sqrt (.rat 2 1)) (.par n!"GF")) (.rat 4 1)) (.inp n!"S8udduRR_1111"))),
  (n!"CP_sdemu", (.mul (.div (.div (.div (.sqrt (.rat 2 1)) (.par n!"GF")) (.mul (.ckm 2 1) (.conj (.ckm 2 0)))) (.rat 4 1)) (.mul (.div (.div (.mul (.rat 16 1) (.mul .pi .pi)) (.mul (.sqrt (.mul (.mul (.rat 4 1) .pi) (.par n!"alpha_e"))) (.sqrt (.mul (.mul (.rat 4 1) .pi) (.par n!"alpha_e"))))) (.par n!"m_s")) (.add (.div (.neg (.conj (.inp n!"SedRL_1221"))) (.rat 2 1)) (.div (.inp n!"SedRR_2112") (.rat 2 1)))))),
  (n!"CVRRt_bscc", (.mul (.div (.div (.div (.sqrt (.rat 2 1)) (.par n!"GF")) (.mul (.ckm 2 2) (.conj (.ckm 2 1)))) (.rat 4 1)) (.div (.inp n!"V8udRR_2223") (.rat 2 1)))),
  (n!"CVLR_bddd", (.mul (.div (.div (.div (.sqrt (.rat 2 1)) (.par n!"GF")) (.mul (.ckm 2 2) (.conj (.ckm 2 0)))) (.rat 4 1)) (.sub (.inp n!"V1ddLR_1311") (.div (.inp n!"V8ddLR_1311") (.mul (.rat 2 1) (.rat 3 1)))))),
  (n!"CSR_butaunutau", (.mul (.div (.div (.div (.neg (.sqrt (.rat 2 1))) (.par n!"GF")) (.ckm 0 2)) (.rat 4 1)) (.conj (.inp n!"SnueduRL_3331")))),
  (n!"CS_bdemu", (.mul (.div (.div (.div (.sqrt (.rat 2 1)) (.par n!"GF")) (.mul (.ckm 2 2) (.conj (.ckm 2 0)))) (.rat 4 1)) (.mul (.div (.div (.mul (.rat 16 1) (.mul .pi .pi)) (.mul (.sqrt (.mul (.mul (.rat 4 1) .pi) (.par n!"alpha_e"))) (.sqrt (.mul (.mul (.rat 4 1) .pi) (.par n!"alpha_e"))))) (.par n!"m_b")) (.add (.div (.conj (.inp n!"SedRL_1231")) (.rat 2 1)) (.div (.inp n!"SedRR_2113") (.rat 2 1)))))),
  (n!"CVRL_sdss", (.mul (.div (.div (.div (.sqrt (.rat 2 1)) (.par n!"GF")) (.mul (.ckm 2 1) (.conj (.ckm 2 0)))) (.rat 4 1)) (.sub (.inp n!"V1ddLR_2212") (.div (.inp n!"V8ddLR_2212") (.mul (.rat 2 1) (.rat 3 1)))))),
  (n!"CVL_duenue", (.mul (.div (.div (.div (.neg (.sqrt (.rat 2 1))) (.par n!"GF")) (.ckm 0 0)) (.rat 4 1)) (.conj (.inp n!"VnueduLL_1111")))),
  (n!"CVR_sumunutau", (.mul (.div (.div (.div (.neg (.sqrt (.rat 2 1))) (.par n!"GF")) (.ckm 0 1)) (.rat 4 1)) (.conj (.inp n!"VnueduLR_3221")))),
  (n!"CL_bdnumunumu", (.mul (.div (.div (.div (.sqrt (.rat 2 1)) (.par n!"GF")) (.mul (.ckm 2 2) (.conj (.ckm 2 0)))) (.rat 4 1)) (.mul (.div (.mul (.rat 8 1) (.mul .pi .pi)) (.mul (.sqrt (.mul (.mul (.rat 4 1) .pi) (.par n!"alpha_e"))) (.sqrt (.mul (.mul (.rat 4 1) .pi) (.par n!"alpha_e"))))) (.inp n!"VnudLL_2213")))),
  (n!"C9p_sdtaumu", (.mul (.div (.div (.div (.sqrt (.rat 2 1)) (.par n!"GF")) (.mul (.ckm 2 1) (.conj (.ckm 2 0)))) (.rat 4 1)) (.mul (.div (.mul (.rat 16 1) (.mul .pi .pi)) (.mul (.sqrt (.mul (.mul (.rat 4 1) .pi) (.par n!"alpha_e"))) (.sqrt (.mul (.mul (.rat 4 1) .pi) (.par n!"alpha_e"))))) (.add (.div (.inp n!"VedLR_2312") (.rat 2 1)) (.div (.inp n!"VedRR_2312") (.rat 2 1)))))),
  (n!"CVRR_eetautau", (.mul (.div (.div (.sqrt (.rat 2 1)) (.par n!"GF")) (.rat 4 1)) (.inp n!"VeeRR_1133"))),
  (n!"CSRR_ucuc", (.sub (.sub (.inp n!"S1uuRR_2121") (.div (.inp n!"S8uuRR_2121") (.mul (.rat 2 1) (.rat 3 1)))) (.mul (.div (.rat 1 1) (.rat 2 1)) (.div (.inp n!"S8uuRR_2121") (.rat 2 1))))),
  (n!"CVL_sctaunumu", (.mul (.div (.div (.div (.neg (.sqrt (.rat 2 1))) (.par n!"GF")) (.ckm 1 1)) (.rat 4 1)) (.conj (.inp n!"VnueduLL_2322")))),
  (n!"CS_bdtaue", (.mul (.div (.div (.div (.sqrt (.rat 2 1)) (.par n!"GF")) (.mul (.ckm 2 2) (.conj (.ckm 2 0)))) (.rat 4 1)) (.mul (.div (.div (.mul (.rat 16 1) (.mul .pi .pi)) (.mul (.sqrt (.mul (.mul (.rat 4 1) .pi) (.par n!"alpha_e"))) (.sqrt (.mul (.mul (.rat 4 1) .pi) (.par n!"alpha_e"))))) (.par n!"m_b")) (.add (.div (.conj (.inp n!"SedRL_3131")) (.rat 2 1)) (.div (.inp n!"SedRR_1313") (.rat 2 1)))))),
  (n!"CL_sdnuenumu", (.mul (.div (.div (.div (.sqrt (.rat 2 1)) (.par n!"GF")) (.mul (.ckm 2 1) (.conj (.ckm 2 0)))) (.rat 4 1)) (.mul (.div (.mul (.rat 8 1) (.mul .pi .pi)) (.mul (.sqrt (.mul (.mul (.rat 4 1) .pi) (.par n!"alpha_e"))) (.sqrt (.mul (.mul (.rat 4 1) .pi) (.par n!"alpha_e"))))) (.conj (.inp n!"VnudLL_1221"))))),
  (n!"CSRRt_bdcc", (.mul (.div (.div (.div (.sqrt (.rat 2 1)) (.par n!"GF")) (.mul (.ckm 2 2) (.conj (.ckm 2 0)))) (.rat 4 1)) (.add (.add (.div (.neg (.inp n!"S1udduRR_2312")) (.rat 2 1)) (.div (.inp n!"S8udduRR_2312") (.mul (.rat 4 1) (.rat 3 1)))) (.div (.inp n!"S8udRR_2213") (.rat 2 1))))),
  (n!"C10_sdmue", (.mul (.div (.div (.div (.sqrt (.rat 2 1)) (.par n!"GF")) (.mul (.ckm 2 1) (.conj (.ckm 2 0)))) (.rat 4 1)) (.mul (.div (.mul (.rat 16 1) (.mul .pi .pi)) (.mul (.sqrt (.mul (.mul (.rat 4 1) .pi) (.par n!"alpha_e"))) (.sqrt (.mul (.mul (.rat 4 1) .pi) (.par n!"alpha_e"))))) (.sub (.div (.inp n!"VdeLR_1212") (.rat 2 1)) (.div (.inp n!"VedLL_1212") (.rat 2 1)))))),
  (n!"CS1RR_ubbu", (.mul (.div (.div (.sqrt (.rat 2 1)) (.par n!"GF")) (.rat 4 1)) (.inp n!"S1udduRR_1331"))),
  (n!"CSR_duenumu", (.mul (.div (.div (.div (.neg (.sqrt (.rat 2 1))) (.par n!"GF")) (.ckm 0 0)) (.rat 4 1)) (.conj (.inp n!"SnueduRL_2111")))),
  (n!"CVR_dcenutau", (.mul (.div (.div (.div (.neg (.sqrt (.rat 2 1))) (.par n!"GF")) (.ckm 1 0)) (.rat 4 1)) (.conj (.inp n!"VnueduLR_3112")))),
  (n!"CVLR_nuenumucc", (.mul (.div (.div (.sqrt (.rat 2 1)) (.par n!"GF")) (.rat 4 1)) (.inp n!"VnuuLR_1222"))),
  (n!"CSL_sctaunutau", (.mul (.div (.div (.div (.neg (.sqrt (.rat 2 1))) (.par n!"GF")) (.ckm 1 1)) (.rat 4 1)) (.conj (.inp n!"SnueduRR_3322")))),
  (n!"CTLLt_sdbb", (.mul (.div (.div (.div (.sqrt (.rat 2 1)) (.par n!"GF")) (.mul (.ckm 2 1) (.conj (.ckm 2 0)))) (.rat 4 1)) (.add (.div (.neg (.conj (.inp n!"S1ddRR_2331"))) (.rat 8 1)) (.div (.div (.conj (.inp n!"S8ddRR_2331")) (.rat 16 1)) (.rat 3 1))))),
  (n!"CVRRt_bsuu", (.mul (.div (.div (.div (.sqrt (.rat 2 1)) (.par n!"GF")) (.mul (.ckm 2 2) (.conj (.ckm 2 1)))) (.rat 4 1)) (.div (.inp n!"V8udRR_1123") (.rat 2 1)))),
  (n!"CPp_sdmutau", (.mul (.div (.div (.div (.sqrt (.rat 2 1)) (.par n!"GF")) (.mul (.ckm 2 1) (.conj (.ckm 2 0)))) (.rat 4 1)) (.mul (.div (.div (.mul (.rat 16 1) (.mul .pi .pi)) (.mul (.sqrt (.mul (.mul (.rat 4 1) .pi) (.par n!"alpha_e"))) (.sqrt (.mul (.mul (.rat 4 1) .pi) (.par n!"alpha_e"))))) (.par n!"m_s")) (.sub (.div (.inp n!"SedRL_3212") (.rat 2 1)) (.div (.conj (.inp n!"SedRR_2321")) (.rat 2 1)))))),
  (n!"CR_sdnumunutau", (.mul (.div (.div (.div (.sqrt (.rat 2 1)) (.par n!"GF")) (.mul (.ckm 2 1) (.conj (.ckm 2 0)))) (.rat 4 1)) (.mul (.div (.mul (.rat 8 1) (.mul .pi .pi)) (.mul (.sqrt (.mul (.mul (.rat 4 1) .pi) (.par n!"alpha_e"))) (.sqrt (.mul (.mul (.rat 4 1) .pi) (.par n!"alpha_e"))))) (.conj (.inp n!"VnudLR_2321"))))),
  (n!"CSR_suenue", (.mul (.div (.div (.div (.neg (.sqrt (.rat 2 1))) (.par n!"GF")) (.ckm 0 1)) (.rat 4 1)) (.conj (.inp n!"SnueduRL_1121")))),
  (n!"CVLL_numunumucc", (.mul (.div (.div (.sqrt (.rat 2 1)) (.par n!"GF")) (.rat 4 1)) (.inp n!"VnuuLL_2222"))),
  (n!"CVR_suenutau", (.mul (.div (.div (.div (.neg (.sqrt (.rat 2 1))) (.par n!"GF")) (.ckm 0 1)) (.rat 4 1)) (.conj (.inp n!"VnueduLR_3121")))),
  (n!"CVRRt_cuss", (.mul (.div (.div (.div (.sqrt (.rat 2 1)) (.par n!"GF")) (.mul (.conj (.ckm 1 2)) (.ckm 0 2))) (.rat 4 1)) (.div (.inp n!"V8udRR_1222") (.rat 2 1)))),
  (n!"CPp_bdtaue", (.mul (.div (.div (.div (.sqrt (.rat 2 1)) (.par n!"GF")) (.mul (.ckm 2 2) (.conj (.ckm 2 0)))) (.rat 4 1)) (.mul (.div (.div (.mul (.rat 16 1) (.mul .pi .pi)) (.mul (.sqrt (.mul (.mul (.rat 4 1) .pi) (.par n!"alpha_e"))) (.sqrt (.mul (.mul (.rat 4 1) .pi) (.par n!"alpha_e"))))) (.par n!"m_b")) (.sub (.div (.inp n!"SedRL_1313") (.rat 2 1)) (.div (.conj (.inp n!"SedRR_3131")) (.rat 2 1)))))),
  (n!"CVLL_ddbb", (.mul (.div (.div (.sqrt (.rat 2 1)) (.par n!"GF")) (.rat 4 1)) (.inp n!"VddLL_1133"))),
  (n!"CTRR_bscc", (.mul (.div (.div (.div (.sqrt (.rat 2 1)) (.par n!"GF")) (.mul (.ckm 2 2) (.conj (.ckm 2 1)))) (.rat 4 1)) (.div (.neg (.inp n!"S8udduRR_2322")) (.rat 16 1)))),
  (n!"CVLL_ssbb", (.mul (.div (.div (.sqrt (.rat 2 1)) (.par n!"GF")) (.rat 4 1)) (.inp n!"VddLL_2233"))),
  (n!"CVLL_tautaudd", (.mul (.div (.div (.sqrt (.rat 2 1)) (.par n!"GF")) (.rat 4 1)) (.inp n!"VedLL_3311"))),
  (n!"CSRL_bsdd", (.mul (.div (.div (.div (.sqrt (.rat 2 1)) (.par n!"GF")) (.mul (.ckm 2 2) (.conj (.ckm 2 1)))) (.rat 4 1)) (.neg (.conj (.inp n!"V8ddLR_1231"))))),
  (n!"CSRRt_bduu", (.mul (.div (.div (.div (.sqrt (.rat 2 1)) (.par n!"GF")) (.mul (.ckm 2 2) (.conj (.ckm 2 0)))) (.rat 4 1)) (.add (.add (.div (.neg (.inp n!"S1udduRR_1311")) (.rat 2 1)) (.div (.inp n!"S8udduRR_1311") (.mul (.rat 4 1) (.rat 3 1)))) (.div (.inp n!"S8udRR_1113") (.rat 2 1))))),
  (n!"CP_cuee", (.mul (.div (.div (.div (.sqrt (.rat 2 1)) (.par n!"GF")) (.mul (.conj (.ckm 1 2)) (.ckm 0 2))) (.rat 4 1)) (.mul (.div (.div (.mul (.rat 16 1) (.mul .pi .pi)) (.mul (.sqrt (.mul (.mul (.rat 4 1) .pi) (.par n!"alpha_e"))) (.sqrt (.mul (.mul (.rat 4 1) .pi) (.par n!"alpha_e"))))) (.par n!"m_c")) (.add (.div (.neg (.conj (.inp n!"SeuRL_1121"))) (.rat 2 1)) (.div (.inp n!"SeuRR_1112") (.rat 2 1)))))),
  (n!"CSLR_bscc", (.mul (.div (.div (.div (.sqrt (.rat 2 1)) (.par n!"GF")) (.mul (.ckm 2 2) (.conj (.ckm 2 1)))) (.rat 4 1)) (.neg (.inp n!"V8udduLR_2322")))),
  (n!"CVLR_emumue", (.mul (.div (.div (.sqrt (.rat 2 1)) (.par n!"GF")) (.rat 4 1)) (.inp n!"VeeLR_1221"))),
  (n!"CVRR_bsdd", (.mul (.div (.div (.div (.sqrt (.rat 2 1)) (.par n!"GF")) (.mul (.ckm 2 2) (.conj (.ckm 2 1)))) (.rat 4 1)) (.inp n!"VddRR_1123"))),
  (n!"CSp_bsee", (.mul (.div (.div (.div (.sqrt (.rat 2 1)) (.par n!"GF")) (.mul (.ckm 2 2) (.conj (.ckm 2 1)))) (.rat 4 1)) (.mul (.div (.div (.mul (.rat 16 1) (.mul .pi .pi)) (.mul (.sqrt (.mul (.mul (.rat 4 1) .pi) (.par n!"alpha_e"))) (.sqrt (.mul (.mul (.rat 4 1) .pi) (.par n!"alpha_e"))))) (.par n!"m_b")) (.add (.div (.inp n!"SedRL_1123") (.rat 2 1)) (.div (.conj (.inp n!"SedRR_1132")) (.rat 2 1))))))]

def JMS_to_flavio_20 : List (ℕ × Sym) := [
  (n!"CVLR_tautaubb", (.mul (.div (.div (.sqrt (.rat 2 1)) (.par n!"GF")) (.rat 4 1)) (.inp n!"VedLR_3333"))),
  (n!"CV1LR_ddss", (.mul (.div (.div (.sqrt (.rat 2 1)) (.par n!"GF")) (.rat 4 1)) (.inp n!"V1ddLR_1122"))),
  (n!"CV1LR_ssss", (.mul (.div (.div (.sqrt (.rat 2 1)) (.par n!"GF")) (.rat 4 1)) (.inp n!"V1ddLR_2222"))),
  (n!"CPp_sdemu", (.mul (.div (.div (.div (.sqrt (.rat 2 1)) (.par n!"GF")) (.mul (.ckm 2 1) (.conj (.ckm 2 0)))) (.rat 4 1)) (.mul (.div (.div (.mul (.rat 16 1) (.mul .pi .pi)) (.mul (.sqrt (.mul (.mul (.rat 4 1) .pi) (.par n!"alpha_e"))) (.sqrt (.mul (.mul (.rat 4 1) .pi) (.par n!"alpha_e"))))) (.par n!"m_s")) (.sub (.div (.inp n!"SedRL_2112") (.rat 2 1)) (.div (.conj (.inp n!"SedRR_1221")) (.rat 2 1)))))),
  (n!"CSRL_cubb", (.mul (.div (.div (.div (.sqrt (.rat 2 1)) (.par n!"GF")) (.mul (.conj (.ckm 1 2)) (.ckm 0 2))) (.rat 4 1)) (.neg (.inp n!"V8udduLR_1332")))),
  (n!"CV8LR_uuss", (.mul (.div (.div (.sqrt (.rat 2 1)) (.par n!"GF")) (.rat 4 1)) (.inp n!"V8udLR_1122"))),
  (n!"CT_scenutau", (.mul (.div (.div (.div (.neg (.sqrt (.rat 2 1))) (.par n!"GF")) (.ckm 1 1)) (.rat 4 1)) (.conj (.inp n!"TnueduRR_3122")))),
  (n!"CVLR_nuenumuuu", (.mul (.div (.div (.sqrt (.rat 2 1)) (.par n!"GF")) (.rat 4 1)) (.inp n!"VnuuLR_1211"))),
  (n!"C10_bdtaue", (.mul (.div (.div (.div (.sqrt (.rat 2 1)) (.par n!"GF")) (.mul (.ckm 2 2) (.conj (.ckm 2 0)))) (.rat 4 1)) (.mul (.div (.mul (.rat 16 1) (.mul .pi .pi)) (.mul (.sqrt (.mul (.mul (.rat 4 1) .pi) (.par n!"alpha_e"))) (.sqrt (.mul (.mul (.rat 4 1) .pi) (.par n!"alpha_e"))))) (.sub (.div (.inp n!"VdeLR_1313") (.rat 2 1)) (.div (.inp n!"VedLL_1313") (.rat 2 1)))))),
  (n!"CSR_buenumu", (.mul (.div (.div (.div (.neg (.sqrt (.rat 2 1))) (.par n!"GF")) (.ckm 0 2)) (.rat 4 1)) (.conj (.inp n!"SnueduRL_2131")))),
  (n!"CVRR_cubb", (.mul (.div (.div (.div (.sqrt (.rat 2 1)) (.par n!"GF")) (.mul (.conj (.ckm 1 2)) (.ckm 0 2))) (.rat 4 1)) (.sub (.inp n!"V1udRR_1233") (.div (.inp n!"V8udRR_1233") (.mul (.rat 2 1) (.rat 3 1)))))),
  (n!"C9_bdmue", (.mul (.div (.div (.div (.sqrt (.rat 2 1)) (.par n!"GF")) (.mul (.ckm 2 2) (.conj (.ckm 2 0)))) (.rat 4 1)) (.mul (.div (.mul (.rat 16 1) (.mul .pi .pi)) (.mul (.sqrt (.mul (.mul (.rat 4 1) .pi) (.par n!"alpha_e"))) (.sqrt (.mul (.mul (.rat 4 1) .pi) (.par n!"alpha_e"))))) (.add (.div (.inp n!"VdeLR_1312") (.rat 2 1)) (.div (.inp n!"VedLL_1213") (.rat 2 1)))))),
  (n!"CSR_scenumu", (.mul (.div (.div (.div (.neg (.sqrt (.rat 2 1))) (.par n!"GF")) (.ckm 1 1)) (.rat 4 1)) (.conj (.inp n!"SnueduRL_2122")))),
  (n!"CSR_scenutau", (.mul (.div (.div (.div (.neg (.sqrt (.rat 2 1))) (.par n!"GF")) (.ckm 1 1)) (.rat 4 1)) (.conj (.inp n!"SnueduRL_3122")))),
  (n!"CVLR_mumudd", (.mul (.div (.div (.sqrt (.rat 2 1)) (.par n!"GF")) (.rat 4 1)) (.inp n!"VedLR_2211"))),
  (n!"CSp_bstaumu", (.mul (.div (.div (.div (.sqrt (.rat 2 1)) (.par n!"GF")) (.mul (.ckm 2 2) (.conj (.ckm 2 1)))) (.rat 4 1)) (.mul (.div (.div (.mul (.rat 16 1) (.mul .pi .pi)) (.mul (.sqrt (.mul (.mul (.rat 4 1) .pi) (.par n!"alpha_e"))) (.sqrt (.mul (.mul (.rat 4 1) .pi) (.par n!"alpha_e"))))) (.par n!"m_b")) (.add (.div (.inp n!"SedRL_2323") (.rat 2 1)) (.div (.conj (.inp n!"SedRR_3232")) (.rat 2 1)))))),
  (n!"CV8LR_bbbb", (.mul (.div (.div (.sqrt (.rat 2 1)) (.par n!"GF")) (.rat 4 1)) (.inp n!"V8ddLR_3333"))),
  (n!"CVLR_nuenutaucc", (.mul (.div (.div (.sqrt (.rat 2 1)) (.par n!"GF")) (.rat 4 1)) (.inp n!"VnuuLR_1322"))),
  (n!"CTLL_bsbs", (.mul (.div (.rat (-1) 1) (.rat 8 1)) (.div (.conj (.inp n!"S8ddRR_3232")) (.rat 2 1)))),
  (n!"CVLL_numunumuuu", (.mul (.div (.div (.sqrt (.rat 2 1)) (.par n!"GF")) (.rat 4 1)) (.inp n!"VnuuLL_2211"))),
  (n!"CVL_dcenue", (.mul (.div (.div (.div (.neg (.sqrt (.rat 2 1))) (.par n!"GF")) (.ckm 1 0)) (.rat 4 1)) (.conj (.inp n!"VnueduLL_1112")))),
  (n!"CTRR_sddd", (.mul (.div (.div (.div (.sqrt (.rat 2 1)) (.par n!"GF")) (.mul (.ckm 2 1) (.conj (.ckm 2 0)))) (.rat 4 1)) (.div (.neg (.inp n!"S8ddRR_1112")) (.rat 16 1)))),
  (n!"CVL_dutaunutau", (.mul (.div (.div (.div (.neg (.sqrt (.rat 2 1))) (.par n!"GF")) (.ckm 0 0)) (.rat 4 1)) (.conj (.inp n!"VnueduLL_3311")))),
  (n!"CTLL_cucc", (.mul (.div (.div (.div (.sqrt (.rat 2 1)) (.par n!"GF")) (.mul (.conj (.ckm 1 2)) (.ckm 0 2))) (.rat 4 1)) (.div (.neg (.conj (.inp n!"S8uuRR_2122"))) (.rat 16 1)))),
  (n!"CTRR_mumuss", (.mul (.div (.div (.sqrt (.rat 2 1)) (.par n!"GF")) (.rat 4 1)) (.inp n!"TedRR_2222"))),
  (n!"CSR_dcmunutau", (.mul (.div (.div (.div (.neg (.sqrt (.rat 2 1))) (.par n!"GF")) (.ckm 1 0)) (.rat 4 1)) (.conj (.inp n!"SnueduRL_3212")))),
  (n!"CVLL_mumuss", (.mul (.div (.div (.sqrt (.rat 2 1)) (.par n!"GF")) (.rat 4 1)) (.inp n!"VedLL_2222"))),
  (n!"CTRR_bsuu", (.mul (.div (.div (.div (.sqrt (.rat 2 1)) (.par n!"GF")) (.mul (.ckm 2 2) (.conj (.ckm 2 1)))) (.rat 4 1)) (.div (.neg (.inp n!"S8udduRR_1321")) (.rat 16 1)))),
  (n!"CSLR_sddd", (.mul (.div (.div (.div (.sqrt (.rat 2 1)) (.par n!"GF")) (.mul (.ckm 2 1) (.conj (.ckm 2 0)))) (.rat 4 1)) (.neg (.inp n!"V8ddLR_1211")))),
  (n!"CVLL_cudd", (.mul (.div (.div (.div (.sqrt (.rat 2 1)) (.par n!"GF")) (.mul (.conj (.ckm 1 2)) (.ckm 0 2))) (.rat 4 1)) (.sub (.inp n!"V1udLL_1211") (.div (.inp n!"V8udLL_1211") (.mul (.rat 2 1) (.rat 3 1)))))),
  (n!"CVR_sutaunumu", (.mul (.div (.div (.div (.neg (.sqrt (.rat 2 1))) (.par n!"GF")) (.ckm 0 1)) (.rat 4 1)) (.conj (.inp n!"VnueduLR_2321")))),
  (n!"CS_bsmumu", (.mul (.div (.div (.div (.sqrt (.rat 2 1)) (.par n!"GF")) (.mul (.ckm 2 2) (.conj (.ckm 2 1)))) (.rat 4 1)) (.mul (.div (.div (.mul (.rat 16 1) (.mul .pi .pi)) (.mul (.sqrt (.mul (.mul (.rat 4 1) .pi) (.par n!"alpha_e"))) (.sqrt (.mul (.mul (.rat 4 1) .pi) (.par n!"alpha_e"))))) (.par n!"m_b")) (.add (.div (.conj (.inp n!"SedRL_2232")) (.rat 2 1)) (.div (.inp n!"SedRR_2223") (.rat 2 1)))))),
  (n!"CP_bsmue", (.mul (.div (.div (.div (.sqrt (.rat 2 1)) (.par n!"GF")) (.mul (.ckm 2 2) (.conj (.ckm 2 1)))) (.rat 4 1)) (.mul (.div (.div (.mul (.rat 16 1) (.mul .pi .pi)) (.mul (.sqrt (.mul (.mul (.rat 4 1) .pi) (.par n!"alpha_e"))) (.sqrt (.mul (.mul (.rat 4 1) .pi) (.par n!"alpha_e"))))) (.par n!"m_b")) (.add (.div (.neg (.conj (.inp n!"SedRL_2132"))) (.rat 2 1)) (.div (.inp n!"SedRR_1223") (.rat 2 1)))))),
  (n!"CVLL_nutaunutauee", (.mul (.div (.div (.sqrt (.rat 2 1)) (.par n!"GF")) (.rat 4 1)) (.inp n!"VnueLL_3311"))),
  (n!"CVR_butaunue", (.mul (.div (.div (.div (.neg (.sqrt (.rat 2 1))) (.par n!"GF")) (.ckm 0 2)) (.rat 4 1)) (.conj (.inp n!"VnueduLR_1331")))),
  (n!"CSLR_bsuu", (.mul (.div (.div (.div (.sqrt (.rat 2 1)) (.par n!"GF")) (.mul (.ckm 2 2) (.conj (.ckm 2 1)))) (.rat 4 1)) (.neg (.inp n!"V8udduLR_1321")))),
  (n!"CTRR_cuss", (.mul (.div (.div (.div (.sqrt (.rat 2 1)) (.par n!"GF")) (.mul (.conj (.ckm 1 2)) (.ckm 0 2))) (.rat 4 1)) (.div (.neg (.inp n!"S8udduRR_1222")) (.rat 16 1)))),
  (n!"C9p_bsmutau", (.mul (.div (.div (.div (.sqrt (.rat 2 1)) (.par n!"GF")) (.mul (.ckm 2 2) (.conj (.ckm 2 1)))) (.rat 4 1)) (.mul (.div (.mul (.rat 16 1) (.mul .pi .pi)) (.mul (.sqrt (.mul (.mul (.rat 4 1) .pi) (.par n!"alpha_e"))) (.sqrt (.mul (.mul (.rat 4 1) .pi) (.par n!"alpha_e"))))) (.add (.div (.conj (.inp n!"VedLR_2332")) (.rat 2 1)) (.div (.conj (.inp n!"VedRR_2332")) (.rat 2 1)))))),
  (n!"CSp_bsetau", (.mul (.div (.div (.div (.sqrt (.rat 2 1)) (.par n!"GF")) (.mul (.ckm 2 2) (.conj (.ckm 2 1)))) (.rat 4 1)) (.mul (.div (.div (.mul (.rat 16 1) (.mul .pi .pi)) (.mul (.sqrt (.mul (.mul (.rat 4 1) .pi) (.par n!"alpha_e"))) (.sqrt (.mul (.mul (.rat 4 1) .pi) (.par n!"alpha_e"))))) (.par n!"m_b")) (.add (.div (.inp n!"SedRL_3123") (.rat 2 1)) (.div (.conj (.inp n!"SedRR_1332")) (.rat 2 1)))))),
  (n!"C10_sdtautau", (.mul (.div (.div (.div (.sqrt (.rat 2 1)) (.par n!"GF")) (.mul (.ckm 2 1) (.conj (.ckm 2 0)))) (.rat 4 1)) (.mul (.div (.mul (.rat 16 1) (.mul .pi .pi)) (.mul (.sqrt (.mul (.mul (.rat 4 1) .pi) (.par n!"alpha_e"))) (.sqrt (.mul (.mul (.rat 4 1) .pi) (.par n!"alpha_e"))))) (.sub (.div (.inp n!"VdeLR_1233") (.rat 2 1)) (.div (.inp n!"VedLL_3312") (.rat 2 1)))))),
  (n!"CTRR_bdbb", (.mul (.div (.div (.div (.sqrt (.rat 2 1)) (.par n!"GF")) (.mul (.ckm 2 2) (.conj (.ckm 2 0)))) (.rat 4 1)) (.div (.neg (.inp n!"S8ddRR_1333")) (.rat 16 1)))),
  (n!"CSL_dcenumu", (.mul (.div (.div (.div (.neg (.sqrt (.rat 2 1))) (.par n!"GF")) (.ckm 1 0)) (.rat 4 1)) (.conj (.inp n!"SnueduRR_2112")))),
  (n!"CVLL_eecc", (.mul (.div (.div (.sqrt (.rat 2 1)) (.par n!"GF")) (.rat 4 1)) (.inp n!"VeuLL_1122"))),
  (n!"CVL_duenutau", (.mul (.div (.div (.div (.neg (.sqrt (.rat 2 1))) (.par n!"GF")) (.ckm 0 0)) (.rat 4 1)) (.conj (.inp n!"VnueduLL_3111")))),
  (n!"CSRL_bdcc", (.mul (.div (.div (.div (.sqrt (.rat 2 1)) (.par n!"GF")) (.mul (.ckm 2 2) (.conj (.ckm 2 0)))) (.rat 4 1)) (.neg (.conj (.inp n!"V8udduLR_2132"))))),
  (n!"C9p_sdemu", (.mul (.div (.div (.div (.sqrt (.rat 2 1)) (.par n!"GF")) (.mul (.ckm 2 1) (.conj (.ckm 2 0)))) (.rat 4 1)) (.mul (.div (.mul (.rat 16 1) (.mul .pi .pi)) (.mul (.sqrt (.mul (.mul (.rat 4 1) .pi) (.par n!"alpha_e"))) (.sqrt (.mul (.mul (.rat 4 1) .pi) (.par n!"alpha_e"))))) (.add (.div (.conj (.inp n!"VedLR_1221")) (.rat 2 1)) (.div (.conj (.inp n!"VedRR_1221")) (.rat 2 1)))))),
  (n!"CSRLt_bsdd", (.mul (.div (.div (.div (.sqrt (.rat 2 1)) (.par n!"GF")) (.mul (.ckm 2 2) (.conj (.ckm 2 1)))) (.rat 4 1)) (.add (.mul (.rat (-2) 1) (.conj (.inp n!"V1ddLR_1231"))) (.div (.conj (.inp n!"V8ddLR_1231")) (.rat 3 1))))),
  (n!"CSLR_cuss", (.mul (.div (.div (.div (.sqrt (.rat 2 1)) (.par n!"GF")) (.mul (.conj (.ckm 1 2)) (.ckm 0 2))) (.rat 4 1)) (.neg (.conj (.inp n!"V8udduLR_2221"))))),
  (n!"C10p_sdmumu", (.mul (.div (.div (.div (.sqrt (.rat 2 1)) (.par n!"GF")) (.mul (.ckm 2 1) (.conj (.ckm 2 0)))) (.rat 4 1)) (.mul (.div (.mul (.rat 16 1) (.mul .pi .pi)) (.mul (.sqrt (.mul (.mul (.rat 4 1) .pi) (.par n!"alpha_e"))) (.sqrt (.mul (.mul (.rat 4 1) .pi) (.par n!"alpha_e"))))) (.add (.div (.neg (.inp n!"VedLR_2212")) (.rat 2 1)) (.div (.inp n!"VedRR_2212") (.rat 2 1)))))),
  (n!"CL_bdnumunutau", (.mul (.div (.div (.div (.sqrt (.rat 2 1)) (.par n!"GF")) (.mul (.ckm 2 2) (.conj (.ckm 2 0)))) (.rat 4 1)) (.mul (.div (.mul (.rat 8 1) (.mul .pi .pi)) (.mul (.sqrt (.mul (.mul (.rat 4 1) .pi) (.par n!"alpha_e"))) (.sqrt (.mul (.mul (.rat 4 1) .pi) (.par n!"alpha_e"))))) (.conj (.inp n!"VnudLL_2331")))))]

def JMS_to_flavio_21 : List (ℕ × Sym) := [
  (n!"CSLR_bdbb", (.mul (.div (.div (.div (.sqrt (.rat 2 1)) (.par n!"GF")) (.mul (.ckm 2 2) (.conj (.ckm 2 0)))) (.rat 4 1)) (.neg (.inp n!"V8ddLR_3313")))),
  (n!"CSLLt_sdbb", (.mul (.div (.div (.div (.sqrt (.rat 2 1)) (.par n!"GF")) (.mul (.ckm 2 1) (.conj (.ckm 2 0)))) (.rat 4 1)) (.add (.add (.div (.neg (.conj (.inp n!"S1ddRR_2331"))) (.rat 2 1)) (.div (.div (.conj (.inp n!"S8ddRR_2331")) (.rat 4 1)) (.rat 3 1))) (.div (.conj (.inp n!"S8ddRR_2133")) (.rat 2 1))))),
  (n!"CVRR_bdcc", (.mul (.div (.div (.div (.sqrt (.rat 2 1)) (.par n!"GF")) (.mul (.ckm 2 2) (.conj (.ckm 2 0)))) (.rat 4 1)) (.sub (.inp n!"V1udRR_2213") (.div (.inp n!"V8udRR_2213") (.mul (.rat 2 1) (.rat 3 1)))))),
  (n!"CSRL_eess", (.mul (.div (.div (.sqrt (.rat 2 1)) (.par n!"GF")) (.rat 4 1)) (.inp n!"SedRL_1122"))),
  (n!"CVLR_nuenutauuu", (.mul (.div (.div (.sqrt (.rat 2 1)) (.par n!"GF")) (.rat 4 1)) (.inp n!"VnuuLR_1311"))),
  (n!"CSR_scenue", (.mul (.div (.div (.div (.neg (.sqrt (.rat 2 1))) (.par n!"GF")) (.ckm 1 1)) (.rat 4 1)) (.conj (.inp n!"SnueduRL_1122")))),
  (n!"CSRLt_cubb", (.mul (.div (.div (.div (.sqrt (.rat 2 1)) (.par n!"GF")) (.mul (.conj (.ckm 1 2)) (.ckm 0 2))) (.rat 4 1)) (.add (.mul (.rat (-2) 1) (.inp n!"V1udduLR_1332")) (.div (.inp n!"V8udduLR_1332") (.rat 3 1))))),
  (n!"CVRR_eess", (.mul (.div (.div (.sqrt (.rat 2 1)) (.par n!"GF")) (.rat 4 1)) (.inp n!"VedRR_1122"))),
  (n!"C9p_bstautau", (.mul (.div (.div (.div (.sqrt (.rat 2 1)) (.par n!"GF")) (.mul (.ckm 2 2) (.conj (.ckm 2 1)))) (.rat 4 1)) (.mul (.div (.mul (.rat 16 1) (.mul .pi .pi)) (.mul (.sqrt (.mul (.mul (.rat 4 1) .pi) (.par n!"alpha_e"))) (.sqrt (.mul (.mul (.rat 4 1) .pi) (.par n!"alpha_e"))))) (.add (.div (.inp n!"VedLR_3323") (.rat 2 1)) (.div (.inp n!"VedRR_3323") (.rat 2 1)))))),
  (n!"CT_bctaunue", (.mul (.div (.div (.div (.neg (.sqrt (.rat 2 1))) (.par n!"GF")) (.ckm 1 2)) (.rat 4 1)) (.conj (.inp n!"TnueduRR_1332")))),
  (n!"CTLL_cuuu", (.mul (.div (.div (.div (.sqrt (.rat 2 1)) (.par n!"GF")) (.mul (.conj (.ckm 1 2)) (.ckm 0 2))) (.rat 4 1)) (.div (.neg (.conj (.inp n!"S8uuRR_1121"))) (.rat 16 1)))),
  (n!"CSR_buenue", (.mul (.div (.div (.div (.neg (.sqrt (.rat 2 1))) (.par n!"GF")) (.ckm 0 2)) (.rat 4 1)) (.conj (.inp n!"SnueduRL_1131")))),
  (n!"CTLL_bddd", (.mul (.div (.div (.div (.sqrt (.rat 2 1)) (.par n!"GF")) (.mul (.ckm 2 2) (.conj (.ckm 2 0)))) (.rat 4 1)) (.div (.neg (.conj (.inp n!"S8ddRR_1131"))) (.rat 16 1)))),
  (n!"CT_dutaunutau", (.mul (.div (.div (.div (.neg (.sqrt (.rat 2 1))) (.par n!"GF")) (.ckm 0 0)) (.rat 4 1)) (.conj (.inp n!"TnueduRR_3311")))),
  (n!"CVLR_ccee", (.mul (.div (.div (.sqrt (.rat 2 1)) (.par n!"GF")) (.rat 4 1)) (.inp n!"VueLR_2211"))),
  (n!"CR_sdnutaunumu", (.mul (.div (.div (.div (.sqrt (.rat 2 1)) (.par n!"GF")) (.mul (.ckm 2 1) (.conj (.ckm 2 0)))) (.rat 4 1)) (.mul (.div (.mul (.rat 8 1) (.mul .pi .pi)) (.mul (.sqrt (.mul (.mul (.rat 4 1) .pi) (.par n!"alpha_e"))) (.sqrt (.mul (.mul (.rat 4 1) .pi) (.par n!"alpha_e"))))) (.inp n!"VnudLR_2312")))),
  (n!"CPp_bsmumu", (.mul (.div (.div (.div (.sqrt (.rat 2 1)) (.par n!"GF")) (.mul (.ckm 2 2) (.conj (.ckm 2 1)))) (.rat 4 1)) (.mul (.div (.div (.mul (.rat 16 1) (.mul .pi .pi)) (.mul (.sqrt (.mul (.mul (.rat 4 1) .pi) (.par n!"alpha_e"))) (.sqrt (.mul (.mul (.rat 4 1) .pi) (.par n!"alpha_e"))))) (.par n!"m_b")) (.sub (.div (.inp n!"SedRL_2223") (.rat 2 1)) (.div (.conj (.inp n!"SedRR_2232")) (.rat 2 1)))))),
  (n!"CSR_bctaunue", (.mul (.div (.div (.div (.neg (.sqrt (.rat 2 1))) (.par n!"GF")) (.ckm 1 2)) (.rat 4 1)) (.conj (.inp n!"SnueduRL_1332")))),
  (n!"CVLL_dssd", (.mul (.div (.div (.sqrt (.rat 2 1)) (.par n!"GF")) (.rat 4 1)) (.inp n!"VddLL_1221"))),
  (n!"CV8LR_cccc", (.mul (.div (.div (.sqrt (.rat 2 1)) (.par n!"GF")) (.rat 4 1)) (.inp n!"V8uuLR_2222"))),
  (n!"CVLLt_cudd", (.mul (.div (.div (.div (.sqrt (.rat 2 1)) (.par n!"GF")) (.mul (.conj (.ckm 1 2)) (.ckm 0 2))) (.rat 4 1)) (.div (.inp n!"V8udLL_1211") (.rat 2 1)))),
  (n!"CR_sdnumunue", (.mul (.div (.div (.div (.sqrt (.rat 2 1)) (.par n!"GF")) (.mul (.ckm 2 1) (.conj (.ckm 2 0)))) (.rat 4 1)) (.mul (.div (.mul (.rat 8 1) (.mul .pi .pi)) (.mul (.sqrt (.mul (.mul (.rat 4 1) .pi) (.par n!"alpha_e"))) (.sqrt (.mul (.mul (.rat 4 1) .pi) (.par n!"alpha_e"))))) (.inp n!"VnudLR_1212")))),
  (n!"CV1LR_uucc", (.mul (.div (.div (.sqrt (.rat 2 1)) (.par n!"GF")) (.rat 4 1)) (.inp n!"V1uuLR_1122"))),
  (n!"CSRR_mumucc", (.mul (.div (.div (.sqrt (.rat 2 1)) (.par n!"GF")) (.rat 4 1)) (.inp n!"SeuRR_2222"))),
  (n!"CVR_butaunutau", (.mul (.div (.div (.div (.neg (.sqrt (.rat 2 1))) (.par n!"GF")) (.ckm 0 2)) (.rat 4 1)) (.conj (.inp n!"VnueduLR_3331")))),
  (n!"CPp_sdtaumu", (.mul (.div (.div (.div (.sqrt (.rat 2 1)) (.par n!"GF")) (.mul (.ckm 2 1) (.conj (.ckm 2 0)))) (.rat 4 1)) (.mul (.div (.div (.mul (.rat 16 1) (.mul .pi .pi)) (.mul (.sqrt (.mul (.mul (.rat 4 1) .pi) (.par n!"alpha_e"))) (.sqrt (.mul (.mul (.rat 4 1) .pi) (.par n!"alpha_e"))))) (.par n!"m_s")) (.sub (.div (.inp n!"SedRL_2312") (.rat 2 1)) (.div (.conj (.inp n!"SedRR_3221")) (.rat 2 1)))))),
  (n!"CVLL_numunumumumu", (.mul (.div (.div (.sqrt (.rat 2 1)) (.par n!"GF")) (.rat 4 1)) (.inp n!"VnueLL_2222"))),
  (n!"CSL_dcenutau", (.mul (.div (.div (.div (.neg (.sqrt (.rat 2 1))) (.par n!"GF")) (.ckm 1 0)) (.rat 4 1)) (.conj (.inp n!"SnueduRR_3112")))),
  (n!"CSRR_tautaudd", (.mul (.div (.div (.sqrt (.rat 2 1)) (.par n!"GF")) (.rat 4 1)) (.inp n!"SedRR_3311"))),
  (n!"CP_cumumu", (.mul (.div (.div (.div (.sqrt (.rat 2 1)) (.par n!"GF")) (.mul (.conj (.ckm 1 2)) (.ckm 0 2))) (.rat 4 1)) (.mul (.div (.div (.mul (.rat 16 1) (.mul .pi .pi)) (.mul (.sqrt (.mul (.mul (.rat 4 1) .pi) (.par n!"alpha_e"))) (.sqrt (.mul (.mul (.rat 4 1) .pi) (.par n!"alpha_e"))))) (.par n!"m_c")) (.add (.div (.neg (.conj (.inp n!"SeuRL_2221"))) (.rat 2 1)) (.div (.inp n!"SeuRR_2212") (.rat 2 1)))))),
  (n!"CVRR_mumubb", (.mul (.div (.div (.sqrt (.rat 2 1)) (.par n!"GF")) (.rat 4 1)) (.inp n!"VedRR_2233"))),
  (n!"CVRLt_bscc", (.mul (.div (.div (.div (.sqrt (.rat 2 1)) (.par n!"GF")) (.mul (.ckm 2 2) (.conj (.ckm 2 1)))) (.rat 4 1)) (.div (.inp n!"V8udLR_2223") (.rat 2 1)))),
  (n!"CSL_dumunutau", (.mul (.div (.div (.div (.neg (.sqrt (.rat 2 1))) (.par n!"GF")) (.ckm 0 0)) (.rat 4 1)) (.conj (.inp n!"SnueduRR_3211")))),
  (n!"C9p_sdtaue", (.mul (.div (.div (.div (.sqrt (.rat 2 1)) (.par n!"GF")) (.mul (.ckm 2 1) (.conj (.ckm 2 0)))) (.rat 4 1)) (.mul (.div (.mul (.rat 16 1) (.mul .pi .pi)) (.mul (.sqrt (.mul (.mul (.rat 4 1) .pi) (.par n!"alpha_e"))) (.sqrt (.mul (.mul (.rat 4 1) .pi) (.par n!"alpha_e"))))) (.add (.div (.inp n!"VedLR_1312") (.rat 2 1)) (.div (.inp n!"VedRR_1312") (.rat 2 1)))))),
  (n!"CPp_bdtautau", (.mul (.div (.div (.div (.sqrt (.rat 2 1)) (.par n!"GF")) (.mul (.ckm 2 2) (.conj (.ckm 2 0)))) (.rat 4 1)) (.mul (.div (.div (.mul (.rat 16 1) (.mul .pi .pi)) (.mul (.sqrt (.mul (.mul (.rat 4 1) .pi) (.par n!"alpha_e"))) (.sqrt (.mul (.mul (.rat 4 1) .pi) (.par n!"alpha_e"))))) (.par n!"m_b")) (.sub (.div (.inp n!"SedRL_3313") (.rat 2 1)) (.div (.conj (.inp n!"SedRR_3331")) (.rat 2 1)))))),
  (n!"CVLL_sdss", (.mul (.div (.div (.div (.sqrt (.rat 2 1)) (.par n!"GF")) (.mul (.ckm 2 1) (.conj (.ckm 2 0)))) (.rat 4 1)) (.inp n!"VddLL_1222"))),
  (n!"CVLL_eeuu", (.mul (.div (.div (.sqrt (.rat 2 1)) (.par n!"GF")) (.rat 4 1)) (.inp n!"VeuLL_1111"))),
  (n!"CTRR_ucuc", (.mul (.div (.rat (-1) 1) (.rat 8 1)) (.div (.inp n!"S8uuRR_2121") (.rat 2 1)))),
  (n!"CS1RR_ddss", (.mul (.div (.div (.sqrt (.rat 2 1)) (.par n!"GF")) (.rat 4 1)) (.inp n!"S1ddRR_1122"))),
  (n!"CSRL_bduu", (.mul (.div (.div (.div (.sqrt (.rat 2 1)) (.par n!"GF")) (.mul (.ckm 2 2) (.conj (.ckm 2 0)))) (.rat 4 1)) (.neg (.conj (.inp n!"V8udduLR_1131"))))),
  (n!"CV1LL_ccss", (.mul (.div (.div (.sqrt (.rat 2 1)) (.par n!"GF")) (.rat 4 1)) (.inp n!"V1udLL_2222"))),
  (n!"CL_sdnutaunue", (.mul (.div (.div (.div (.sqrt (.rat 2 1)) (.par n!"GF")) (.mul (.ckm 2 1) (.conj (.ckm 2 0)))) (.rat 4 1)) (.mul (.div (.mul (.rat 8 1) (.mul .pi .pi)) (.mul (.sqrt (.mul (.mul (.rat 4 1) .pi) (.par n!"alpha_e"))) (.sqrt (.mul (.mul (.rat 4 1) .pi) (.par n!"alpha_e"))))) (.inp n!"VnudLL_1312")))),
  (n!"CSR_dctaunutau", (.mul (.div (.div (.div (.neg (.sqrt (.rat 2 1))) (.par n!"GF")) (.ckm 1 0)) (.rat 4 1)) (.conj (.inp n!"SnueduRL_3312")))),
  (n!"C10_bsmumu", (.mul (.div (.div (.div (.sqrt (.rat 2 1)) (.par n!"GF")) (.mul (.ckm 2 2) (.conj (.ckm 2 1)))) (.rat 4 1)) (.mul (.div (.mul (.rat 16 1) (.mul .pi .pi)) (.mul (.sqrt (.mul (.mul (.rat 4 1) .pi) (.par n!"alpha_e"))) (.sqrt (.mul (.mul (.rat 4 1) .pi) (.par n!"alpha_e"))))) (.sub (.div (.inp n!"VdeLR_2322") (.rat 2 1)) (.div (.inp n!"VedLL_2223") (.rat 2 1)))))),
  (n!"CTRRt_bscc", (.mul (.div (.div (.div (.sqrt (.rat 2 1)) (.par n!"GF")) (.mul (.ckm 2 2) (.conj (.ckm 2 1)))) (.rat 4 1)) (.add (.div (.neg (.inp n!"S1udduRR_2322")) (.rat 8 1)) (.div (.inp n!"S8udduRR_2322") (.mul (.rat 16 1) (.rat 3 1)))))),
  (n!"CS1RR_ssss", (.mul (.div (.div (.sqrt (.rat 2 1)) (.par n!"GF")) (.rat 4 1)) (.inp n!"S1ddRR_2222"))),
  (n!"CS8RR_uuss", (.mul (.div (.div (.sqrt (.rat 2 1)) (.par n!"GF")) (.rat 4 1)) (.inp n!"S8udRR_1122"))),
  (n!"CSRR_eemumu", (.mul (.div (.div (.sqrt (.rat 2 1)) (.par n!"GF")) (.rat 4 1)) (.inp n!"SeeRR_1122"))),
  (n!"CVRR_bduu", (.mul (.div (.div (.div (.sqrt (.rat 2 1)) (.par n!"GF")) (.mul (.ckm 2 2) (.conj (.ckm 2 0)))) (.rat 4 1)) (.sub (.inp n!"V1udRR_1113") (.div (.inp n!"V8udRR_1113") (.mul (.rat 2 1) (.rat 3 1)))))),
  (n!"CSL_bcenumu", (.mul (.div (.div (.div (.neg (.sqrt (.rat 2 1))) (.par n!"GF")) (.ckm 1 2)) (.rat 4 1)) (.conj (.inp n!"SnueduRR_2132"))))]

def JMS_to_flavio_22 : List (ℕ × Sym) := [
  (n!"CSLR_ucuc", (.neg (.conj (.inp n!"V8uuLR_1212")))),
  (n!"CSL_suenutau", (.mul (.div (.div (.div (.neg (.sqrt (.rat 2 1))) (.par n!"GF")) (.ckm 0 1)) (.rat 4 1)) (.conj (.inp n!"SnueduRR_3121")))),
  (n!"CS_sdmue", (.mul (.div (.div (.div (.sqrt (.rat 2 1)) (.par n!"GF")) (.mul (.ckm 2 1) (.conj (.ckm 2 0)))) (.rat 4 1)) (.mul (.div (.div (.mul (.rat 16 1) (.mul .pi .pi)) (.mul (.sqrt (.mul (.mul (.rat 4 1) .pi) (.par n!"alpha_e"))) (.sqrt (.mul (.mul (.rat 4 1) .pi) (.par n!"alpha_e"))))) (.par n!"m_s")) (.add (.div (.conj (.inp n!"SedRL_2121")) (.rat 2 1)) (.div (.inp n!"SedRR_1212") (.rat 2 1)))))),
  (n!"CS_bdee", (.mul (.div (.div (.div (.sqrt (.rat 2 1)) (.par n!"GF")) (.mul (.ckm 2 2) (.conj (.ckm 2 0)))) (.rat 4 1)) (.mul (.div (.div (.mul (.rat 16 1) (.mul .pi .pi)) (.mul (.sqrt (.mul (.mul (.rat 4 1) .pi) (.par n!"alpha_e"))) (.sqrt (.mul (.mul (.rat 4 1) .pi) (.par n!"alpha_e"))))) (.par n!"m_b")) (.add (.div (.conj (.inp n!"SedRL_1131")) (.rat 2 1)) (.div (.inp n!"SedRR_1113") (.rat 2 1)))))),
  (n!"CSRLt_bdcc", (.mul (.div (.div (.div (.sqrt (.rat 2 1)) (.par n!"GF")) (.mul (.ckm 2 2) (.conj (.ckm 2 0)))) (.rat 4 1)) (.add (.mul (.rat (-2) 1) (.conj (.inp n!"V1udduLR_2132"))) (.div (.conj (.inp n!"V8udduLR_2132")) (.rat 3 1))))),
  (n!"CS8RR_bbbb", (.mul (.div (.div (.sqrt (.rat 2 1)) (.par n!"GF")) (.rat 4 1)) (.inp n!"S8ddRR_3333"))),
  (n!"CV8LL_uubb", (.mul (.div (.div (.sqrt (.rat 2 1)) (.par n!"GF")) (.rat 4 1)) (.inp n!"V8udLL_1133"))),
  (n!"CSRR_mutautaumu", (.mul (.div (.div (.sqrt (.rat 2 1)) (.par n!"GF")) (.rat 4 1)) (.inp n!"SeeRR_2332"))),
  (n!"CPp_bsmue", (.mul (.div (.div (.div (.sqrt (.rat 2 1)) (.par n!"GF")) (.mul (.ckm 2 2) (.conj (.ckm 2 1)))) (.rat 4 1)) (.mul (.div (.div (.mul (.rat 16 1) (.mul .pi .pi)) (.mul (.sqrt (.mul (.mul (.rat 4 1) .pi) (.par n!"alpha_e"))) (.sqrt (.mul (.mul (.rat 4 1) .pi) (.par n!"alpha_e"))))) (.par n!"m_b")) (.sub (.div (.inp n!"SedRL_1223") (.rat 2 1)) (.div (.conj (.inp n!"SedRR_2132")) (.rat 2 1)))))),
  (n!"CVL_sctaunutau", (.mul (.div (.div (.div (.neg (.sqrt (.rat 2 1))) (.par n!"GF")) (.ckm 1 1)) (.rat 4 1)) (.conj (.inp n!"VnueduLL_3322")))),
  (n!"C10p_sdmutau", (.mul (.div (.div (.div (.sqrt (.rat 2 1)) (.par n!"GF")) (.mul (.ckm 2 1) (.conj (.ckm 2 0)))) (.rat 4 1)) (.mul (.div (.mul (.rat 16 1) (.mul .pi .pi)) (.mul (.sqrt (.mul (.mul (.rat 4 1) .pi) (.par n!"alpha_e"))) (.sqrt (.mul (.mul (.rat 4 1) .pi) (.par n!"alpha_e"))))) (.add (.div (.neg (.conj (.inp n!"VedLR_2321"))) (.rat 2 1)) (.div (.conj (.inp n!"VedRR_2321")) (.rat 2 1)))))),
  (n!"CV8LR_ccuu", (.mul (.div (.div (.sqrt (.rat 2 1)) (.par n!"GF")) (.rat 4 1)) (.inp n!"V8uuLR_2211"))),
  (n!"CVRR_sbbs", (.mul (.div (.div (.sqrt (.rat 2 1)) (.par n!"GF")) (.rat 4 1)) (.inp n!"VddRR_2332"))),
  (n!"CV1LR_uuuu", (.mul (.div (.div (.sqrt (.rat 2 1)) (.par n!"GF")) (.rat 4 1)) (.inp n!"V1uuLR_1111"))),
  (n!"CSRR_bsbb", (.mul (.div (.div (.div (.sqrt (.rat 2 1)) (.par n!"GF")) (.mul (.ckm 2 2) (.conj (.ckm 2 1)))) (.rat 4 1)) (.sub (.sub (.inp n!"S1ddRR_2333") (.div (.inp n!"S8ddRR_2333") (.rat 4 1))) (.div (.inp n!"S8ddRR_2333") (.mul (.rat 2 1) (.rat 3 1)))))),
  (n!"C9p_cuee", (.mul (.div (.div (.div (.sqrt (.rat 2 1)) (.par n!"GF")) (.mul (.conj (.ckm 1 2)) (.ckm 0 2))) (.rat 4 1)) (.mul (.div (.mul (.rat 16 1) (.mul .pi .pi)) (.mul (.sqrt (.mul (.mul (.rat 4 1) .pi) (.par n!"alpha_e"))) (.sqrt (.mul (.mul (.rat 4 1) .pi) (.par n!"alpha_e"))))) (.add (.div (.inp n!"VeuLR_1112") (.rat 2 1)) (.div (.inp n!"VeuRR_1112") (.rat 2 1)))))),
  (n!"CSRR_mumuuu", (.mul (.div (.div (.sqrt (.rat 2 1)) (.par n!"GF")) (.rat 4 1)) (.inp n!"SeuRR_2211"))),
  (n!"CSR_dctaunumu", (.mul (.div (.div (.div (.neg (.sqrt (.rat 2 1))) (.par n!"GF")) (.ckm 1 0)) (.rat 4 1)) (.conj (.inp n!"SnueduRL_2312")))),
  (n!"CVRLt_bsuu", (.mul (.div (.div (.div (.sqrt (.rat 2 1)) (.par n!"GF")) (.mul (.ckm 2 2) (.conj (.ckm 2 1)))) (.rat 4 1)) (.div (.inp n!"V8udLR_1123") (.rat 2 1)))),
  (n!"CVR_scmunumu", (.mul (.div (.div (.div (.neg (.sqrt (.rat 2 1))) (.par n!"GF")) (.ckm 1 1)) (.rat 4 1)) (.conj (.inp n!"VnueduLR_2222")))),
  (n!"C8_dd", (.mul (.div (.div (.sqrt (.rat 2 1)) (.par n!"GF")) (.rat 4 1)) (.mul (.div (.div (.mul (.rat 16 1) (.mul .pi .pi)) (.sqrt (.mul (.mul (.rat 4 1) .pi) (.par n!"alpha_s")))) (.par n!"m_d")) (.inp n!"dG_11")))),
  (n!"C9_cumumu", (.mul (.div (.div (.div (.sqrt (.rat 2 1)) (.par n!"GF")) (.mul (.conj (.ckm 1 2)) (.ckm 0 2))) (.rat 4 1)) (.mul (.div (.mul (.rat 16 1) (.mul .pi .pi)) (.mul (.sqrt (.mul (.mul (.rat 4 1) .pi) (.par n!"alpha_e"))) (.sqrt (.mul (.mul (.rat 4 1) .pi) (.par n!"alpha_e"))))) (.add (.div (.inp n!"VueLR_1222") (.rat 2 1)) (.div (.inp n!"VeuLL_2212") (.rat 2 1)))))),
  (n!"CV1LR_bbdd", (.mul (.div (.div (.sqrt (.rat 2 1)) (.par n!"GF")) (.rat 4 1)) (.inp n!"V1ddLR_3311"))),
  (n!"CL_bsnuenumu", (.mul (.div (.div (.div (.sqrt (.rat 2 1)) (.par n!"GF")) (.mul (.ckm 2 2) (.conj (.ckm 2 1)))) (.rat 4 1)) (.mul (.div (.mul (.rat 8 1) (.mul .pi .pi)) (.mul (.sqrt (.mul (.mul (.rat 4 1) .pi) (.par n!"alpha_e"))) (.sqrt (.mul (.mul (.rat 4 1) .pi) (.par n!"alpha_e"))))) (.conj (.inp n!"VnudLL_1232"))))),
  (n!"CVLR_numunumudd", (.mul (.div (.div (.sqrt (.rat 2 1)) (.par n!"GF")) (.rat 4 1)) (.inp n!"VnudLR_2211"))),
  (n!"CV8LR_dddd", (.mul (.div (.div (.sqrt (.rat 2 1)) (.par n!"GF")) (.rat 4 1)) (.inp n!"V8ddLR_1111"))),
  (n!"CTRRt_bsuu", (.mul (.div (.div (.div (.sqrt (.rat 2 1)) (.par n!"GF")) (.mul (.ckm 2 2) (.conj (.ckm 2 1)))) (.rat 4 1)) (.add (.div (.neg (.inp n!"S1udduRR_1321")) (.rat 8 1)) (.div (.inp n!"S8udduRR_1321") (.mul (.rat 16 1) (.rat 3 1)))))),
  (n!"CR_sdnutaunutau", (.mul (.div (.div (.div (.sqrt (.rat 2 1)) (.par n!"GF")) (.mul (.ckm 2 1) (.conj (.ckm 2 0)))) (.rat 4 1)) (.mul (.div (.mul (.rat 8 1) (.mul .pi .pi)) (.mul (.sqrt (.mul (.mul (.rat 4 1) .pi) (.par n!"alpha_e"))) (.sqrt (.mul (.mul (.rat 4 1) .pi) (.par n!"alpha_e"))))) (.inp n!"VnudLR_3312")))),
  (n!"CV8LR_ssdd", (.mul (.div (.div (.sqrt (.rat 2 1)) (.par n!"GF")) (.rat 4 1)) (.inp n!"V8ddLR_2211"))),
  (n!"CVRLt_cuss", (.mul (.div (.div (.div (.sqrt (.rat 2 1)) (.par n!"GF")) (.mul (.conj (.ckm 1 2)) (.ckm 0 2))) (.rat 4 1)) (.div (.inp n!"V8duLR_2212") (.rat 2 1)))),
  (n!"CVR_suenumu", (.mul (.div (.div (.div (.neg (.sqrt (.rat 2 1))) (.par n!"GF")) (.ckm 0 1)) (.rat 4 1)) (.conj (.inp n!"VnueduLR_2121")))),
  (n!"CVL_sctaunue", (.mul (.div (.div (.div (.neg (.sqrt (.rat 2 1))) (.par n!"GF")) (.ckm 1 1)) (.rat 4 1)) (.conj (.inp n!"VnueduLL_1322")))),
  (n!"CT_bumunumu", (.mul (.div (.div (.div (.neg (.sqrt (.rat 2 1))) (.par n!"GF")) (.ckm 0 2)) (.rat 4 1)) (.conj (.inp n!"TnueduRR_2231")))),
  (n!"C10_sdee", (.mul (.div (.div (.div (.sqrt (.rat 2 1)) (.par n!"GF")) (.mul (.ckm 2 1) (.conj (.ckm 2 0)))) (.rat 4 1)) (.mul (.div (.mul (.rat 16 1) (.mul .pi .pi)) (.mul (.sqrt (.mul (.mul (.rat 4 1) .pi) (.par n!"alpha_e"))) (.sqrt (.mul (.mul (.rat 4 1) .pi) (.par n!"alpha_e"))))) (.sub (.div (.inp n!"VdeLR_1211") (.rat 2 1)) (.div (.inp n!"VedLL_1112") (.rat 2 1)))))),
  (n!"C10p_bdmumu", (.mul (.div (.div (.div (.sqrt (.rat 2 1)) (.par n!"GF")) (.mul (.ckm 2 2) (.conj (.ckm 2 0)))) (.rat 4 1)) (.mul (.div (.mul (.rat 16 1) (.mul .pi .pi)) (.mul (.sqrt (.mul (.mul (.rat 4 1) .pi) (.par n!"alpha_e"))) (.sqrt (.mul (.mul (.rat 4 1) .pi) (.par n!"alpha_e"))))) (.add (.div (.neg (.inp n!"VedLR_2213")) (.rat 2 1)) (.div (.inp n!"VedRR_2213") (.rat 2 1)))))),
  (n!"CVLR_mumumumu", (.mul (.div (.div (.sqrt (.rat 2 1)) (.par n!"GF")) (.rat 4 1)) (.inp n!"VeeLR_2222"))),
  (n!"CVLL_numunutaucc", (.mul (.div (.div (.sqrt (.rat 2 1)) (.par n!"GF")) (.rat 4 1)) (.inp n!"VnuuLL_2322"))),
  (n!"CTRRt_cuss", (.mul (.div (.div (.div (.sqrt (.rat 2 1)) (.par n!"GF")) (.mul (.conj (.ckm 1 2)) (.ckm 0 2))) (.rat 4 1)) (.add (.div (.neg (.inp n!"S1udduRR_1222")) (.rat 8 1)) (.div (.inp n!"S8udduRR_1222") (.mul (.rat 16 1) (.rat 3 1)))))),
  (n!"CSLL_bsdd", (.mul (.div (.div (.div (.sqrt (.rat 2 1)) (.par n!"GF")) (.mul (.ckm 2 2) (.conj (.ckm 2 1)))) (.rat 4 1)) (.sub (.sub (.conj (.inp n!"S1ddRR_1132")) (.div (.conj (.inp n!"S8ddRR_1231")) (.rat 4 1))) (.div (.div (.conj (.inp n!"S8ddRR_1132")) (.rat 2 1)) (.rat 3 1))))),
  (n!"CSR_bumunumu", (.mul (.div (.div (.div (.neg (.sqrt (.rat 2 1))) (.par n!"GF")) (.ckm 0 2)) (.rat 4 1)) (.conj (.inp n!"SnueduRL_2231")))),
  (n!"CSRLt_bduu", (.mul (.div (.div (.div (.sqrt (.rat 2 1)) (.par n!"GF")) (.mul (.ckm 2 2) (.conj (.ckm 2 0)))) (.rat 4 1)) (.add (.mul (.rat (-2) 1) (.conj (.inp n!"V1udduLR_1131"))) (.div (.conj (.inp n!"V8udduLR_1131")) (.rat 3 1))))),
  (n!"CSR_bcenue", (.mul (.div (.div (.div (.neg (.sqrt (.rat 2 1))) (.par n!"GF")) (.ckm 1 2)) (.rat 4 1)) (.conj (.inp n!"SnueduRL_1132")))),
  (n!"C9p_bstaumu", (.mul (.div (.div (.div (.sqrt (.rat 2 1)) (.par n!"GF")) (.mul (.ckm 2 2) (.conj (.ckm 2 1)))) (.rat 4 1)) (.mul (.div (.mul (.rat 16 1) (.mul .pi .pi)) (.mul (.sqrt (.mul (.mul (.rat 4 1) .pi) (.par n!"alpha_e"))) (.sqrt (.mul (.mul (.rat 4 1) .pi) (.par n!"alpha_e"))))) (.add (.div (.inp n!"VedLR_2323") (.rat 2 1)) (.div (.inp n!"VedRR_2323") (.rat 2 1)))))),
  (n!"CL_bdnutaunumu", (.mul (.div (.div (.div (.sqrt (.rat 2 1)) (.par n!"GF")) (.mul (.ckm 2 2) (.conj (.ckm 2 0)))) (.rat 4 1)) (.mul (.div (.mul (.rat 8 1) (.mul .pi .pi)) (.mul (.sqrt (.mul (.mul (.rat 4 1) .pi) (.par n!"alpha_e"))) (.sqrt (.mul (.mul (.rat 4 1) .pi) (.par n!"alpha_e"))))) (.inp n!"VnudLL_2313")))),
  (n!"CVLR_bsdd", (.mul (.div (.div (.div (.sqrt (.rat 2 1)) (.par n!"GF")) (.mul (.ckm 2 2) (.conj (.ckm 2 1)))) (.rat 4 1)) (.sub (.inp n!"V1ddLR_2311") (.div (.inp n!"V8ddLR_2311") (.mul (.rat 2 1) (.rat 3 1)))))),
  (n!"CVLR_nutaunutaubb", (.mul (.div (.div (.sqrt (.rat 2 1)) (.par n!"GF")) (.rat 4 1)) (.inp n!"VnudLR_3333"))),
  (n!"CSRR_sdcc", (.mul (.div (.div (.div (.sqrt (.rat 2 1)) (.par n!"GF")) (.mul (.ckm 2 1) (.conj (.ckm 2 0)))) (.rat 4 1)) (.sub (.sub (.inp n!"S1udRR_2212") (.div (.inp n!"S8udduRR_2212") (.rat 4 1))) (.div (.inp n!"S8udRR_2212") (.mul (.rat 2 1) (.rat 3 1)))))),
  (n!"C9p_cutautau", (.mul (.div (.div (.div (.sqrt (.rat 2 1)) (.par n!"GF")) (.mul (.conj (.ckm 1 2)) (.ckm 0 2))) (.rat 4 1)) (.mul (.div (.mul (.rat 16 1) (.mul .pi .pi)) (.mul (.sqrt (.mul (.mul (.rat 4 1) .pi) (.par n!"alpha_e"))) (.sqrt (.mul (.mul (.rat 4 1) .pi) (.par n!"alpha_e"))))) (.add (.div (.inp n!"VeuLR_3312") (.rat 2 1)) (.div (.inp n!"VeuRR_3312") (.rat 2 1)))))),
  (n!"CSRR_eeee", (.mul (.div (.div (.sqrt (.rat 2 1)) (.par n!"GF")) (.rat 4 1)) (.inp n!"SeeRR_1111"))),
  (n!"CSLL_cubb", (.mul (.div (.div (.div (.sqrt (.rat 2 1)) (.par n!"GF")) (.mul (.conj (.ckm 1 2)) (.ckm 0 2))) (.rat 4 1)) (.sub (.sub (.conj (.inp n!"S1udRR_2133")) (.div (.conj (.inp n!"S8udduRR_2331")) (.rat 4 1))) (.div (.conj (.inp n!"S8udRR_2133")) (.mul (.rat 2 1) (.rat 3 1))))))]

def JMS_to_flavio_23 : List (ℕ × Sym) := [
  (n!"CVRL_cucc", (.mul (.div (.div (.div (.sqrt (.rat 2 1)) (.par n!"GF")) (.mul (.conj (.ckm 1 2)) (.ckm 0 2))) (.rat 4 1)) (.sub (.inp n!"V1uuLR_2212") (.div (.inp n!"V8uuLR_2212") (.mul (.rat 2 1) (.rat 3 1)))))),
  (n!"C9p_bsmue", (.mul (.div (.div (.div (.sqrt (.rat 2 1)) (.par n!"GF")) (.mul (.ckm 2 2) (.conj (.ckm 2 1)))) (.rat 4 1)) (.mul (.div (.mul (.rat 16 1) (.mul .pi .pi)) (.mul (.sqrt (.mul (.mul (.rat 4 1) .pi) (.par n!"alpha_e"))) (.sqrt (.mul (.mul (.rat 4 1) .pi) (.par n!"alpha_e"))))) (.add (.div (.inp n!"VedLR_1223") (.rat 2 1)) (.div (.inp n!"VedRR_1223") (.rat 2 1)))))),
  (n!"CVLR_nuenuedd", (.mul (.div (.div (.sqrt (.rat 2 1)) (.par n!"GF")) (.rat 4 1)) (.inp n!"VnudLR_1111"))),
  (n!"CSL_butaunue", (.mul (.div (.div (.div (.neg (.sqrt (.rat 2 1))) (.par n!"GF")) (.ckm 0 2)) (.rat 4 1)) (.conj (.inp n!"SnueduRR_1331")))),
  (n!"CV1LR_dbbd", (.mul (.div (.div (.sqrt (.rat 2 1)) (.par n!"GF")) (.rat 4 1)) (.inp n!"V1ddLR_1331"))),
  (n!"C10p_sdee", (.mul (.div (.div (.div (.sqrt (.rat 2 1)) (.par n!"GF")) (.mul (.ckm 2 1) (.conj (.ckm 2 0)))) (.rat 4 1)) (.mul (.div (.mul (.rat 16 1) (.mul .pi .pi)) (.mul (.sqrt (.mul (.mul (.rat 4 1) .pi) (.par n!"alpha_e"))) (.sqrt (.mul (.mul (.rat 4 1) .pi) (.par n!"alpha_e"))))) (.add (.div (.neg (.inp n!"VedLR_1112")) (.rat 2 1)) (.div (.inp n!"VedRR_1112") (.rat 2 1)))))),
  (n!"CVLR_cubb", (.mul (.div (.div (.div (.sqrt (.rat 2 1)) (.par n!"GF")) (.mul (.conj (.ckm 1 2)) (.ckm 0 2))) (.rat 4 1)) (.sub (.inp n!"V1udLR_1233") (.div (.inp n!"V8udLR_1233") (.mul (.rat 2 1) (.rat 3 1)))))),
  (n!"CT_sctaunutau", (.mul (.div (.div (.div (.neg (.sqrt (.rat 2 1))) (.par n!"GF")) (.ckm 1 1)) (.rat 4 1)) (.conj (.inp n!"TnueduRR_3322")))),
  (n!"CS8RR_cccc", (.mul (.div (.div (.sqrt (.rat 2 1)) (.par n!"GF")) (.rat 4 1)) (.inp n!"S8uuRR_2222"))),
  (n!"CVLR_numunutaudd", (.mul (.div (.div (.sqrt (.rat 2 1)) (.par n!"GF")) (.rat 4 1)) (.inp n!"VnudLR_2311"))),
  (n!"C10_sdmutau", (.mul (.div (.div (.div (.sqrt (.rat 2 1)) (.par n!"GF")) (.mul (.ckm 2 1) (.conj (.ckm 2 0)))) (.rat 4 1)) (.mul (.div (.mul (.rat 16 1) (.mul .pi .pi)) (.mul (.sqrt (.mul (.mul (.rat 4 1) .pi) (.par n!"alpha_e"))) (.sqrt (.mul (.mul (.rat 4 1) .pi) (.par n!"alpha_e"))))) (.sub (.div (.inp n!"VdeLR_1232") (.rat 2 1)) (.div (.conj (.inp n!"VedLL_2321")) (.rat 2 1)))))),
  (n!"CSLRt_cudd", (.mul (.div (.div (.div (.sqrt (.rat 2 1)) (.par n!"GF")) (.mul (.conj (.ckm 1 2)) (.ckm 0 2))) (.rat 4 1)) (.add (.mul (.rat (-2) 1) (.conj (.inp n!"V1udduLR_2111"))) (.div (.conj (.inp n!"V8udduLR_2111")) (.rat 3 1))))),
  (n!"CS1RR_uucc", (.mul (.div (.div (.sqrt (.rat 2 1)) (.par n!"GF")) (.rat 4 1)) (.inp n!"S1uuRR_1122"))),
  (n!"CVL_duenumu", (.mul (.div (.div (.div (.neg (.sqrt (.rat 2 1))) (.par n!"GF")) (.ckm 0 0)) (.rat 4 1)) (.conj (.inp n!"VnueduLL_2111")))),
  (n!"CSL_sumunue", (.mul (.div (.div (.div (.neg (.sqrt (.rat 2 1))) (.par n!"GF")) (.ckm 0 1)) (.rat 4 1)) (.conj (.inp n!"SnueduRR_1221")))),
  (n!"CVLL_nutaunutautautau", (.mul (.div (.div (.sqrt (.rat 2 1)) (.par n!"GF")) (.rat 4 1)) (.inp n!"VnueLL_3333"))),
  (n!"CSRRt_bscc", (.mul (.div (.div (.div (.sqrt (.rat 2 1)) (.par n!"GF")) (.mul (.ckm 2 2) (.conj (.ckm 2 1)))) (.rat 4 1)) (.add (.add (.div (.neg (.inp n!"S1udduRR_2322")) (.rat 2 1)) (.div (.inp n!"S8udduRR_2322") (.mul (.rat 4 1) (.rat 3 1)))) (.div (.inp n!"S8udRR_2223") (.rat 2 1))))),
  (n!"C9p_bdtaue", (.mul (.div (.div (.div (.sqrt (.rat 2 1)) (.par n!"GF")) (.mul (.ckm 2 2) (.conj (.ckm 2 0)))) (.rat 4 1)) (.mul (.div (.mul (.rat 16 1) (.mul .pi .pi)) (.mul (.sqrt (.mul (.mul (.rat 4 1) .pi) (.par n!"alpha_e"))) (.sqrt (.mul (.mul (.rat 4 1) .pi) (.par n!"alpha_e"))))) (.add (.div (.inp n!"VedLR_1313") (.rat 2 1)) (.div (.inp n!"VedRR_1313") (.rat 2 1)))))),
  (n!"CT_duenumu", (.mul (.div (.div (.div (.neg (.sqrt (.rat 2 1))) (.par n!"GF")) (.ckm 0 0)) (.rat 4 1)) (.conj (.inp n!"TnueduRR_2111")))),
  (n!"CSL_duenue", (.mul (.div (.div (.div (.neg (.sqrt (.rat 2 1))) (.par n!"GF")) (.ckm 0 0)) (.rat 4 1)) (.conj (.inp n!"SnueduRR_1111")))),
  (n!"CVLL_nuenutauss", (.mul (.div (.div (.sqrt (.rat 2 1)) (.par n!"GF")) (.rat 4 1)) (.inp n!"VnudLL_1322"))),
  (n!"CPp_bsmutau", (.mul (.div (.div (.div (.sqrt (.rat 2 1)) (.par n!"GF")) (.mul (.ckm 2 2) (.conj (.ckm 2 1)))) (.rat 4 1)) (.mul (.div (.div (.mul (.rat 16 1) (.mul .pi .pi)) (.mul (.sqrt (.mul (.mul (.rat 4 1) .pi) (.par n!"alpha_e"))) (.sqrt (.mul (.mul (.rat 4 1) .pi) (.par n!"alpha_e"))))) (.par n!"m_b")) (.sub (.div (.inp n!"SedRL_3223") (.rat 2 1)) (.div (.conj (.inp n!"SedRR_2332")) (.rat 2 1)))))),
  (n!"CL_bdnutaunutau", (.mul (.div (.div (.div (.sqrt (.rat 2 1)) (.par n!"GF")) (.mul (.ckm 2 2) (.conj (.ckm 2 0)))) (.rat 4 1)) (.mul (.div (.mul (.rat 8 1) (.mul .pi .pi)) (.mul (.sqrt (.mul (.mul (.rat 4 1) .pi) (.par n!"alpha_e"))) (.sqrt (.mul (.mul (.rat 4 1) .pi) (.par n!"alpha_e"))))) (.inp n!"VnudLL_3313")))),
  (n!"CSL_dutaunumu", (.mul (.div (.div (.div (.neg (.sqrt (.rat 2 1))) (.par n!"GF")) (.ckm 0 0)) (.rat 4 1)) (.conj (.inp n!"SnueduRR_2311")))),
  (n!"CSL_sutaunutau", (.mul (.div (.div (.div (.neg (.sqrt (.rat 2 1))) (.par n!"GF")) (.ckm 0 1)) (.rat 4 1)) (.conj (.inp n!"SnueduRR_3321")))),
  (n!"CVLL_numunutauuu", (.mul (.div (.div (.sqrt (.rat 2 1)) (.par n!"GF")) (.rat 4 1)) (.inp n!"VnuuLL_2311"))),
  (n!"CSR_bcmunutau", (.mul (.div (.div (.div (.neg (.sqrt (.rat 2 1))) (.par n!"GF")) (.ckm 1 2)) (.rat 4 1)) (.conj (.inp n!"SnueduRL_3232")))),
  (n!"CVLL_nuenutaumumu", (.mul (.div (.div (.sqrt (.rat 2 1)) (.par n!"GF")) (.rat 4 1)) (.inp n!"VnueLL_1322"))),
  (n!"CVL_dcmunumu", (.mul (.div (.div (.div (.neg (.sqrt (.rat 2 1))) (.par n!"GF")) (.ckm 1 0)) (.rat 4 1)) (.conj (.inp n!"VnueduLL_2212")))),
  (n!"C10p_bdtautau", (.mul (.div (.div (.div (.sqrt (.rat 2 1)) (.par n!"GF")) (.mul (.ckm 2 2) (.conj (.ckm 2 0)))) (.rat 4 1)) (.mul (.div (.mul (.rat 16 1) (.mul .pi .pi)) (.mul (.sqrt (.mul (.mul (.rat 4 1) .pi) (.par n!"alpha_e"))) (.sqrt (.mul (.mul (.rat 4 1) .pi) (.par n!"alpha_e"))))) (.add (.div (.neg (.inp n!"VedLR_3313")) (.rat 2 1)) (.div (.inp n!"VedRR_3313") (.rat 2 1)))))),
  (n!"CSRR_sduu", (.mul (.div (.div (.div (.sqrt (.rat 2 1)) (.par n!"GF")) (.mul (.ckm 2 1) (.conj (.ckm 2 0)))) (.rat 4 1)) (.sub (.sub (.inp n!"S1udRR_1112") (.div (.inp n!"S8udduRR_1211") (.rat 4 1))) (.div (.inp n!"S8udRR_1112") (.mul (.rat 2 1) (.rat 3 1)))))),
  (n!"CV8RR_ccbb", (.mul (.div (.div (.sqrt (.rat 2 1)) (.par n!"GF")) (.rat 4 1)) (.inp n!"V8udRR_2233"))),
  (n!"CVRL_cuuu", (.mul (.div (.div (.div (.sqrt (.rat 2 1)) (.par n!"GF")) (.mul (.conj (.ckm 1 2)) (.ckm 0 2))) (.rat 4 1)) (.sub (.inp n!"V1uuLR_1112") (.div (.inp n!"V8uuLR_1112") (.mul (.rat 2 1) (.rat 3 1)))))),
  (n!"CV1RR_uubb", (.mul (.div (.div (.sqrt (.rat 2 1)) (.par n!"GF")) (.rat 4 1)) (.inp n!"V1udRR_1133"))),
  (n!"CV8LR_cssc", (.mul (.div (.div (.sqrt (.rat 2 1)) (.par n!"GF")) (.rat 4 1)) (.inp n!"V8udduLR_2222"))),
  (n!"CSLL_bdcc", (.mul (.div (.div (.div (.sqrt (.rat 2 1)) (.par n!"GF")) (.mul (.ckm 2 2) (.conj (.ckm 2 0)))) (.rat 4 1)) (.sub (.sub (.conj (.inp n!"S1udRR_2231")) (.div (.conj (.inp n!"S8udduRR_2132")) (.rat 4 1))) (.div (.conj (.inp n!"S8udRR_2231")) (.mul (.rat 2 1) (.rat 3 1)))))),
  (n!"CVRL_bddd", (.mul (.div (.div (.div (.sqrt (.rat 2 1)) (.par n!"GF")) (.mul (.ckm 2 2) (.conj (.ckm 2 0)))) (.rat 4 1)) (.sub (.inp n!"V1ddLR_1113") (.div (.inp n!"V8ddLR_1113") (.mul (.rat 2 1) (.rat 3 1)))))),
  (n!"C8p_sd", (.mul (.div (.div (.div (.sqrt (.rat 2 1)) (.par n!"GF")) (.mul (.ckm 2 1) (.conj (.ckm 2 0)))) (.rat 4 1)) (.mul (.div (.div (.mul (.rat 16 1) (.mul .pi .pi)) (.sqrt (.mul (.mul (.rat 4 1) .pi) (.par n!"alpha_s")))) (.par n!"m_s")) (.conj (.inp n!"dG_21"))))),
  (n!"CG", (.mul (.div (.div (.sqrt (.rat 2 1)) (.par n!"GF")) (.rat 4 1)) (.inp n!"G"))),
  (n!"CVLR_bdcc", (.mul (.div (.div (.div (.sqrt (.rat 2 1)) (.par n!"GF")) (.mul (.ckm 2 2) (.conj (.ckm 2 0)))) (.rat 4 1)) (.sub (.inp n!"V1duLR_1322") (.div (.inp n!"V8duLR_1322") (.mul (.rat 2 1) (.rat 3 1)))))),
  (n!"CS1RR_uuuu", (.mul (.div (.div (.sqrt (.rat 2 1)) (.par n!"GF")) (.rat 4 1)) (.inp n!"S1uuRR_1111"))),
  (n!"CVL_sumunumu", (.mul (.div (.div (.div (.neg (.sqrt (.rat 2 1))) (.par n!"GF")) (.ckm 0 1)) (.rat 4 1)) (.conj (.inp n!"VnueduLL_2221")))),
  (n!"CSRRt_bsuu", (.mul (.div (.div (.div (.sqrt (.rat 2 1)) (.par n!"GF")) (.mul (.ckm 2 2) (.conj (.ckm 2 1)))) (.rat 4 1)) (.add (.add (.div (.neg (.inp n!"S1udduRR_1321")) (.rat 2 1)) (.div (.inp n!"S8udduRR_1321") (.mul (.rat 4 1) (.rat 3 1)))) (.div (.inp n!"S8udRR_1123") (.rat 2 1))))),
  (n!"CVLR_eess", (.mul (.div (.div (.sqrt (.rat 2 1)) (.par n!"GF")) (.rat 4 1)) (.inp n!"VedLR_1122"))),
  (n!"CSRR_bdss", (.mul (.div (.div (.div (.sqrt (.rat 2 1)) (.par n!"GF")) (.mul (.ckm 2 2) (.conj (.ckm 2 0)))) (.rat 4 1)) (.sub (.sub (.inp n!"S1ddRR_1322") (.div (.inp n!"S8ddRR_1223") (.rat 4 1))) (.div (.inp n!"S8ddRR_1322") (.mul (.rat 2 1) (.rat 3 1)))))),
  (n!"CVL_buenumu", (.mul (.div (.div (.div (.neg (.sqrt (.rat 2 1))) (.par n!"GF")) (.ckm 0 2)) (.rat 4 1)) (.conj (.inp n!"VnueduLL_2131")))),
  (n!"CVL_bcenutau", (.mul (.div (.div (.div (.neg (.sqrt (.rat 2 1))) (.par n!"GF")) (.ckm 1 2)) (.rat 4 1)) (.conj (.inp n!"VnueduLL_3132")))),
  (n!"CS8RR_dddd", (.mul (.div (.div (.sqrt (.rat 2 1)) (.par n!"GF")) (.rat 4 1)) (.inp n!"S8ddRR_1111"))),
  (n!"CV8LL_ccdd", (.mul (.div (.div (.sqrt (.rat 2 1)) (.par n!"GF")) (.rat 4 1)) (.inp n!"V8udLL_2211"))),
  (n!"C10p_sdtaumu", (.mul (.div (.div (.div (.sqrt (.rat 2 1)) (.par n!"GF")) (.mul (.ckm 2 1) (.conj (.ckm 2 0)))) (.rat 4 1)) (.mul (.div (.mul (.rat 16 1) (.mul .pi .pi)) (.mul (.sqrt (.mul (.mul (.rat 4 1) .pi) (.par n!"alpha_e"))) (.sqrt (.mul (.mul (.rat 4 1) .pi) (.par n!"alpha_e"))))) (.add (.div (.neg (.inp n!"VedLR_2312")) (.rat 2 1)) (.div (.inp n!"VedRR_2312") (.rat 2 1))))))]

def JMS_to_flavio_24 : List (ℕ × Sym) := [
  (n!"CVL_scenumu", (.mul (.div (.div (.div (.neg (.sqrt (.rat 2 1))) (.par n!"GF")) (.ckm 1 1)) (.rat 4 1)) (.conj (.inp n!"VnueduLL_2122")))),
  (n!"CSRRt_cuss", (.mul (.div (.div (.div (.sqrt (.rat 2 1)) (.par n!"GF")) (.mul (.conj (.ckm 1 2)) (.ckm 0 2))) (.rat 4 1)) (.add (.add (.div (.neg (.inp n!"S1udduRR_1222")) (.rat 2 1)) (.div (.inp n!"S8udduRR_1222") (.mul (.rat 4 1) (.rat 3 1)))) (.div (.inp n!"S8udRR_1222") (.rat 2 1))))),
  (n!"CV1LL_uudd", (.mul (.div (.div (.sqrt (.rat 2 1)) (.par n!"GF")) (.rat 4 1)) (.inp n!"V1udLL_1111"))),
  (n!"CV1LR_cddc", (.mul (.div (.div (.sqrt (.rat 2 1)) (.par n!"GF")) (.rat 4 1)) (.inp n!"V1udduLR_2112"))),
  (n!"CT_buenumu", (.mul (.div (.div (.div (.neg (.sqrt (.rat 2 1))) (.par n!"GF")) (.ckm 0 2)) (.rat 4 1)) (.conj (.inp n!"TnueduRR_2131")))),
  (n!"CVLL_nuenumuee", (.mul (.div (.div (.sqrt (.rat 2 1)) (.par n!"GF")) (.rat 4 1)) (.inp n!"VnueLL_1211"))),
  (n!"CT_scenumu", (.mul (.div (.div (.div (.neg (.sqrt (.rat 2 1))) (.par n!"GF")) (.ckm 1 1)) (.rat 4 1)) (.conj (.inp n!"TnueduRR_2122")))),
  (n!"CVR_dcmunue", (.mul (.div (.div (.div (.neg (.sqrt (.rat 2 1))) (.par n!"GF")) (.ckm 1 0)) (.rat 4 1)) (.conj (.inp n!"VnueduLR_1212")))),
  (n!"CTLLt_cudd", (.mul (.div (.div (.div (.sqrt (.rat 2 1)) (.par n!"GF")) (.mul (.conj (.ckm 1 2)) (.ckm 0 2))) (.rat 4 1)) (.add (.div (.neg (.conj (.inp n!"S1udduRR_2111"))) (.rat 8 1)) (.div (.div (.conj (.inp n!"S8udduRR_2111")) (.rat 16 1)) (.rat 3 1))))),
  (n!"CVLR_nuenumubb", (.mul (.div (.div (.sqrt (.rat 2 1)) (.par n!"GF")) (.rat 4 1)) (.inp n!"VnudLR_1233"))),
  (n!"CVR_dctaunutau", (.mul (.div (.div (.div (.neg (.sqrt (.rat 2 1))) (.par n!"GF")) (.ckm 1 0)) (.rat 4 1)) (.conj (.inp n!"VnueduLR_3312")))),
  (n!"CVRRt_sdcc", (.mul (.div (.div (.div (.sqrt (.rat 2 1)) (.par n!"GF")) (.mul (.ckm 2 1) (.conj (.ckm 2 0)))) (.rat 4 1)) (.div (.inp n!"V8udRR_2212") (.rat 2 1)))),
  (n!"CVR_dcmunutau", (.mul (.div (.div (.div (.neg (.sqrt (.rat 2 1))) (.par n!"GF")) (.ckm 1 0)) (.rat 4 1)) (.conj (.inp n!"VnueduLR_3212")))),
  (n!"CSLL_bduu", (.mul (.div (.div (.div (.sqrt (.rat 2 1)) (.par n!"GF")) (.mul (.ckm 2 2) (.conj (.ckm 2 0)))) (.rat 4 1)) (.sub (.sub (.conj (.inp n!"S1udRR_1131")) (.div (.conj (.inp n!"S8udduRR_1131")) (.rat 4 1))) (.div (.conj (.inp n!"S8udRR_1131")) (.mul (.rat 2 1) (.rat 3 1)))))),
  (n!"CVLL_nuenuetautau", (.mul (.div (.div (.sqrt (.rat 2 1)) (.par n!"GF")) (.rat 4 1)) (.inp n!"VnueLL_1133"))),
  (n!"CSL_scmunumu", (.mul (.div (.div (.div (.neg (.sqrt (.rat 2 1))) (.par n!"GF")) (.ckm 1 1)) (.rat 4 1)) (.conj (.inp n!"SnueduRR_2222")))),
  (n!"CSL_bumunutau", (.mul (.div (.div (.div (.neg (.sqrt (.rat 2 1))) (.par n!"GF")) (.ckm 0 2)) (.rat 4 1)) (.conj (.inp n!"SnueduRR_3231")))),
  (n!"CS1RR_dbbd", (.mul (.div (.div (.sqrt (.rat 2 1)) (.par n!"GF")) (.rat 4 1)) (.inp n!"S1ddRR_1331"))),
  (n!"CS_bsetau", (.mul (.div (.div (.div (.sqrt (.rat 2 1)) (.par n!"GF")) (.mul (.ckm 2 2) (.conj (.ckm 2 1)))) (.rat 4 1)) (.mul (.div (.div (.mul (.rat 16 1) (.mul .pi .pi)) (.mul (.sqrt (.mul (.mul (.rat 4 1) .pi) (.par n!"alpha_e"))) (.sqrt (.mul (.mul (.rat 4 1) .pi) (.par n!"alpha_e"))))) (.par n!"m_b")) (.add (.div (.conj (.inp n!"SedRL_1332")) (.rat 2 1)) (.div (.inp n!"SedRR_3123") (.rat 2 1)))))),
  (n!"CVLR_bduu", (.mul (.div (.div (.div (.sqrt (.rat 2 1)) (.par n!"GF")) (.mul (.ckm 2 2) (.conj (.ckm 2 0)))) (.rat 4 1)) (.sub (.inp n!"V1duLR_1311") (.div (.inp n!"V8duLR_1311") (.mul (.rat 2 1) (.rat 3 1)))))),
  (n!"CVLL_numunumubb", (.mul (.div (.div (.sqrt (.rat 2 1)) (.par n!"GF")) (.rat 4 1)) (.inp n!"VnudLL_2233"))),
  (n!"CT_dumunutau", (.mul (.div (.div (.div (.neg (.sqrt (.rat 2 1))) (.par n!"GF")) (.ckm 0 0)) (.rat 4 1)) (.conj (.inp n!"TnueduRR_3211")))),
  (n!"CL_bdnuenutau", (.mul (.div (.div (.div (.sqrt (.rat 2 1)) (.par n!"GF")) (.mul (.ckm 2 2) (.conj (.ckm 2 0)))) (.rat 4 1)) (.mul (.div (.mul (.rat 8 1) (.mul .pi .pi)) (.mul (.sqrt (.mul (.mul (.rat 4 1) .pi) (.par n!"alpha_e"))) (.sqrt (.mul (.mul (.rat 4 1) .pi) (.par n!"alpha_e"))))) (.conj (.inp n!"VnudLL_1331"))))),
  (n!"CP_bdmue", (.mul (.div (.div (.div (.sqrt (.rat 2 1)) (.par n!"GF")) (.mul (.ckm 2 2) (.conj (.ckm 2 0)))) (.rat 4 1)) (.mul (.div (.div (.mul (.rat 16 1) (.mul .pi .pi)) (.mul (.sqrt (.mul (.mul (.rat 4 1) .pi) (.par n!"alpha_e"))) (.sqrt (.mul (.mul (.rat 4 1) .pi) (.par n!"alpha_e"))))) (.par n!"m_b")) (.add (.div (.neg (.conj (.inp n!"SedRL_2131"))) (.rat 2 1)) (.div (.inp n!"SedRR_1213") (.rat 2 1)))))),
  (n!"CR_bsnumunue", (.mul (.div (.div (.div (.sqrt (.rat 2 1)) (.par n!"GF")) (.mul (.ckm 2 2) (.conj (.ckm 2 1)))) (.rat 4 1)) (.mul (.div (.mul (.rat 8 1) (.mul .pi .pi)) (.mul (.sqrt (.mul (.mul (.rat 4 1) .pi) (.par n!"alpha_e"))) (.sqrt (.mul (.mul (.rat 4 1) .pi) (.par n!"alpha_e"))))) (.inp n!"VnudLR_1223")))),
  (n!"C9p_bsmumu", (.mul (.div (.div (.div (.sqrt (.rat 2 1)) (.par n!"GF")) (.mul (.ckm 2 2) (.conj (.ckm 2 1)))) (.rat 4 1)) (.mul (.div (.mul (.rat 16 1) (.mul .pi .pi)) (.mul (.sqrt (.mul (.mul (.rat 4 1) .pi) (.par n!"alpha_e"))) (.sqrt (.mul (.mul (.rat 4 1) .pi) (.par n!"alpha_e"))))) (.add (.div (.inp n!"VedLR_2223") (.rat 2 1)) (.div (.inp n!"VedRR_2223") (.rat 2 1)))))),
  (n!"CSL_dcenue", (.mul (.div (.div (.div (.neg (.sqrt (.rat 2 1))) (.par n!"GF")) (.ckm 1 0)) (.rat 4 1)) (.conj (.inp n!"SnueduRR_1112")))),
  (n!"CTRR_bsbb", (.mul (.div (.div (.div (.sqrt (.rat 2 1)) (.par n!"GF")) (.mul (.ckm 2 2) (.conj (.ckm 2 1)))) (.rat 4 1)) (.div (.neg (.inp n!"S8ddRR_2333")) (.rat 16 1)))),
  (n!"C10p_sdetau", (.mul (.div (.div (.div (.sqrt (.rat 2 1)) (.par n!"GF")) (.mul (.ckm 2 1) (.conj (.ckm 2 0)))) (.rat 4 1)) (.mul (.div (.mul (.rat 16 1) (.mul .pi .pi)) (.mul (.sqrt (.mul (.mul (.rat 4 1) .pi) (.par n!"alpha_e"))) (.sqrt (.mul (.mul (.rat 4 1) .pi) (.par n!"alpha_e"))))) (.add (.div (.neg (.conj (.inp n!"VedLR_1321"))) (.rat 2 1)) (.div (.conj (.inp n!"VedRR_1321")) (.rat 2 1)))))),
  (n!"C8p_cu", (.mul (.div (.div (.div (.sqrt (.rat 2 1)) (.par n!"GF")) (.mul (.conj (.ckm 1 2)) (.ckm 0 2))) (.rat 4 1)) (.mul (.div (.div (.mul (.rat 16 1) (.mul .pi .pi)) (.sqrt (.mul (.mul (.rat 4 1) .pi) (.par n!"alpha_s")))) (.par n!"m_c")) (.conj (.inp n!"uG_21"))))),
  (n!"CVLL_tautaucc", (.mul (.div (.div (.sqrt (.rat 2 1)) (.par n!"GF")) (.rat 4 1)) (.inp n!"VeuLL_3322"))),
  (n!"CSRL_bscc", (.mul (.div (.div (.div (.sqrt (.rat 2 1)) (.par n!"GF")) (.mul (.ckm 2 2) (.conj (.ckm 2 1)))) (.rat 4 1)) (.neg (.conj (.inp n!"V8udduLR_2232"))))),
  (n!"CVLR_numunutaumumu", (.mul (.div (.div (.sqrt (.rat 2 1)) (.par n!"GF")) (.rat 4 1)) (.inp n!"VnueLR_2322"))),
  (n!"C10_sdtaumu", (.mul (.div (.div (.div (.sqrt (.rat 2 1)) (.par n!"GF")) (.mul (.ckm 2 1) (.conj (.ckm 2 0)))) (.rat 4 1)) (.mul (.div (.mul (.rat 16 1) (.mul .pi .pi)) (.mul (.sqrt (.mul (.mul (.rat 4 1) .pi) (.par n!"alpha_e"))) (.sqrt (.mul (.mul (.rat 4 1) .pi) (.par n!"alpha_e"))))) (.sub (.div (.inp n!"VdeLR_1223") (.rat 2 1)) (.div (.inp n!"VedLL_2312") (.rat 2 1)))))),
  (n!"CSLR_bsbb", (.mul (.div (.div (.div (.sqrt (.rat 2 1)) (.par n!"GF")) (.mul (.ckm 2 2) (.conj (.ckm 2 1)))) (.rat 4 1)) (.neg (.inp n!"V8ddLR_3323")))),
  (n!"CVRR_bscc", (.mul (.div (.div (.div (.sqrt (.rat 2 1)) (.par n!"GF")) (.mul (.ckm 2 2) (.conj (.ckm 2 1)))) (.rat 4 1)) (.sub (.inp n!"V1udRR_2223") (.div (.inp n!"V8udRR_2223") (.mul (.rat 2 1) (.rat 3 1)))))),
  (n!"CVRRt_sduu", (.mul (.div (.div (.div (.sqrt (.rat 2 1)) (.par n!"GF")) (.mul (.ckm 2 1) (.conj (.ckm 2 0)))) (.rat 4 1)) (.div (.inp n!"V8udRR_1112") (.rat 2 1)))),
  (n!"CPp_bsetau", (.mul (.div (.div (.div (.sqrt (.rat 2 1)) (.par n!"GF")) (.mul (.ckm 2 2) (.conj (.ckm 2 1)))) (.rat 4 1)) (.mul (.div (.div (.mul (.rat 16 1) (.mul .pi .pi)) (.mul (.sqrt (.mul (.mul (.rat 4 1) .pi) (.par n!"alpha_e"))) (.sqrt (.mul (.mul (.rat 4 1) .pi) (.par n!"alpha_e"))))) (.par n!"m_b")) (.sub (.div (.inp n!"SedRL_3123") (.rat 2 1)) (.div (.conj (.inp n!"SedRR_1332")) (.rat 2 1)))))),
  (n!"CSR_bctaunumu", (.mul (.div (.div (.div (.neg (.sqrt (.rat 2 1))) (.par n!"GF")) (.ckm 1 2)) (.rat 4 1)) (.conj (.inp n!"SnueduRL_2332")))),
  (n!"CVR_bcmunue", (.mul (.div (.div (.div (.neg (.sqrt (.rat 2 1))) (.par n!"GF")) (.ckm 1 2)) (.rat 4 1)) (.conj (.inp n!"VnueduLR_1232")))),
  (n!"CP_bstaue", (.mul (.div (.div (.div (.sqrt (.rat 2 1)) (.par n!"GF")) (.mul (.ckm 2 2) (.conj (.ckm 2 1)))) (.rat 4 1)) (.mul (.div (.div (.mul (.rat 16 1) (.mul .pi .pi)) (.mul (.sqrt (.mul (.mul (.rat 4 1) .pi) (.par n!"alpha_e"))) (.sqrt (.mul (.mul (.rat 4 1) .pi) (.par n!"alpha_e"))))) (.par n!"m_b")) (.add (.div (.neg (.conj (.inp n!"SedRL_3132"))) (.rat 2 1)) (.div (.inp n!"SedRR_1323") (.rat 2 1)))))),
  (n!"CPp_bstaumu", (.mul (.div (.div (.div (.sqrt (.rat 2 1)) (.par n!"GF")) (.mul (.ckm 2 2) (.conj (.ckm 2 1)))) (.rat 4 1)) (.mul (.div (.div (.mul (.rat 16 1) (.mul .pi .pi)) (.mul (.sqrt (.mul (.mul (.rat 4 1) .pi) (.par n!"alpha_e"))) (.sqrt (.mul (.mul (.rat 4 1) .pi) (.par n!"alpha_e"))))) (.par n!"m_b")) (.sub (.div (.inp n!"SedRL_2323") (.rat 2 1)) (.div (.conj (.inp n!"SedRR_3232")) (.rat 2 1)))))),
  (n!"CS8RR_cssc", (.mul (.div (.div (.sqrt (.rat 2 1)) (.par n!"GF")) (.rat 4 1)) (.inp n!"S8udduRR_2222"))),
  (n!"CTLL_bsdd", (.mul (.div (.div (.div (.sqrt (.rat 2 1)) (.par n!"GF")) (.mul (.ckm 2 2) (.conj (.ckm 2 1)))) (.rat 4 1)) (.div (.neg (.conj (.inp n!"S8ddRR_1231"))) (.rat 16 1)))),
  (n!"CR_bsnuenue", (.mul (.div (.div (.div (.sqrt (.rat 2 1)) (.par n!"GF")) (.mul (.ckm 2 2) (.conj (.ckm 2 1)))) (.rat 4 1)) (.mul (.div (.mul (.rat 8 1) (.mul .pi .pi)) (.mul (.sqrt (.mul (.mul (.rat 4 1) .pi) (.par n!"alpha_e"))) (.sqrt (.mul (.mul (.rat 4 1) .pi) (.par n!"alpha_e"))))) (.inp n!"VnudLR_1123")))),
  (n!"CVLR_mumucc", (.mul (.div (.div (.sqrt (.rat 2 1)) (.par n!"GF")) (.rat 4 1)) (.inp n!"VeuLR_2222"))),
  (n!"CVLR_nuenutaubb", (.mul (.div (.div (.sqrt (.rat 2 1)) (.par n!"GF")) (.rat 4 1)) (.inp n!"VnudLR_1333"))),
  (n!"CSRR_bdbd", (.sub (.sub (.inp n!"S1ddRR_1313") (.div (.inp n!"S8ddRR_1313") (.mul (.rat 2 1) (.rat 3 1)))) (.mul (.div (.rat 1 1) (.rat 2 1)) (.div (.inp n!"S8ddRR_1313") (.rat 2 1))))),
  (n!"CR_bsnutaunue", (.mul (.div (.div (.div (.sqrt (.rat 2 1)) (.par n!"GF")) (.mul (.ckm 2 2) (.conj (.ckm 2 1)))) (.rat 4 1)) (.mul (.div (.mul (.rat 8 1) (.mul .pi .pi)) (.mul (.sqrt (.mul (.mul (.rat 4 1) .pi) (.par n!"alpha_e"))) (.sqrt (.mul (.mul (.rat 4 1) .pi) (.par n!"alpha_e"))))) (.inp n!"VnudLR_1323")))),
  (n!"CSRR_sdsd", (.sub (.sub (.inp n!"S1ddRR_1212") (.div (.inp n!"S8ddRR_1212") (.mul (.rat 2 1) (.rat 3 1)))) (.mul (.div (.rat 1 1) (.rat 2 1)) (.div (.inp n!"S8ddRR_1212") (.rat 2 1)))))]

def JMS_to_flavio_25 : List (ℕ × Sym) := [
  (n!"CVRR_tautaudd", (.mul (.div (.div (.sqrt (.rat 2 1)) (.par n!"GF")) (.rat 4 1)) (.inp n!"VedRR_3311"))),
  (n!"CTRR_sdcc", (.mul (.div (.div (.div (.sqrt (.rat 2 1)) (.par n!"GF")) (.mul (.ckm 2 1) (.conj (.ckm 2 0)))) (.rat 4 1)) (.div (.neg (.inp n!"S8udduRR_2212")) (.rat 16 1)))),
  (n!"CTLL_cubb", (.mul (.div (.div (.div (.sqrt (.rat 2 1)) (.par n!"GF")) (.mul (.conj (.ckm 1 2)) (.ckm 0 2))) (.rat 4 1)) (.div (.neg (.conj (.inp n!"S8udduRR_2331"))) (.rat 16 1)))),
  (n!"CVL_dumunutau", (.mul (.div (.div (.div (.neg (.sqrt (.rat 2 1))) (.par n!"GF")) (.ckm 0 0)) (.rat 4 1)) (.conj (.inp n!"VnueduLL_3211")))),
  (n!"CVRRt_bdss", (.mul (.div (.div (.div (.sqrt (.rat 2 1)) (.par n!"GF")) (.mul (.ckm 2 2) (.conj (.ckm 2 0)))) (.rat 4 1)) (.inp n!"VddRR_1223"))),
  (n!"CSRL_sddd", (.mul (.div (.div (.div (.sqrt (.rat 2 1)) (.par n!"GF")) (.mul (.ckm 2 1) (.conj (.ckm 2 0)))) (.rat 4 1)) (.neg (.inp n!"V8ddLR_1112")))),
  (n!"CVLL_bsbs", (.inp n!"VddLL_2323")),
  (n!"C10_bsetau", (.mul (.div (.div (.div (.sqrt (.rat 2 1)) (.par n!"GF")) (.mul (.ckm 2 2) (.conj (.ckm 2 1)))) (.rat 4 1)) (.mul (.div (.mul (.rat 16 1) (.mul .pi .pi)) (.mul (.sqrt (.mul (.mul (.rat 4 1) .pi) (.par n!"alpha_e"))) (.sqrt (.mul (.mul (.rat 4 1) .pi) (.par n!"alpha_e"))))) (.sub (.div (.inp n!"VdeLR_2331") (.rat 2 1)) (.div (.conj (.inp n!"VedLL_1332")) (.rat 2 1)))))),
  (n!"CVLL_ddss", (.mul (.div (.div (.sqrt (.rat 2 1)) (.par n!"GF")) (.rat 4 1)) (.inp n!"VddLL_1122"))),
  (n!"CVLR_eemumu", (.mul (.div (.div (.sqrt (.rat 2 1)) (.par n!"GF")) (.rat 4 1)) (.inp n!"VeeLR_1122"))),
  (n!"CSp_cumumu", (.mul (.div (.div (.div (.sqrt (.rat 2 1)) (.par n!"GF")) (.mul (.conj (.ckm 1 2)) (.ckm 0 2))) (.rat 4 1)) (.mul (.div (.div (.mul (.rat 16 1) (.mul .pi .pi)) (.mul (.sqrt (.mul (.mul (.rat 4 1) .pi) (.par n!"alpha_e"))) (.sqrt (.mul (.mul (.rat 4 1) .pi) (.par n!"alpha_e"))))) (.par n!"m_c")) (.add (.div (.inp n!"SeuRL_2212") (.rat 2 1)) (.div (.conj (.inp n!"SeuRR_2221")) (.rat 2 1)))))),
  (n!"CSR_dutaunutau", (.mul (.div (.div (.div (.neg (.sqrt (.rat 2 1))) (.par n!"GF")) (.ckm 0 0)) (.rat 4 1)) (.conj (.inp n!"SnueduRL_3311")))),
  (n!"CVLL_ssss", (.mul (.div (.div (.sqrt (.rat 2 1)) (.par n!"GF")) (.rat 4 1)) (.inp n!"VddLL_2222"))),
  (n!"CSLR_sdcc", (.mul (.div (.div (.div (.sqrt (.rat 2 1)) (.par n!"GF")) (.mul (.ckm 2 1) (.conj (.ckm 2 0)))) (.rat 4 1)) (.neg (.inp n!"V8udduLR_2212")))),
  (n!"CVRR_sddd", (.mul (.div (.div (.div (.sqrt (.rat 2 1)) (.par n!"GF")) (.mul (.ckm 2 1) (.conj (.ckm 2 0)))) (.rat 4 1)) (.inp n!"VddRR_1112"))),
  (n!"CSp_sdee", (.mul (.div (.div (.div (.sqrt (.rat 2 1)) (.par n!"GF")) (.mul (.ckm 2 1) (.conj (.ckm 2 0)))) (.rat 4 1)) (.mul (.div (.div (.mul (.rat 16 1) (.mul .pi .pi)) (.mul (.sqrt (.mul (.mul (.rat 4 1) .pi) (.par n!"alpha_e"))) (.sqrt (.mul (.mul (.rat 4 1) .pi) (.par n!"alpha_e"))))) (.par n!"m_s")) (.add (.div (.inp n!"SedRL_1112") (.rat 2 1)) (.div (.conj (.inp n!"SedRR_1121")) (.rat 2 1)))))),
  (n!"C7_ee", (.mul (.div (.div (.sqrt (.rat 2 1)) (.par n!"GF")) (.rat 4 1)) (.mul (.div (.div (.mul (.rat 16 1) (.mul .pi .pi)) (.sqrt (.mul (.mul (.rat 4 1) .pi) (.par n!"alpha_e")))) (.par n!"m_e")) (.inp n!"egamma_11")))),
  (n!"CVLL_cucc", (.mul (.div (.div (.div (.sqrt (.rat 2 1)) (.par n!"GF")) (.mul (.conj (.ckm 1 2)) (.ckm 0 2))) (.rat 4 1)) (.inp n!"VuuLL_1222"))),
  (n!"CVLL_tautauuu", (.mul (.div (.div (.sqrt (.rat 2 1)) (.par n!"GF")) (.rat 4 1)) (.inp n!"VeuLL_3311"))),
  (n!"CSRL_bsuu", (.mul (.div (.div (.div (.sqrt (.rat 2 1)) (.par n!"GF")) (.mul (.ckm 2 2) (.conj (.ckm 2 1)))) (.rat 4 1)) (.neg (.conj (.inp n!"V8udduLR_1231"))))),
  (n!"CV1RR_ccdd", (.mul (.div (.div (.sqrt (.rat 2 1)) (.par n!"GF")) (.rat 4 1)) (.inp n!"V1udRR_2211"))),
  (n!"CVLL_mumutautau", (.mul (.div (.div (.sqrt (.rat 2 1)) (.par n!"GF")) (.rat 4 1)) (.inp n!"VeeLL_2233"))),
  (n!"C7_bs", (.mul (.div (.div (.div (.sqrt (.rat 2 1)) (.par n!"GF")) (.mul (.ckm 2 2) (.conj (.ckm 2 1)))) (.rat 4 1)) (.mul (.div (.div (.mul (.rat 16 1) (.mul .pi .pi)) (.sqrt (.mul (.mul (.rat 4 1) .pi) (.par n!"alpha_e")))) (.par n!"m_b")) (.inp n!"dgamma_23")))),
  (n!"CVLL_nutaunutaudd", (.mul (.div (.div (.sqrt (.rat 2 1)) (.par n!"GF")) (.rat 4 1)) (.inp n!"VnudLL_3311"))),
  (n!"CVRR_bsuu", (.mul (.div (.div (.div (.sqrt (.rat 2 1)) (.par n!"GF")) (.mul (.ckm 2 2) (.conj (.ckm 2 1)))) (.rat 4 1)) (.sub (.inp n!"V1udRR_1123") (.div (.inp n!"V8udRR_1123") (.mul (.rat 2 1) (.rat 3 1)))))),
  (n!"CP_bdee", (.mul (.div (.div (.div (.sqrt (.rat 2 1)) (.par n!"GF")) (.mul (.ckm 2 2) (.conj (.ckm 2 0)))) (.rat 4 1)) (.mul (.div (.div (.mul (.rat 16 1) (.mul .pi .pi)) (.mul (.sqrt (.mul (.mul (.rat 4 1) .pi) (.par n!"alpha_e"))) (.sqrt (.mul (.mul (.rat 4 1) .pi) (.par n!"alpha_e"))))) (.par n!"m_b")) (.add (.div (.neg (.conj (.inp n!"SedRL_1131"))) (.rat 2 1)) (.div (.inp n!"SedRR_1113") (.rat 2 1)))))),
  (n!"CS1RR_cddc", (.mul (.div (.div (.sqrt (.rat 2 1)) (.par n!"GF")) (.rat 4 1)) (.inp n!"S1udduRR_2112"))),
  (n!"CVLR_tautauss", (.mul (.div (.div (.sqrt (.rat 2 1)) (.par n!"GF")) (.rat 4 1)) (.inp n!"VedLR_3322"))),
  (n!"CSLLt_cudd", (.mul (.div (.div (.div (.sqrt (.rat 2 1)) (.par n!"GF")) (.mul (.conj (.ckm 1 2)) (.ckm 0 2))) (.rat 4 1)) (.add (.add (.div (.neg (.conj (.inp n!"S1udduRR_2111"))) (.rat 2 1)) (.div (.conj (.inp n!"S8udduRR_2111")) (.mul (.rat 4 1) (.rat 3 1)))) (.div (.conj (.inp n!"S8udRR_2111")) (.rat 2 1))))),
  (n!"CVLL_eebb", (.mul (.div (.div (.sqrt (.rat 2 1)) (.par n!"GF")) (.rat 4 1)) (.inp n!"VedLL_1133"))),
  (n!"CSRL_cuss", (.mul (.div (.div (.div (.sqrt (.rat 2 1)) (.par n!"GF")) (.mul (.conj (.ckm 1 2)) (.ckm 0 2))) (.rat 4 1)) (.neg (.inp n!"V8udduLR_1222")))),
  (n!"CSRL_bdbb", (.mul (.div (.div (.div (.sqrt (.rat 2 1)) (.par n!"GF")) (.mul (.ckm 2 2) (.conj (.ckm 2 0)))) (.rat 4 1)) (.neg (.inp n!"V8ddLR_1333")))),
  (n!"C10p_bsmutau", (.mul (.div (.div (.div (.sqrt (.rat 2 1)) (.par n!"GF")) (.mul (.ckm 2 2) (.conj (.ckm 2 1)))) (.rat 4 1)) (.mul (.div (.mul (.rat 16 1) (.mul .pi .pi)) (.mul (.sqrt (.mul (.mul (.rat 4 1) .pi) (.par n!"alpha_e"))) (.sqrt (.mul (.mul (.rat 4 1) .pi) (.par n!"alpha_e"))))) (.add (.div (.neg (.conj (.inp n!"VedLR_2332"))) (.rat 2 1)) (.div (.conj (.inp n!"VedRR_2332")) (.rat 2 1)))))),
  (n!"CVR_dutaunue", (.mul (.div (.div (.div (.neg (.sqrt (.rat 2 1))) (.par n!"GF")) (.ckm 0 0)) (.rat 4 1)) (.conj (.inp n!"VnueduLR_1311")))),
  (n!"CS_bsee", (.mul (.div (.div (.div (.sqrt (.rat 2 1)) (.par n!"GF")) (.mul (.ckm 2 2) (.conj (.ckm 2 1)))) (.rat 4 1)) (.mul (.div (.div (.mul (.rat 16 1) (.mul .pi .pi)) (.mul (.sqrt (.mul (.mul (.rat 4 1) .pi) (.par n!"alpha_e"))) (.sqrt (.mul (.mul (.rat 4 1) .pi) (.par n!"alpha_e"))))) (.par n!"m_b")) (.add (.div (.conj (.inp n!"SedRL_1132")) (.rat 2 1)) (.div (.inp n!"SedRR_1123") (.rat 2 1)))))),
  (n!"CSRLt_bscc", (.mul (.div (.div (.div (.sqrt (.rat 2 1)) (.par n!"GF")) (.mul (.ckm 2 2) (.conj (.ckm 2 1)))) (.rat 4 1)) (.add (.mul (.rat (-2) 1) (.conj (.inp n!"V1udduLR_2232"))) (.div (.conj (.inp n!"V8udduLR_2232")) (.rat 3 1))))),
  (n!"CVRR_cuss", (.mul (.div (.div (.div (.sqrt (.rat 2 1)) (.par n!"GF")) (.mul (.conj (.ckm 1 2)) (.ckm 0 2))) (.rat 4 1)) (.sub (.inp n!"V1udRR_1222") (.div (.inp n!"V8udRR_1222") (.mul (.rat 2 1) (.rat 3 1)))))),
  (n!"CVRR_bdbb", (.mul (.div (.div (.div (.sqrt (.rat 2 1)) (.par n!"GF")) (.mul (.ckm 2 2) (.conj (.ckm 2 0)))) (.rat 4 1)) (.inp n!"VddRR_1333"))),
  (n!"CVRR_tautautautau", (.mul (.div (.div (.sqrt (.rat 2 1)) (.par n!"GF")) (.rat 4 1)) (.inp n!"VeeRR_3333"))),
  (n!"CPp_bdmue", (.mul (.div (.div (.div (.sqrt (.rat 2 1)) (.par n!"GF")) (.mul (.ckm 2 2) (.conj (.ckm 2 0)))) (.rat 4 1)) (.mul (.div (.div (.mul (.rat 16 1) (.mul .pi .pi)) (.mul (.sqrt (.mul (.mul (.rat 4 1) .pi) (.par n!"alpha_e"))) (.sqrt (.mul (.mul (.rat 4 1) .pi) (.par n!"alpha_e"))))) (.par n!"m_b")) (.sub (.div (.inp n!"SedRL_1213") (.rat 2 1)) (.div (.conj (.inp n!"SedRR_2131")) (.rat 2 1)))))),
  (n!"CVL_sutaunutau", (.mul (.div (.div (.div (.neg (.sqrt (.rat 2 1))) (.par n!"GF")) (.ckm 0 1)) (.rat 4 1)) (.conj (.inp n!"VnueduLL_3321")))),
  (n!"C9_bstaue", (.mul (.div (.div (.div (.sqrt (.rat 2 1)) (.par n!"GF")) (.mul (.ckm 2 2) (.conj (.ckm 2 1)))) (.rat 4 1)) (.mul (.div (.mul (.rat 16 1) (.mul .pi .pi)) (.mul (.sqrt (.mul (.mul (.rat 4 1) .pi) (.par n!"alpha_e"))) (.sqrt (.mul (.mul (.rat 4 1) .pi) (.par n!"alpha_e"))))) (.add (.div (.inp n!"VdeLR_2313") (.rat 2 1)) (.div (.inp n!"VedLL_1323") (.rat 2 1)))))),
  (n!"CVLR_mumuuu", (.mul (.div (.div (.sqrt (.rat 2 1)) (.par n!"GF")) (.rat 4 1)) (.inp n!"VeuLR_2211"))),
  (n!"CV8LR_bbss", (.mul (.div (.div (.sqrt (.rat 2 1)) (.par n!"GF")) (.rat 4 1)) (.inp n!"V8ddLR_3322"))),
  (n!"CVR_dctaunumu", (.mul (.div (.div (.div (.neg (.sqrt (.rat 2 1))) (.par n!"GF")) (.ckm 1 0)) (.rat 4 1)) (.conj (.inp n!"VnueduLR_2312")))),
  (n!"CTRR_sduu", (.mul (.div (.div (.div (.sqrt (.rat 2 1)) (.par n!"GF")) (.mul (.ckm 2 1) (.conj (.ckm 2 0)))) (.rat 4 1)) (.div (.neg (.inp n!"S8udduRR_1211")) (.rat 16 1)))),
  (n!"CSL_butaunumu", (.mul (.div (.div (.div (.neg (.sqrt (.rat 2 1))) (.par n!"GF")) (.ckm 0 2)) (.rat 4 1)) (.conj (.inp n!"SnueduRR_2331")))),
  (n!"CTLL_bdcc", (.mul (.div (.div (.div (.sqrt (.rat 2 1)) (.par n!"GF")) (.mul (.ckm 2 2) (.conj (.ckm 2 0)))) (.rat 4 1)) (.div (.neg (.conj (.inp n!"S8udduRR_2132"))) (.rat 16 1)))),
  (n!"CR_bdnumunutau", (.mul (.div (.div (.div (.sqrt (.rat 2 1)) (.par n!"GF")) (.mul (.ckm 2 2) (.conj (.ckm 2 0)))) (.rat 4 1)) (.mul (.div (.mul (.rat 8 1) (.mul .pi .pi)) (.mul (.sqrt (.mul (.mul (.rat 4 1) .pi) (.par n!"alpha_e"))) (.sqrt (.mul (.mul (.rat 4 1) .pi) (.par n!"alpha_e"))))) (.conj (.inp n!"VnudLR_2331"))))),
  (n!"CSLR_sduu", (.mul (.div (.div (.div (.sqrt (.rat 2 1)) (.par n!"GF")) (.mul (.ckm 2 1) (.conj (.ckm 2 0)))) (.rat 4 1)) (.neg (.inp n!"V8udduLR_1211"))))]

def JMS_to_flavio_26 : List (ℕ × Sym) := [
  (n!"CV8LR_ccbb", (.mul (.div (.div (.sqrt (.rat 2 1)) (.par n!"GF")) (.rat 4 1)) (.inp n!"V8udLR_2233"))),
  (n!"CT_dctaunue", (.mul (.div (.div (.div (.neg (.sqrt (.rat 2 1))) (.par n!"GF")) (.ckm 1 0)) (.rat 4 1)) (.conj (.inp n!"TnueduRR_1312")))),
  (n!"CSRR_etautaue", (.mul (.div (.div (.sqrt (.rat 2 1)) (.par n!"GF")) (.rat 4 1)) (.inp n!"SeeRR_1331"))),
  (n!"CT_dutaunumu", (.mul (.div (.div (.div (.neg (.sqrt (.rat 2 1))) (.par n!"GF")) (.ckm 0 0)) (.rat 4 1)) (.conj (.inp n!"TnueduRR_2311")))),
  (n!"CVLL_cuuu", (.mul (.div (.div (.div (.sqrt (.rat 2 1)) (.par n!"GF")) (.mul (.conj (.ckm 1 2)) (.ckm 0 2))) (.rat 4 1)) (.inp n!"VuuLL_1112"))),
  (n!"C7p_bs", (.mul (.div (.div (.div (.sqrt (.rat 2 1)) (.par n!"GF")) (.mul (.ckm 2 2) (.conj (.ckm 2 1)))) (.rat 4 1)) (.mul (.div (.div (.mul (.rat 16 1) (.mul .pi .pi)) (.sqrt (.mul (.mul (.rat 4 1) .pi) (.par n!"alpha_e")))) (.par n!"m_b")) (.conj (.inp n!"dgamma_32"))))),
  (n!"CV1LR_uubb", (.mul (.div (.div (.sqrt (.rat 2 1)) (.par n!"GF")) (.rat 4 1)) (.inp n!"V1udLR_1133"))),
  (n!"C10p_bdetau", (.mul (.div (.div (.div (.sqrt (.rat 2 1)) (.par n!"GF")) (.mul (.ckm 2 2) (.conj (.ckm 2 0)))) (.rat 4 1)) (.mul (.div (.mul (.rat 16 1) (.mul .pi .pi)) (.mul (.sqrt (.mul (.mul (.rat 4 1) .pi) (.par n!"alpha_e"))) (.sqrt (.mul (.mul (.rat 4 1) .pi) (.par n!"alpha_e"))))) (.add (.div (.neg (.conj (.inp n!"VedLR_1331"))) (.rat 2 1)) (.div (.conj (.inp n!"VedRR_1331")) (.rat 2 1)))))),
  (n!"CV8LR_uccu", (.mul (.div (.div (.sqrt (.rat 2 1)) (.par n!"GF")) (.rat 4 1)) (.inp n!"V8uuLR_1221"))),
  (n!"CVLL_bddd", (.mul (.div (.div (.div (.sqrt (.rat 2 1)) (.par n!"GF")) (.mul (.ckm 2 2) (.conj (.ckm 2 0)))) (.rat 4 1)) (.inp n!"VddLL_1113"))),
  (n!"CSRR_mumubb", (.mul (.div (.div (.sqrt (.rat 2 1)) (.par n!"GF")) (.rat 4 1)) (.inp n!"SedRR_2233"))),
  (n!"CS_bdmutau", (.mul (.div (.div (.div (.sqrt (.rat 2 1)) (.par n!"GF")) (.mul (.ckm 2 2) (.conj (.ckm 2 0)))) (.rat 4 1)) (.mul (.div (.div (.mul (.rat 16 1) (.mul .pi .pi)) (.mul (.sqrt (.mul (.mul (.rat 4 1) .pi) (.par n!"alpha_e"))) (.sqrt (.mul (.mul (.rat 4 1) .pi) (.par n!"alpha_e"))))) (.par n!"m_b")) (.add (.div (.conj (.inp n!"SedRL_2331")) (.rat 2 1)) (.div (.inp n!"SedRR_3213") (.rat 2 1)))))),
  (n!"CSRR_tautaucc", (.mul (.div (.div (.sqrt (.rat 2 1)) (.par n!"GF")) (.rat 4 1)) (.inp n!"SeuRR_3322"))),
  (n!"CSR_dctaunue", (.mul (.div (.div (.div (.neg (.sqrt (.rat 2 1))) (.par n!"GF")) (.ckm 1 0)) (.rat 4 1)) (.conj (.inp n!"SnueduRL_1312")))),
  (n!"CTRR_bdss", (.mul (.div (.div (.div (.sqrt (.rat 2 1)) (.par n!"GF")) (.mul (.ckm 2 2) (.conj (.ckm 2 0)))) (.rat 4 1)) (.div (.neg (.inp n!"S8ddRR_1223")) (.rat 16 1)))),
  (n!"CL_bsnumunutau", (.mul (.div (.div (.div (.sqrt (.rat 2 1)) (.par n!"GF")) (.mul (.ckm 2 2) (.conj (.ckm 2 1)))) (.rat 4 1)) (.mul (.div (.mul (.rat 8 1) (.mul .pi .pi)) (.mul (.sqrt (.mul (.mul (.rat 4 1) .pi) (.par n!"alpha_e"))) (.sqrt (.mul (.mul (.rat 4 1) .pi) (.par n!"alpha_e"))))) (.conj (.inp n!"VnudLL_2332"))))),
  (n!"CVLR_ssmumu", (.mul (.div (.div (.sqrt (.rat 2 1)) (.par n!"GF")) (.rat 4 1)) (.inp n!"VdeLR_2222"))),
  (n!"CSRLt_bsuu", (.mul (.div (.div (.div (.sqrt (.rat 2 1)) (.par n!"GF")) (.mul (.ckm 2 2) (.conj (.ckm 2 1)))) (.rat 4 1)) (.add (.mul (.rat (-2) 1) (.conj (.inp n!"V1udduLR_1231"))) (.div (.conj (.inp n!"V8udduLR_1231")) (.rat 3 1))))),
  (n!"CPp_cuee", (.mul (.div (.div (.div (.sqrt (.rat 2 1)) (.par n!"GF")) (.mul (.conj (.ckm 1 2)) (.ckm 0 2))) (.rat 4 1)) (.mul (.div (.div (.mul (.rat 16 1) (.mul .pi .pi)) (.mul (.sqrt (.mul (.mul (.rat 4 1) .pi) (.par n!"alpha_e"))) (.sqrt (.mul (.mul (.rat 4 1) .pi) (.par n!"alpha_e"))))) (.par n!"m_c")) (.sub (.div (.inp n!"SeuRL_1112") (.rat 2 1)) (.div (.conj (.inp n!"SeuRR_1121")) (.rat 2 1)))))),
  (n!"CT_sutaunue", (.mul (.div (.div (.div (.neg (.sqrt (.rat 2 1))) (.par n!"GF")) (.ckm 0 1)) (.rat 4 1)) (.conj (.inp n!"TnueduRR_1321")))),
  (n!"CSLR_bdss", (.mul (.div (.div (.div (.sqrt (.rat 2 1)) (.par n!"GF")) (.mul (.ckm 2 2) (.conj (.ckm 2 0)))) (.rat 4 1)) (.neg (.inp n!"V8ddLR_2312")))),
  (n!"CR_bdnumunumu", (.mul (.div (.div (.div (.sqrt (.rat 2 1)) (.par n!"GF")) (.mul (.ckm 2 2) (.conj (.ckm 2 0)))) (.rat 4 1)) (.mul (.div (.mul (.rat 8 1) (.mul .pi .pi)) (.mul (.sqrt (.mul (.mul (.rat 4 1) .pi) (.par n!"alpha_e"))) (.sqrt (.mul (.mul (.rat 4 1) .pi) (.par n!"alpha_e"))))) (.inp n!"VnudLR_2213")))),
  (n!"C10_bsmutau", (.mul (.div (.div (.div (.sqrt (.rat 2 1)) (.par n!"GF")) (.mul (.ckm 2 2) (.conj (.ckm 2 1)))) (.rat 4 1)) (.mul (.div (.mul (.rat 16 1) (.mul .pi .pi)) (.mul (.sqrt (.mul (.mul (.rat 4 1) .pi) (.par n!"alpha_e"))) (.sqrt (.mul (.mul (.rat 4 1) .pi) (.par n!"alpha_e"))))) (.sub (.div (.inp n!"VdeLR_2332") (.rat 2 1)) (.div (.conj (.inp n!"VedLL_2332")) (.rat 2 1)))))),
  (n!"CVRR_ucuc", (.conj (.inp n!"VuuRR_1212"))),
  (n!"C9p_sdtautau", (.mul (.div (.div (.div (.sqrt (.rat 2 1)) (.par n!"GF")) (.mul (.ckm 2 1) (.conj (.ckm 2 0)))) (.rat 4 1)) (.mul (.div (.mul (.rat 16 1) (.mul .pi .pi)) (.mul (.sqrt (.mul (.mul (.rat 4 1) .pi) (.par n!"alpha_e"))) (.sqrt (.mul (.mul (.rat 4 1) .pi) (.par n!"alpha_e"))))) (.add (.div (.inp n!"VedLR_3312") (.rat 2 1)) (.div (.inp n!"VedRR_3312") (.rat 2 1)))))),
  (n!"C9_bsemu", (.mul (.div (.div (.div (.sqrt (.rat 2 1)) (.par n!"GF")) (.mul (.ckm 2 2) (.conj (.ckm 2 1)))) (.rat 4 1)) (.mul (.div (.mul (.rat 16 1) (.mul .pi .pi)) (.mul (.sqrt (.mul (.mul (.rat 4 1) .pi) (.par n!"alpha_e"))) (.sqrt (.mul (.mul (.rat 4 1) .pi) (.par n!"alpha_e"))))) (.add (.div (.inp n!"VdeLR_2321") (.rat 2 1)) (.div (.conj (.inp n!"VedLL_1232")) (.rat 2 1)))))),
  (n!"C9p_bdmue", (.mul (.div (.div (.div (.sqrt (.rat 2 1)) (.par n!"GF")) (.mul (.ckm 2 2) (.conj (.ckm 2 0)))) (.rat 4 1)) (.mul (.div (.mul (.rat 16 1) (.mul .pi .pi)) (.mul (.sqrt (.mul (.mul (.rat 4 1) .pi) (.par n!"alpha_e"))) (.sqrt (.mul (.mul (.rat 4 1) .pi) (.par n!"alpha_e"))))) (.add (.div (.inp n!"VedLR_1213") (.rat 2 1)) (.div (.inp n!"VedRR_1213") (.rat 2 1)))))),
  (n!"CT_sutaunutau", (.mul (.div (.div (.div (.neg (.sqrt (.rat 2 1))) (.par n!"GF")) (.ckm 0 1)) (.rat 4 1)) (.conj (.inp n!"TnueduRR_3321")))),
  (n!"CSRLt_cuss", (.mul (.div (.div (.div (.sqrt (.rat 2 1)) (.par n!"GF")) (.mul (.conj (.ckm 1 2)) (.ckm 0 2))) (.rat 4 1)) (.add (.mul (.rat (-2) 1) (.inp n!"V1udduLR_1222")) (.div (.inp n!"V8udduLR_1222") (.rat 3 1))))),
  (n!"CSR_sutaunue", (.mul (.div (.div (.div (.neg (.sqrt (.rat 2 1))) (.par n!"GF")) (.ckm 0 1)) (.rat 4 1)) (.conj (.inp n!"SnueduRL_1321")))),
  (n!"CVLL_uucc", (.mul (.div (.div (.sqrt (.rat 2 1)) (.par n!"GF")) (.rat 4 1)) (.inp n!"VuuLL_1122"))),
  (n!"CL_bdnuenue", (.mul (.div (.div (.div (.sqrt (.rat 2 1)) (.par n!"GF")) (.mul (.ckm 2 2) (.conj (.ckm 2 0)))) (.rat 4 1)) (.mul (.div (.mul (.rat 8 1) (.mul .pi .pi)) (.mul (.sqrt (.mul (.mul (.rat 4 1) .pi) (.par n!"alpha_e"))) (.sqrt (.mul (.mul (.rat 4 1) .pi) (.par n!"alpha_e"))))) (.inp n!"VnudLL_1113")))),
  (n!"CTLL_bduu", (.mul (.div (.div (.div (.sqrt (.rat 2 1)) (.par n!"GF")) (.mul (.ckm 2 2) (.conj (.ckm 2 0)))) (.rat 4 1)) (.div (.neg (.conj (.inp n!"S8udduRR_1131"))) (.rat 16 1)))),
  (n!"CV1LR_sbbs", (.mul (.div (.div (.sqrt (.rat 2 1)) (.par n!"GF")) (.rat 4 1)) (.inp n!"V1ddLR_2332"))),
  (n!"CVRLt_sdcc", (.mul (.div (.div (.div (.sqrt (.rat 2 1)) (.par n!"GF")) (.mul (.ckm 2 1) (.conj (.ckm 2 0)))) (.rat 4 1)) (.div (.inp n!"V8udLR_2212") (.rat 2 1)))),
  (n!"CVL_dutaunumu", (.mul (.div (.div (.div (.neg (.sqrt (.rat 2 1))) (.par n!"GF")) (.ckm 0 0)) (.rat 4 1)) (.conj (.inp n!"VnueduLL_2311")))),
  (n!"CL_bsnumunumu", (.mul (.div (.div (.div (.sqrt (.rat 2 1)) (.par n!"GF")) (.mul (.ckm 2 2) (.conj (.ckm 2 1)))) (.rat 4 1)) (.mul (.div (.mul (.rat 8 1) (.mul .pi .pi)) (.mul (.sqrt (.mul (.mul (.rat 4 1) .pi) (.par n!"alpha_e"))) (.sqrt (.mul (.mul (.rat 4 1) .pi) (.par n!"alpha_e"))))) (.inp n!"VnudLL_2223")))),
  (n!"CSR_sctaunutau", (.mul (.div (.div (.div (.neg (.sqrt (.rat 2 1))) (.par n!"GF")) (.ckm 1 1)) (.rat 4 1)) (.conj (.inp n!"SnueduRL_3322")))),
  (n!"CSRR_tautauuu", (.mul (.div (.div (.sqrt (.rat 2 1)) (.par n!"GF")) (.rat 4 1)) (.inp n!"SeuRR_3311"))),
  (n!"CVRR_mumuss", (.mul (.div (.div (.sqrt (.rat 2 1)) (.par n!"GF")) (.rat 4 1)) (.inp n!"VedRR_2222"))),
  (n!"C8_cc", (.mul (.div (.div (.sqrt (.rat 2 1)) (.par n!"GF")) (.rat 4 1)) (.mul (.div (.div (.mul (.rat 16 1) (.mul .pi .pi)) (.sqrt (.mul (.mul (.rat 4 1) .pi) (.par n!"alpha_s")))) (.par n!"m_c")) (.inp n!"uG_22")))),
  (n!"CTRRt_sdcc", (.mul (.div (.div (.div (.sqrt (.rat 2 1)) (.par n!"GF")) (.mul (.ckm 2 1) (.conj (.ckm 2 0)))) (.rat 4 1)) (.add (.div (.neg (.inp n!"S1udduRR_2212")) (.rat 8 1)) (.div (.inp n!"S8udduRR_2212") (.mul (.rat 16 1) (.rat 3 1)))))),
  (n!"CVR_bcmunutau", (.mul (.div (.div (.div (.neg (.sqrt (.rat 2 1))) (.par n!"GF")) (.ckm 1 2)) (.rat 4 1)) (.conj (.inp n!"VnueduLR_3232")))),
  (n!"CVLR_ddee", (.mul (.div (.div (.sqrt (.rat 2 1)) (.par n!"GF")) (.rat 4 1)) (.inp n!"VdeLR_1111"))),
  (n!"CVLR_ssee", (.mul (.div (.div (.sqrt (.rat 2 1)) (.par n!"GF")) (.rat 4 1)) (.inp n!"VdeLR_2211"))),
  (n!"CSR_suenumu", (.mul (.div (.div (.div (.neg (.sqrt (.rat 2 1))) (.par n!"GF")) (.ckm 0 1)) (.rat 4 1)) (.conj (.inp n!"SnueduRL_2121")))),
  (n!"CV1LR_bbcc", (.mul (.div (.div (.sqrt (.rat 2 1)) (.par n!"GF")) (.rat 4 1)) (.inp n!"V1duLR_3322"))),
  (n!"CVLR_numunumucc", (.mul (.div (.div (.sqrt (.rat 2 1)) (.par n!"GF")) (.rat 4 1)) (.inp n!"VnuuLR_2222"))),
  (n!"CV8LR_ddcc", (.mul (.div (.div (.sqrt (.rat 2 1)) (.par n!"GF")) (.rat 4 1)) (.inp n!"V8duLR_1122"))),
  (n!"CVRR_bbbb", (.mul (.div (.div (.sqrt (.rat 2 1)) (.par n!"GF")) (.rat 4 1)) (.inp n!"VddRR_3333")))]

def JMS_to_flavio_27 : List (ℕ × Sym) := [
  (n!"CV8LR_sscc", (.mul (.div (.div (.sqrt (.rat 2 1)) (.par n!"GF")) (.rat 4 1)) (.inp n!"V8duLR_2222")))]

/-- the items returned by `JMS_to_flavio` (in the order of the search tree of the model) -/
def JMS_to_flavio : List (ℕ × Sym) :=
  JMS_to_flavio_0 ++ (JMS_to_flavio_1 ++ (JMS_to_flavio_2 ++ (JMS_to_flavio_3 ++ (JMS_to_flavio_4 ++ (JMS_to_flavio_5 ++ (JMS_to_flavio_6 ++ (JMS_to_flavio_7 ++ (JMS_to_flavio_8 ++ (JMS_to_flavio_9 ++ (JMS_to_flavio_10 ++ (JMS_to_flavio_11 ++ (JMS_to_flavio_12 ++ (JMS_to_flavio_13 ++ (JMS_to_flavio_14 ++ (JMS_to_flavio_15 ++ (JMS_to_flavio_16 ++ (JMS_to_flavio_17 ++ (JMS_to_flavio_18 ++ (JMS_to_flavio_19 ++ (JMS_to_flavio_20 ++ (JMS_to_flavio_21 ++ (JMS_to_flavio_22 ++ (JMS_to_flavio_23 ++ (JMS_to_flavio_24 ++ (JMS_to_flavio_25 ++ (JMS_to_flavio_26 ++ (JMS_to_flavio_27)))))))))))))))))))))))))))

end Verif.Gen.WetOut
