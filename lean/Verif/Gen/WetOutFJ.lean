import Verif.Model.Py

/-!
# The dictionary returned by `flavio_to_JMS`

GENERATED by tools/gen_wetout.lean; that this is what the translator returns is proved in
`Lemmas/WetRunsFJ`.
-/

set_option autoImplicit false
set_option maxRecDepth 20000

namespace Verif.Gen.WetOut
open Verif.Py

def flavio_to_JMS_0 : List (ℕ × Sym) := [
  (n!"SnueduRL_2132", (.conj (.div (.inp n!"CSR_bcenumu") (.div (.div (.div (.neg (.sqrt (.rat 2 1))) (.par n!"GF")) (.ckm 1 2)) (.rat 4 1))))),
  (n!"V1ddLR_1333", (.sub (.neg (.div (.mul (.mul (.div (.mul (.rat 4 1) (.par n!"GF")) (.sqrt (.rat 2 1))) (.mul (.ckm 2 2) (.conj (.ckm 2 0)))) (.inp n!"CSRL_bdbb")) (.mul (.rat 2 1) (.rat 3 1)))) (.div (.mul (.rat (-2) 1) (.mul (.mul (.div (.mul (.rat 4 1) (.par n!"GF")) (.sqrt (.rat 2 1))) (.mul (.ckm 2 2) (.conj (.ckm 2 0)))) (.inp n!"CVLR_bdbb"))) (.rat 2 1)))),
  (n!"VnudLR_1212", (.div (.div (.inp n!"CR_sdnumunue") (.div (.mul (.rat 8 1) (.mul .pi .pi)) (.mul (.sqrt (.mul (.mul (.rat 4 1) .pi) (.par n!"alpha_e"))) (.sqrt (.mul (.mul (.rat 4 1) .pi) (.par n!"alpha_e")))))) (.div (.div (.div (.sqrt (.rat 2 1)) (.par n!"GF")) (.mul (.ckm 2 1) (.conj (.ckm 2 0)))) (.rat 4 1)))),
  (n!"VddRR_1222", (.mul (.mul (.div (.mul (.rat 4 1) (.par n!"GF")) (.sqrt (.rat 2 1))) (.mul (.ckm 2 1) (.conj (.ckm 2 0)))) (.inp n!"CVRR_sdss"))),
  (n!"SedRL_2121", (.add (.neg (.conj (.div (.div (.inp n!"CP_sdmue") (.div (.div (.mul (.rat 16 1) (.mul .pi .pi)) (.mul (.sqrt (.mul (.mul (.rat 4 1) .pi) (.par n!"alpha_e"))) (.sqrt (.mul (.mul (.rat 4 1) .pi) (.par n!"alpha_e"))))) (.par n!"m_s"))) (.div (.div (.div (.sqrt (.rat 2 1)) (.par n!"GF")) (.mul (.ckm 2 1) (.conj (.ckm 2 0)))) (.rat 4 1))))) (.conj (.div (.div (.inp n!"CS_sdmue") (.div (.div (.mul (.rat 16 1) (.mul .pi .pi)) (.mul (.sqrt (.mul (.mul (.rat 4 1) .pi) (.par n!"alpha_e"))) (.sqrt (.mul (.mul (.rat 4 1) .pi) (.par n!"alpha_e"))))) (.par n!"m_s"))) (.div (.div (.div (.sqrt (.rat 2 1)) (.par n!"GF")) (.mul (.ckm 2 1) (.conj (.ckm 2 0)))) (.rat 4 1)))))),
  (n!"SnueduRR_2222", (.conj (.div (.inp n!"CSL_scmunumu") (.div (.div (.div (.neg (.sqrt (.rat 2 1))) (.par n!"GF")) (.ckm 1 1)) (.rat 4 1))))),
  (n!"SedRR_2211", (.div (.inp n!"CSRR_mumudd") (.div (.div (.sqrt (.rat 2 1)) (.par n!"GF")) (.rat 4 1)))),
  (n!"TnueduRR_2311", (.conj (.div (.inp n!"CT_dutaunumu") (.div (.div (.div (.neg (.sqrt (.rat 2 1))) (.par n!"GF")) (.ckm 0 0)) (.rat 4 1))))),
  (n!"VedLL_3312", (.add (.neg (.div (.div (.inp n!"C10_sdtautau") (.div (.mul (.rat 16 1) (.mul .pi .pi)) (.mul (.sqrt (.mul (.mul (.rat 4 1) .pi) (.par n!"alpha_e"))) (.sqrt (.mul (.mul (.rat 4 1) .pi) (.par n!"alpha_e")))))) (.div (.div (.div (.sqrt (.rat 2 1)) (.par n!"GF")) (.mul (.ckm 2 1) (.conj (.ckm 2 0)))) (.rat 4 1)))) (.div (.div (.inp n!"C9_sdtautau") (.div (.mul (.rat 16 1) (.mul .pi .pi)) (.mul (.sqrt (.mul (.mul (.rat 4 1) .pi) (.par n!"alpha_e"))) (.sqrt (.mul (.mul (.rat 4 1) .pi) (.par n!"alpha_e")))))) (.div (.div (.div (.sqrt (.rat 2 1)) (.par n!"GF")) (.mul (.ckm 2 1) (.conj (.ckm 2 0)))) (.rat 4 1))))),
  (n!"SnueduRL_1322", (.conj (.div (.inp n!"CSR_sctaunue") (.div (.div (.div (.neg (.sqrt (.rat 2 1))) (.par n!"GF")) (.ckm 1 1)) (.rat 4 1))))),
  (n!"V1udduLR_1131", (.sub (.neg (.div (.conj (.mul (.mul (.div (.mul (.rat 4 1) (.par n!"GF")) (.sqrt (.rat 2 1))) (.mul (.ckm 2 2) (.conj (.ckm 2 0)))) (.inp n!"CSRL_bduu"))) (.mul (.rat 2 1) (.rat 3 1)))) (.div (.conj (.mul (.mul (.div (.mul (.rat 4 1) (.par n!"GF")) (.sqrt (.rat 2 1))) (.mul (.ckm 2 2) (.conj (.ckm 2 0)))) (.inp n!"CSRLt_bduu"))) (.rat 2 1)))),
  (n!"S1ddRR_3232", (.add (.conj (.sub (.inp n!"CSLL_bsbs") (.mul (.rat 4 1) (.inp n!"CTLL_bsbs")))) (.div (.conj (.mul (.rat (-8) 1) (.inp n!"CTLL_bsbs"))) (.rat 3 1)))),
  (n!"V1udLR_1123", (.add (.mul (.mul (.div (.mul (.rat 4 1) (.par n!"GF")) (.sqrt (.rat 2 1))) (.mul (.ckm 2 2) (.conj (.ckm 2 1)))) (.inp n!"CVRL_bsuu")) (.div (.mul (.mul (.div (.mul (.rat 4 1) (.par n!"GF")) (.sqrt (.rat 2 1))) (.mul (.ckm 2 2) (.conj (.ckm 2 1)))) (.inp n!"CVRLt_bsuu")) (.rat 3 1)))),
  (n!"V8ddLR_2333", (.neg (.mul (.mul (.div (.mul (.rat 4 1) (.par n!"GF")) (.sqrt (.rat 2 1))) (.mul (.ckm 2 2) (.conj (.ckm 2 1)))) (.inp n!"CSRL_bsbb")))),
  (n!"VeuLR_2212", (.add (.neg (.div (.div (.inp n!"C10p_cumumu") (.div (.mul (.rat 16 1) (.mul .pi .pi)) (.mul (.sqrt (.mul (.mul (.rat 4 1) .pi) (.par n!"alpha_e"))) (.sqrt (.mul (.mul (.rat 4 1) .pi) (.par n!"alpha_e")))))) (.div (.div (.div (.sqrt (.rat 2 1)) (.par n!"GF")) (.mul (.conj (.ckm 1 2)) (.ckm 0 2))) (.rat 4 1)))) (.div (.div (.inp n!"C9p_cumumu") (.div (.mul (.rat 16 1) (.mul .pi .pi)) (.mul (.sqrt (.mul (.mul (.rat 4 1) .pi) (.par n!"alpha_e"))) (.sqrt (.mul (.mul (.rat 4 1) .pi) (.par n!"alpha_e")))))) (.div (.div (.div (.sqrt (.rat 2 1)) (.par n!"GF")) (.mul (.conj (.ckm 1 2)) (.ckm 0 2))) (.rat 4 1))))),
  (n!"V1udLL_2211", (.div (.inp n!"CV1LL_ccdd") (.div (.div (.sqrt (.rat 2 1)) (.par n!"GF")) (.rat 4 1)))),
  (n!"S8ddRR_1221", (.div (.inp n!"CS8RR_dssd") (.div (.div (.sqrt (.rat 2 1)) (.par n!"GF")) (.rat 4 1)))),
  (n!"S1udduRR_1112", (.sub (.neg (.div (.mul (.rat 8 1) (.mul (.mul (.div (.mul (.rat 4 1) (.par n!"GF")) (.sqrt (.rat 2 1))) (.mul (.conj (.ckm 1 2)) (.ckm 0 2))) (.inp n!"CTRR_cudd"))) (.rat 3 1))) (.mul (.rat 8 1) (.mul (.mul (.div (.mul (.rat 4 1) (.par n!"GF")) (.sqrt (.rat 2 1))) (.mul (.conj (.ckm 1 2)) (.ckm 0 2))) (.inp n!"CTRRt_cudd"))))),
  (n!"VdeLR_1233", (.add (.div (.div (.inp n!"C10_sdtautau") (.div (.mul (.rat 16 1) (.mul .pi .pi)) (.mul (.sqrt (.mul (.mul (.rat 4 1) .pi) (.par n!"alpha_e"))) (.sqrt (.mul (.mul (.rat 4 1) .pi) (.par n!"alpha_e")))))) (.div (.div (.div (.sqrt (.rat 2 1)) (.par n!"GF")) (.mul (.ckm 2 1) (.conj (.ckm 2 0)))) (.rat 4 1))) (.div (.div (.inp n!"C9_sdtautau") (.div (.mul (.rat 16 1) (.mul .pi .pi)) (.mul (.sqrt (.mul (.mul (.rat 4 1) .pi) (.par n!"alpha_e"))) (.sqrt (.mul (.mul (.rat 4 1) .pi) (.par n!"alpha_e")))))) (.div (.div (.div (.sqrt (.rat 2 1)) (.par n!"GF")) (.mul (.ckm 2 1) (.conj (.ckm 2 0)))) (.rat 4 1))))),
  (n!"V1uuLR_1111", (.div (.inp n!"CV1LR_uuuu") (.div (.div (.sqrt (.rat 2 1)) (.par n!"GF")) (.rat 4 1)))),
  (n!"VnudLL_3323", (.div (.div (.inp n!"CL_bsnutaunutau") (.div (.mul (.rat 8 1) (.mul .pi .pi)) (.mul (.sqrt (.mul (.mul (.rat 4 1) .pi) (.par n!"alpha_e"))) (.sqrt (.mul (.mul (.rat 4 1) .pi) (.par n!"alpha_e")))))) (.div (.div (.div (.sqrt (.rat 2 1)) (.par n!"GF")) (.mul (.ckm 2 2) (.conj (.ckm 2 1)))) (.rat 4 1)))),
  (n!"V1ddLR_3313", (.sub (.neg (.div (.mul (.mul (.div (.mul (.rat 4 1) (.par n!"GF")) (.sqrt (.rat 2 1))) (.mul (.ckm 2 2) (.conj (.ckm 2 0)))) (.inp n!"CSLR_bdbb")) (.mul (.rat 2 1) (.rat 3 1)))) (.div (.mul (.rat (-2) 1) (.mul (.mul (.div (.mul (.rat 4 1) (.par n!"GF")) (.sqrt (.rat 2 1))) (.mul (.ckm 2 2) (.conj (.ckm 2 0)))) (.inp n!"CVRL_bdbb"))) (.rat 2 1)))),
  (n!"VnudLR_2331", (.conj (.div (.div (.inp n!"CR_bdnumunutau") (.div (.mul (.rat 8 1) (.mul .pi .pi)) (.mul (.sqrt (.mul (.mul (.rat 4 1) .pi) (.par n!"alpha_e"))) (.sqrt (.mul (.mul (.rat 4 1) .pi) (.par n!"alpha_e")))))) (.div (.div (.div (.sqrt (.rat 2 1)) (.par n!"GF")) (.mul (.ckm 2 2) (.conj (.ckm 2 0)))) (.rat 4 1))))),
  (n!"VuuRR_1221", (.div (.inp n!"CVRR_uccu") (.div (.div (.sqrt (.rat 2 1)) (.par n!"GF")) (.rat 4 1)))),
  (n!"VnuuLL_3311", (.div (.inp n!"CVLL_nutaunutauuu") (.div (.div (.sqrt (.rat 2 1)) (.par n!"GF")) (.rat 4 1)))),
  (n!"SnueduRR_1132", (.conj (.div (.inp n!"CSL_bcenue") (.div (.div (.div (.neg (.sqrt (.rat 2 1))) (.par n!"GF")) (.ckm 1 2)) (.rat 4 1))))),
  (n!"VnueduLL_3321", (.conj (.div (.inp n!"CVL_sutaunutau") (.div (.div (.div (.neg (.sqrt (.rat 2 1))) (.par n!"GF")) (.ckm 0 1)) (.rat 4 1))))),
  (n!"VeeLR_2211", (.div (.inp n!"CVLR_mumuee") (.div (.div (.sqrt (.rat 2 1)) (.par n!"GF")) (.rat 4 1)))),
  (n!"SedRL_2113", (.add (.div (.div (.inp n!"CPp_bdemu") (.div (.div (.mul (.rat 16 1) (.mul .pi .pi)) (.mul (.sqrt (.mul (.mul (.rat 4 1) .pi) (.par n!"alpha_e"))) (.sqrt (.mul (.mul (.rat 4 1) .pi) (.par n!"alpha_e"))))) (.par n!"m_b"))) (.div (.div (.div (.sqrt (.rat 2 1)) (.par n!"GF")) (.mul (.ckm 2 2) (.conj (.ckm 2 0)))) (.rat 4 1))) (.div (.div (.inp n!"CSp_bdemu") (.div (.div (.mul (.rat 16 1) (.mul .pi .pi)) (.mul (.sqrt (.mul (.mul (.rat 4 1) .pi) (.par n!"alpha_e"))) (.sqrt (.mul (.mul (.rat 4 1) .pi) (.par n!"alpha_e"))))) (.par n!"m_b"))) (.div (.div (.div (.sqrt (.rat 2 1)) (.par n!"GF")) (.mul (.ckm 2 2) (.conj (.ckm 2 0)))) (.rat 4 1))))),
  (n!"VnueduLL_1112", (.conj (.div (.inp n!"CVL_dcenue") (.div (.div (.div (.neg (.sqrt (.rat 2 1))) (.par n!"GF")) (.ckm 1 0)) (.rat 4 1))))),
  (n!"SedRR_1121", (.add (.neg (.conj (.div (.div (.inp n!"CPp_sdee") (.div (.div (.mul (.rat 16 1) (.mul .pi .pi)) (.mul (.sqrt (.mul (.mul (.rat 4 1) .pi) (.par n!"alpha_e"))) (.sqrt (.mul (.mul (.rat 4 1) .pi) (.par n!"alpha_e"))))) (.par n!"m_s"))) (.div (.div (.div (.sqrt (.rat 2 1)) (.par n!"GF")) (.mul (.ckm 2 1) (.conj (.ckm 2 0)))) (.rat 4 1))))) (.conj (.div (.div (.inp n!"CSp_sdee") (.div (.div (.mul (.rat 16 1) (.mul .pi .pi)) (.mul (.sqrt (.mul (.mul (.rat 4 1) .pi) (.par n!"alpha_e"))) (.sqrt (.mul (.mul (.rat 4 1) .pi) (.par n!"alpha_e"))))) (.par n!"m_s"))) (.div (.div (.div (.sqrt (.rat 2 1)) (.par n!"GF")) (.mul (.ckm 2 1) (.conj (.ckm 2 0)))) (.rat 4 1)))))),
  (n!"TnueduRR_1221", (.conj (.div (.inp n!"CT_sumunue") (.div (.div (.div (.neg (.sqrt (.rat 2 1))) (.par n!"GF")) (.ckm 0 1)) (.rat 4 1))))),
  (n!"VedLL_2222", (.div (.inp n!"CVLL_mumuss") (.div (.div (.sqrt (.rat 2 1)) (.par n!"GF")) (.rat 4 1)))),
  (n!"VeuLR_1122", (.div (.inp n!"CVLR_eecc") (.div (.div (.sqrt (.rat 2 1)) (.par n!"GF")) (.rat 4 1)))),
  (n!"VedRR_1331", (.conj (.add (.div (.div (.inp n!"C10p_bdetau") (.div (.mul (.rat 16 1) (.mul .pi .pi)) (.mul (.sqrt (.mul (.mul (.rat 4 1) .pi) (.par n!"alpha_e"))) (.sqrt (.mul (.mul (.rat 4 1) .pi) (.par n!"alpha_e")))))) (.div (.div (.div (.sqrt (.rat 2 1)) (.par n!"GF")) (.mul (.ckm 2 2) (.conj (.ckm 2 0)))) (.rat 4 1))) (.div (.div (.inp n!"C9p_bdetau") (.div (.mul (.rat 16 1) (.mul .pi .pi)) (.mul (.sqrt (.mul (.mul (.rat 4 1) .pi) (.par n!"alpha_e"))) (.sqrt (.mul (.mul (.rat 4 1) .pi) (.par n!"alpha_e")))))) (.div (.div (.div (.sqrt (.rat 2 1)) (.par n!"GF")) (.mul (.ckm 2 2) (.conj (.ckm 2 0)))) (.rat 4 1)))))),
  (n!"VnueLR_2222", (.div (.inp n!"CVLR_numunumumumu") (.div (.div (.sqrt (.rat 2 1)) (.par n!"GF")) (.rat 4 1)))),
  (n!"VedLR_2312", (.add (.neg (.div (.div (.inp n!"C10p_sdtaumu") (.div (.mul (.rat 16 1) (.mul .pi .pi)) (.mul (.sqrt (.mul (.mul (.rat 4 1) .pi) (.par n!"alpha_e"))) (.sqrt (.mul (.mul (.rat 4 1) .pi) (.par n!"alpha_e")))))) (.div (.div (.div (.sqrt (.rat 2 1)) (.par n!"GF")) (.mul (.ckm 2 1) (.conj (.ckm 2 0)))) (.rat 4 1)))) (.div (.div (.inp n!"C9p_sdtaumu") (.div (.mul (.rat 16 1) (.mul .pi .pi)) (.mul (.sqrt (.mul (.mul (.rat 4 1) .pi) (.par n!"alpha_e"))) (.sqrt (.mul (.mul (.rat 4 1) .pi) (.par n!"alpha_e")))))) (.div (.div (.div (.sqrt (.rat 2 1)) (.par n!"GF")) (.mul (.ckm 2 1) (.conj (.ckm 2 0)))) (.rat 4 1))))),
  (n!"S1udRR_2212", (.sub (.sub (.add (.mul (.mul (.div (.mul (.rat 4 1) (.par n!"GF")) (.sqrt (.rat 2 1))) (.mul (.ckm 2 1) (.conj (.ckm 2 0)))) (.inp n!"CSRR_sdcc")) (.div (.mul (.mul (.div (.mul (.rat 4 1) (.par n!"GF")) (.sqrt (.rat 2 1))) (.mul (.ckm 2 1) (.conj (.ckm 2 0)))) (.inp n!"CSRRt_sdcc")) (.rat 3 1))) (.mul (.rat 4 1) (.mul (.mul (.div (.mul (.rat 4 1) (.par n!"GF")) (.sqrt (.rat 2 1))) (.mul (.ckm 2 1) (.conj (.ckm 2 0)))) (.inp n!"CTRR_sdcc")))) (.div (.mul (.rat 4 1) (.mul (.mul (.div (.mul (.rat 4 1) (.par n!"GF")) (.sqrt (.rat 2 1))) (.mul (.ckm 2 1) (.conj (.ckm 2 0)))) (.inp n!"CTRRt_sdcc"))) (.rat 3 1)))),
  (n!"V8udduLR_2212", (.neg (.mul (.mul (.div (.mul (.rat 4 1) (.par n!"GF")) (.sqrt (.rat 2 1))) (.mul (.ckm 2 1) (.conj (.ckm 2 0)))) (.inp n!"CSLR_sdcc")))),
  (n!"S8udduRR_1111", (.div (.inp n!"CS8RR_uddu") (.div (.div (.sqrt (.rat 2 1)) (.par n!"GF")) (.rat 4 1)))),
  (n!"VnudLL_2233", (.div (.inp n!"CVLL_numunumubb") (.div (.div (.sqrt (.rat 2 1)) (.par n!"GF")) (.rat 4 1)))),
  (n!"VnueduLR_3131", (.conj (.div (.inp n!"CVR_buenutau") (.div (.div (.div (.neg (.sqrt (.rat 2 1))) (.par n!"GF")) (.ckm 0 2)) (.rat 4 1))))),
  (n!"V1ddLR_2223", (.add (.mul (.mul (.div (.mul (.rat 4 1) (.par n!"GF")) (.sqrt (.rat 2 1))) (.mul (.ckm 2 2) (.conj (.ckm 2 1)))) (.inp n!"CVRL_bsss")) (.div (.mul (.div (.rat (-1) 1) (.rat 2 1)) (.mul (.mul (.div (.mul (.rat 4 1) (.par n!"GF")) (.sqrt (.rat 2 1))) (.mul (.ckm 2 2) (.conj (.ckm 2 1)))) (.inp n!"CSRL_bsss"))) (.rat 3 1)))),
  (n!"V1udLR_1211", (.add (.mul (.mul (.div (.mul (.rat 4 1) (.par n!"GF")) (.sqrt (.rat 2 1))) (.mul (.conj (.ckm 1 2)) (.ckm 0 2))) (.inp n!"CVLR_cudd")) (.div (.mul (.mul (.div (.mul (.rat 4 1) (.par n!"GF")) (.sqrt (.rat 2 1))) (.mul (.conj (.ckm 1 2)) (.ckm 0 2))) (.inp n!"CVLRt_cudd")) (.rat 3 1)))),
  (n!"S8udduRR_1332", (.mul (.rat (-16) 1) (.mul (.mul (.div (.mul (.rat 4 1) (.par n!"GF")) (.sqrt (.rat 2 1))) (.mul (.conj (.ckm 1 2)) (.ckm 0 2))) (.inp n!"CTRR_cubb")))),
  (n!"S1ddRR_1111", (.div (.inp n!"CS1RR_dddd") (.div (.div (.sqrt (.rat 2 1)) (.par n!"GF")) (.rat 4 1)))),
  (n!"VnueLL_1322", (.div (.inp n!"CVLL_nuenutaumumu") (.div (.div (.sqrt (.rat 2 1)) (.par n!"GF")) (.rat 4 1)))),
  (n!"TedRR_3321", (.sub (.conj (.div (.rat 0 1) (.div (.div (.div (.sqrt (.rat 2 1)) (.par n!"GF")) (.mul (.ckm 2 1) (.conj (.ckm 2 0)))) (.rat 4 1)))) (.conj (.div (.rat 0 1) (.div (.div (.div (.sqrt (.rat 2 1)) (.par n!"GF")) (.mul (.ckm 2 1) (.conj (.ckm 2 0)))) (.rat 4 1)))))),
  (n!"S1ddRR_1332", (.sub (.neg (.div (.mul (.rat 8 1) (.mul (.mul (.div (.mul (.rat 4 1) (.par n!"GF")) (.sqrt (.rat 2 1))) (.mul (.ckm 2 1) (.conj (.ckm 2 0)))) (.inp n!"CTRR_sdbb"))) (.rat 3 1))) (.mul (.rat 8 1) (.mul (.mul (.div (.mul (.rat 4 1) (.par n!"GF")) (.sqrt (.rat 2 1))) (.mul (.ckm 2 1) (.conj (.ckm 2 0)))) (.inp n!"CTRRt_sdbb"))))),
  (n!"SnueduRR_3112", (.conj (.div (.inp n!"CSL_dcenutau") (.div (.div (.div (.neg (.sqrt (.rat 2 1))) (.par n!"GF")) (.ckm 1 0)) (.rat 4 1)))))]

def flavio_to_JMS_1 : List (ℕ × Sym) := [
  (n!"VnudLR_2323", (.div (.div (.inp n!"CR_bsnutaunumu") (.div (.mul (.rat 8 1) (.mul .pi .pi)) (.mul (.sqrt (.mul (.mul (.rat 4 1) .pi) (.par n!"alpha_e"))) (.sqrt (.mul (.mul (.rat 4 1) .pi) (.par n!"alpha_e")))))) (.div (.div (.div (.sqrt (.rat 2 1)) (.par n!"GF")) (.mul (.ckm 2 2) (.conj (.ckm 2 1)))) (.rat 4 1)))),
  (n!"TedRR_1112", (.add (.div (.rat 0 1) (.div (.div (.div (.sqrt (.rat 2 1)) (.par n!"GF")) (.mul (.ckm 2 1) (.conj (.ckm 2 0)))) (.rat 4 1))) (.div (.rat 0 1) (.div (.div (.div (.sqrt (.rat 2 1)) (.par n!"GF")) (.mul (.ckm 2 1) (.conj (.ckm 2 0)))) (.rat 4 1))))),
  (n!"VddRR_2333", (.mul (.mul (.div (.mul (.rat 4 1) (.par n!"GF")) (.sqrt (.rat 2 1))) (.mul (.ckm 2 2) (.conj (.ckm 2 1)))) (.inp n!"CVRR_bsbb"))),
  (n!"SedRL_3232", (.add (.neg (.conj (.div (.div (.inp n!"CP_bstaumu") (.div (.div (.mul (.rat 16 1) (.mul .pi .pi)) (.mul (.sqrt (.mul (.mul (.rat 4 1) .pi) (.par n!"alpha_e"))) (.sqrt (.mul (.mul (.rat 4 1) .pi) (.par n!"alpha_e"))))) (.par n!"m_b"))) (.div (.div (.div (.sqrt (.rat 2 1)) (.par n!"GF")) (.mul (.ckm 2 2) (.conj (.ckm 2 1)))) (.rat 4 1))))) (.conj (.div (.div (.inp n!"CS_bstaumu") (.div (.div (.mul (.rat 16 1) (.mul .pi .pi)) (.mul (.sqrt (.mul (.mul (.rat 4 1) .pi) (.par n!"alpha_e"))) (.sqrt (.mul (.mul (.rat 4 1) .pi) (.par n!"alpha_e"))))) (.par n!"m_b"))) (.div (.div (.div (.sqrt (.rat 2 1)) (.par n!"GF")) (.mul (.ckm 2 2) (.conj (.ckm 2 1)))) (.rat 4 1)))))),
  (n!"VdeLR_1321", (.add (.div (.div (.inp n!"C10_bdemu") (.div (.mul (.rat 16 1) (.mul .pi .pi)) (.mul (.sqrt (.mul (.mul (.rat 4 1) .pi) (.par n!"alpha_e"))) (.sqrt (.mul (.mul (.rat 4 1) .pi) (.par n!"alpha_e")))))) (.div (.div (.div (.sqrt (.rat 2 1)) (.par n!"GF")) (.mul (.ckm 2 2) (.conj (.ckm 2 0)))) (.rat 4 1))) (.div (.div (.inp n!"C9_bdemu") (.div (.mul (.rat 16 1) (.mul .pi .pi)) (.mul (.sqrt (.mul (.mul (.rat 4 1) .pi) (.par n!"alpha_e"))) (.sqrt (.mul (.mul (.rat 4 1) .pi) (.par n!"alpha_e")))))) (.div (.div (.div (.sqrt (.rat 2 1)) (.par n!"GF")) (.mul (.ckm 2 2) (.conj (.ckm 2 0)))) (.rat 4 1))))),
  (n!"V1duLR_2211", (.div (.inp n!"CV1LR_ssuu") (.div (.div (.sqrt (.rat 2 1)) (.par n!"GF")) (.rat 4 1)))),
  (n!"VnueduLL_2231", (.conj (.div (.inp n!"CVL_bumunumu") (.div (.div (.div (.neg (.sqrt (.rat 2 1))) (.par n!"GF")) (.ckm 0 2)) (.rat 4 1))))),
  (n!"VddLL_1111", (.div (.inp n!"CVLL_dddd") (.div (.div (.sqrt (.rat 2 1)) (.par n!"GF")) (.rat 4 1)))),
  (n!"VddLL_1332", (.mul (.mul (.div (.mul (.rat 4 1) (.par n!"GF")) (.sqrt (.rat 2 1))) (.mul (.ckm 2 1) (.conj (.ckm 2 0)))) (.inp n!"CVLLt_sdbb"))),
  (n!"VnuuLR_2311", (.div (.inp n!"CVLR_numunutauuu") (.div (.div (.sqrt (.rat 2 1)) (.par n!"GF")) (.rat 4 1)))),
  (n!"SnueduRL_2212", (.conj (.div (.inp n!"CSR_dcmunumu") (.div (.div (.div (.neg (.sqrt (.rat 2 1))) (.par n!"GF")) (.ckm 1 0)) (.rat 4 1))))),
  (n!"SedRR_3322", (.div (.inp n!"CSRR_tautauss") (.div (.div (.sqrt (.rat 2 1)) (.par n!"GF")) (.rat 4 1)))),
  (n!"VnueduLR_2321", (.conj (.div (.inp n!"CVR_sutaunumu") (.div (.div (.div (.neg (.sqrt (.rat 2 1))) (.par n!"GF")) (.ckm 0 1)) (.rat 4 1))))),
  (n!"SedRR_1113", (.add (.div (.div (.inp n!"CP_bdee") (.div (.div (.mul (.rat 16 1) (.mul .pi .pi)) (.mul (.sqrt (.mul (.mul (.rat 4 1) .pi) (.par n!"alpha_e"))) (.sqrt (.mul (.mul (.rat 4 1) .pi) (.par n!"alpha_e"))))) (.par n!"m_b"))) (.div (.div (.div (.sqrt (.rat 2 1)) (.par n!"GF")) (.mul (.ckm 2 2) (.conj (.ckm 2 0)))) (.rat 4 1))) (.div (.div (.inp n!"CS_bdee") (.div (.div (.mul (.rat 16 1) (.mul .pi .pi)) (.mul (.sqrt (.mul (.mul (.rat 4 1) .pi) (.par n!"alpha_e"))) (.sqrt (.mul (.mul (.rat 4 1) .pi) (.par n!"alpha_e"))))) (.par n!"m_b"))) (.div (.div (.div (.sqrt (.rat 2 1)) (.par n!"GF")) (.mul (.ckm 2 2) (.conj (.ckm 2 0)))) (.rat 4 1))))),
  (n!"V8udLR_2211", (.div (.inp n!"CV8LR_ccdd") (.div (.div (.sqrt (.rat 2 1)) (.par n!"GF")) (.rat 4 1)))),
  (n!"VedRR_3311", (.div (.inp n!"CVRR_tautaudd") (.div (.div (.sqrt (.rat 2 1)) (.par n!"GF")) (.rat 4 1)))),
  (n!"S1udRR_1122", (.div (.inp n!"CS1RR_uuss") (.div (.div (.sqrt (.rat 2 1)) (.par n!"GF")) (.rat 4 1)))),
  (n!"S8ddRR_2332", (.div (.inp n!"CS8RR_sbbs") (.div (.div (.sqrt (.rat 2 1)) (.par n!"GF")) (.rat 4 1)))),
  (n!"VueLR_1111", (.div (.inp n!"CVLR_uuee") (.div (.div (.sqrt (.rat 2 1)) (.par n!"GF")) (.rat 4 1)))),
  (n!"VedRR_1323", (.add (.div (.div (.inp n!"C10p_bstaue") (.div (.mul (.rat 16 1) (.mul .pi .pi)) (.mul (.sqrt (.mul (.mul (.rat 4 1) .pi) (.par n!"alpha_e"))) (.sqrt (.mul (.mul (.rat 4 1) .pi) (.par n!"alpha_e")))))) (.div (.div (.div (.sqrt (.rat 2 1)) (.par n!"GF")) (.mul (.ckm 2 2) (.conj (.ckm 2 1)))) (.rat 4 1))) (.div (.div (.inp n!"C9p_bstaue") (.div (.mul (.rat 16 1) (.mul .pi .pi)) (.mul (.sqrt (.mul (.mul (.rat 4 1) .pi) (.par n!"alpha_e"))) (.sqrt (.mul (.mul (.rat 4 1) .pi) (.par n!"alpha_e")))))) (.div (.div (.div (.sqrt (.rat 2 1)) (.par n!"GF")) (.mul (.ckm 2 2) (.conj (.ckm 2 1)))) (.rat 4 1))))),
  (n!"V1udLL_1113", (.add (.mul (.mul (.div (.mul (.rat 4 1) (.par n!"GF")) (.sqrt (.rat 2 1))) (.mul (.ckm 2 2) (.conj (.ckm 2 0)))) (.inp n!"CVLL_bduu")) (.div (.mul (.mul (.div (.mul (.rat 4 1) (.par n!"GF")) (.sqrt (.rat 2 1))) (.mul (.ckm 2 2) (.conj (.ckm 2 0)))) (.inp n!"CVLLt_bduu")) (.rat 3 1)))),
  (n!"S8uuRR_1212", (.mul (.rat 2 1) (.conj (.mul (.rat (-8) 1) (.inp n!"CTLL_ucuc"))))),
  (n!"V1ddLR_1133", (.div (.inp n!"CV1LR_ddbb") (.div (.div (.sqrt (.rat 2 1)) (.par n!"GF")) (.rat 4 1)))),
  (n!"V1uuLR_2222", (.div (.inp n!"CV1LR_cccc") (.div (.div (.sqrt (.rat 2 1)) (.par n!"GF")) (.rat 4 1)))),
  (n!"V8ddLR_1331", (.div (.inp n!"CV8LR_dbbd") (.div (.div (.sqrt (.rat 2 1)) (.par n!"GF")) (.rat 4 1)))),
  (n!"V1udduLR_1211", (.sub (.neg (.div (.mul (.mul (.div (.mul (.rat 4 1) (.par n!"GF")) (.sqrt (.rat 2 1))) (.mul (.ckm 2 1) (.conj (.ckm 2 0)))) (.inp n!"CSLR_sduu")) (.mul (.rat 2 1) (.rat 3 1)))) (.div (.mul (.mul (.div (.mul (.rat 4 1) (.par n!"GF")) (.sqrt (.rat 2 1))) (.mul (.ckm 2 1) (.conj (.ckm 2 0)))) (.inp n!"CSLRt_sduu")) (.rat 2 1)))),
  (n!"TedRR_2231", (.sub (.conj (.div (.rat 0 1) (.div (.div (.div (.sqrt (.rat 2 1)) (.par n!"GF")) (.mul (.ckm 2 2) (.conj (.ckm 2 0)))) (.rat 4 1)))) (.conj (.div (.rat 0 1) (.div (.div (.div (.sqrt (.rat 2 1)) (.par n!"GF")) (.mul (.ckm 2 2) (.conj (.ckm 2 0)))) (.rat 4 1)))))),
  (n!"VnudLR_1233", (.div (.inp n!"CVLR_nuenumubb") (.div (.div (.sqrt (.rat 2 1)) (.par n!"GF")) (.rat 4 1)))),
  (n!"VnudLL_2321", (.conj (.div (.div (.inp n!"CL_sdnumunutau") (.div (.mul (.rat 8 1) (.mul .pi .pi)) (.mul (.sqrt (.mul (.mul (.rat 4 1) .pi) (.par n!"alpha_e"))) (.sqrt (.mul (.mul (.rat 4 1) .pi) (.par n!"alpha_e")))))) (.div (.div (.div (.sqrt (.rat 2 1)) (.par n!"GF")) (.mul (.ckm 2 1) (.conj (.ckm 2 0)))) (.rat 4 1))))),
  (n!"V1ddLR_2311", (.add (.mul (.mul (.div (.mul (.rat 4 1) (.par n!"GF")) (.sqrt (.rat 2 1))) (.mul (.ckm 2 2) (.conj (.ckm 2 1)))) (.inp n!"CVLR_bsdd")) (.div (.mul (.mul (.div (.mul (.rat 4 1) (.par n!"GF")) (.sqrt (.rat 2 1))) (.mul (.ckm 2 2) (.conj (.ckm 2 1)))) (.inp n!"CVLRt_bsdd")) (.rat 3 1)))),
  (n!"TedRR_3313", (.add (.div (.rat 0 1) (.div (.div (.div (.sqrt (.rat 2 1)) (.par n!"GF")) (.mul (.ckm 2 2) (.conj (.ckm 2 0)))) (.rat 4 1))) (.div (.rat 0 1) (.div (.div (.div (.sqrt (.rat 2 1)) (.par n!"GF")) (.mul (.ckm 2 2) (.conj (.ckm 2 0)))) (.rat 4 1))))),
  (n!"VeeLR_3322", (.div (.inp n!"CVLR_tautaumumu") (.div (.div (.sqrt (.rat 2 1)) (.par n!"GF")) (.rat 4 1)))),
  (n!"S8udRR_2122", (.sub (.mul (.rat 2 1) (.conj (.mul (.mul (.div (.mul (.rat 4 1) (.par n!"GF")) (.sqrt (.rat 2 1))) (.mul (.conj (.ckm 1 2)) (.ckm 0 2))) (.inp n!"CSLLt_cuss")))) (.mul (.rat 8 1) (.conj (.mul (.mul (.div (.mul (.rat 4 1) (.par n!"GF")) (.sqrt (.rat 2 1))) (.mul (.conj (.ckm 1 2)) (.ckm 0 2))) (.inp n!"CTLLt_cuss")))))),
  (n!"VdeLR_1313", (.add (.div (.div (.inp n!"C10_bdtaue") (.div (.mul (.rat 16 1) (.mul .pi .pi)) (.mul (.sqrt (.mul (.mul (.rat 4 1) .pi) (.par n!"alpha_e"))) (.sqrt (.mul (.mul (.rat 4 1) .pi) (.par n!"alpha_e")))))) (.div (.div (.div (.sqrt (.rat 2 1)) (.par n!"GF")) (.mul (.ckm 2 2) (.conj (.ckm 2 0)))) (.rat 4 1))) (.div (.div (.inp n!"C9_bdtaue") (.div (.mul (.rat 16 1) (.mul .pi .pi)) (.mul (.sqrt (.mul (.mul (.rat 4 1) .pi) (.par n!"alpha_e"))) (.sqrt (.mul (.mul (.rat 4 1) .pi) (.par n!"alpha_e")))))) (.div (.div (.div (.sqrt (.rat 2 1)) (.par n!"GF")) (.mul (.ckm 2 2) (.conj (.ckm 2 0)))) (.rat 4 1))))),
  (n!"TnueduRR_2111", (.conj (.div (.inp n!"CT_duenumu") (.div (.div (.div (.neg (.sqrt (.rat 2 1))) (.par n!"GF")) (.ckm 0 0)) (.rat 4 1))))),
  (n!"SnueduRL_3331", (.conj (.div (.inp n!"CSR_butaunutau") (.div (.div (.div (.neg (.sqrt (.rat 2 1))) (.par n!"GF")) (.ckm 0 2)) (.rat 4 1))))),
  (n!"SnueduRL_1122", (.conj (.div (.inp n!"CSR_scenue") (.div (.div (.div (.neg (.sqrt (.rat 2 1))) (.par n!"GF")) (.ckm 1 1)) (.rat 4 1))))),
  (n!"SedRR_2232", (.add (.neg (.conj (.div (.div (.inp n!"CPp_bsmumu") (.div (.div (.mul (.rat 16 1) (.mul .pi .pi)) (.mul (.sqrt (.mul (.mul (.rat 4 1) .pi) (.par n!"alpha_e"))) (.sqrt (.mul (.mul (.rat 4 1) .pi) (.par n!"alpha_e"))))) (.par n!"m_b"))) (.div (.div (.div (.sqrt (.rat 2 1)) (.par n!"GF")) (.mul (.ckm 2 2) (.conj (.ckm 2 1)))) (.rat 4 1))))) (.conj (.div (.div (.inp n!"CSp_bsmumu") (.div (.div (.mul (.rat 16 1) (.mul .pi .pi)) (.mul (.sqrt (.mul (.mul (.rat 4 1) .pi) (.par n!"alpha_e"))) (.sqrt (.mul (.mul (.rat 4 1) .pi) (.par n!"alpha_e"))))) (.par n!"m_b"))) (.div (.div (.div (.sqrt (.rat 2 1)) (.par n!"GF")) (.mul (.ckm 2 2) (.conj (.ckm 2 1)))) (.rat 4 1)))))),
  (n!"VnueduLR_1231", (.conj (.div (.inp n!"CVR_bumunue") (.div (.div (.div (.neg (.sqrt (.rat 2 1))) (.par n!"GF")) (.ckm 0 2)) (.rat 4 1))))),
  (n!"TnueduRR_2332", (.conj (.div (.inp n!"CT_bctaunumu") (.div (.div (.div (.neg (.sqrt (.rat 2 1))) (.par n!"GF")) (.ckm 1 2)) (.rat 4 1))))),
  (n!"VedLL_3333", (.div (.inp n!"CVLL_tautaubb") (.div (.div (.sqrt (.rat 2 1)) (.par n!"GF")) (.rat 4 1)))),
  (n!"SedRL_1111", (.div (.inp n!"CSRL_eedd") (.div (.div (.sqrt (.rat 2 1)) (.par n!"GF")) (.rat 4 1)))),
  (n!"V8udRR_1222", (.mul (.rat 2 1) (.mul (.mul (.div (.mul (.rat 4 1) (.par n!"GF")) (.sqrt (.rat 2 1))) (.mul (.conj (.ckm 1 2)) (.ckm 0 2))) (.inp n!"CVRRt_cuss")))),
  (n!"SnueduRR_1212", (.conj (.div (.inp n!"CSL_dcmunue") (.div (.div (.div (.neg (.sqrt (.rat 2 1))) (.par n!"GF")) (.ckm 1 0)) (.rat 4 1))))),
  (n!"SedRL_1332", (.add (.neg (.conj (.div (.div (.inp n!"CP_bsetau") (.div (.div (.mul (.rat 16 1) (.mul .pi .pi)) (.mul (.sqrt (.mul (.mul (.rat 4 1) .pi) (.par n!"alpha_e"))) (.sqrt (.mul (.mul (.rat 4 1) .pi) (.par n!"alpha_e"))))) (.par n!"m_b"))) (.div (.div (.div (.sqrt (.rat 2 1)) (.par n!"GF")) (.mul (.ckm 2 2) (.conj (.ckm 2 1)))) (.rat 4 1))))) (.conj (.div (.div (.inp n!"CS_bsetau") (.div (.div (.mul (.rat 16 1) (.mul .pi .pi)) (.mul (.sqrt (.mul (.mul (.rat 4 1) .pi) (.par n!"alpha_e"))) (.sqrt (.mul (.mul (.rat 4 1) .pi) (.par n!"alpha_e"))))) (.par n!"m_b"))) (.div (.div (.div (.sqrt (.rat 2 1)) (.par n!"GF")) (.mul (.ckm 2 2) (.conj (.ckm 2 1)))) (.rat 4 1)))))),
  (n!"VnueLR_3333", (.div (.inp n!"CVLR_nutaunutautautau") (.div (.div (.sqrt (.rat 2 1)) (.par n!"GF")) (.rat 4 1)))),
  (n!"S8udduRR_2222", (.div (.inp n!"CS8RR_cssc") (.div (.div (.sqrt (.rat 2 1)) (.par n!"GF")) (.rat 4 1)))),
  (n!"VeuLL_1112", (.add (.neg (.div (.div (.inp n!"C10_cuee") (.div (.mul (.rat 16 1) (.mul .pi .pi)) (.mul (.sqrt (.mul (.mul (.rat 4 1) .pi) (.par n!"alpha_e"))) (.sqrt (.mul (.mul (.rat 4 1) .pi) (.par n!"alpha_e")))))) (.div (.div (.div (.sqrt (.rat 2 1)) (.par n!"GF")) (.mul (.conj (.ckm 1 2)) (.ckm 0 2))) (.rat 4 1)))) (.div (.div (.inp n!"C9_cuee") (.div (.mul (.rat 16 1) (.mul .pi .pi)) (.mul (.sqrt (.mul (.mul (.rat 4 1) .pi) (.par n!"alpha_e"))) (.sqrt (.mul (.mul (.rat 4 1) .pi) (.par n!"alpha_e")))))) (.div (.div (.div (.sqrt (.rat 2 1)) (.par n!"GF")) (.mul (.conj (.ckm 1 2)) (.ckm 0 2))) (.rat 4 1))))),
  (n!"V8ddLR_3311", (.div (.inp n!"CV8LR_bbdd") (.div (.div (.sqrt (.rat 2 1)) (.par n!"GF")) (.rat 4 1)))),
  (n!"S1ddRR_2222", (.div (.inp n!"CS1RR_ssss") (.div (.div (.sqrt (.rat 2 1)) (.par n!"GF")) (.rat 4 1))))]

def flavio_to_JMS_2 : List (ℕ × Sym) := [
  (n!"ugamma_11", (.div (.mul (.div (.par n!"m_u") (.div (.mul (.rat 16 1) (.mul .pi .pi)) (.sqrt (.mul (.mul (.rat 4 1) .pi) (.par n!"alpha_e"))))) (.inp n!"C7_uu")) (.div (.div (.sqrt (.rat 2 1)) (.par n!"GF")) (.rat 4 1)))),
  (n!"VdeLR_2211", (.div (.inp n!"CVLR_ssee") (.div (.div (.sqrt (.rat 2 1)) (.par n!"GF")) (.rat 4 1)))),
  (n!"VnueduLL_3121", (.conj (.div (.inp n!"CVL_suenutau") (.div (.div (.div (.neg (.sqrt (.rat 2 1))) (.par n!"GF")) (.ckm 0 1)) (.rat 4 1))))),
  (n!"VnudLL_1231", (.conj (.div (.div (.inp n!"CL_bdnuenumu") (.div (.mul (.rat 8 1) (.mul .pi .pi)) (.mul (.sqrt (.mul (.mul (.rat 4 1) .pi) (.par n!"alpha_e"))) (.sqrt (.mul (.mul (.rat 4 1) .pi) (.par n!"alpha_e")))))) (.div (.div (.div (.sqrt (.rat 2 1)) (.par n!"GF")) (.mul (.ckm 2 2) (.conj (.ckm 2 0)))) (.rat 4 1))))),
  (n!"V1ddLR_1221", (.div (.inp n!"CV1LR_dssd") (.div (.div (.sqrt (.rat 2 1)) (.par n!"GF")) (.rat 4 1)))),
  (n!"TedRR_2223", (.add (.div (.rat 0 1) (.div (.div (.div (.sqrt (.rat 2 1)) (.par n!"GF")) (.mul (.ckm 2 2) (.conj (.ckm 2 1)))) (.rat 4 1))) (.div (.rat 0 1) (.div (.div (.div (.sqrt (.rat 2 1)) (.par n!"GF")) (.mul (.ckm 2 2) (.conj (.ckm 2 1)))) (.rat 4 1))))),
  (n!"V1duLR_3322", (.div (.inp n!"CV1LR_bbcc") (.div (.div (.sqrt (.rat 2 1)) (.par n!"GF")) (.rat 4 1)))),
  (n!"VddLL_2222", (.div (.inp n!"CVLL_ssss") (.div (.div (.sqrt (.rat 2 1)) (.par n!"GF")) (.rat 4 1)))),
  (n!"VnudLL_2313", (.div (.div (.inp n!"CL_bdnutaunumu") (.div (.mul (.rat 8 1) (.mul .pi .pi)) (.mul (.sqrt (.mul (.mul (.rat 4 1) .pi) (.par n!"alpha_e"))) (.sqrt (.mul (.mul (.rat 4 1) .pi) (.par n!"alpha_e")))))) (.div (.div (.div (.sqrt (.rat 2 1)) (.par n!"GF")) (.mul (.ckm 2 2) (.conj (.ckm 2 0)))) (.rat 4 1)))),
  (n!"VnueduLR_3211", (.conj (.div (.inp n!"CVR_dumunutau") (.div (.div (.div (.neg (.sqrt (.rat 2 1))) (.par n!"GF")) (.ckm 0 0)) (.rat 4 1))))),
  (n!"V8duLR_1311", (.mul (.rat 2 1) (.mul (.mul (.div (.mul (.rat 4 1) (.par n!"GF")) (.sqrt (.rat 2 1))) (.mul (.ckm 2 2) (.conj (.ckm 2 0)))) (.inp n!"CVLRt_bduu")))),
  (n!"VeeLL_1111", (.div (.inp n!"CVLL_eeee") (.div (.div (.sqrt (.rat 2 1)) (.par n!"GF")) (.rat 4 1)))),
  (n!"VnudLR_1321", (.conj (.div (.div (.inp n!"CR_sdnuenutau") (.div (.mul (.rat 8 1) (.mul .pi .pi)) (.mul (.sqrt (.mul (.mul (.rat 4 1) .pi) (.par n!"alpha_e"))) (.sqrt (.mul (.mul (.rat 4 1) .pi) (.par n!"alpha_e")))))) (.div (.div (.div (.sqrt (.rat 2 1)) (.par n!"GF")) (.mul (.ckm 2 1) (.conj (.ckm 2 0)))) (.rat 4 1))))),
  (n!"VddRR_1331", (.div (.inp n!"CVRR_dbbd") (.div (.div (.sqrt (.rat 2 1)) (.par n!"GF")) (.rat 4 1)))),
  (n!"TeuRR_2211", (.div (.inp n!"CTRR_mumuuu") (.div (.div (.sqrt (.rat 2 1)) (.par n!"GF")) (.rat 4 1)))),
  (n!"SnueduRR_2331", (.conj (.div (.inp n!"CSL_butaunumu") (.div (.div (.div (.neg (.sqrt (.rat 2 1))) (.par n!"GF")) (.ckm 0 2)) (.rat 4 1))))),
  (n!"SedRL_3312", (.add (.div (.div (.inp n!"CPp_sdtautau") (.div (.div (.mul (.rat 16 1) (.mul .pi .pi)) (.mul (.sqrt (.mul (.mul (.rat 4 1) .pi) (.par n!"alpha_e"))) (.sqrt (.mul (.mul (.rat 4 1) .pi) (.par n!"alpha_e"))))) (.par n!"m_s"))) (.div (.div (.div (.sqrt (.rat 2 1)) (.par n!"GF")) (.mul (.ckm 2 1) (.conj (.ckm 2 0)))) (.rat 4 1))) (.div (.div (.inp n!"CSp_sdtautau") (.div (.div (.mul (.rat 16 1) (.mul .pi .pi)) (.mul (.sqrt (.mul (.mul (.rat 4 1) .pi) (.par n!"alpha_e"))) (.sqrt (.mul (.mul (.rat 4 1) .pi) (.par n!"alpha_e"))))) (.par n!"m_s"))) (.div (.div (.div (.sqrt (.rat 2 1)) (.par n!"GF")) (.mul (.ckm 2 1) (.conj (.ckm 2 0)))) (.rat 4 1))))),
  (n!"V8udLR_1113", (.mul (.rat 2 1) (.mul (.mul (.div (.mul (.rat 4 1) (.par n!"GF")) (.sqrt (.rat 2 1))) (.mul (.ckm 2 2) (.conj (.ckm 2 0)))) (.inp n!"CVRLt_bduu")))),
  (n!"VnueduLL_2311", (.conj (.div (.inp n!"CVL_dutaunumu") (.div (.div (.div (.neg (.sqrt (.rat 2 1))) (.par n!"GF")) (.ckm 0 0)) (.rat 4 1))))),
  (n!"VedRR_2213", (.add (.div (.div (.inp n!"C10p_bdmumu") (.div (.mul (.rat 16 1) (.mul .pi .pi)) (.mul (.sqrt (.mul (.mul (.rat 4 1) .pi) (.par n!"alpha_e"))) (.sqrt (.mul (.mul (.rat 4 1) .pi) (.par n!"alpha_e")))))) (.div (.div (.div (.sqrt (.rat 2 1)) (.par n!"GF")) (.mul (.ckm 2 2) (.conj (.ckm 2 0)))) (.rat 4 1))) (.div (.div (.inp n!"C9p_bdmumu") (.div (.mul (.rat 16 1) (.mul .pi .pi)) (.mul (.sqrt (.mul (.mul (.rat 4 1) .pi) (.par n!"alpha_e"))) (.sqrt (.mul (.mul (.rat 4 1) .pi) (.par n!"alpha_e")))))) (.div (.div (.div (.sqrt (.rat 2 1)) (.par n!"GF")) (.mul (.ckm 2 2) (.conj (.ckm 2 0)))) (.rat 4 1))))),
  (n!"S1udRR_2233", (.div (.inp n!"CS1RR_ccbb") (.div (.div (.sqrt (.rat 2 1)) (.par n!"GF")) (.rat 4 1)))),
  (n!"VueLR_2222", (.div (.inp n!"CVLR_ccmumu") (.div (.div (.sqrt (.rat 2 1)) (.par n!"GF")) (.rat 4 1)))),
  (n!"SeuRR_2212", (.add (.div (.div (.inp n!"CP_cumumu") (.div (.div (.mul (.rat 16 1) (.mul .pi .pi)) (.mul (.sqrt (.mul (.mul (.rat 4 1) .pi) (.par n!"alpha_e"))) (.sqrt (.mul (.mul (.rat 4 1) .pi) (.par n!"alpha_e"))))) (.par n!"m_c"))) (.div (.div (.div (.sqrt (.rat 2 1)) (.par n!"GF")) (.mul (.conj (.ckm 1 2)) (.ckm 0 2))) (.rat 4 1))) (.div (.div (.inp n!"CS_cumumu") (.div (.div (.mul (.rat 16 1) (.mul .pi .pi)) (.mul (.sqrt (.mul (.mul (.rat 4 1) .pi) (.par n!"alpha_e"))) (.sqrt (.mul (.mul (.rat 4 1) .pi) (.par n!"alpha_e"))))) (.par n!"m_c"))) (.div (.div (.div (.sqrt (.rat 2 1)) (.par n!"GF")) (.mul (.conj (.ckm 1 2)) (.ckm 0 2))) (.rat 4 1))))),
  (n!"VnueLL_1122", (.div (.inp n!"CVLL_nuenuemumu") (.div (.div (.sqrt (.rat 2 1)) (.par n!"GF")) (.rat 4 1)))),
  (n!"VedLL_1212", (.add (.neg (.div (.div (.inp n!"C10_sdmue") (.div (.mul (.rat 16 1) (.mul .pi .pi)) (.mul (.sqrt (.mul (.mul (.rat 4 1) .pi) (.par n!"alpha_e"))) (.sqrt (.mul (.mul (.rat 4 1) .pi) (.par n!"alpha_e")))))) (.div (.div (.div (.sqrt (.rat 2 1)) (.par n!"GF")) (.mul (.ckm 2 1) (.conj (.ckm 2 0)))) (.rat 4 1)))) (.div (.div (.inp n!"C9_sdmue") (.div (.mul (.rat 16 1) (.mul .pi .pi)) (.mul (.sqrt (.mul (.mul (.rat 4 1) .pi) (.par n!"alpha_e"))) (.sqrt (.mul (.mul (.rat 4 1) .pi) (.par n!"alpha_e")))))) (.div (.div (.div (.sqrt (.rat 2 1)) (.par n!"GF")) (.mul (.ckm 2 1) (.conj (.ckm 2 0)))) (.rat 4 1))))),
  (n!"V1udRR_1112", (.add (.mul (.mul (.div (.mul (.rat 4 1) (.par n!"GF")) (.sqrt (.rat 2 1))) (.mul (.ckm 2 1) (.conj (.ckm 2 0)))) (.inp n!"CVRR_sduu")) (.div (.mul (.mul (.div (.mul (.rat 4 1) (.par n!"GF")) (.sqrt (.rat 2 1))) (.mul (.ckm 2 1) (.conj (.ckm 2 0)))) (.inp n!"CVRRt_sduu")) (.rat 3 1)))),
  (n!"TedRR_3121", (.sub (.conj (.div (.rat 0 1) (.div (.div (.div (.sqrt (.rat 2 1)) (.par n!"GF")) (.mul (.ckm 2 1) (.conj (.ckm 2 0)))) (.rat 4 1)))) (.conj (.div (.rat 0 1) (.div (.div (.div (.sqrt (.rat 2 1)) (.par n!"GF")) (.mul (.ckm 2 1) (.conj (.ckm 2 0)))) (.rat 4 1)))))),
  (n!"S1ddRR_1132", (.sub (.sub (.add (.conj (.mul (.mul (.div (.mul (.rat 4 1) (.par n!"GF")) (.sqrt (.rat 2 1))) (.mul (.ckm 2 2) (.conj (.ckm 2 1)))) (.inp n!"CSLL_bsdd"))) (.div (.conj (.mul (.mul (.div (.mul (.rat 4 1) (.par n!"GF")) (.sqrt (.rat 2 1))) (.mul (.ckm 2 2) (.conj (.ckm 2 1)))) (.inp n!"CSLLt_bsdd"))) (.rat 3 1))) (.mul (.rat 4 1) (.conj (.mul (.mul (.div (.mul (.rat 4 1) (.par n!"GF")) (.sqrt (.rat 2 1))) (.mul (.ckm 2 2) (.conj (.ckm 2 1)))) (.inp n!"CTLL_bsdd"))))) (.div (.mul (.rat 4 1) (.conj (.mul (.mul (.div (.mul (.rat 4 1) (.par n!"GF")) (.sqrt (.rat 2 1))) (.mul (.ckm 2 2) (.conj (.ckm 2 1)))) (.inp n!"CTLLt_bsdd")))) (.rat 3 1)))),
  (n!"V1udduLR_2322", (.sub (.neg (.div (.mul (.mul (.div (.mul (.rat 4 1) (.par n!"GF")) (.sqrt (.rat 2 1))) (.mul (.ckm 2 2) (.conj (.ckm 2 1)))) (.inp n!"CSLR_bscc")) (.mul (.rat 2 1) (.rat 3 1)))) (.div (.mul (.mul (.div (.mul (.rat 4 1) (.par n!"GF")) (.sqrt (.rat 2 1))) (.mul (.ckm 2 2) (.conj (.ckm 2 1)))) (.inp n!"CSLRt_bscc")) (.rat 2 1)))),
  (n!"S1udduRR_1221", (.div (.inp n!"CS1RR_ussu") (.div (.div (.sqrt (.rat 2 1)) (.par n!"GF")) (.rat 4 1)))),
  (n!"TedRR_1133", (.div (.inp n!"CTRR_eebb") (.div (.div (.sqrt (.rat 2 1)) (.par n!"GF")) (.rat 4 1)))),
  (n!"VnudLL_1223", (.div (.div (.inp n!"CL_bsnumunue") (.div (.mul (.rat 8 1) (.mul .pi .pi)) (.mul (.sqrt (.mul (.mul (.rat 4 1) .pi) (.par n!"alpha_e"))) (.sqrt (.mul (.mul (.rat 4 1) .pi) (.par n!"alpha_e")))))) (.div (.div (.div (.sqrt (.rat 2 1)) (.par n!"GF")) (.mul (.ckm 2 2) (.conj (.ckm 2 1)))) (.rat 4 1)))),
  (n!"VnueduLR_2121", (.conj (.div (.inp n!"CVR_suenumu") (.div (.div (.div (.neg (.sqrt (.rat 2 1))) (.par n!"GF")) (.ckm 0 1)) (.rat 4 1))))),
  (n!"TnueduRR_3222", (.conj (.div (.inp n!"CT_scmunutau") (.div (.div (.div (.neg (.sqrt (.rat 2 1))) (.par n!"GF")) (.ckm 1 1)) (.rat 4 1))))),
  (n!"TeuRR_1121", (.sub (.conj (.div (.rat 0 1) (.div (.div (.div (.sqrt (.rat 2 1)) (.par n!"GF")) (.mul (.conj (.ckm 1 2)) (.ckm 0 2))) (.rat 4 1)))) (.conj (.div (.rat 0 1) (.div (.div (.div (.sqrt (.rat 2 1)) (.par n!"GF")) (.mul (.conj (.ckm 1 2)) (.ckm 0 2))) (.rat 4 1)))))),
  (n!"VnudLR_1313", (.div (.div (.inp n!"CR_bdnutaunue") (.div (.mul (.rat 8 1) (.mul .pi .pi)) (.mul (.sqrt (.mul (.mul (.rat 4 1) .pi) (.par n!"alpha_e"))) (.sqrt (.mul (.mul (.rat 4 1) .pi) (.par n!"alpha_e")))))) (.div (.div (.div (.sqrt (.rat 2 1)) (.par n!"GF")) (.mul (.ckm 2 2) (.conj (.ckm 2 0)))) (.rat 4 1)))),
  (n!"G", (.div (.inp n!"CG") (.div (.div (.sqrt (.rat 2 1)) (.par n!"GF")) (.rat 4 1)))),
  (n!"VnuuLL_1211", (.div (.inp n!"CVLL_nuenumuuu") (.div (.div (.sqrt (.rat 2 1)) (.par n!"GF")) (.rat 4 1)))),
  (n!"S8ddRR_2132", (.mul (.rat (-16) 1) (.conj (.mul (.mul (.div (.mul (.rat 4 1) (.par n!"GF")) (.sqrt (.rat 2 1))) (.mul (.ckm 2 2) (.conj (.ckm 2 0)))) (.inp n!"CTLL_bdss"))))),
  (n!"SedRL_2222", (.div (.inp n!"CSRL_mumuss") (.div (.div (.sqrt (.rat 2 1)) (.par n!"GF")) (.rat 4 1)))),
  (n!"VnueduLL_1221", (.conj (.div (.inp n!"CVL_sumunue") (.div (.div (.div (.neg (.sqrt (.rat 2 1))) (.par n!"GF")) (.ckm 0 1)) (.rat 4 1))))),
  (n!"VedRR_1123", (.add (.div (.div (.inp n!"C10p_bsee") (.div (.mul (.rat 16 1) (.mul .pi .pi)) (.mul (.sqrt (.mul (.mul (.rat 4 1) .pi) (.par n!"alpha_e"))) (.sqrt (.mul (.mul (.rat 4 1) .pi) (.par n!"alpha_e")))))) (.div (.div (.div (.sqrt (.rat 2 1)) (.par n!"GF")) (.mul (.ckm 2 2) (.conj (.ckm 2 1)))) (.rat 4 1))) (.div (.div (.inp n!"C9p_bsee") (.div (.mul (.rat 16 1) (.mul .pi .pi)) (.mul (.sqrt (.mul (.mul (.rat 4 1) .pi) (.par n!"alpha_e"))) (.sqrt (.mul (.mul (.rat 4 1) .pi) (.par n!"alpha_e")))))) (.div (.div (.div (.sqrt (.rat 2 1)) (.par n!"GF")) (.mul (.ckm 2 2) (.conj (.ckm 2 1)))) (.rat 4 1))))),
  (n!"V8udLL_1111", (.div (.inp n!"CV8LL_uudd") (.div (.div (.sqrt (.rat 2 1)) (.par n!"GF")) (.rat 4 1)))),
  (n!"VedLL_2331", (.conj (.add (.neg (.div (.div (.inp n!"C10_bdmutau") (.div (.mul (.rat 16 1) (.mul .pi .pi)) (.mul (.sqrt (.mul (.mul (.rat 4 1) .pi) (.par n!"alpha_e"))) (.sqrt (.mul (.mul (.rat 4 1) .pi) (.par n!"alpha_e")))))) (.div (.div (.div (.sqrt (.rat 2 1)) (.par n!"GF")) (.mul (.ckm 2 2) (.conj (.ckm 2 0)))) (.rat 4 1)))) (.div (.div (.inp n!"C9_bdmutau") (.div (.mul (.rat 16 1) (.mul .pi .pi)) (.mul (.sqrt (.mul (.mul (.rat 4 1) .pi) (.par n!"alpha_e"))) (.sqrt (.mul (.mul (.rat 4 1) .pi) (.par n!"alpha_e")))))) (.div (.div (.div (.sqrt (.rat 2 1)) (.par n!"GF")) (.mul (.ckm 2 2) (.conj (.ckm 2 0)))) (.rat 4 1)))))),
  (n!"SeuRR_1122", (.div (.inp n!"CSRR_eecc") (.div (.div (.sqrt (.rat 2 1)) (.par n!"GF")) (.rat 4 1)))),
  (n!"SedRR_2312", (.add (.div (.div (.inp n!"CP_sdtaumu") (.div (.div (.mul (.rat 16 1) (.mul .pi .pi)) (.mul (.sqrt (.mul (.mul (.rat 4 1) .pi) (.par n!"alpha_e"))) (.sqrt (.mul (.mul (.rat 4 1) .pi) (.par n!"alpha_e"))))) (.par n!"m_s"))) (.div (.div (.div (.sqrt (.rat 2 1)) (.par n!"GF")) (.mul (.ckm 2 1) (.conj (.ckm 2 0)))) (.rat 4 1))) (.div (.div (.inp n!"CS_sdtaumu") (.div (.div (.mul (.rat 16 1) (.mul .pi .pi)) (.mul (.sqrt (.mul (.mul (.rat 4 1) .pi) (.par n!"alpha_e"))) (.sqrt (.mul (.mul (.rat 4 1) .pi) (.par n!"alpha_e"))))) (.par n!"m_s"))) (.div (.div (.div (.sqrt (.rat 2 1)) (.par n!"GF")) (.mul (.ckm 2 1) (.conj (.ckm 2 0)))) (.rat 4 1))))),
  (n!"VnueduLR_1311", (.conj (.div (.inp n!"CVR_dutaunue") (.div (.div (.div (.neg (.sqrt (.rat 2 1))) (.par n!"GF")) (.ckm 0 0)) (.rat 4 1))))),
  (n!"VeuRR_1111", (.div (.inp n!"CVRR_eeuu") (.div (.div (.sqrt (.rat 2 1)) (.par n!"GF")) (.rat 4 1)))),
  (n!"V8ddLR_2213", (.mul (.rat 2 1) (.mul (.mul (.div (.mul (.rat 4 1) (.par n!"GF")) (.sqrt (.rat 2 1))) (.mul (.ckm 2 2) (.conj (.ckm 2 0)))) (.inp n!"CVRLt_bdss")))),
  (n!"S1ddRR_3333", (.div (.inp n!"CS1RR_bbbb") (.div (.div (.sqrt (.rat 2 1)) (.par n!"GF")) (.rat 4 1))))]

def flavio_to_JMS_3 : List (ℕ × Sym) := [
  (n!"TedRR_3113", (.add (.div (.rat 0 1) (.div (.div (.div (.sqrt (.rat 2 1)) (.par n!"GF")) (.mul (.ckm 2 2) (.conj (.ckm 2 0)))) (.rat 4 1))) (.div (.rat 0 1) (.div (.div (.div (.sqrt (.rat 2 1)) (.par n!"GF")) (.mul (.ckm 2 2) (.conj (.ckm 2 0)))) (.rat 4 1))))),
  (n!"VdeLR_3322", (.div (.inp n!"CVLR_bbmumu") (.div (.div (.sqrt (.rat 2 1)) (.par n!"GF")) (.rat 4 1)))),
  (n!"S8ddRR_1322", (.sub (.mul (.rat 2 1) (.mul (.mul (.div (.mul (.rat 4 1) (.par n!"GF")) (.sqrt (.rat 2 1))) (.mul (.ckm 2 2) (.conj (.ckm 2 0)))) (.inp n!"CSRRt_bdss"))) (.mul (.rat 8 1) (.mul (.mul (.div (.mul (.rat 4 1) (.par n!"GF")) (.sqrt (.rat 2 1))) (.mul (.ckm 2 2) (.conj (.ckm 2 0)))) (.inp n!"CTRRt_bdss"))))),
  (n!"SnueduRL_3131", (.conj (.div (.inp n!"CSR_buenutau") (.div (.div (.div (.neg (.sqrt (.rat 2 1))) (.par n!"GF")) (.ckm 0 2)) (.rat 4 1))))),
  (n!"V1ddLR_2332", (.div (.inp n!"CV1LR_sbbs") (.div (.div (.sqrt (.rat 2 1)) (.par n!"GF")) (.rat 4 1)))),
  (n!"VddLL_3333", (.div (.inp n!"CVLL_bbbb") (.div (.div (.sqrt (.rat 2 1)) (.par n!"GF")) (.rat 4 1)))),
  (n!"VnudLR_2211", (.div (.inp n!"CVLR_numunumudd") (.div (.div (.sqrt (.rat 2 1)) (.par n!"GF")) (.rat 4 1)))),
  (n!"TnueduRR_2132", (.conj (.div (.inp n!"CT_bcenumu") (.div (.div (.div (.neg (.sqrt (.rat 2 1))) (.par n!"GF")) (.ckm 1 2)) (.rat 4 1))))),
  (n!"V1uuLR_1212", (.conj (.sub (.div (.neg (.inp n!"CSLR_ucuc")) (.rat 6 1)) (.div (.mul (.rat (-2) 1) (.inp n!"CVLR_ucuc")) (.rat 2 1))))),
  (n!"dgamma_21", (.conj (.div (.div (.inp n!"C7p_sd") (.div (.div (.mul (.rat 16 1) (.mul .pi .pi)) (.sqrt (.mul (.mul (.rat 4 1) .pi) (.par n!"alpha_e")))) (.par n!"m_s"))) (.div (.div (.div (.sqrt (.rat 2 1)) (.par n!"GF")) (.mul (.ckm 2 1) (.conj (.ckm 2 0)))) (.rat 4 1))))),
  (n!"VeeLL_2222", (.div (.inp n!"CVLL_mumumumu") (.div (.div (.sqrt (.rat 2 1)) (.par n!"GF")) (.rat 4 1)))),
  (n!"SnueduRR_3221", (.conj (.div (.inp n!"CSL_sumunutau") (.div (.div (.div (.neg (.sqrt (.rat 2 1))) (.par n!"GF")) (.ckm 0 1)) (.rat 4 1))))),
  (n!"TedRR_1221", (.sub (.conj (.div (.rat 0 1) (.div (.div (.div (.sqrt (.rat 2 1)) (.par n!"GF")) (.mul (.ckm 2 1) (.conj (.ckm 2 0)))) (.rat 4 1)))) (.conj (.div (.rat 0 1) (.div (.div (.div (.sqrt (.rat 2 1)) (.par n!"GF")) (.mul (.ckm 2 1) (.conj (.ckm 2 0)))) (.rat 4 1)))))),
  (n!"TeuRR_3322", (.div (.inp n!"CTRR_tautaucc") (.div (.div (.sqrt (.rat 2 1)) (.par n!"GF")) (.rat 4 1)))),
  (n!"SedRL_1132", (.add (.neg (.conj (.div (.div (.inp n!"CP_bsee") (.div (.div (.mul (.rat 16 1) (.mul .pi .pi)) (.mul (.sqrt (.mul (.mul (.rat 4 1) .pi) (.par n!"alpha_e"))) (.sqrt (.mul (.mul (.rat 4 1) .pi) (.par n!"alpha_e"))))) (.par n!"m_b"))) (.div (.div (.div (.sqrt (.rat 2 1)) (.par n!"GF")) (.mul (.ckm 2 2) (.conj (.ckm 2 1)))) (.rat 4 1))))) (.conj (.div (.div (.inp n!"CS_bsee") (.div (.div (.mul (.rat 16 1) (.mul .pi .pi)) (.mul (.sqrt (.mul (.mul (.rat 4 1) .pi) (.par n!"alpha_e"))) (.sqrt (.mul (.mul (.rat 4 1) .pi) (.par n!"alpha_e"))))) (.par n!"m_b"))) (.div (.div (.div (.sqrt (.rat 2 1)) (.par n!"GF")) (.mul (.ckm 2 2) (.conj (.ckm 2 1)))) (.rat 4 1)))))),
  (n!"VnudLL_1311", (.div (.inp n!"CVLL_nuenutaudd") (.div (.div (.sqrt (.rat 2 1)) (.par n!"GF")) (.rat 4 1)))),
  (n!"S8udRR_1112", (.sub (.mul (.rat 2 1) (.mul (.mul (.div (.mul (.rat 4 1) (.par n!"GF")) (.sqrt (.rat 2 1))) (.mul (.ckm 2 1) (.conj (.ckm 2 0)))) (.inp n!"CSRRt_sduu"))) (.mul (.rat 8 1) (.mul (.mul (.div (.mul (.rat 4 1) (.par n!"GF")) (.sqrt (.rat 2 1))) (.mul (.ckm 2 1) (.conj (.ckm 2 0)))) (.inp n!"CTRRt_sduu"))))),
  (n!"SnueduRL_2321", (.conj (.div (.inp n!"CSR_sutaunumu") (.div (.div (.div (.neg (.sqrt (.rat 2 1))) (.par n!"GF")) (.ckm 0 1)) (.rat 4 1))))),
  (n!"VnueLL_2233", (.div (.inp n!"CVLL_numunumutautau") (.div (.div (.sqrt (.rat 2 1)) (.par n!"GF")) (.rat 4 1)))),
  (n!"TnueduRR_1322", (.conj (.div (.inp n!"CT_sctaunue") (.div (.div (.div (.neg (.sqrt (.rat 2 1))) (.par n!"GF")) (.ckm 1 1)) (.rat 4 1))))),
  (n!"VedLL_2323", (.add (.neg (.div (.div (.inp n!"C10_bstaumu") (.div (.mul (.rat 16 1) (.mul .pi .pi)) (.mul (.sqrt (.mul (.mul (.rat 4 1) .pi) (.par n!"alpha_e"))) (.sqrt (.mul (.mul (.rat 4 1) .pi) (.par n!"alpha_e")))))) (.div (.div (.div (.sqrt (.rat 2 1)) (.par n!"GF")) (.mul (.ckm 2 2) (.conj (.ckm 2 1)))) (.rat 4 1)))) (.div (.div (.inp n!"C9_bstaumu") (.div (.mul (.rat 16 1) (.mul .pi .pi)) (.mul (.sqrt (.mul (.mul (.rat 4 1) .pi) (.par n!"alpha_e"))) (.sqrt (.mul (.mul (.rat 4 1) .pi) (.par n!"alpha_e")))))) (.div (.div (.div (.sqrt (.rat 2 1)) (.par n!"GF")) (.mul (.ckm 2 2) (.conj (.ckm 2 1)))) (.rat 4 1))))),
  (n!"V1udRR_2223", (.add (.mul (.mul (.div (.mul (.rat 4 1) (.par n!"GF")) (.sqrt (.rat 2 1))) (.mul (.ckm 2 2) (.conj (.ckm 2 1)))) (.inp n!"CVRR_bscc")) (.div (.mul (.mul (.div (.mul (.rat 4 1) (.par n!"GF")) (.sqrt (.rat 2 1))) (.mul (.ckm 2 2) (.conj (.ckm 2 1)))) (.inp n!"CVRRt_bscc")) (.rat 3 1)))),
  (n!"V8ddLR_1123", (.mul (.rat 2 1) (.mul (.mul (.div (.mul (.rat 4 1) (.par n!"GF")) (.sqrt (.rat 2 1))) (.mul (.ckm 2 2) (.conj (.ckm 2 1)))) (.inp n!"CVRLt_bsdd")))),
  (n!"V8uuLR_2212", (.neg (.mul (.mul (.div (.mul (.rat 4 1) (.par n!"GF")) (.sqrt (.rat 2 1))) (.mul (.conj (.ckm 1 2)) (.ckm 0 2))) (.inp n!"CSLR_cucc")))),
  (n!"VeuRR_3312", (.add (.div (.div (.inp n!"C10p_cutautau") (.div (.mul (.rat 16 1) (.mul .pi .pi)) (.mul (.sqrt (.mul (.mul (.rat 4 1) .pi) (.par n!"alpha_e"))) (.sqrt (.mul (.mul (.rat 4 1) .pi) (.par n!"alpha_e")))))) (.div (.div (.div (.sqrt (.rat 2 1)) (.par n!"GF")) (.mul (.conj (.ckm 1 2)) (.ckm 0 2))) (.rat 4 1))) (.div (.div (.inp n!"C9p_cutautau") (.div (.mul (.rat 16 1) (.mul .pi .pi)) (.mul (.sqrt (.mul (.mul (.rat 4 1) .pi) (.par n!"alpha_e"))) (.sqrt (.mul (.mul (.rat 4 1) .pi) (.par n!"alpha_e")))))) (.div (.div (.div (.sqrt (.rat 2 1)) (.par n!"GF")) (.mul (.conj (.ckm 1 2)) (.ckm 0 2))) (.rat 4 1))))),
  (n!"VedLR_1331", (.conj (.add (.neg (.div (.div (.inp n!"C10p_bdetau") (.div (.mul (.rat 16 1) (.mul .pi .pi)) (.mul (.sqrt (.mul (.mul (.rat 4 1) .pi) (.par n!"alpha_e"))) (.sqrt (.mul (.mul (.rat 4 1) .pi) (.par n!"alpha_e")))))) (.div (.div (.div (.sqrt (.rat 2 1)) (.par n!"GF")) (.mul (.ckm 2 2) (.conj (.ckm 2 0)))) (.rat 4 1)))) (.div (.div (.inp n!"C9p_bdetau") (.div (.mul (.rat 16 1) (.mul .pi .pi)) (.mul (.sqrt (.mul (.mul (.rat 4 1) .pi) (.par n!"alpha_e"))) (.sqrt (.mul (.mul (.rat 4 1) .pi) (.par n!"alpha_e")))))) (.div (.div (.div (.sqrt (.rat 2 1)) (.par n!"GF")) (.mul (.ckm 2 2) (.conj (.ckm 2 0)))) (.rat 4 1)))))),
  (n!"V8udduLR_1231", (.neg (.conj (.mul (.mul (.div (.mul (.rat 4 1) (.par n!"GF")) (.sqrt (.rat 2 1))) (.mul (.ckm 2 2) (.conj (.ckm 2 1)))) (.inp n!"CSRL_bsuu"))))),
  (n!"S1udduRR_2111", (.sub (.neg (.div (.mul (.rat 8 1) (.conj (.mul (.mul (.div (.mul (.rat 4 1) (.par n!"GF")) (.sqrt (.rat 2 1))) (.mul (.conj (.ckm 1 2)) (.ckm 0 2))) (.inp n!"CTLL_cudd")))) (.rat 3 1))) (.mul (.rat 8 1) (.conj (.mul (.mul (.div (.mul (.rat 4 1) (.par n!"GF")) (.sqrt (.rat 2 1))) (.mul (.conj (.ckm 1 2)) (.ckm 0 2))) (.inp n!"CTLLt_cudd")))))),
  (n!"V1udLL_1222", (.add (.mul (.mul (.div (.mul (.rat 4 1) (.par n!"GF")) (.sqrt (.rat 2 1))) (.mul (.conj (.ckm 1 2)) (.ckm 0 2))) (.inp n!"CVLL_cuss")) (.div (.mul (.mul (.div (.mul (.rat 4 1) (.par n!"GF")) (.sqrt (.rat 2 1))) (.mul (.conj (.ckm 1 2)) (.ckm 0 2))) (.inp n!"CVLLt_cuss")) (.rat 3 1)))),
  (n!"S1udduRR_2332", (.div (.inp n!"CS1RR_cbbc") (.div (.div (.sqrt (.rat 2 1)) (.par n!"GF")) (.rat 4 1)))),
  (n!"V8duLR_1111", (.div (.inp n!"CV8LR_dduu") (.div (.div (.sqrt (.rat 2 1)) (.par n!"GF")) (.rat 4 1)))),
  (n!"VnueduLR_3232", (.conj (.div (.inp n!"CVR_bcmunutau") (.div (.div (.div (.neg (.sqrt (.rat 2 1))) (.par n!"GF")) (.ckm 1 2)) (.rat 4 1))))),
  (n!"S1ddRR_1212", (.add (.sub (.inp n!"CSRR_sdsd") (.mul (.rat 4 1) (.inp n!"CTRR_sdsd"))) (.div (.mul (.rat (-8) 1) (.inp n!"CTRR_sdsd")) (.rat 3 1)))),
  (n!"SnueduRR_2131", (.conj (.div (.inp n!"CSL_buenumu") (.div (.div (.div (.neg (.sqrt (.rat 2 1))) (.par n!"GF")) (.ckm 0 2)) (.rat 4 1))))),
  (n!"SedRL_3112", (.add (.div (.div (.inp n!"CPp_sdetau") (.div (.div (.mul (.rat 16 1) (.mul .pi .pi)) (.mul (.sqrt (.mul (.mul (.rat 4 1) .pi) (.par n!"alpha_e"))) (.sqrt (.mul (.mul (.rat 4 1) .pi) (.par n!"alpha_e"))))) (.par n!"m_s"))) (.div (.div (.div (.sqrt (.rat 2 1)) (.par n!"GF")) (.mul (.ckm 2 1) (.conj (.ckm 2 0)))) (.rat 4 1))) (.div (.div (.inp n!"CSp_sdetau") (.div (.div (.mul (.rat 16 1) (.mul .pi .pi)) (.mul (.sqrt (.mul (.mul (.rat 4 1) .pi) (.par n!"alpha_e"))) (.sqrt (.mul (.mul (.rat 4 1) .pi) (.par n!"alpha_e"))))) (.par n!"m_s"))) (.div (.div (.div (.sqrt (.rat 2 1)) (.par n!"GF")) (.mul (.ckm 2 1) (.conj (.ckm 2 0)))) (.rat 4 1))))),
  (n!"dgamma_13", (.div (.div (.inp n!"C7_bd") (.div (.div (.mul (.rat 16 1) (.mul .pi .pi)) (.sqrt (.mul (.mul (.rat 4 1) .pi) (.par n!"alpha_e")))) (.par n!"m_b"))) (.div (.div (.div (.sqrt (.rat 2 1)) (.par n!"GF")) (.mul (.ckm 2 2) (.conj (.ckm 2 0)))) (.rat 4 1)))),
  (n!"VnueduLL_2111", (.conj (.div (.inp n!"CVL_duenumu") (.div (.div (.div (.neg (.sqrt (.rat 2 1))) (.par n!"GF")) (.ckm 0 0)) (.rat 4 1))))),
  (n!"VnuuLL_2322", (.div (.inp n!"CVLL_numunutaucc") (.div (.div (.sqrt (.rat 2 1)) (.par n!"GF")) (.rat 4 1)))),
  (n!"S8udRR_2231", (.sub (.mul (.rat 2 1) (.conj (.mul (.mul (.div (.mul (.rat 4 1) (.par n!"GF")) (.sqrt (.rat 2 1))) (.mul (.ckm 2 2) (.conj (.ckm 2 0)))) (.inp n!"CSLLt_bdcc")))) (.mul (.rat 8 1) (.conj (.mul (.mul (.div (.mul (.rat 4 1) (.par n!"GF")) (.sqrt (.rat 2 1))) (.mul (.ckm 2 2) (.conj (.ckm 2 0)))) (.inp n!"CTLLt_bdcc")))))),
  (n!"TedRR_1213", (.add (.div (.rat 0 1) (.div (.div (.div (.sqrt (.rat 2 1)) (.par n!"GF")) (.mul (.ckm 2 2) (.conj (.ckm 2 0)))) (.rat 4 1))) (.div (.rat 0 1) (.div (.div (.div (.sqrt (.rat 2 1)) (.par n!"GF")) (.mul (.ckm 2 2) (.conj (.ckm 2 0)))) (.rat 4 1))))),
  (n!"SedRL_3333", (.div (.inp n!"CSRL_tautaubb") (.div (.div (.sqrt (.rat 2 1)) (.par n!"GF")) (.rat 4 1)))),
  (n!"VnueduLL_2332", (.conj (.div (.inp n!"CVL_bctaunumu") (.div (.div (.div (.neg (.sqrt (.rat 2 1))) (.par n!"GF")) (.ckm 1 2)) (.rat 4 1))))),
  (n!"VddLL_1212", (.inp n!"CVLL_sdsd")),
  (n!"SnueduRL_1231", (.conj (.div (.inp n!"CSR_bumunue") (.div (.div (.div (.neg (.sqrt (.rat 2 1))) (.par n!"GF")) (.ckm 0 2)) (.rat 4 1))))),
  (n!"V8udLL_2222", (.div (.inp n!"CV8LL_ccss") (.div (.div (.sqrt (.rat 2 1)) (.par n!"GF")) (.rat 4 1)))),
  (n!"V1udRR_1133", (.div (.inp n!"CV1RR_uubb") (.div (.div (.sqrt (.rat 2 1)) (.par n!"GF")) (.rat 4 1)))),
  (n!"V1udduLR_2122", (.sub (.neg (.div (.conj (.mul (.mul (.div (.mul (.rat 4 1) (.par n!"GF")) (.sqrt (.rat 2 1))) (.mul (.ckm 2 1) (.conj (.ckm 2 0)))) (.inp n!"CSRL_sdcc"))) (.mul (.rat 2 1) (.rat 3 1)))) (.div (.conj (.mul (.mul (.div (.mul (.rat 4 1) (.par n!"GF")) (.sqrt (.rat 2 1))) (.mul (.ckm 2 1) (.conj (.ckm 2 0)))) (.inp n!"CSRLt_sdcc"))) (.rat 2 1)))),
  (n!"VedLR_3311", (.div (.inp n!"CVLR_tautaudd") (.div (.div (.sqrt (.rat 2 1)) (.par n!"GF")) (.rat 4 1)))),
  (n!"SeuRL_3321", (.add (.neg (.conj (.div (.div (.inp n!"CP_cutautau") (.div (.div (.mul (.rat 16 1) (.mul .pi .pi)) (.mul (.sqrt (.mul (.mul (.rat 4 1) .pi) (.par n!"alpha_e"))) (.sqrt (.mul (.mul (.rat 4 1) .pi) (.par n!"alpha_e"))))) (.par n!"m_c"))) (.div (.div (.div (.sqrt (.rat 2 1)) (.par n!"GF")) (.mul (.conj (.ckm 1 2)) (.ckm 0 2))) (.rat 4 1))))) (.conj (.div (.div (.inp n!"CS_cutautau") (.div (.div (.mul (.rat 16 1) (.mul .pi .pi)) (.mul (.sqrt (.mul (.mul (.rat 4 1) .pi) (.par n!"alpha_e"))) (.sqrt (.mul (.mul (.rat 4 1) .pi) (.par n!"alpha_e"))))) (.par n!"m_c"))) (.div (.div (.div (.sqrt (.rat 2 1)) (.par n!"GF")) (.mul (.conj (.ckm 1 2)) (.ckm 0 2))) (.rat 4 1)))))),
  (n!"V8uuLR_1122", (.div (.inp n!"CV8LR_uucc") (.div (.div (.sqrt (.rat 2 1)) (.par n!"GF")) (.rat 4 1))))]

def flavio_to_JMS_4 : List (ℕ × Sym) := [
  (n!"VeuRR_2222", (.div (.inp n!"CVRR_mumucc") (.div (.div (.sqrt (.rat 2 1)) (.par n!"GF")) (.rat 4 1)))),
  (n!"SeuRL_1112", (.add (.div (.div (.inp n!"CPp_cuee") (.div (.div (.mul (.rat 16 1) (.mul .pi .pi)) (.mul (.sqrt (.mul (.mul (.rat 4 1) .pi) (.par n!"alpha_e"))) (.sqrt (.mul (.mul (.rat 4 1) .pi) (.par n!"alpha_e"))))) (.par n!"m_c"))) (.div (.div (.div (.sqrt (.rat 2 1)) (.par n!"GF")) (.mul (.conj (.ckm 1 2)) (.ckm 0 2))) (.rat 4 1))) (.div (.div (.inp n!"CSp_cuee") (.div (.div (.mul (.rat 16 1) (.mul .pi .pi)) (.mul (.sqrt (.mul (.mul (.rat 4 1) .pi) (.par n!"alpha_e"))) (.sqrt (.mul (.mul (.rat 4 1) .pi) (.par n!"alpha_e"))))) (.par n!"m_c"))) (.div (.div (.div (.sqrt (.rat 2 1)) (.par n!"GF")) (.mul (.conj (.ckm 1 2)) (.ckm 0 2))) (.rat 4 1))))),
  (n!"SnueduRR_1321", (.conj (.div (.inp n!"CSL_sutaunue") (.div (.div (.div (.neg (.sqrt (.rat 2 1))) (.par n!"GF")) (.ckm 0 1)) (.rat 4 1))))),
  (n!"VnueLR_1233", (.div (.inp n!"CVLR_nuenumutautau") (.div (.div (.sqrt (.rat 2 1)) (.par n!"GF")) (.rat 4 1)))),
  (n!"VedLR_1323", (.add (.neg (.div (.div (.inp n!"C10p_bstaue") (.div (.mul (.rat 16 1) (.mul .pi .pi)) (.mul (.sqrt (.mul (.mul (.rat 4 1) .pi) (.par n!"alpha_e"))) (.sqrt (.mul (.mul (.rat 4 1) .pi) (.par n!"alpha_e")))))) (.div (.div (.div (.sqrt (.rat 2 1)) (.par n!"GF")) (.mul (.ckm 2 2) (.conj (.ckm 2 1)))) (.rat 4 1)))) (.div (.div (.inp n!"C9p_bstaue") (.div (.mul (.rat 16 1) (.mul .pi .pi)) (.mul (.sqrt (.mul (.mul (.rat 4 1) .pi) (.par n!"alpha_e"))) (.sqrt (.mul (.mul (.rat 4 1) .pi) (.par n!"alpha_e")))))) (.div (.div (.div (.sqrt (.rat 2 1)) (.par n!"GF")) (.mul (.ckm 2 2) (.conj (.ckm 2 1)))) (.rat 4 1))))),
  (n!"S8udduRR_2331", (.mul (.rat (-16) 1) (.conj (.mul (.mul (.div (.mul (.rat 4 1) (.par n!"GF")) (.sqrt (.rat 2 1))) (.mul (.conj (.ckm 1 2)) (.ckm 0 2))) (.inp n!"CTLL_cubb"))))),
  (n!"V8ddLR_1211", (.neg (.mul (.mul (.div (.mul (.rat 4 1) (.par n!"GF")) (.sqrt (.rat 2 1))) (.mul (.ckm 2 1) (.conj (.ckm 2 0)))) (.inp n!"CSLR_sddd")))),
  (n!"V8duLR_3312", (.mul (.rat 2 1) (.mul (.mul (.div (.mul (.rat 4 1) (.par n!"GF")) (.sqrt (.rat 2 1))) (.mul (.conj (.ckm 1 2)) (.ckm 0 2))) (.inp n!"CVRLt_cubb")))),
  (n!"S1ddRR_2331", (.sub (.neg (.div (.mul (.rat 8 1) (.conj (.mul (.mul (.div (.mul (.rat 4 1) (.par n!"GF")) (.sqrt (.rat 2 1))) (.mul (.ckm 2 1) (.conj (.ckm 2 0)))) (.inp n!"CTLL_sdbb")))) (.rat 3 1))) (.mul (.rat 8 1) (.conj (.mul (.mul (.div (.mul (.rat 4 1) (.par n!"GF")) (.sqrt (.rat 2 1))) (.mul (.ckm 2 1) (.conj (.ckm 2 0)))) (.inp n!"CTLLt_sdbb")))))),
  (n!"VnudLR_3322", (.div (.inp n!"CVLR_nutaunutauss") (.div (.div (.sqrt (.rat 2 1)) (.par n!"GF")) (.rat 4 1)))),
  (n!"VnudLR_1113", (.div (.div (.inp n!"CR_bdnuenue") (.div (.mul (.rat 8 1) (.mul .pi .pi)) (.mul (.sqrt (.mul (.mul (.rat 4 1) .pi) (.par n!"alpha_e"))) (.sqrt (.mul (.mul (.rat 4 1) .pi) (.par n!"alpha_e")))))) (.div (.div (.div (.sqrt (.rat 2 1)) (.par n!"GF")) (.mul (.ckm 2 2) (.conj (.ckm 2 0)))) (.rat 4 1)))),
  (n!"VddRR_1123", (.mul (.mul (.div (.mul (.rat 4 1) (.par n!"GF")) (.sqrt (.rat 2 1))) (.mul (.ckm 2 2) (.conj (.ckm 2 1)))) (.inp n!"CVRR_bsdd"))),
  (n!"VeeLL_3333", (.div (.inp n!"CVLL_tautautautau") (.div (.div (.sqrt (.rat 2 1)) (.par n!"GF")) (.rat 4 1)))),
  (n!"TedRR_2332", (.sub (.conj (.div (.rat 0 1) (.div (.div (.div (.sqrt (.rat 2 1)) (.par n!"GF")) (.mul (.ckm 2 2) (.conj (.ckm 2 1)))) (.rat 4 1)))) (.conj (.div (.rat 0 1) (.div (.div (.div (.sqrt (.rat 2 1)) (.par n!"GF")) (.mul (.ckm 2 2) (.conj (.ckm 2 1)))) (.rat 4 1)))))),
  (n!"V1duLR_1222", (.add (.mul (.mul (.div (.mul (.rat 4 1) (.par n!"GF")) (.sqrt (.rat 2 1))) (.mul (.ckm 2 1) (.conj (.ckm 2 0)))) (.inp n!"CVLR_sdcc")) (.div (.mul (.mul (.div (.mul (.rat 4 1) (.par n!"GF")) (.sqrt (.rat 2 1))) (.mul (.ckm 2 1) (.conj (.ckm 2 0)))) (.inp n!"CVLRt_sdcc")) (.rat 3 1)))),
  (n!"SnueduRL_3211", (.conj (.div (.inp n!"CSR_dumunutau") (.div (.div (.div (.neg (.sqrt (.rat 2 1))) (.par n!"GF")) (.ckm 0 0)) (.rat 4 1))))),
  (n!"SedRR_2112", (.add (.div (.div (.inp n!"CP_sdemu") (.div (.div (.mul (.rat 16 1) (.mul .pi .pi)) (.mul (.sqrt (.mul (.mul (.rat 4 1) .pi) (.par n!"alpha_e"))) (.sqrt (.mul (.mul (.rat 4 1) .pi) (.par n!"alpha_e"))))) (.par n!"m_s"))) (.div (.div (.div (.sqrt (.rat 2 1)) (.par n!"GF")) (.mul (.ckm 2 1) (.conj (.ckm 2 0)))) (.rat 4 1))) (.div (.div (.inp n!"CS_sdemu") (.div (.div (.mul (.rat 16 1) (.mul .pi .pi)) (.mul (.sqrt (.mul (.mul (.rat 4 1) .pi) (.par n!"alpha_e"))) (.sqrt (.mul (.mul (.rat 4 1) .pi) (.par n!"alpha_e"))))) (.par n!"m_s"))) (.div (.div (.div (.sqrt (.rat 2 1)) (.par n!"GF")) (.mul (.ckm 2 1) (.conj (.ckm 2 0)))) (.rat 4 1))))),
  (n!"VnueduLR_1111", (.conj (.div (.inp n!"CVR_duenue") (.div (.div (.div (.neg (.sqrt (.rat 2 1))) (.par n!"GF")) (.ckm 0 0)) (.rat 4 1))))),
  (n!"S8udRR_2223", (.sub (.mul (.rat 2 1) (.mul (.mul (.div (.mul (.rat 4 1) (.par n!"GF")) (.sqrt (.rat 2 1))) (.mul (.ckm 2 2) (.conj (.ckm 2 1)))) (.inp n!"CSRRt_bscc"))) (.mul (.rat 8 1) (.mul (.mul (.div (.mul (.rat 4 1) (.par n!"GF")) (.sqrt (.rat 2 1))) (.mul (.ckm 2 2) (.conj (.ckm 2 1)))) (.inp n!"CTRRt_bscc"))))),
  (n!"dG_12", (.div (.div (.inp n!"C8_sd") (.div (.div (.mul (.rat 16 1) (.mul .pi .pi)) (.sqrt (.mul (.mul (.rat 4 1) .pi) (.par n!"alpha_s")))) (.par n!"m_s"))) (.div (.div (.div (.sqrt (.rat 2 1)) (.par n!"GF")) (.mul (.ckm 2 1) (.conj (.ckm 2 0)))) (.rat 4 1)))),
  (n!"TnueduRR_2212", (.conj (.div (.inp n!"CT_dcmunumu") (.div (.div (.div (.neg (.sqrt (.rat 2 1))) (.par n!"GF")) (.ckm 1 0)) (.rat 4 1))))),
  (n!"VnuuLR_1322", (.div (.inp n!"CVLR_nuenutaucc") (.div (.div (.sqrt (.rat 2 1)) (.par n!"GF")) (.rat 4 1)))),
  (n!"S1ddRR_3133", (.sub (.neg (.div (.mul (.rat 8 1) (.conj (.mul (.mul (.div (.mul (.rat 4 1) (.par n!"GF")) (.sqrt (.rat 2 1))) (.mul (.ckm 2 2) (.conj (.ckm 2 0)))) (.inp n!"CTLL_bdbb")))) (.rat 3 1))) (.mul (.rat 8 1) (.conj (.add (.mul (.div (.rat (-1) 1) (.rat 8 1)) (.mul (.mul (.div (.mul (.rat 4 1) (.par n!"GF")) (.sqrt (.rat 2 1))) (.mul (.ckm 2 2) (.conj (.ckm 2 0)))) (.inp n!"CSLL_bdbb"))) (.mul (.div (.rat 1 1) (.rat 2 1)) (.mul (.mul (.div (.mul (.rat 4 1) (.par n!"GF")) (.sqrt (.rat 2 1))) (.mul (.ckm 2 2) (.conj (.ckm 2 0)))) (.inp n!"CTLL_bdbb")))))))),
  (n!"VnueduLR_1332", (.conj (.div (.inp n!"CVR_bctaunue") (.div (.div (.div (.neg (.sqrt (.rat 2 1))) (.par n!"GF")) (.ckm 1 2)) (.rat 4 1))))),
  (n!"V8udLR_1222", (.mul (.rat 2 1) (.mul (.mul (.div (.mul (.rat 4 1) (.par n!"GF")) (.sqrt (.rat 2 1))) (.mul (.conj (.ckm 1 2)) (.ckm 0 2))) (.inp n!"CVLRt_cuss")))),
  (n!"S8ddRR_1122", (.div (.inp n!"CS8RR_ddss") (.div (.div (.sqrt (.rat 2 1)) (.par n!"GF")) (.rat 4 1)))),
  (n!"SedRL_1212", (.add (.div (.div (.inp n!"CPp_sdmue") (.div (.div (.mul (.rat 16 1) (.mul .pi .pi)) (.mul (.sqrt (.mul (.mul (.rat 4 1) .pi) (.par n!"alpha_e"))) (.sqrt (.mul (.mul (.rat 4 1) .pi) (.par n!"alpha_e"))))) (.par n!"m_s"))) (.div (.div (.div (.sqrt (.rat 2 1)) (.par n!"GF")) (.mul (.ckm 2 1) (.conj (.ckm 2 0)))) (.rat 4 1))) (.div (.div (.inp n!"CSp_sdmue") (.div (.div (.mul (.rat 16 1) (.mul .pi .pi)) (.mul (.sqrt (.mul (.mul (.rat 4 1) .pi) (.par n!"alpha_e"))) (.sqrt (.mul (.mul (.rat 4 1) .pi) (.par n!"alpha_e"))))) (.par n!"m_s"))) (.div (.div (.div (.sqrt (.rat 2 1)) (.par n!"GF")) (.mul (.ckm 2 1) (.conj (.ckm 2 0)))) (.rat 4 1))))),
  (n!"VedLL_1321", (.conj (.add (.neg (.div (.div (.inp n!"C10_sdetau") (.div (.mul (.rat 16 1) (.mul .pi .pi)) (.mul (.sqrt (.mul (.mul (.rat 4 1) .pi) (.par n!"alpha_e"))) (.sqrt (.mul (.mul (.rat 4 1) .pi) (.par n!"alpha_e")))))) (.div (.div (.div (.sqrt (.rat 2 1)) (.par n!"GF")) (.mul (.ckm 2 1) (.conj (.ckm 2 0)))) (.rat 4 1)))) (.div (.div (.inp n!"C9_sdetau") (.div (.mul (.rat 16 1) (.mul .pi .pi)) (.mul (.sqrt (.mul (.mul (.rat 4 1) .pi) (.par n!"alpha_e"))) (.sqrt (.mul (.mul (.rat 4 1) .pi) (.par n!"alpha_e")))))) (.div (.div (.div (.sqrt (.rat 2 1)) (.par n!"GF")) (.mul (.ckm 2 1) (.conj (.ckm 2 0)))) (.rat 4 1)))))),
  (n!"V8duLR_2222", (.div (.inp n!"CV8LR_sscc") (.div (.div (.sqrt (.rat 2 1)) (.par n!"GF")) (.rat 4 1)))),
  (n!"VuuRR_1122", (.div (.inp n!"CVRR_uucc") (.div (.div (.sqrt (.rat 2 1)) (.par n!"GF")) (.rat 4 1)))),
  (n!"S1ddRR_2323", (.add (.sub (.inp n!"CSRR_bsbs") (.mul (.rat 4 1) (.inp n!"CTRR_bsbs"))) (.div (.mul (.rat (-8) 1) (.inp n!"CTRR_bsbs")) (.rat 3 1)))),
  (n!"V8udduLR_1311", (.neg (.mul (.mul (.div (.mul (.rat 4 1) (.par n!"GF")) (.sqrt (.rat 2 1))) (.mul (.ckm 2 2) (.conj (.ckm 2 0)))) (.inp n!"CSLR_bduu")))),
  (n!"VnudLL_1111", (.div (.inp n!"CVLL_nuenuedd") (.div (.div (.sqrt (.rat 2 1)) (.par n!"GF")) (.rat 4 1)))),
  (n!"VdeLR_2312", (.add (.div (.div (.inp n!"C10_bsmue") (.div (.mul (.rat 16 1) (.mul .pi .pi)) (.mul (.sqrt (.mul (.mul (.rat 4 1) .pi) (.par n!"alpha_e"))) (.sqrt (.mul (.mul (.rat 4 1) .pi) (.par n!"alpha_e")))))) (.div (.div (.div (.sqrt (.rat 2 1)) (.par n!"GF")) (.mul (.ckm 2 2) (.conj (.ckm 2 1)))) (.rat 4 1))) (.div (.div (.inp n!"C9_bsmue") (.div (.mul (.rat 16 1) (.mul .pi .pi)) (.mul (.sqrt (.mul (.mul (.rat 4 1) .pi) (.par n!"alpha_e"))) (.sqrt (.mul (.mul (.rat 4 1) .pi) (.par n!"alpha_e")))))) (.div (.div (.div (.sqrt (.rat 2 1)) (.par n!"GF")) (.mul (.ckm 2 2) (.conj (.ckm 2 1)))) (.rat 4 1))))),
  (n!"VnueduLL_3222", (.conj (.div (.inp n!"CVL_scmunutau") (.div (.div (.div (.neg (.sqrt (.rat 2 1))) (.par n!"GF")) (.ckm 1 1)) (.rat 4 1))))),
  (n!"SnueduRL_2121", (.conj (.div (.inp n!"CSR_suenumu") (.div (.div (.div (.neg (.sqrt (.rat 2 1))) (.par n!"GF")) (.ckm 0 1)) (.rat 4 1))))),
  (n!"VnudLL_1332", (.conj (.div (.div (.inp n!"CL_bsnuenutau") (.div (.mul (.rat 8 1) (.mul .pi .pi)) (.mul (.sqrt (.mul (.mul (.rat 4 1) .pi) (.par n!"alpha_e"))) (.sqrt (.mul (.mul (.rat 4 1) .pi) (.par n!"alpha_e")))))) (.div (.div (.div (.sqrt (.rat 2 1)) (.par n!"GF")) (.mul (.ckm 2 2) (.conj (.ckm 2 1)))) (.rat 4 1))))),
  (n!"SedRR_3231", (.add (.neg (.conj (.div (.div (.inp n!"CPp_bdtaumu") (.div (.div (.mul (.rat 16 1) (.mul .pi .pi)) (.mul (.sqrt (.mul (.mul (.rat 4 1) .pi) (.par n!"alpha_e"))) (.sqrt (.mul (.mul (.rat 4 1) .pi) (.par n!"alpha_e"))))) (.par n!"m_b"))) (.div (.div (.div (.sqrt (.rat 2 1)) (.par n!"GF")) (.mul (.ckm 2 2) (.conj (.ckm 2 0)))) (.rat 4 1))))) (.conj (.div (.div (.inp n!"CSp_bdtaumu") (.div (.div (.mul (.rat 16 1) (.mul .pi .pi)) (.mul (.sqrt (.mul (.mul (.rat 4 1) .pi) (.par n!"alpha_e"))) (.sqrt (.mul (.mul (.rat 4 1) .pi) (.par n!"alpha_e"))))) (.par n!"m_b"))) (.div (.div (.div (.sqrt (.rat 2 1)) (.par n!"GF")) (.mul (.ckm 2 2) (.conj (.ckm 2 0)))) (.rat 4 1)))))),
  (n!"V1ddLR_1322", (.add (.mul (.mul (.div (.mul (.rat 4 1) (.par n!"GF")) (.sqrt (.rat 2 1))) (.mul (.ckm 2 2) (.conj (.ckm 2 0)))) (.inp n!"CVLR_bdss")) (.div (.mul (.mul (.div (.mul (.rat 4 1) (.par n!"GF")) (.sqrt (.rat 2 1))) (.mul (.ckm 2 2) (.conj (.ckm 2 0)))) (.inp n!"CVLRt_bdss")) (.rat 3 1)))),
  (n!"TnueduRR_3331", (.conj (.div (.inp n!"CT_butaunutau") (.div (.div (.div (.neg (.sqrt (.rat 2 1))) (.par n!"GF")) (.ckm 0 2)) (.rat 4 1))))),
  (n!"VddLL_2323", (.inp n!"CVLL_bsbs")),
  (n!"S8udRR_1133", (.div (.inp n!"CS8RR_uubb") (.div (.div (.sqrt (.rat 2 1)) (.par n!"GF")) (.rat 4 1)))),
  (n!"TnueduRR_1122", (.conj (.div (.inp n!"CT_scenue") (.div (.div (.div (.neg (.sqrt (.rat 2 1))) (.par n!"GF")) (.ckm 1 1)) (.rat 4 1))))),
  (n!"VnueduLR_3312", (.conj (.div (.inp n!"CVR_dctaunutau") (.div (.div (.div (.neg (.sqrt (.rat 2 1))) (.par n!"GF")) (.ckm 1 0)) (.rat 4 1))))),
  (n!"SnueduRR_2211", (.conj (.div (.inp n!"CSL_dumunumu") (.div (.div (.div (.neg (.sqrt (.rat 2 1))) (.par n!"GF")) (.ckm 0 0)) (.rat 4 1))))),
  (n!"SedRL_2331", (.add (.neg (.conj (.div (.div (.inp n!"CP_bdmutau") (.div (.div (.mul (.rat 16 1) (.mul .pi .pi)) (.mul (.sqrt (.mul (.mul (.rat 4 1) .pi) (.par n!"alpha_e"))) (.sqrt (.mul (.mul (.rat 4 1) .pi) (.par n!"alpha_e"))))) (.par n!"m_b"))) (.div (.div (.div (.sqrt (.rat 2 1)) (.par n!"GF")) (.mul (.ckm 2 2) (.conj (.ckm 2 0)))) (.rat 4 1))))) (.conj (.div (.div (.inp n!"CS_bdmutau") (.div (.div (.mul (.rat 16 1) (.mul .pi .pi)) (.mul (.sqrt (.mul (.mul (.rat 4 1) .pi) (.par n!"alpha_e"))) (.sqrt (.mul (.mul (.rat 4 1) .pi) (.par n!"alpha_e"))))) (.par n!"m_b"))) (.div (.div (.div (.sqrt (.rat 2 1)) (.par n!"GF")) (.mul (.ckm 2 2) (.conj (.ckm 2 0)))) (.rat 4 1)))))),
  (n!"VedRR_1232", (.conj (.add (.div (.div (.inp n!"C10p_bsemu") (.div (.mul (.rat 16 1) (.mul .pi .pi)) (.mul (.sqrt (.mul (.mul (.rat 4 1) .pi) (.par n!"alpha_e"))) (.sqrt (.mul (.mul (.rat 4 1) .pi) (.par n!"alpha_e")))))) (.div (.div (.div (.sqrt (.rat 2 1)) (.par n!"GF")) (.mul (.ckm 2 2) (.conj (.ckm 2 1)))) (.rat 4 1))) (.div (.div (.inp n!"C9p_bsemu") (.div (.mul (.rat 16 1) (.mul .pi .pi)) (.mul (.sqrt (.mul (.mul (.rat 4 1) .pi) (.par n!"alpha_e"))) (.sqrt (.mul (.mul (.rat 4 1) .pi) (.par n!"alpha_e")))))) (.div (.div (.div (.sqrt (.rat 2 1)) (.par n!"GF")) (.mul (.ckm 2 2) (.conj (.ckm 2 1)))) (.rat 4 1)))))),
  (n!"S1udduRR_2132", (.sub (.neg (.div (.mul (.rat 8 1) (.conj (.mul (.mul (.div (.mul (.rat 4 1) (.par n!"GF")) (.sqrt (.rat 2 1))) (.mul (.ckm 2 2) (.conj (.ckm 2 0)))) (.inp n!"CTLL_bdcc")))) (.rat 3 1))) (.mul (.rat 8 1) (.conj (.mul (.mul (.div (.mul (.rat 4 1) (.par n!"GF")) (.sqrt (.rat 2 1))) (.mul (.ckm 2 2) (.conj (.ckm 2 0)))) (.inp n!"CTLLt_bdcc")))))),
  (n!"S8uuRR_1121", (.mul (.rat (-16) 1) (.conj (.mul (.mul (.div (.mul (.rat 4 1) (.par n!"GF")) (.sqrt (.rat 2 1))) (.mul (.conj (.ckm 1 2)) (.ckm 0 2))) (.inp n!"CTLL_cuuu"))))),
  (n!"VedLR_2213", (.add (.neg (.div (.div (.inp n!"C10p_bdmumu") (.div (.mul (.rat 16 1) (.mul .pi .pi)) (.mul (.sqrt (.mul (.mul (.rat 4 1) .pi) (.par n!"alpha_e"))) (.sqrt (.mul (.mul (.rat 4 1) .pi) (.par n!"alpha_e")))))) (.div (.div (.div (.sqrt (.rat 2 1)) (.par n!"GF")) (.mul (.ckm 2 2) (.conj (.ckm 2 0)))) (.rat 4 1)))) (.div (.div (.inp n!"C9p_bdmumu") (.div (.mul (.rat 16 1) (.mul .pi .pi)) (.mul (.sqrt (.mul (.mul (.rat 4 1) .pi) (.par n!"alpha_e"))) (.sqrt (.mul (.mul (.rat 4 1) .pi) (.par n!"alpha_e")))))) (.div (.div (.div (.sqrt (.rat 2 1)) (.par n!"GF")) (.mul (.ckm 2 2) (.conj (.ckm 2 0)))) (.rat 4 1)))))]

def flavio_to_JMS_5 : List (ℕ × Sym) := [
  (n!"SnueduRL_1311", (.conj (.div (.inp n!"CSR_dutaunue") (.div (.div (.div (.neg (.sqrt (.rat 2 1))) (.par n!"GF")) (.ckm 0 0)) (.rat 4 1))))),
  (n!"V1udLR_1112", (.add (.mul (.mul (.div (.mul (.rat 4 1) (.par n!"GF")) (.sqrt (.rat 2 1))) (.mul (.ckm 2 1) (.conj (.ckm 2 0)))) (.inp n!"CVRL_sduu")) (.div (.mul (.mul (.div (.mul (.rat 4 1) (.par n!"GF")) (.sqrt (.rat 2 1))) (.mul (.ckm 2 1) (.conj (.ckm 2 0)))) (.inp n!"CVRLt_sduu")) (.rat 3 1)))),
  (n!"V8ddLR_2322", (.neg (.mul (.mul (.div (.mul (.rat 4 1) (.par n!"GF")) (.sqrt (.rat 2 1))) (.mul (.ckm 2 2) (.conj (.ckm 2 1)))) (.inp n!"CSLR_bsss")))),
  (n!"VedLL_1313", (.add (.neg (.div (.div (.inp n!"C10_bdtaue") (.div (.mul (.rat 16 1) (.mul .pi .pi)) (.mul (.sqrt (.mul (.mul (.rat 4 1) .pi) (.par n!"alpha_e"))) (.sqrt (.mul (.mul (.rat 4 1) .pi) (.par n!"alpha_e")))))) (.div (.div (.div (.sqrt (.rat 2 1)) (.par n!"GF")) (.mul (.ckm 2 2) (.conj (.ckm 2 0)))) (.rat 4 1)))) (.div (.div (.inp n!"C9_bdtaue") (.div (.mul (.rat 16 1) (.mul .pi .pi)) (.mul (.sqrt (.mul (.mul (.rat 4 1) .pi) (.par n!"alpha_e"))) (.sqrt (.mul (.mul (.rat 4 1) .pi) (.par n!"alpha_e")))))) (.div (.div (.div (.sqrt (.rat 2 1)) (.par n!"GF")) (.mul (.ckm 2 2) (.conj (.ckm 2 0)))) (.rat 4 1))))),
  (n!"S1ddRR_1233", (.sub (.sub (.add (.mul (.mul (.div (.mul (.rat 4 1) (.par n!"GF")) (.sqrt (.rat 2 1))) (.mul (.ckm 2 1) (.conj (.ckm 2 0)))) (.inp n!"CSRR_sdbb")) (.div (.mul (.mul (.div (.mul (.rat 4 1) (.par n!"GF")) (.sqrt (.rat 2 1))) (.mul (.ckm 2 1) (.conj (.ckm 2 0)))) (.inp n!"CSRRt_sdbb")) (.rat 3 1))) (.mul (.rat 4 1) (.mul (.mul (.div (.mul (.rat 4 1) (.par n!"GF")) (.sqrt (.rat 2 1))) (.mul (.ckm 2 1) (.conj (.ckm 2 0)))) (.inp n!"CTRR_sdbb")))) (.div (.mul (.rat 4 1) (.mul (.mul (.div (.mul (.rat 4 1) (.par n!"GF")) (.sqrt (.rat 2 1))) (.mul (.ckm 2 1) (.conj (.ckm 2 0)))) (.inp n!"CTRRt_sdbb"))) (.rat 3 1)))),
  (n!"VdeLR_1222", (.add (.div (.div (.inp n!"C10_sdmumu") (.div (.mul (.rat 16 1) (.mul .pi .pi)) (.mul (.sqrt (.mul (.mul (.rat 4 1) .pi) (.par n!"alpha_e"))) (.sqrt (.mul (.mul (.rat 4 1) .pi) (.par n!"alpha_e")))))) (.div (.div (.div (.sqrt (.rat 2 1)) (.par n!"GF")) (.mul (.ckm 2 1) (.conj (.ckm 2 0)))) (.rat 4 1))) (.div (.div (.inp n!"C9_sdmumu") (.div (.mul (.rat 16 1) (.mul .pi .pi)) (.mul (.sqrt (.mul (.mul (.rat 4 1) .pi) (.par n!"alpha_e"))) (.sqrt (.mul (.mul (.rat 4 1) .pi) (.par n!"alpha_e")))))) (.div (.div (.div (.sqrt (.rat 2 1)) (.par n!"GF")) (.mul (.ckm 2 1) (.conj (.ckm 2 0)))) (.rat 4 1))))),
  (n!"VnueduLL_2132", (.conj (.div (.inp n!"CVL_bcenumu") (.div (.div (.div (.neg (.sqrt (.rat 2 1))) (.par n!"GF")) (.ckm 1 2)) (.rat 4 1))))),
  (n!"VnudLL_3312", (.div (.div (.inp n!"CL_sdnutaunutau") (.div (.mul (.rat 8 1) (.mul .pi .pi)) (.mul (.sqrt (.mul (.mul (.rat 4 1) .pi) (.par n!"alpha_e"))) (.sqrt (.mul (.mul (.rat 4 1) .pi) (.par n!"alpha_e")))))) (.div (.div (.div (.sqrt (.rat 2 1)) (.par n!"GF")) (.mul (.ckm 2 1) (.conj (.ckm 2 0)))) (.rat 4 1)))),
  (n!"VddLL_1233", (.mul (.mul (.div (.mul (.rat 4 1) (.par n!"GF")) (.sqrt (.rat 2 1))) (.mul (.ckm 2 1) (.conj (.ckm 2 0)))) (.inp n!"CVLL_sdbb"))),
  (n!"SedRR_3223", (.add (.div (.div (.inp n!"CP_bsmutau") (.div (.div (.mul (.rat 16 1) (.mul .pi .pi)) (.mul (.sqrt (.mul (.mul (.rat 4 1) .pi) (.par n!"alpha_e"))) (.sqrt (.mul (.mul (.rat 4 1) .pi) (.par n!"alpha_e"))))) (.par n!"m_b"))) (.div (.div (.div (.sqrt (.rat 2 1)) (.par n!"GF")) (.mul (.ckm 2 2) (.conj (.ckm 2 1)))) (.rat 4 1))) (.div (.div (.inp n!"CS_bsmutau") (.div (.div (.mul (.rat 16 1) (.mul .pi .pi)) (.mul (.sqrt (.mul (.mul (.rat 4 1) .pi) (.par n!"alpha_e"))) (.sqrt (.mul (.mul (.rat 4 1) .pi) (.par n!"alpha_e"))))) (.par n!"m_b"))) (.div (.div (.div (.sqrt (.rat 2 1)) (.par n!"GF")) (.mul (.ckm 2 2) (.conj (.ckm 2 1)))) (.rat 4 1))))),
  (n!"VnueduLR_2222", (.conj (.div (.inp n!"CVR_scmunumu") (.div (.div (.div (.neg (.sqrt (.rat 2 1))) (.par n!"GF")) (.ckm 1 1)) (.rat 4 1))))),
  (n!"SnueduRR_1121", (.conj (.div (.inp n!"CSL_suenue") (.div (.div (.div (.neg (.sqrt (.rat 2 1))) (.par n!"GF")) (.ckm 0 1)) (.rat 4 1))))),
  (n!"V8udRR_2213", (.mul (.rat 2 1) (.mul (.mul (.div (.mul (.rat 4 1) (.par n!"GF")) (.sqrt (.rat 2 1))) (.mul (.ckm 2 2) (.conj (.ckm 2 0)))) (.inp n!"CVRRt_bdcc")))),
  (n!"VedLR_1123", (.add (.neg (.div (.div (.inp n!"C10p_bsee") (.div (.mul (.rat 16 1) (.mul .pi .pi)) (.mul (.sqrt (.mul (.mul (.rat 4 1) .pi) (.par n!"alpha_e"))) (.sqrt (.mul (.mul (.rat 4 1) .pi) (.par n!"alpha_e")))))) (.div (.div (.div (.sqrt (.rat 2 1)) (.par n!"GF")) (.mul (.ckm 2 2) (.conj (.ckm 2 1)))) (.rat 4 1)))) (.div (.div (.inp n!"C9p_bsee") (.div (.mul (.rat 16 1) (.mul .pi .pi)) (.mul (.sqrt (.mul (.mul (.rat 4 1) .pi) (.par n!"alpha_e"))) (.sqrt (.mul (.mul (.rat 4 1) .pi) (.par n!"alpha_e")))))) (.div (.div (.div (.sqrt (.rat 2 1)) (.par n!"GF")) (.mul (.ckm 2 2) (.conj (.ckm 2 1)))) (.rat 4 1))))),
  (n!"S8ddRR_2233", (.div (.inp n!"CS8RR_ssbb") (.div (.div (.sqrt (.rat 2 1)) (.par n!"GF")) (.rat 4 1)))),
  (n!"SedRL_2323", (.add (.div (.div (.inp n!"CPp_bstaumu") (.div (.div (.mul (.rat 16 1) (.mul .pi .pi)) (.mul (.sqrt (.mul (.mul (.rat 4 1) .pi) (.par n!"alpha_e"))) (.sqrt (.mul (.mul (.rat 4 1) .pi) (.par n!"alpha_e"))))) (.par n!"m_b"))) (.div (.div (.div (.sqrt (.rat 2 1)) (.par n!"GF")) (.mul (.ckm 2 2) (.conj (.ckm 2 1)))) (.rat 4 1))) (.div (.div (.inp n!"CSp_bstaumu") (.div (.div (.mul (.rat 16 1) (.mul .pi .pi)) (.mul (.sqrt (.mul (.mul (.rat 4 1) .pi) (.par n!"alpha_e"))) (.sqrt (.mul (.mul (.rat 4 1) .pi) (.par n!"alpha_e"))))) (.par n!"m_b"))) (.div (.div (.div (.sqrt (.rat 2 1)) (.par n!"GF")) (.mul (.ckm 2 2) (.conj (.ckm 2 1)))) (.rat 4 1))))),
  (n!"VedLL_2211", (.div (.inp n!"CVLL_mumudd") (.div (.div (.sqrt (.rat 2 1)) (.par n!"GF")) (.rat 4 1)))),
  (n!"VnueduLL_1322", (.conj (.div (.inp n!"CVL_sctaunue") (.div (.div (.div (.neg (.sqrt (.rat 2 1))) (.par n!"GF")) (.ckm 1 1)) (.rat 4 1))))),
  (n!"SedRR_1331", (.add (.neg (.conj (.div (.div (.inp n!"CPp_bdetau") (.div (.div (.mul (.rat 16 1) (.mul .pi .pi)) (.mul (.sqrt (.mul (.mul (.rat 4 1) .pi) (.par n!"alpha_e"))) (.sqrt (.mul (.mul (.rat 4 1) .pi) (.par n!"alpha_e"))))) (.par n!"m_b"))) (.div (.div (.div (.sqrt (.rat 2 1)) (.par n!"GF")) (.mul (.ckm 2 2) (.conj (.ckm 2 0)))) (.rat 4 1))))) (.conj (.div (.div (.inp n!"CSp_bdetau") (.div (.div (.mul (.rat 16 1) (.mul .pi .pi)) (.mul (.sqrt (.mul (.mul (.rat 4 1) .pi) (.par n!"alpha_e"))) (.sqrt (.mul (.mul (.rat 4 1) .pi) (.par n!"alpha_e"))))) (.par n!"m_b"))) (.div (.div (.div (.sqrt (.rat 2 1)) (.par n!"GF")) (.mul (.ckm 2 2) (.conj (.ckm 2 0)))) (.rat 4 1)))))),
  (n!"VueLR_1233", (.add (.div (.div (.inp n!"C10_cutautau") (.div (.mul (.rat 16 1) (.mul .pi .pi)) (.mul (.sqrt (.mul (.mul (.rat 4 1) .pi) (.par n!"alpha_e"))) (.sqrt (.mul (.mul (.rat 4 1) .pi) (.par n!"alpha_e")))))) (.div (.div (.div (.sqrt (.rat 2 1)) (.par n!"GF")) (.mul (.conj (.ckm 1 2)) (.ckm 0 2))) (.rat 4 1))) (.div (.div (.inp n!"C9_cutautau") (.div (.mul (.rat 16 1) (.mul .pi .pi)) (.mul (.sqrt (.mul (.mul (.rat 4 1) .pi) (.par n!"alpha_e"))) (.sqrt (.mul (.mul (.rat 4 1) .pi) (.par n!"alpha_e")))))) (.div (.div (.div (.sqrt (.rat 2 1)) (.par n!"GF")) (.mul (.conj (.ckm 1 2)) (.ckm 0 2))) (.rat 4 1))))),
  (n!"VeuLR_1111", (.div (.inp n!"CVLR_eeuu") (.div (.div (.sqrt (.rat 2 1)) (.par n!"GF")) (.rat 4 1)))),
  (n!"VnueLR_2211", (.div (.inp n!"CVLR_numunumuee") (.div (.div (.sqrt (.rat 2 1)) (.par n!"GF")) (.rat 4 1)))),
  (n!"V1udduLR_1112", (.sub (.neg (.div (.mul (.mul (.div (.mul (.rat 4 1) (.par n!"GF")) (.sqrt (.rat 2 1))) (.mul (.conj (.ckm 1 2)) (.ckm 0 2))) (.inp n!"CSRL_cudd")) (.mul (.rat 2 1) (.rat 3 1)))) (.div (.mul (.mul (.div (.mul (.rat 4 1) (.par n!"GF")) (.sqrt (.rat 2 1))) (.mul (.conj (.ckm 1 2)) (.ckm 0 2))) (.inp n!"CSRLt_cudd")) (.rat 2 1)))),
  (n!"TedRR_2132", (.sub (.conj (.div (.rat 0 1) (.div (.div (.div (.sqrt (.rat 2 1)) (.par n!"GF")) (.mul (.ckm 2 2) (.conj (.ckm 2 1)))) (.rat 4 1)))) (.conj (.div (.rat 0 1) (.div (.div (.div (.sqrt (.rat 2 1)) (.par n!"GF")) (.mul (.ckm 2 2) (.conj (.ckm 2 1)))) (.rat 4 1)))))),
  (n!"VnudLL_2222", (.div (.inp n!"CVLL_numunumuss") (.div (.div (.sqrt (.rat 2 1)) (.par n!"GF")) (.rat 4 1)))),
  (n!"V1ddLR_2212", (.sub (.neg (.div (.mul (.mul (.div (.mul (.rat 4 1) (.par n!"GF")) (.sqrt (.rat 2 1))) (.mul (.ckm 2 1) (.conj (.ckm 2 0)))) (.inp n!"CSLR_sdss")) (.mul (.rat 2 1) (.rat 3 1)))) (.div (.mul (.rat (-2) 1) (.mul (.mul (.div (.mul (.rat 4 1) (.par n!"GF")) (.sqrt (.rat 2 1))) (.mul (.ckm 2 1) (.conj (.ckm 2 0)))) (.inp n!"CVRL_sdss"))) (.rat 2 1)))),
  (n!"S8udduRR_1321", (.mul (.rat (-16) 1) (.mul (.mul (.div (.mul (.rat 4 1) (.par n!"GF")) (.sqrt (.rat 2 1))) (.mul (.ckm 2 2) (.conj (.ckm 2 1)))) (.inp n!"CTRR_bsuu")))),
  (n!"VnueLL_1311", (.div (.inp n!"CVLL_nuenutauee") (.div (.div (.sqrt (.rat 2 1)) (.par n!"GF")) (.rat 4 1)))),
  (n!"SnueduRL_3232", (.conj (.div (.inp n!"CSR_bcmunutau") (.div (.div (.div (.neg (.sqrt (.rat 2 1))) (.par n!"GF")) (.ckm 1 2)) (.rat 4 1))))),
  (n!"VnuuLR_1122", (.div (.inp n!"CVLR_nuenuecc") (.div (.div (.sqrt (.rat 2 1)) (.par n!"GF")) (.rat 4 1)))),
  (n!"S1ddRR_1321", (.sub (.neg (.div (.mul (.rat 8 1) (.mul (.mul (.div (.mul (.rat 4 1) (.par n!"GF")) (.sqrt (.rat 2 1))) (.mul (.ckm 2 2) (.conj (.ckm 2 1)))) (.inp n!"CTRR_bsdd"))) (.rat 3 1))) (.mul (.rat 8 1) (.mul (.mul (.div (.mul (.rat 4 1) (.par n!"GF")) (.sqrt (.rat 2 1))) (.mul (.ckm 2 2) (.conj (.ckm 2 1)))) (.inp n!"CTRRt_bsdd"))))),
  (n!"VnueduLR_1132", (.conj (.div (.inp n!"CVR_bcenue") (.div (.div (.div (.neg (.sqrt (.rat 2 1))) (.par n!"GF")) (.ckm 1 2)) (.rat 4 1))))),
  (n!"dG_33", (.div (.mul (.div (.par n!"m_b") (.div (.mul (.rat 16 1) (.mul .pi .pi)) (.sqrt (.mul (.mul (.rat 4 1) .pi) (.par n!"alpha_s"))))) (.inp n!"C8_bb")) (.div (.div (.sqrt (.rat 2 1)) (.par n!"GF")) (.rat 4 1)))),
  (n!"VnudLR_2312", (.div (.div (.inp n!"CR_sdnutaunumu") (.div (.mul (.rat 8 1) (.mul .pi .pi)) (.mul (.sqrt (.mul (.mul (.rat 4 1) .pi) (.par n!"alpha_e"))) (.sqrt (.mul (.mul (.rat 4 1) .pi) (.par n!"alpha_e")))))) (.div (.div (.div (.sqrt (.rat 2 1)) (.par n!"GF")) (.mul (.ckm 2 1) (.conj (.ckm 2 0)))) (.rat 4 1)))),
  (n!"uG_21", (.conj (.div (.div (.inp n!"C8p_cu") (.div (.div (.mul (.rat 16 1) (.mul .pi .pi)) (.sqrt (.mul (.mul (.rat 4 1) .pi) (.par n!"alpha_s")))) (.par n!"m_c"))) (.div (.div (.div (.sqrt (.rat 2 1)) (.par n!"GF")) (.mul (.conj (.ckm 1 2)) (.ckm 0 2))) (.rat 4 1))))),
  (n!"S8ddRR_3131", (.mul (.rat 2 1) (.conj (.mul (.rat (-8) 1) (.inp n!"CTLL_bdbd"))))),
  (n!"SedRL_3221", (.add (.neg (.conj (.div (.div (.inp n!"CP_sdtaumu") (.div (.div (.mul (.rat 16 1) (.mul .pi .pi)) (.mul (.sqrt (.mul (.mul (.rat 4 1) .pi) (.par n!"alpha_e"))) (.sqrt (.mul (.mul (.rat 4 1) .pi) (.par n!"alpha_e"))))) (.par n!"m_s"))) (.div (.div (.div (.sqrt (.rat 2 1)) (.par n!"GF")) (.mul (.ckm 2 1) (.conj (.ckm 2 0)))) (.rat 4 1))))) (.conj (.div (.div (.inp n!"CS_sdtaumu") (.div (.div (.mul (.rat 16 1) (.mul .pi .pi)) (.mul (.sqrt (.mul (.mul (.rat 4 1) .pi) (.par n!"alpha_e"))) (.sqrt (.mul (.mul (.rat 4 1) .pi) (.par n!"alpha_e"))))) (.par n!"m_s"))) (.div (.div (.div (.sqrt (.rat 2 1)) (.par n!"GF")) (.mul (.ckm 2 1) (.conj (.ckm 2 0)))) (.rat 4 1)))))),
  (n!"SnueduRR_3322", (.conj (.div (.inp n!"CSL_sctaunutau") (.div (.div (.div (.neg (.sqrt (.rat 2 1))) (.par n!"GF")) (.ckm 1 1)) (.rat 4 1))))),
  (n!"V8udRR_1123", (.mul (.rat 2 1) (.mul (.mul (.div (.mul (.rat 4 1) (.par n!"GF")) (.sqrt (.rat 2 1))) (.mul (.ckm 2 2) (.conj (.ckm 2 1)))) (.inp n!"CVRRt_bsuu")))),
  (n!"VeeLR_1331", (.div (.inp n!"CVLR_etautaue") (.div (.div (.sqrt (.rat 2 1)) (.par n!"GF")) (.rat 4 1)))),
  (n!"SedRR_3311", (.div (.inp n!"CSRR_tautaudd") (.div (.div (.sqrt (.rat 2 1)) (.par n!"GF")) (.rat 4 1)))),
  (n!"V1udLR_2223", (.add (.mul (.mul (.div (.mul (.rat 4 1) (.par n!"GF")) (.sqrt (.rat 2 1))) (.mul (.ckm 2 2) (.conj (.ckm 2 1)))) (.inp n!"CVRL_bscc")) (.div (.mul (.mul (.div (.mul (.rat 4 1) (.par n!"GF")) (.sqrt (.rat 2 1))) (.mul (.ckm 2 2) (.conj (.ckm 2 1)))) (.inp n!"CVRLt_bscc")) (.rat 3 1)))),
  (n!"SedRR_1323", (.add (.div (.div (.inp n!"CP_bstaue") (.div (.div (.mul (.rat 16 1) (.mul .pi .pi)) (.mul (.sqrt (.mul (.mul (.rat 4 1) .pi) (.par n!"alpha_e"))) (.sqrt (.mul (.mul (.rat 4 1) .pi) (.par n!"alpha_e"))))) (.par n!"m_b"))) (.div (.div (.div (.sqrt (.rat 2 1)) (.par n!"GF")) (.mul (.ckm 2 2) (.conj (.ckm 2 1)))) (.rat 4 1))) (.div (.div (.inp n!"CS_bstaue") (.div (.div (.mul (.rat 16 1) (.mul .pi .pi)) (.mul (.sqrt (.mul (.mul (.rat 4 1) .pi) (.par n!"alpha_e"))) (.sqrt (.mul (.mul (.rat 4 1) .pi) (.par n!"alpha_e"))))) (.par n!"m_b"))) (.div (.div (.div (.sqrt (.rat 2 1)) (.par n!"GF")) (.mul (.ckm 2 2) (.conj (.ckm 2 1)))) (.rat 4 1))))),
  (n!"S1udRR_1111", (.div (.inp n!"CS1RR_uudd") (.div (.div (.sqrt (.rat 2 1)) (.par n!"GF")) (.rat 4 1)))),
  (n!"V8udduLR_1111", (.div (.inp n!"CV8LR_uddu") (.div (.div (.sqrt (.rat 2 1)) (.par n!"GF")) (.rat 4 1)))),
  (n!"VeuLR_3312", (.add (.neg (.div (.div (.inp n!"C10p_cutautau") (.div (.mul (.rat 16 1) (.mul .pi .pi)) (.mul (.sqrt (.mul (.mul (.rat 4 1) .pi) (.par n!"alpha_e"))) (.sqrt (.mul (.mul (.rat 4 1) .pi) (.par n!"alpha_e")))))) (.div (.div (.div (.sqrt (.rat 2 1)) (.par n!"GF")) (.mul (.conj (.ckm 1 2)) (.ckm 0 2))) (.rat 4 1)))) (.div (.div (.inp n!"C9p_cutautau") (.div (.mul (.rat 16 1) (.mul .pi .pi)) (.mul (.sqrt (.mul (.mul (.rat 4 1) .pi) (.par n!"alpha_e"))) (.sqrt (.mul (.mul (.rat 4 1) .pi) (.par n!"alpha_e")))))) (.div (.div (.div (.sqrt (.rat 2 1)) (.par n!"GF")) (.mul (.conj (.ckm 1 2)) (.ckm 0 2))) (.rat 4 1))))),
  (n!"VedRR_1312", (.add (.div (.div (.inp n!"C10p_sdtaue") (.div (.mul (.rat 16 1) (.mul .pi .pi)) (.mul (.sqrt (.mul (.mul (.rat 4 1) .pi) (.par n!"alpha_e"))) (.sqrt (.mul (.mul (.rat 4 1) .pi) (.par n!"alpha_e")))))) (.div (.div (.div (.sqrt (.rat 2 1)) (.par n!"GF")) (.mul (.ckm 2 1) (.conj (.ckm 2 0)))) (.rat 4 1))) (.div (.div (.inp n!"C9p_sdtaue") (.div (.mul (.rat 16 1) (.mul .pi .pi)) (.mul (.sqrt (.mul (.mul (.rat 4 1) .pi) (.par n!"alpha_e"))) (.sqrt (.mul (.mul (.rat 4 1) .pi) (.par n!"alpha_e")))))) (.div (.div (.div (.sqrt (.rat 2 1)) (.par n!"GF")) (.mul (.ckm 2 1) (.conj (.ckm 2 0)))) (.rat 4 1))))),
  (n!"V8udduLR_1332", (.neg (.mul (.mul (.div (.mul (.rat 4 1) (.par n!"GF")) (.sqrt (.rat 2 1))) (.mul (.conj (.ckm 1 2)) (.ckm 0 2))) (.inp n!"CSRL_cubb")))),
  (n!"S1udduRR_2212", (.sub (.neg (.div (.mul (.rat 8 1) (.mul (.mul (.div (.mul (.rat 4 1) (.par n!"GF")) (.sqrt (.rat 2 1))) (.mul (.ckm 2 1) (.conj (.ckm 2 0)))) (.inp n!"CTRR_sdcc"))) (.rat 3 1))) (.mul (.rat 8 1) (.mul (.mul (.div (.mul (.rat 4 1) (.par n!"GF")) (.sqrt (.rat 2 1))) (.mul (.ckm 2 1) (.conj (.ckm 2 0)))) (.inp n!"CTRRt_sdcc"))))),
  (n!"V1ddLR_1122", (.div (.inp n!"CV1LR_ddss") (.div (.div (.sqrt (.rat 2 1)) (.par n!"GF")) (.rat 4 1))))]

def flavio_to_JMS_6 : List (ℕ × Sym) := [
  (n!"VdeLR_2333", (.add (.div (.div (.inp n!"C10_bstautau") (.div (.mul (.rat 16 1) (.mul .pi .pi)) (.mul (.sqrt (.mul (.mul (.rat 4 1) .pi) (.par n!"alpha_e"))) (.sqrt (.mul (.mul (.rat 4 1) .pi) (.par n!"alpha_e")))))) (.div (.div (.div (.sqrt (.rat 2 1)) (.par n!"GF")) (.mul (.ckm 2 2) (.conj (.ckm 2 1)))) (.rat 4 1))) (.div (.div (.inp n!"C9_bstautau") (.div (.mul (.rat 16 1) (.mul .pi .pi)) (.mul (.sqrt (.mul (.mul (.rat 4 1) .pi) (.par n!"alpha_e"))) (.sqrt (.mul (.mul (.rat 4 1) .pi) (.par n!"alpha_e")))))) (.div (.div (.div (.sqrt (.rat 2 1)) (.par n!"GF")) (.mul (.ckm 2 2) (.conj (.ckm 2 1)))) (.rat 4 1))))),
  (n!"TnueduRR_3131", (.conj (.div (.inp n!"CT_buenutau") (.div (.div (.div (.neg (.sqrt (.rat 2 1))) (.par n!"GF")) (.ckm 0 2)) (.rat 4 1))))),
  (n!"V1uuLR_2211", (.div (.inp n!"CV1LR_ccuu") (.div (.div (.sqrt (.rat 2 1)) (.par n!"GF")) (.rat 4 1)))),
  (n!"VnueduLR_3112", (.conj (.div (.inp n!"CVR_dcenutau") (.div (.div (.div (.neg (.sqrt (.rat 2 1))) (.par n!"GF")) (.ckm 1 0)) (.rat 4 1))))),
  (n!"VnudLR_1222", (.div (.inp n!"CVLR_nuenumuss") (.div (.div (.sqrt (.rat 2 1)) (.par n!"GF")) (.rat 4 1)))),
  (n!"SedRL_2131", (.add (.neg (.conj (.div (.div (.inp n!"CP_bdmue") (.div (.div (.mul (.rat 16 1) (.mul .pi .pi)) (.mul (.sqrt (.mul (.mul (.rat 4 1) .pi) (.par n!"alpha_e"))) (.sqrt (.mul (.mul (.rat 4 1) .pi) (.par n!"alpha_e"))))) (.par n!"m_b"))) (.div (.div (.div (.sqrt (.rat 2 1)) (.par n!"GF")) (.mul (.ckm 2 2) (.conj (.ckm 2 0)))) (.rat 4 1))))) (.conj (.div (.div (.inp n!"CS_bdmue") (.div (.div (.mul (.rat 16 1) (.mul .pi .pi)) (.mul (.sqrt (.mul (.mul (.rat 4 1) .pi) (.par n!"alpha_e"))) (.sqrt (.mul (.mul (.rat 4 1) .pi) (.par n!"alpha_e"))))) (.par n!"m_b"))) (.div (.div (.div (.sqrt (.rat 2 1)) (.par n!"GF")) (.mul (.ckm 2 2) (.conj (.ckm 2 0)))) (.rat 4 1)))))),
  (n!"S1ddRR_1313", (.add (.sub (.inp n!"CSRR_bdbd") (.mul (.rat 4 1) (.inp n!"CTRR_bdbd"))) (.div (.mul (.rat (-8) 1) (.inp n!"CTRR_bdbd")) (.rat 3 1)))),
  (n!"SnueduRR_2232", (.conj (.div (.inp n!"CSL_bcmunumu") (.div (.div (.div (.neg (.sqrt (.rat 2 1))) (.par n!"GF")) (.ckm 1 2)) (.rat 4 1))))),
  (n!"VeeLR_3311", (.div (.inp n!"CVLR_tautauee") (.div (.div (.sqrt (.rat 2 1)) (.par n!"GF")) (.rat 4 1)))),
  (n!"S8udRR_2111", (.sub (.mul (.rat 2 1) (.conj (.mul (.mul (.div (.mul (.rat 4 1) (.par n!"GF")) (.sqrt (.rat 2 1))) (.mul (.conj (.ckm 1 2)) (.ckm 0 2))) (.inp n!"CSLLt_cudd")))) (.mul (.rat 8 1) (.conj (.mul (.mul (.div (.mul (.rat 4 1) (.par n!"GF")) (.sqrt (.rat 2 1))) (.mul (.conj (.ckm 1 2)) (.ckm 0 2))) (.inp n!"CTLLt_cudd")))))),
  (n!"SedRL_3213", (.add (.div (.div (.inp n!"CPp_bdmutau") (.div (.div (.mul (.rat 16 1) (.mul .pi .pi)) (.mul (.sqrt (.mul (.mul (.rat 4 1) .pi) (.par n!"alpha_e"))) (.sqrt (.mul (.mul (.rat 4 1) .pi) (.par n!"alpha_e"))))) (.par n!"m_b"))) (.div (.div (.div (.sqrt (.rat 2 1)) (.par n!"GF")) (.mul (.ckm 2 2) (.conj (.ckm 2 0)))) (.rat 4 1))) (.div (.div (.inp n!"CSp_bdmutau") (.div (.div (.mul (.rat 16 1) (.mul .pi .pi)) (.mul (.sqrt (.mul (.mul (.rat 4 1) .pi) (.par n!"alpha_e"))) (.sqrt (.mul (.mul (.rat 4 1) .pi) (.par n!"alpha_e"))))) (.par n!"m_b"))) (.div (.div (.div (.sqrt (.rat 2 1)) (.par n!"GF")) (.mul (.ckm 2 2) (.conj (.ckm 2 0)))) (.rat 4 1))))),
  (n!"VnueduLL_2212", (.conj (.div (.inp n!"CVL_dcmunumu") (.div (.div (.div (.neg (.sqrt (.rat 2 1))) (.par n!"GF")) (.ckm 1 0)) (.rat 4 1))))),
  (n!"SnueduRL_1111", (.conj (.div (.inp n!"CSR_duenue") (.div (.div (.div (.neg (.sqrt (.rat 2 1))) (.par n!"GF")) (.ckm 0 0)) (.rat 4 1))))),
  (n!"SedRR_2221", (.add (.neg (.conj (.div (.div (.inp n!"CPp_sdmumu") (.div (.div (.mul (.rat 16 1) (.mul .pi .pi)) (.mul (.sqrt (.mul (.mul (.rat 4 1) .pi) (.par n!"alpha_e"))) (.sqrt (.mul (.mul (.rat 4 1) .pi) (.par n!"alpha_e"))))) (.par n!"m_s"))) (.div (.div (.div (.sqrt (.rat 2 1)) (.par n!"GF")) (.mul (.ckm 2 1) (.conj (.ckm 2 0)))) (.rat 4 1))))) (.conj (.div (.div (.inp n!"CSp_sdmumu") (.div (.div (.mul (.rat 16 1) (.mul .pi .pi)) (.mul (.sqrt (.mul (.mul (.rat 4 1) .pi) (.par n!"alpha_e"))) (.sqrt (.mul (.mul (.rat 4 1) .pi) (.par n!"alpha_e"))))) (.par n!"m_s"))) (.div (.div (.div (.sqrt (.rat 2 1)) (.par n!"GF")) (.mul (.ckm 2 1) (.conj (.ckm 2 0)))) (.rat 4 1)))))),
  (n!"TnueduRR_2321", (.conj (.div (.inp n!"CT_sutaunumu") (.div (.div (.div (.neg (.sqrt (.rat 2 1))) (.par n!"GF")) (.ckm 0 1)) (.rat 4 1))))),
  (n!"VedLL_3322", (.div (.inp n!"CVLL_tautauss") (.div (.div (.sqrt (.rat 2 1)) (.par n!"GF")) (.rat 4 1)))),
  (n!"VddLL_1313", (.inp n!"CVLL_bdbd")),
  (n!"VedLL_1113", (.add (.neg (.div (.div (.inp n!"C10_bdee") (.div (.mul (.rat 16 1) (.mul .pi .pi)) (.mul (.sqrt (.mul (.mul (.rat 4 1) .pi) (.par n!"alpha_e"))) (.sqrt (.mul (.mul (.rat 4 1) .pi) (.par n!"alpha_e")))))) (.div (.div (.div (.sqrt (.rat 2 1)) (.par n!"GF")) (.mul (.ckm 2 2) (.conj (.ckm 2 0)))) (.rat 4 1)))) (.div (.div (.inp n!"C9_bdee") (.div (.mul (.rat 16 1) (.mul .pi .pi)) (.mul (.sqrt (.mul (.mul (.rat 4 1) .pi) (.par n!"alpha_e"))) (.sqrt (.mul (.mul (.rat 4 1) .pi) (.par n!"alpha_e")))))) (.div (.div (.div (.sqrt (.rat 2 1)) (.par n!"GF")) (.mul (.ckm 2 2) (.conj (.ckm 2 0)))) (.rat 4 1))))),
  (n!"SnueduRL_1332", (.conj (.div (.inp n!"CSR_bctaunue") (.div (.div (.div (.neg (.sqrt (.rat 2 1))) (.par n!"GF")) (.ckm 1 2)) (.rat 4 1))))),
  (n!"V1udLR_1133", (.div (.inp n!"CV1LR_uubb") (.div (.div (.sqrt (.rat 2 1)) (.par n!"GF")) (.rat 4 1)))),
  (n!"V8udRR_1211", (.mul (.rat 2 1) (.mul (.mul (.div (.mul (.rat 4 1) (.par n!"GF")) (.sqrt (.rat 2 1))) (.mul (.conj (.ckm 1 2)) (.ckm 0 2))) (.inp n!"CVRRt_cudd")))),
  (n!"VeuLR_2222", (.div (.inp n!"CVLR_mumucc") (.div (.div (.sqrt (.rat 2 1)) (.par n!"GF")) (.rat 4 1)))),
  (n!"S1uuRR_2122", (.sub (.neg (.div (.mul (.rat 8 1) (.conj (.mul (.mul (.div (.mul (.rat 4 1) (.par n!"GF")) (.sqrt (.rat 2 1))) (.mul (.conj (.ckm 1 2)) (.ckm 0 2))) (.inp n!"CTLL_cucc")))) (.rat 3 1))) (.mul (.rat 8 1) (.conj (.add (.mul (.div (.rat (-1) 1) (.rat 8 1)) (.mul (.mul (.div (.mul (.rat 4 1) (.par n!"GF")) (.sqrt (.rat 2 1))) (.mul (.conj (.ckm 1 2)) (.ckm 0 2))) (.inp n!"CSLL_cucc"))) (.mul (.div (.rat 1 1) (.rat 2 1)) (.mul (.mul (.div (.mul (.rat 4 1) (.par n!"GF")) (.sqrt (.rat 2 1))) (.mul (.conj (.ckm 1 2)) (.ckm 0 2))) (.inp n!"CTLL_cucc")))))))),
  (n!"S8ddRR_1231", (.mul (.rat (-16) 1) (.conj (.mul (.mul (.div (.mul (.rat 4 1) (.par n!"GF")) (.sqrt (.rat 2 1))) (.mul (.ckm 2 2) (.conj (.ckm 2 1)))) (.inp n!"CTLL_bsdd"))))),
  (n!"SedRL_1321", (.add (.neg (.conj (.div (.div (.inp n!"CP_sdetau") (.div (.div (.mul (.rat 16 1) (.mul .pi .pi)) (.mul (.sqrt (.mul (.mul (.rat 4 1) .pi) (.par n!"alpha_e"))) (.sqrt (.mul (.mul (.rat 4 1) .pi) (.par n!"alpha_e"))))) (.par n!"m_s"))) (.div (.div (.div (.sqrt (.rat 2 1)) (.par n!"GF")) (.mul (.ckm 2 1) (.conj (.ckm 2 0)))) (.rat 4 1))))) (.conj (.div (.div (.inp n!"CS_sdetau") (.div (.div (.mul (.rat 16 1) (.mul .pi .pi)) (.mul (.sqrt (.mul (.mul (.rat 4 1) .pi) (.par n!"alpha_e"))) (.sqrt (.mul (.mul (.rat 4 1) .pi) (.par n!"alpha_e"))))) (.par n!"m_s"))) (.div (.div (.div (.sqrt (.rat 2 1)) (.par n!"GF")) (.mul (.ckm 2 1) (.conj (.ckm 2 0)))) (.rat 4 1)))))),
  (n!"VnueLR_3322", (.div (.inp n!"CVLR_nutaunutaumumu") (.div (.div (.sqrt (.rat 2 1)) (.par n!"GF")) (.rat 4 1)))),
  (n!"VnudLL_3333", (.div (.inp n!"CVLL_nutaunutaubb") (.div (.div (.sqrt (.rat 2 1)) (.par n!"GF")) (.rat 4 1)))),
  (n!"V1ddLR_3323", (.sub (.neg (.div (.mul (.mul (.div (.mul (.rat 4 1) (.par n!"GF")) (.sqrt (.rat 2 1))) (.mul (.ckm 2 2) (.conj (.ckm 2 1)))) (.inp n!"CSLR_bsbb")) (.mul (.rat 2 1) (.rat 3 1)))) (.div (.mul (.rat (-2) 1) (.mul (.mul (.div (.mul (.rat 4 1) (.par n!"GF")) (.sqrt (.rat 2 1))) (.mul (.ckm 2 2) (.conj (.ckm 2 1)))) (.inp n!"CVRL_bsbb"))) (.rat 2 1)))),
  (n!"TedRR_2212", (.add (.div (.rat 0 1) (.div (.div (.div (.sqrt (.rat 2 1)) (.par n!"GF")) (.mul (.ckm 2 1) (.conj (.ckm 2 0)))) (.rat 4 1))) (.div (.rat 0 1) (.div (.div (.div (.sqrt (.rat 2 1)) (.par n!"GF")) (.mul (.ckm 2 1) (.conj (.ckm 2 0)))) (.rat 4 1))))),
  (n!"V1duLR_3311", (.div (.inp n!"CV1LR_bbuu") (.div (.div (.sqrt (.rat 2 1)) (.par n!"GF")) (.rat 4 1)))),
  (n!"VnueduLL_3331", (.conj (.div (.inp n!"CVL_butaunutau") (.div (.div (.div (.neg (.sqrt (.rat 2 1))) (.par n!"GF")) (.ckm 0 2)) (.rat 4 1))))),
  (n!"SedRL_2123", (.add (.div (.div (.inp n!"CPp_bsemu") (.div (.div (.mul (.rat 16 1) (.mul .pi .pi)) (.mul (.sqrt (.mul (.mul (.rat 4 1) .pi) (.par n!"alpha_e"))) (.sqrt (.mul (.mul (.rat 4 1) .pi) (.par n!"alpha_e"))))) (.par n!"m_b"))) (.div (.div (.div (.sqrt (.rat 2 1)) (.par n!"GF")) (.mul (.ckm 2 2) (.conj (.ckm 2 1)))) (.rat 4 1))) (.div (.div (.inp n!"CSp_bsemu") (.div (.div (.mul (.rat 16 1) (.mul .pi .pi)) (.mul (.sqrt (.mul (.mul (.rat 4 1) .pi) (.par n!"alpha_e"))) (.sqrt (.mul (.mul (.rat 4 1) .pi) (.par n!"alpha_e"))))) (.par n!"m_b"))) (.div (.div (.div (.sqrt (.rat 2 1)) (.par n!"GF")) (.mul (.ckm 2 2) (.conj (.ckm 2 1)))) (.rat 4 1))))),
  (n!"VnueduLL_1122", (.conj (.div (.inp n!"CVL_scenue") (.div (.div (.div (.neg (.sqrt (.rat 2 1))) (.par n!"GF")) (.ckm 1 1)) (.rat 4 1))))),
  (n!"SedRR_1131", (.add (.neg (.conj (.div (.div (.inp n!"CPp_bdee") (.div (.div (.mul (.rat 16 1) (.mul .pi .pi)) (.mul (.sqrt (.mul (.mul (.rat 4 1) .pi) (.par n!"alpha_e"))) (.sqrt (.mul (.mul (.rat 4 1) .pi) (.par n!"alpha_e"))))) (.par n!"m_b"))) (.div (.div (.div (.sqrt (.rat 2 1)) (.par n!"GF")) (.mul (.ckm 2 2) (.conj (.ckm 2 0)))) (.rat 4 1))))) (.conj (.div (.div (.inp n!"CSp_bdee") (.div (.div (.mul (.rat 16 1) (.mul .pi .pi)) (.mul (.sqrt (.mul (.mul (.rat 4 1) .pi) (.par n!"alpha_e"))) (.sqrt (.mul (.mul (.rat 4 1) .pi) (.par n!"alpha_e"))))) (.par n!"m_b"))) (.div (.div (.div (.sqrt (.rat 2 1)) (.par n!"GF")) (.mul (.ckm 2 2) (.conj (.ckm 2 0)))) (.rat 4 1)))))),
  (n!"TnueduRR_1231", (.conj (.div (.inp n!"CT_bumunue") (.div (.div (.div (.neg (.sqrt (.rat 2 1))) (.par n!"GF")) (.ckm 0 2)) (.rat 4 1))))),
  (n!"SnueduRL_3312", (.conj (.div (.inp n!"CSR_dctaunutau") (.div (.div (.div (.neg (.sqrt (.rat 2 1))) (.par n!"GF")) (.ckm 1 0)) (.rat 4 1))))),
  (n!"V8udLL_1233", (.mul (.rat 2 1) (.mul (.mul (.div (.mul (.rat 4 1) (.par n!"GF")) (.sqrt (.rat 2 1))) (.mul (.conj (.ckm 1 2)) (.ckm 0 2))) (.inp n!"CVLLt_cubb")))),
  (n!"SedRR_2213", (.add (.div (.div (.inp n!"CP_bdmumu") (.div (.div (.mul (.rat 16 1) (.mul .pi .pi)) (.mul (.sqrt (.mul (.mul (.rat 4 1) .pi) (.par n!"alpha_e"))) (.sqrt (.mul (.mul (.rat 4 1) .pi) (.par n!"alpha_e"))))) (.par n!"m_b"))) (.div (.div (.div (.sqrt (.rat 2 1)) (.par n!"GF")) (.mul (.ckm 2 2) (.conj (.ckm 2 0)))) (.rat 4 1))) (.div (.div (.inp n!"CS_bdmumu") (.div (.div (.mul (.rat 16 1) (.mul .pi .pi)) (.mul (.sqrt (.mul (.mul (.rat 4 1) .pi) (.par n!"alpha_e"))) (.sqrt (.mul (.mul (.rat 4 1) .pi) (.par n!"alpha_e"))))) (.par n!"m_b"))) (.div (.div (.div (.sqrt (.rat 2 1)) (.par n!"GF")) (.mul (.ckm 2 2) (.conj (.ckm 2 0)))) (.rat 4 1))))),
  (n!"VnueduLR_1212", (.conj (.div (.inp n!"CVR_dcmunue") (.div (.div (.div (.neg (.sqrt (.rat 2 1))) (.par n!"GF")) (.ckm 1 0)) (.rat 4 1))))),
  (n!"S1udRR_2222", (.div (.inp n!"CS1RR_ccss") (.div (.div (.sqrt (.rat 2 1)) (.par n!"GF")) (.rat 4 1)))),
  (n!"V8udduLR_2222", (.div (.inp n!"CV8LR_cssc") (.div (.div (.sqrt (.rat 2 1)) (.par n!"GF")) (.rat 4 1)))),
  (n!"S8udduRR_1121", (.mul (.rat (-16) 1) (.conj (.mul (.mul (.div (.mul (.rat 4 1) (.par n!"GF")) (.sqrt (.rat 2 1))) (.mul (.ckm 2 1) (.conj (.ckm 2 0)))) (.inp n!"CTLL_sduu"))))),
  (n!"VueLR_2211", (.div (.inp n!"CVLR_ccee") (.div (.div (.sqrt (.rat 2 1)) (.par n!"GF")) (.rat 4 1)))),
  (n!"V1udLL_2213", (.add (.mul (.mul (.div (.mul (.rat 4 1) (.par n!"GF")) (.sqrt (.rat 2 1))) (.mul (.ckm 2 2) (.conj (.ckm 2 0)))) (.inp n!"CVLL_bdcc")) (.div (.mul (.mul (.div (.mul (.rat 4 1) (.par n!"GF")) (.sqrt (.rat 2 1))) (.mul (.ckm 2 2) (.conj (.ckm 2 0)))) (.inp n!"CVLLt_bdcc")) (.rat 3 1)))),
  (n!"S8ddRR_1223", (.mul (.rat (-16) 1) (.mul (.mul (.div (.mul (.rat 4 1) (.par n!"GF")) (.sqrt (.rat 2 1))) (.mul (.ckm 2 2) (.conj (.ckm 2 0)))) (.inp n!"CTRR_bdss")))),
  (n!"VnueLL_1111", (.div (.inp n!"CVLL_nuenueee") (.div (.div (.sqrt (.rat 2 1)) (.par n!"GF")) (.rat 4 1)))),
  (n!"SedRL_1313", (.add (.div (.div (.inp n!"CPp_bdtaue") (.div (.div (.mul (.rat 16 1) (.mul .pi .pi)) (.mul (.sqrt (.mul (.mul (.rat 4 1) .pi) (.par n!"alpha_e"))) (.sqrt (.mul (.mul (.rat 4 1) .pi) (.par n!"alpha_e"))))) (.par n!"m_b"))) (.div (.div (.div (.sqrt (.rat 2 1)) (.par n!"GF")) (.mul (.ckm 2 2) (.conj (.ckm 2 0)))) (.rat 4 1))) (.div (.div (.inp n!"CSp_bdtaue") (.div (.div (.mul (.rat 16 1) (.mul .pi .pi)) (.mul (.sqrt (.mul (.mul (.rat 4 1) .pi) (.par n!"alpha_e"))) (.sqrt (.mul (.mul (.rat 4 1) .pi) (.par n!"alpha_e"))))) (.par n!"m_b"))) (.div (.div (.div (.sqrt (.rat 2 1)) (.par n!"GF")) (.mul (.ckm 2 2) (.conj (.ckm 2 0)))) (.rat 4 1))))),
  (n!"V1ddLR_2233", (.div (.inp n!"CV1LR_ssbb") (.div (.div (.sqrt (.rat 2 1)) (.par n!"GF")) (.rat 4 1)))),
  (n!"S1ddRR_1121", (.sub (.neg (.div (.mul (.rat 8 1) (.conj (.mul (.mul (.div (.mul (.rat 4 1) (.par n!"GF")) (.sqrt (.rat 2 1))) (.mul (.ckm 2 1) (.conj (.ckm 2 0)))) (.inp n!"CTLL_sddd")))) (.rat 3 1))) (.mul (.rat 8 1) (.conj (.add (.mul (.div (.rat (-1) 1) (.rat 8 1)) (.mul (.mul (.div (.mul (.rat 4 1) (.par n!"GF")) (.sqrt (.rat 2 1))) (.mul (.ckm 2 1) (.conj (.ckm 2 0)))) (.inp n!"CSLL_sddd"))) (.mul (.div (.rat 1 1) (.rat 2 1)) (.mul (.mul (.div (.mul (.rat 4 1) (.par n!"GF")) (.sqrt (.rat 2 1))) (.mul (.ckm 2 1) (.conj (.ckm 2 0)))) (.inp n!"CTLL_sddd")))))))),
  (n!"TedRR_3331", (.sub (.conj (.div (.rat 0 1) (.div (.div (.div (.sqrt (.rat 2 1)) (.par n!"GF")) (.mul (.ckm 2 2) (.conj (.ckm 2 0)))) (.rat 4 1)))) (.conj (.div (.rat 0 1) (.div (.div (.div (.sqrt (.rat 2 1)) (.par n!"GF")) (.mul (.ckm 2 2) (.conj (.ckm 2 0)))) (.rat 4 1))))))]

def flavio_to_JMS_7 : List (ℕ × Sym) := [
  (n!"SnueduRR_3122", (.conj (.div (.inp n!"CSL_scenutau") (.div (.div (.div (.neg (.sqrt (.rat 2 1))) (.par n!"GF")) (.ckm 1 1)) (.rat 4 1))))),
  (n!"VnudLR_2333", (.div (.inp n!"CVLR_numunutaubb") (.div (.div (.sqrt (.rat 2 1)) (.par n!"GF")) (.rat 4 1)))),
  (n!"TedRR_1122", (.div (.inp n!"CTRR_eess") (.div (.div (.sqrt (.rat 2 1)) (.par n!"GF")) (.rat 4 1)))),
  (n!"VdeLR_1331", (.add (.div (.div (.inp n!"C10_bdetau") (.div (.mul (.rat 16 1) (.mul .pi .pi)) (.mul (.sqrt (.mul (.mul (.rat 4 1) .pi) (.par n!"alpha_e"))) (.sqrt (.mul (.mul (.rat 4 1) .pi) (.par n!"alpha_e")))))) (.div (.div (.div (.sqrt (.rat 2 1)) (.par n!"GF")) (.mul (.ckm 2 2) (.conj (.ckm 2 0)))) (.rat 4 1))) (.div (.div (.inp n!"C9_bdetau") (.div (.mul (.rat 16 1) (.mul .pi .pi)) (.mul (.sqrt (.mul (.mul (.rat 4 1) .pi) (.par n!"alpha_e"))) (.sqrt (.mul (.mul (.rat 4 1) .pi) (.par n!"alpha_e")))))) (.div (.div (.div (.sqrt (.rat 2 1)) (.par n!"GF")) (.mul (.ckm 2 2) (.conj (.ckm 2 0)))) (.rat 4 1))))),
  (n!"VnudLL_1212", (.div (.div (.inp n!"CL_sdnumunue") (.div (.mul (.rat 8 1) (.mul .pi .pi)) (.mul (.sqrt (.mul (.mul (.rat 4 1) .pi) (.par n!"alpha_e"))) (.sqrt (.mul (.mul (.rat 4 1) .pi) (.par n!"alpha_e")))))) (.div (.div (.div (.sqrt (.rat 2 1)) (.par n!"GF")) (.mul (.ckm 2 1) (.conj (.ckm 2 0)))) (.rat 4 1)))),
  (n!"TnueduRR_3211", (.conj (.div (.inp n!"CT_dumunutau") (.div (.div (.div (.neg (.sqrt (.rat 2 1))) (.par n!"GF")) (.ckm 0 0)) (.rat 4 1))))),
  (n!"SnueduRL_2222", (.conj (.div (.inp n!"CSR_scmunumu") (.div (.div (.div (.neg (.sqrt (.rat 2 1))) (.par n!"GF")) (.ckm 1 1)) (.rat 4 1))))),
  (n!"SedRR_3332", (.add (.neg (.conj (.div (.div (.inp n!"CPp_bstautau") (.div (.div (.mul (.rat 16 1) (.mul .pi .pi)) (.mul (.sqrt (.mul (.mul (.rat 4 1) .pi) (.par n!"alpha_e"))) (.sqrt (.mul (.mul (.rat 4 1) .pi) (.par n!"alpha_e"))))) (.par n!"m_b"))) (.div (.div (.div (.sqrt (.rat 2 1)) (.par n!"GF")) (.mul (.ckm 2 2) (.conj (.ckm 2 1)))) (.rat 4 1))))) (.conj (.div (.div (.inp n!"CSp_bstautau") (.div (.div (.mul (.rat 16 1) (.mul .pi .pi)) (.mul (.sqrt (.mul (.mul (.rat 4 1) .pi) (.par n!"alpha_e"))) (.sqrt (.mul (.mul (.rat 4 1) .pi) (.par n!"alpha_e"))))) (.par n!"m_b"))) (.div (.div (.div (.sqrt (.rat 2 1)) (.par n!"GF")) (.mul (.ckm 2 2) (.conj (.ckm 2 1)))) (.rat 4 1)))))),
  (n!"VnueduLR_2331", (.conj (.div (.inp n!"CVR_butaunumu") (.div (.div (.div (.neg (.sqrt (.rat 2 1))) (.par n!"GF")) (.ckm 0 2)) (.rat 4 1))))),
  (n!"SedRR_1123", (.add (.div (.div (.inp n!"CP_bsee") (.div (.div (.mul (.rat 16 1) (.mul .pi .pi)) (.mul (.sqrt (.mul (.mul (.rat 4 1) .pi) (.par n!"alpha_e"))) (.sqrt (.mul (.mul (.rat 4 1) .pi) (.par n!"alpha_e"))))) (.par n!"m_b"))) (.div (.div (.div (.sqrt (.rat 2 1)) (.par n!"GF")) (.mul (.ckm 2 2) (.conj (.ckm 2 1)))) (.rat 4 1))) (.div (.div (.inp n!"CS_bsee") (.div (.div (.mul (.rat 16 1) (.mul .pi .pi)) (.mul (.sqrt (.mul (.mul (.rat 4 1) .pi) (.par n!"alpha_e"))) (.sqrt (.mul (.mul (.rat 4 1) .pi) (.par n!"alpha_e"))))) (.par n!"m_b"))) (.div (.div (.div (.sqrt (.rat 2 1)) (.par n!"GF")) (.mul (.ckm 2 2) (.conj (.ckm 2 1)))) (.rat 4 1))))),
  (n!"S8ddRR_2121", (.mul (.rat 2 1) (.conj (.mul (.rat (-8) 1) (.inp n!"CTLL_sdsd"))))),
  (n!"SedRL_2211", (.div (.inp n!"CSRL_mumudd") (.div (.div (.sqrt (.rat 2 1)) (.par n!"GF")) (.rat 4 1)))),
  (n!"VedRR_1112", (.add (.div (.div (.inp n!"C10p_sdee") (.div (.mul (.rat 16 1) (.mul .pi .pi)) (.mul (.sqrt (.mul (.mul (.rat 4 1) .pi) (.par n!"alpha_e"))) (.sqrt (.mul (.mul (.rat 4 1) .pi) (.par n!"alpha_e")))))) (.div (.div (.div (.sqrt (.rat 2 1)) (.par n!"GF")) (.mul (.ckm 2 1) (.conj (.ckm 2 0)))) (.rat 4 1))) (.div (.div (.inp n!"C9p_sdee") (.div (.mul (.rat 16 1) (.mul .pi .pi)) (.mul (.sqrt (.mul (.mul (.rat 4 1) .pi) (.par n!"alpha_e"))) (.sqrt (.mul (.mul (.rat 4 1) .pi) (.par n!"alpha_e")))))) (.div (.div (.div (.sqrt (.rat 2 1)) (.par n!"GF")) (.mul (.ckm 2 1) (.conj (.ckm 2 0)))) (.rat 4 1))))),
  (n!"VedLR_1232", (.conj (.add (.neg (.div (.div (.inp n!"C10p_bsemu") (.div (.mul (.rat 16 1) (.mul .pi .pi)) (.mul (.sqrt (.mul (.mul (.rat 4 1) .pi) (.par n!"alpha_e"))) (.sqrt (.mul (.mul (.rat 4 1) .pi) (.par n!"alpha_e")))))) (.div (.div (.div (.sqrt (.rat 2 1)) (.par n!"GF")) (.mul (.ckm 2 2) (.conj (.ckm 2 1)))) (.rat 4 1)))) (.div (.div (.inp n!"C9p_bsemu") (.div (.mul (.rat 16 1) (.mul .pi .pi)) (.mul (.sqrt (.mul (.mul (.rat 4 1) .pi) (.par n!"alpha_e"))) (.sqrt (.mul (.mul (.rat 4 1) .pi) (.par n!"alpha_e")))))) (.div (.div (.div (.sqrt (.rat 2 1)) (.par n!"GF")) (.mul (.ckm 2 2) (.conj (.ckm 2 1)))) (.rat 4 1)))))),
  (n!"S1udRR_1132", (.sub (.sub (.add (.conj (.mul (.mul (.div (.mul (.rat 4 1) (.par n!"GF")) (.sqrt (.rat 2 1))) (.mul (.ckm 2 2) (.conj (.ckm 2 1)))) (.inp n!"CSLL_bsuu"))) (.div (.conj (.mul (.mul (.div (.mul (.rat 4 1) (.par n!"GF")) (.sqrt (.rat 2 1))) (.mul (.ckm 2 2) (.conj (.ckm 2 1)))) (.inp n!"CSLLt_bsuu"))) (.rat 3 1))) (.mul (.rat 4 1) (.conj (.mul (.mul (.div (.mul (.rat 4 1) (.par n!"GF")) (.sqrt (.rat 2 1))) (.mul (.ckm 2 2) (.conj (.ckm 2 1)))) (.inp n!"CTLL_bsuu"))))) (.div (.mul (.rat 4 1) (.conj (.mul (.mul (.div (.mul (.rat 4 1) (.par n!"GF")) (.sqrt (.rat 2 1))) (.mul (.ckm 2 2) (.conj (.ckm 2 1)))) (.inp n!"CTLLt_bsuu")))) (.rat 3 1)))),
  (n!"SnueduRR_2312", (.conj (.div (.inp n!"CSL_dctaunumu") (.div (.div (.div (.neg (.sqrt (.rat 2 1))) (.par n!"GF")) (.ckm 1 0)) (.rat 4 1))))),
  (n!"V1udLL_1123", (.add (.mul (.mul (.div (.mul (.rat 4 1) (.par n!"GF")) (.sqrt (.rat 2 1))) (.mul (.ckm 2 2) (.conj (.ckm 2 1)))) (.inp n!"CVLL_bsuu")) (.div (.mul (.mul (.div (.mul (.rat 4 1) (.par n!"GF")) (.sqrt (.rat 2 1))) (.mul (.ckm 2 2) (.conj (.ckm 2 1)))) (.inp n!"CVLLt_bsuu")) (.rat 3 1)))),
  (n!"SeuRR_1111", (.div (.inp n!"CSRR_eeuu") (.div (.div (.sqrt (.rat 2 1)) (.par n!"GF")) (.rat 4 1)))),
  (n!"S8uuRR_1222", (.mul (.rat (-16) 1) (.mul (.mul (.div (.mul (.rat 4 1) (.par n!"GF")) (.sqrt (.rat 2 1))) (.mul (.conj (.ckm 1 2)) (.ckm 0 2))) (.inp n!"CTRR_cucc")))),
  (n!"VeuLL_2212", (.add (.neg (.div (.div (.inp n!"C10_cumumu") (.div (.mul (.rat 16 1) (.mul .pi .pi)) (.mul (.sqrt (.mul (.mul (.rat 4 1) .pi) (.par n!"alpha_e"))) (.sqrt (.mul (.mul (.rat 4 1) .pi) (.par n!"alpha_e")))))) (.div (.div (.div (.sqrt (.rat 2 1)) (.par n!"GF")) (.mul (.conj (.ckm 1 2)) (.ckm 0 2))) (.rat 4 1)))) (.div (.div (.inp n!"C9_cumumu") (.div (.mul (.rat 16 1) (.mul .pi .pi)) (.mul (.sqrt (.mul (.mul (.rat 4 1) .pi) (.par n!"alpha_e"))) (.sqrt (.mul (.mul (.rat 4 1) .pi) (.par n!"alpha_e")))))) (.div (.div (.div (.sqrt (.rat 2 1)) (.par n!"GF")) (.mul (.conj (.ckm 1 2)) (.ckm 0 2))) (.rat 4 1))))),
  (n!"V1udduLR_1221", (.div (.inp n!"CV1LR_ussu") (.div (.div (.sqrt (.rat 2 1)) (.par n!"GF")) (.rat 4 1)))),
  (n!"S1ddRR_1113", (.sub (.neg (.div (.mul (.rat 8 1) (.mul (.mul (.div (.mul (.rat 4 1) (.par n!"GF")) (.sqrt (.rat 2 1))) (.mul (.ckm 2 2) (.conj (.ckm 2 0)))) (.inp n!"CTRR_bddd"))) (.rat 3 1))) (.mul (.rat 8 1) (.add (.mul (.div (.rat (-1) 1) (.rat 8 1)) (.mul (.mul (.div (.mul (.rat 4 1) (.par n!"GF")) (.sqrt (.rat 2 1))) (.mul (.ckm 2 2) (.conj (.ckm 2 0)))) (.inp n!"CSRR_bddd"))) (.mul (.div (.rat 1 1) (.rat 2 1)) (.mul (.mul (.div (.mul (.rat 4 1) (.par n!"GF")) (.sqrt (.rat 2 1))) (.mul (.ckm 2 2) (.conj (.ckm 2 0)))) (.inp n!"CTRR_bddd"))))))),
  (n!"VdeLR_3311", (.div (.inp n!"CVLR_bbee") (.div (.div (.sqrt (.rat 2 1)) (.par n!"GF")) (.rat 4 1)))),
  (n!"VnudLL_2331", (.conj (.div (.div (.inp n!"CL_bdnumunutau") (.div (.mul (.rat 8 1) (.mul .pi .pi)) (.mul (.sqrt (.mul (.mul (.rat 4 1) .pi) (.par n!"alpha_e"))) (.sqrt (.mul (.mul (.rat 4 1) .pi) (.par n!"alpha_e")))))) (.div (.div (.div (.sqrt (.rat 2 1)) (.par n!"GF")) (.mul (.ckm 2 2) (.conj (.ckm 2 0)))) (.rat 4 1))))),
  (n!"TedRR_3323", (.add (.div (.rat 0 1) (.div (.div (.div (.sqrt (.rat 2 1)) (.par n!"GF")) (.mul (.ckm 2 2) (.conj (.ckm 2 1)))) (.rat 4 1))) (.div (.rat 0 1) (.div (.div (.div (.sqrt (.rat 2 1)) (.par n!"GF")) (.mul (.ckm 2 2) (.conj (.ckm 2 1)))) (.rat 4 1))))),
  (n!"VdeLR_1323", (.add (.div (.div (.inp n!"C10_bdtaumu") (.div (.mul (.rat 16 1) (.mul .pi .pi)) (.mul (.sqrt (.mul (.mul (.rat 4 1) .pi) (.par n!"alpha_e"))) (.sqrt (.mul (.mul (.rat 4 1) .pi) (.par n!"alpha_e")))))) (.div (.div (.div (.sqrt (.rat 2 1)) (.par n!"GF")) (.mul (.ckm 2 2) (.conj (.ckm 2 0)))) (.rat 4 1))) (.div (.div (.inp n!"C9_bdtaumu") (.div (.mul (.rat 16 1) (.mul .pi .pi)) (.mul (.sqrt (.mul (.mul (.rat 4 1) .pi) (.par n!"alpha_e"))) (.sqrt (.mul (.mul (.rat 4 1) .pi) (.par n!"alpha_e")))))) (.div (.div (.div (.sqrt (.rat 2 1)) (.par n!"GF")) (.mul (.ckm 2 2) (.conj (.ckm 2 0)))) (.rat 4 1))))),
  (n!"TnueduRR_2121", (.conj (.div (.inp n!"CT_suenumu") (.div (.div (.div (.neg (.sqrt (.rat 2 1))) (.par n!"GF")) (.ckm 0 1)) (.rat 4 1))))),
  (n!"VddLL_1113", (.mul (.mul (.div (.mul (.rat 4 1) (.par n!"GF")) (.sqrt (.rat 2 1))) (.mul (.ckm 2 2) (.conj (.ckm 2 0)))) (.inp n!"CVLL_bddd"))),
  (n!"SnueduRL_1132", (.conj (.div (.inp n!"CSR_bcenue") (.div (.div (.div (.neg (.sqrt (.rat 2 1))) (.par n!"GF")) (.ckm 1 2)) (.rat 4 1))))),
  (n!"SeeRR_1331", (.div (.inp n!"CSRR_etautaue") (.div (.div (.sqrt (.rat 2 1)) (.par n!"GF")) (.rat 4 1)))),
  (n!"TeuRR_3311", (.div (.inp n!"CTRR_tautauuu") (.div (.div (.sqrt (.rat 2 1)) (.par n!"GF")) (.rat 4 1)))),
  (n!"SedRL_1121", (.add (.neg (.conj (.div (.div (.inp n!"CP_sdee") (.div (.div (.mul (.rat 16 1) (.mul .pi .pi)) (.mul (.sqrt (.mul (.mul (.rat 4 1) .pi) (.par n!"alpha_e"))) (.sqrt (.mul (.mul (.rat 4 1) .pi) (.par n!"alpha_e"))))) (.par n!"m_s"))) (.div (.div (.div (.sqrt (.rat 2 1)) (.par n!"GF")) (.mul (.ckm 2 1) (.conj (.ckm 2 0)))) (.rat 4 1))))) (.conj (.div (.div (.inp n!"CS_sdee") (.div (.div (.mul (.rat 16 1) (.mul .pi .pi)) (.mul (.sqrt (.mul (.mul (.rat 4 1) .pi) (.par n!"alpha_e"))) (.sqrt (.mul (.mul (.rat 4 1) .pi) (.par n!"alpha_e"))))) (.par n!"m_s"))) (.div (.div (.div (.sqrt (.rat 2 1)) (.par n!"GF")) (.mul (.ckm 2 1) (.conj (.ckm 2 0)))) (.rat 4 1)))))),
  (n!"SnueduRR_1222", (.conj (.div (.inp n!"CSL_scmunue") (.div (.div (.div (.neg (.sqrt (.rat 2 1))) (.par n!"GF")) (.ckm 1 1)) (.rat 4 1))))),
  (n!"V8udLR_2213", (.mul (.rat 2 1) (.mul (.mul (.div (.mul (.rat 4 1) (.par n!"GF")) (.sqrt (.rat 2 1))) (.mul (.ckm 2 2) (.conj (.ckm 2 0)))) (.inp n!"CVRLt_bdcc")))),
  (n!"VedRR_3313", (.add (.div (.div (.inp n!"C10p_bdtautau") (.div (.mul (.rat 16 1) (.mul .pi .pi)) (.mul (.sqrt (.mul (.mul (.rat 4 1) .pi) (.par n!"alpha_e"))) (.sqrt (.mul (.mul (.rat 4 1) .pi) (.par n!"alpha_e")))))) (.div (.div (.div (.sqrt (.rat 2 1)) (.par n!"GF")) (.mul (.ckm 2 2) (.conj (.ckm 2 0)))) (.rat 4 1))) (.div (.div (.inp n!"C9p_bdtautau") (.div (.mul (.rat 16 1) (.mul .pi .pi)) (.mul (.sqrt (.mul (.mul (.rat 4 1) .pi) (.par n!"alpha_e"))) (.sqrt (.mul (.mul (.rat 4 1) .pi) (.par n!"alpha_e")))))) (.div (.div (.div (.sqrt (.rat 2 1)) (.par n!"GF")) (.mul (.ckm 2 2) (.conj (.ckm 2 0)))) (.rat 4 1))))),
  (n!"S8udduRR_2232", (.mul (.rat (-16) 1) (.conj (.mul (.mul (.div (.mul (.rat 4 1) (.par n!"GF")) (.sqrt (.rat 2 1))) (.mul (.ckm 2 2) (.conj (.ckm 2 1)))) (.inp n!"CTLL_bscc"))))),
  (n!"VeuLL_1122", (.div (.inp n!"CVLL_eecc") (.div (.div (.sqrt (.rat 2 1)) (.par n!"GF")) (.rat 4 1)))),
  (n!"SeuRR_3312", (.add (.div (.div (.inp n!"CP_cutautau") (.div (.div (.mul (.rat 16 1) (.mul .pi .pi)) (.mul (.sqrt (.mul (.mul (.rat 4 1) .pi) (.par n!"alpha_e"))) (.sqrt (.mul (.mul (.rat 4 1) .pi) (.par n!"alpha_e"))))) (.par n!"m_c"))) (.div (.div (.div (.sqrt (.rat 2 1)) (.par n!"GF")) (.mul (.conj (.ckm 1 2)) (.ckm 0 2))) (.rat 4 1))) (.div (.div (.inp n!"CS_cutautau") (.div (.div (.mul (.rat 16 1) (.mul .pi .pi)) (.mul (.sqrt (.mul (.mul (.rat 4 1) .pi) (.par n!"alpha_e"))) (.sqrt (.mul (.mul (.rat 4 1) .pi) (.par n!"alpha_e"))))) (.par n!"m_c"))) (.div (.div (.div (.sqrt (.rat 2 1)) (.par n!"GF")) (.mul (.conj (.ckm 1 2)) (.ckm 0 2))) (.rat 4 1))))),
  (n!"VnueLL_2222", (.div (.inp n!"CVLL_numunumumumu") (.div (.div (.sqrt (.rat 2 1)) (.par n!"GF")) (.rat 4 1)))),
  (n!"TnueduRR_1311", (.conj (.div (.inp n!"CT_dutaunue") (.div (.div (.div (.neg (.sqrt (.rat 2 1))) (.par n!"GF")) (.ckm 0 0)) (.rat 4 1))))),
  (n!"VedLL_2312", (.add (.neg (.div (.div (.inp n!"C10_sdtaumu") (.div (.mul (.rat 16 1) (.mul .pi .pi)) (.mul (.sqrt (.mul (.mul (.rat 4 1) .pi) (.par n!"alpha_e"))) (.sqrt (.mul (.mul (.rat 4 1) .pi) (.par n!"alpha_e")))))) (.div (.div (.div (.sqrt (.rat 2 1)) (.par n!"GF")) (.mul (.ckm 2 1) (.conj (.ckm 2 0)))) (.rat 4 1)))) (.div (.div (.inp n!"C9_sdtaumu") (.div (.mul (.rat 16 1) (.mul .pi .pi)) (.mul (.sqrt (.mul (.mul (.rat 4 1) .pi) (.par n!"alpha_e"))) (.sqrt (.mul (.mul (.rat 4 1) .pi) (.par n!"alpha_e")))))) (.div (.div (.div (.sqrt (.rat 2 1)) (.par n!"GF")) (.mul (.ckm 2 1) (.conj (.ckm 2 0)))) (.rat 4 1))))),
  (n!"V1udRR_2212", (.add (.mul (.mul (.div (.mul (.rat 4 1) (.par n!"GF")) (.sqrt (.rat 2 1))) (.mul (.ckm 2 1) (.conj (.ckm 2 0)))) (.inp n!"CVRR_sdcc")) (.div (.mul (.mul (.div (.mul (.rat 4 1) (.par n!"GF")) (.sqrt (.rat 2 1))) (.mul (.ckm 2 1) (.conj (.ckm 2 0)))) (.inp n!"CVRRt_sdcc")) (.rat 3 1)))),
  (n!"V8ddLR_1112", (.mul (.rat 2 1) (.mul (.div (.rat (-1) 1) (.rat 2 1)) (.mul (.mul (.div (.mul (.rat 4 1) (.par n!"GF")) (.sqrt (.rat 2 1))) (.mul (.ckm 2 1) (.conj (.ckm 2 0)))) (.inp n!"CSRL_sddd"))))),
  (n!"S1ddRR_2232", (.sub (.neg (.div (.mul (.rat 8 1) (.conj (.mul (.mul (.div (.mul (.rat 4 1) (.par n!"GF")) (.sqrt (.rat 2 1))) (.mul (.ckm 2 2) (.conj (.ckm 2 1)))) (.inp n!"CTLL_bsss")))) (.rat 3 1))) (.mul (.rat 8 1) (.conj (.add (.mul (.div (.rat (-1) 1) (.rat 8 1)) (.mul (.mul (.div (.mul (.rat 4 1) (.par n!"GF")) (.sqrt (.rat 2 1))) (.mul (.ckm 2 2) (.conj (.ckm 2 1)))) (.inp n!"CSLL_bsss"))) (.mul (.div (.rat 1 1) (.rat 2 1)) (.mul (.mul (.div (.mul (.rat 4 1) (.par n!"GF")) (.sqrt (.rat 2 1))) (.mul (.ckm 2 2) (.conj (.ckm 2 1)))) (.inp n!"CTLL_bsss")))))))),
  (n!"V8ddLR_1333", (.neg (.mul (.mul (.div (.mul (.rat 4 1) (.par n!"GF")) (.sqrt (.rat 2 1))) (.mul (.ckm 2 2) (.conj (.ckm 2 0)))) (.inp n!"CSRL_bdbb")))),
  (n!"ugamma_21", (.conj (.div (.div (.inp n!"C7p_cu") (.div (.div (.mul (.rat 16 1) (.mul .pi .pi)) (.sqrt (.mul (.mul (.rat 4 1) .pi) (.par n!"alpha_e")))) (.par n!"m_c"))) (.div (.div (.div (.sqrt (.rat 2 1)) (.par n!"GF")) (.mul (.conj (.ckm 1 2)) (.ckm 0 2))) (.rat 4 1))))),
  (n!"S1uuRR_1112", (.sub (.neg (.div (.mul (.rat 8 1) (.mul (.mul (.div (.mul (.rat 4 1) (.par n!"GF")) (.sqrt (.rat 2 1))) (.mul (.conj (.ckm 1 2)) (.ckm 0 2))) (.inp n!"CTRR_cuuu"))) (.rat 3 1))) (.mul (.rat 8 1) (.add (.mul (.div (.rat (-1) 1) (.rat 8 1)) (.mul (.mul (.div (.mul (.rat 4 1) (.par n!"GF")) (.sqrt (.rat 2 1))) (.mul (.conj (.ckm 1 2)) (.ckm 0 2))) (.inp n!"CSRR_cuuu"))) (.mul (.div (.rat 1 1) (.rat 2 1)) (.mul (.mul (.div (.mul (.rat 4 1) (.par n!"GF")) (.sqrt (.rat 2 1))) (.mul (.conj (.ckm 1 2)) (.ckm 0 2))) (.inp n!"CTRR_cuuu"))))))),
  (n!"VnueduLL_3131", (.conj (.div (.inp n!"CVL_buenutau") (.div (.div (.div (.neg (.sqrt (.rat 2 1))) (.par n!"GF")) (.ckm 0 2)) (.rat 4 1))))),
  (n!"V1udLL_1211", (.add (.mul (.mul (.div (.mul (.rat 4 1) (.par n!"GF")) (.sqrt (.rat 2 1))) (.mul (.conj (.ckm 1 2)) (.ckm 0 2))) (.inp n!"CVLL_cudd")) (.div (.mul (.mul (.div (.mul (.rat 4 1) (.par n!"GF")) (.sqrt (.rat 2 1))) (.mul (.conj (.ckm 1 2)) (.ckm 0 2))) (.inp n!"CVLLt_cudd")) (.rat 3 1)))),
  (n!"V1ddLR_1231", (.conj (.sub (.neg (.div (.mul (.mul (.div (.mul (.rat 4 1) (.par n!"GF")) (.sqrt (.rat 2 1))) (.mul (.ckm 2 2) (.conj (.ckm 2 1)))) (.inp n!"CSRL_bsdd")) (.mul (.rat 2 1) (.rat 3 1)))) (.div (.mul (.mul (.div (.mul (.rat 4 1) (.par n!"GF")) (.sqrt (.rat 2 1))) (.mul (.ckm 2 2) (.conj (.ckm 2 1)))) (.inp n!"CSRLt_bsdd")) (.rat 2 1)))))]

def flavio_to_JMS_8 : List (ℕ × Sym) := [
  (n!"TedRR_2233", (.div (.inp n!"CTRR_mumubb") (.div (.div (.sqrt (.rat 2 1)) (.par n!"GF")) (.rat 4 1)))),
  (n!"SnueduRL_3112", (.conj (.div (.inp n!"CSR_dcenutau") (.div (.div (.div (.neg (.sqrt (.rat 2 1))) (.par n!"GF")) (.ckm 1 0)) (.rat 4 1))))),
  (n!"VnudLL_2323", (.div (.div (.inp n!"CL_bsnutaunumu") (.div (.mul (.rat 8 1) (.mul .pi .pi)) (.mul (.sqrt (.mul (.mul (.rat 4 1) .pi) (.par n!"alpha_e"))) (.sqrt (.mul (.mul (.rat 4 1) .pi) (.par n!"alpha_e")))))) (.div (.div (.div (.sqrt (.rat 2 1)) (.par n!"GF")) (.mul (.ckm 2 2) (.conj (.ckm 2 1)))) (.rat 4 1)))),
  (n!"VuuLL_1112", (.mul (.mul (.div (.mul (.rat 4 1) (.par n!"GF")) (.sqrt (.rat 2 1))) (.mul (.conj (.ckm 1 2)) (.ckm 0 2))) (.inp n!"CVLL_cuuu"))),
  (n!"VnueduLR_3221", (.conj (.div (.inp n!"CVR_sumunutau") (.div (.div (.div (.neg (.sqrt (.rat 2 1))) (.par n!"GF")) (.ckm 0 1)) (.rat 4 1))))),
  (n!"VnudLR_1331", (.conj (.div (.div (.inp n!"CR_bdnuenutau") (.div (.mul (.rat 8 1) (.mul .pi .pi)) (.mul (.sqrt (.mul (.mul (.rat 4 1) .pi) (.par n!"alpha_e"))) (.sqrt (.mul (.mul (.rat 4 1) .pi) (.par n!"alpha_e")))))) (.div (.div (.div (.sqrt (.rat 2 1)) (.par n!"GF")) (.mul (.ckm 2 2) (.conj (.ckm 2 0)))) (.rat 4 1))))),
  (n!"TeuRR_2221", (.sub (.conj (.div (.rat 0 1) (.div (.div (.div (.sqrt (.rat 2 1)) (.par n!"GF")) (.mul (.conj (.ckm 1 2)) (.ckm 0 2))) (.rat 4 1)))) (.conj (.div (.rat 0 1) (.div (.div (.div (.sqrt (.rat 2 1)) (.par n!"GF")) (.mul (.conj (.ckm 1 2)) (.ckm 0 2))) (.rat 4 1)))))),
  (n!"VnuuLL_2311", (.div (.inp n!"CVLL_numunutauuu") (.div (.div (.sqrt (.rat 2 1)) (.par n!"GF")) (.rat 4 1)))),
  (n!"S8ddRR_3232", (.mul (.rat 2 1) (.conj (.mul (.rat (-8) 1) (.inp n!"CTLL_bsbs"))))),
  (n!"SedRL_3322", (.div (.inp n!"CSRL_tautauss") (.div (.div (.sqrt (.rat 2 1)) (.par n!"GF")) (.rat 4 1)))),
  (n!"V8udLR_1123", (.mul (.rat 2 1) (.mul (.mul (.div (.mul (.rat 4 1) (.par n!"GF")) (.sqrt (.rat 2 1))) (.mul (.ckm 2 2) (.conj (.ckm 2 1)))) (.inp n!"CVRLt_bsuu")))),
  (n!"VnueduLL_2321", (.conj (.div (.inp n!"CVL_sutaunumu") (.div (.div (.div (.neg (.sqrt (.rat 2 1))) (.par n!"GF")) (.ckm 0 1)) (.rat 4 1))))),
  (n!"VedRR_2223", (.add (.div (.div (.inp n!"C10p_bsmumu") (.div (.mul (.rat 16 1) (.mul .pi .pi)) (.mul (.sqrt (.mul (.mul (.rat 4 1) .pi) (.par n!"alpha_e"))) (.sqrt (.mul (.mul (.rat 4 1) .pi) (.par n!"alpha_e")))))) (.div (.div (.div (.sqrt (.rat 2 1)) (.par n!"GF")) (.mul (.ckm 2 2) (.conj (.ckm 2 1)))) (.rat 4 1))) (.div (.div (.inp n!"C9p_bsmumu") (.div (.mul (.rat 16 1) (.mul .pi .pi)) (.mul (.sqrt (.mul (.mul (.rat 4 1) .pi) (.par n!"alpha_e"))) (.sqrt (.mul (.mul (.rat 4 1) .pi) (.par n!"alpha_e")))))) (.div (.div (.div (.sqrt (.rat 2 1)) (.par n!"GF")) (.mul (.ckm 2 2) (.conj (.ckm 2 1)))) (.rat 4 1))))),
  (n!"SedRL_1113", (.add (.div (.div (.inp n!"CPp_bdee") (.div (.div (.mul (.rat 16 1) (.mul .pi .pi)) (.mul (.sqrt (.mul (.mul (.rat 4 1) .pi) (.par n!"alpha_e"))) (.sqrt (.mul (.mul (.rat 4 1) .pi) (.par n!"alpha_e"))))) (.par n!"m_b"))) (.div (.div (.div (.sqrt (.rat 2 1)) (.par n!"GF")) (.mul (.ckm 2 2) (.conj (.ckm 2 0)))) (.rat 4 1))) (.div (.div (.inp n!"CSp_bdee") (.div (.div (.mul (.rat 16 1) (.mul .pi .pi)) (.mul (.sqrt (.mul (.mul (.rat 4 1) .pi) (.par n!"alpha_e"))) (.sqrt (.mul (.mul (.rat 4 1) .pi) (.par n!"alpha_e"))))) (.par n!"m_b"))) (.div (.div (.div (.sqrt (.rat 2 1)) (.par n!"GF")) (.mul (.ckm 2 2) (.conj (.ckm 2 0)))) (.rat 4 1))))),
  (n!"V8udLL_2211", (.div (.inp n!"CV8LL_ccdd") (.div (.div (.sqrt (.rat 2 1)) (.par n!"GF")) (.rat 4 1)))),
  (n!"SeuRR_2222", (.div (.inp n!"CSRR_mumucc") (.div (.div (.sqrt (.rat 2 1)) (.par n!"GF")) (.rat 4 1)))),
  (n!"V1udRR_1122", (.div (.inp n!"CV1RR_uuss") (.div (.div (.sqrt (.rat 2 1)) (.par n!"GF")) (.rat 4 1)))),
  (n!"V1udduLR_2111", (.sub (.neg (.div (.conj (.mul (.mul (.div (.mul (.rat 4 1) (.par n!"GF")) (.sqrt (.rat 2 1))) (.mul (.conj (.ckm 1 2)) (.ckm 0 2))) (.inp n!"CSLR_cudd"))) (.mul (.rat 2 1) (.rat 3 1)))) (.div (.conj (.mul (.mul (.div (.mul (.rat 4 1) (.par n!"GF")) (.sqrt (.rat 2 1))) (.mul (.conj (.ckm 1 2)) (.ckm 0 2))) (.inp n!"CSLRt_cudd"))) (.rat 2 1)))),
  (n!"V8uuLR_1111", (.div (.inp n!"CV8LR_uuuu") (.div (.div (.sqrt (.rat 2 1)) (.par n!"GF")) (.rat 4 1)))),
  (n!"VeuRR_2211", (.div (.inp n!"CVRR_mumuuu") (.div (.div (.sqrt (.rat 2 1)) (.par n!"GF")) (.rat 4 1)))),
  (n!"TedRR_3131", (.sub (.conj (.div (.rat 0 1) (.div (.div (.div (.sqrt (.rat 2 1)) (.par n!"GF")) (.mul (.ckm 2 2) (.conj (.ckm 2 0)))) (.rat 4 1)))) (.conj (.div (.rat 0 1) (.div (.div (.div (.sqrt (.rat 2 1)) (.par n!"GF")) (.mul (.ckm 2 2) (.conj (.ckm 2 0)))) (.rat 4 1)))))),
  (n!"V8ddLR_3313", (.neg (.mul (.mul (.div (.mul (.rat 4 1) (.par n!"GF")) (.sqrt (.rat 2 1))) (.mul (.ckm 2 2) (.conj (.ckm 2 0)))) (.inp n!"CSLR_bdbb")))),
  (n!"V1udduLR_2332", (.div (.inp n!"CV1LR_cbbc") (.div (.div (.sqrt (.rat 2 1)) (.par n!"GF")) (.rat 4 1)))),
  (n!"VnueLR_1222", (.div (.inp n!"CVLR_nuenumumumu") (.div (.div (.sqrt (.rat 2 1)) (.par n!"GF")) (.rat 4 1)))),
  (n!"S1udduRR_1231", (.sub (.neg (.div (.mul (.rat 8 1) (.conj (.mul (.mul (.div (.mul (.rat 4 1) (.par n!"GF")) (.sqrt (.rat 2 1))) (.mul (.ckm 2 2) (.conj (.ckm 2 1)))) (.inp n!"CTLL_bsuu")))) (.rat 3 1))) (.mul (.rat 8 1) (.conj (.mul (.mul (.div (.mul (.rat 4 1) (.par n!"GF")) (.sqrt (.rat 2 1))) (.mul (.ckm 2 2) (.conj (.ckm 2 1)))) (.inp n!"CTLLt_bsuu")))))),
  (n!"VedLR_1312", (.add (.neg (.div (.div (.inp n!"C10p_sdtaue") (.div (.mul (.rat 16 1) (.mul .pi .pi)) (.mul (.sqrt (.mul (.mul (.rat 4 1) .pi) (.par n!"alpha_e"))) (.sqrt (.mul (.mul (.rat 4 1) .pi) (.par n!"alpha_e")))))) (.div (.div (.div (.sqrt (.rat 2 1)) (.par n!"GF")) (.mul (.ckm 2 1) (.conj (.ckm 2 0)))) (.rat 4 1)))) (.div (.div (.inp n!"C9p_sdtaue") (.div (.mul (.rat 16 1) (.mul .pi .pi)) (.mul (.sqrt (.mul (.mul (.rat 4 1) .pi) (.par n!"alpha_e"))) (.sqrt (.mul (.mul (.rat 4 1) .pi) (.par n!"alpha_e")))))) (.div (.div (.div (.sqrt (.rat 2 1)) (.par n!"GF")) (.mul (.ckm 2 1) (.conj (.ckm 2 0)))) (.rat 4 1))))),
  (n!"VnudLL_1233", (.div (.inp n!"CVLL_nuenumubb") (.div (.div (.sqrt (.rat 2 1)) (.par n!"GF")) (.rat 4 1)))),
  (n!"SedRR_3132", (.add (.neg (.conj (.div (.div (.inp n!"CPp_bstaue") (.div (.div (.mul (.rat 16 1) (.mul .pi .pi)) (.mul (.sqrt (.mul (.mul (.rat 4 1) .pi) (.par n!"alpha_e"))) (.sqrt (.mul (.mul (.rat 4 1) .pi) (.par n!"alpha_e"))))) (.par n!"m_b"))) (.div (.div (.div (.sqrt (.rat 2 1)) (.par n!"GF")) (.mul (.ckm 2 2) (.conj (.ckm 2 1)))) (.rat 4 1))))) (.conj (.div (.div (.inp n!"CSp_bstaue") (.div (.div (.mul (.rat 16 1) (.mul .pi .pi)) (.mul (.sqrt (.mul (.mul (.rat 4 1) .pi) (.par n!"alpha_e"))) (.sqrt (.mul (.mul (.rat 4 1) .pi) (.par n!"alpha_e"))))) (.par n!"m_b"))) (.div (.div (.div (.sqrt (.rat 2 1)) (.par n!"GF")) (.mul (.ckm 2 2) (.conj (.ckm 2 1)))) (.rat 4 1)))))),
  (n!"VnueduLR_2131", (.conj (.div (.inp n!"CVR_buenumu") (.div (.div (.div (.neg (.sqrt (.rat 2 1))) (.par n!"GF")) (.ckm 0 2)) (.rat 4 1))))),
  (n!"V1ddLR_1223", (.sub (.neg (.div (.mul (.mul (.div (.mul (.rat 4 1) (.par n!"GF")) (.sqrt (.rat 2 1))) (.mul (.ckm 2 2) (.conj (.ckm 2 0)))) (.inp n!"CSRL_bdss")) (.mul (.rat 2 1) (.rat 3 1)))) (.div (.mul (.mul (.div (.mul (.rat 4 1) (.par n!"GF")) (.sqrt (.rat 2 1))) (.mul (.ckm 2 2) (.conj (.ckm 2 0)))) (.inp n!"CSRLt_bdss")) (.rat 2 1)))),
  (n!"VnudLR_3311", (.div (.inp n!"CVLR_nutaunutaudd") (.div (.div (.sqrt (.rat 2 1)) (.par n!"GF")) (.rat 4 1)))),
  (n!"TnueduRR_3232", (.conj (.div (.inp n!"CT_bcmunutau") (.div (.div (.div (.neg (.sqrt (.rat 2 1))) (.par n!"GF")) (.ckm 1 2)) (.rat 4 1))))),
  (n!"VddRR_1112", (.mul (.mul (.div (.mul (.rat 4 1) (.par n!"GF")) (.sqrt (.rat 2 1))) (.mul (.ckm 2 1) (.conj (.ckm 2 0)))) (.inp n!"CVRR_sddd"))),
  (n!"TedRR_2321", (.sub (.conj (.div (.rat 0 1) (.div (.div (.div (.sqrt (.rat 2 1)) (.par n!"GF")) (.mul (.ckm 2 1) (.conj (.ckm 2 0)))) (.rat 4 1)))) (.conj (.div (.rat 0 1) (.div (.div (.div (.sqrt (.rat 2 1)) (.par n!"GF")) (.mul (.ckm 2 1) (.conj (.ckm 2 0)))) (.rat 4 1)))))),
  (n!"SnueduRR_2112", (.conj (.div (.inp n!"CSL_dcenumu") (.div (.div (.div (.neg (.sqrt (.rat 2 1))) (.par n!"GF")) (.ckm 1 0)) (.rat 4 1))))),
  (n!"VnudLR_1323", (.div (.div (.inp n!"CR_bsnutaunue") (.div (.mul (.rat 8 1) (.mul .pi .pi)) (.mul (.sqrt (.mul (.mul (.rat 4 1) .pi) (.par n!"alpha_e"))) (.sqrt (.mul (.mul (.rat 4 1) .pi) (.par n!"alpha_e")))))) (.div (.div (.div (.sqrt (.rat 2 1)) (.par n!"GF")) (.mul (.ckm 2 2) (.conj (.ckm 2 1)))) (.rat 4 1)))),
  (n!"VddRR_1333", (.mul (.mul (.div (.mul (.rat 4 1) (.par n!"GF")) (.sqrt (.rat 2 1))) (.mul (.ckm 2 2) (.conj (.ckm 2 0)))) (.inp n!"CVRR_bdbb"))),
  (n!"SedRL_2232", (.add (.neg (.conj (.div (.div (.inp n!"CP_bsmumu") (.div (.div (.mul (.rat 16 1) (.mul .pi .pi)) (.mul (.sqrt (.mul (.mul (.rat 4 1) .pi) (.par n!"alpha_e"))) (.sqrt (.mul (.mul (.rat 4 1) .pi) (.par n!"alpha_e"))))) (.par n!"m_b"))) (.div (.div (.div (.sqrt (.rat 2 1)) (.par n!"GF")) (.mul (.ckm 2 2) (.conj (.ckm 2 1)))) (.rat 4 1))))) (.conj (.div (.div (.inp n!"CS_bsmumu") (.div (.div (.mul (.rat 16 1) (.mul .pi .pi)) (.mul (.sqrt (.mul (.mul (.rat 4 1) .pi) (.par n!"alpha_e"))) (.sqrt (.mul (.mul (.rat 4 1) .pi) (.par n!"alpha_e"))))) (.par n!"m_b"))) (.div (.div (.div (.sqrt (.rat 2 1)) (.par n!"GF")) (.mul (.ckm 2 2) (.conj (.ckm 2 1)))) (.rat 4 1)))))),
  (n!"V1duLR_1211", (.add (.mul (.mul (.div (.mul (.rat 4 1) (.par n!"GF")) (.sqrt (.rat 2 1))) (.mul (.ckm 2 1) (.conj (.ckm 2 0)))) (.inp n!"CVLR_sduu")) (.div (.mul (.mul (.div (.mul (.rat 4 1) (.par n!"GF")) (.sqrt (.rat 2 1))) (.mul (.ckm 2 1) (.conj (.ckm 2 0)))) (.inp n!"CVLRt_sduu")) (.rat 3 1)))),
  (n!"VnueduLL_1231", (.conj (.div (.inp n!"CVL_bumunue") (.div (.div (.div (.neg (.sqrt (.rat 2 1))) (.par n!"GF")) (.ckm 0 2)) (.rat 4 1))))),
  (n!"VedRR_1133", (.div (.inp n!"CVRR_eebb") (.div (.div (.sqrt (.rat 2 1)) (.par n!"GF")) (.rat 4 1)))),
  (n!"S8udRR_2212", (.sub (.mul (.rat 2 1) (.mul (.mul (.div (.mul (.rat 4 1) (.par n!"GF")) (.sqrt (.rat 2 1))) (.mul (.ckm 2 1) (.conj (.ckm 2 0)))) (.inp n!"CSRRt_sdcc"))) (.mul (.rat 8 1) (.mul (.mul (.div (.mul (.rat 4 1) (.par n!"GF")) (.sqrt (.rat 2 1))) (.mul (.ckm 2 1) (.conj (.ckm 2 0)))) (.inp n!"CTRRt_sdcc"))))),
  (n!"VnuuLR_1311", (.div (.inp n!"CVLR_nuenutauuu") (.div (.div (.sqrt (.rat 2 1)) (.par n!"GF")) (.rat 4 1)))),
  (n!"SnueduRL_1212", (.conj (.div (.inp n!"CSR_dcmunue") (.div (.div (.div (.neg (.sqrt (.rat 2 1))) (.par n!"GF")) (.ckm 1 0)) (.rat 4 1))))),
  (n!"VnueduLR_1321", (.conj (.div (.inp n!"CVR_sutaunue") (.div (.div (.div (.neg (.sqrt (.rat 2 1))) (.par n!"GF")) (.ckm 0 1)) (.rat 4 1))))),
  (n!"VnueLL_3333", (.div (.inp n!"CVLL_nutaunutautautau") (.div (.div (.sqrt (.rat 2 1)) (.par n!"GF")) (.rat 4 1)))),
  (n!"V8ddLR_2223", (.mul (.rat 2 1) (.mul (.div (.rat (-1) 1) (.rat 2 1)) (.mul (.mul (.div (.mul (.rat 4 1) (.par n!"GF")) (.sqrt (.rat 2 1))) (.mul (.ckm 2 2) (.conj (.ckm 2 1)))) (.inp n!"CSRL_bsss"))))),
  (n!"V8udLR_1211", (.mul (.rat 2 1) (.mul (.mul (.div (.mul (.rat 4 1) (.par n!"GF")) (.sqrt (.rat 2 1))) (.mul (.conj (.ckm 1 2)) (.ckm 0 2))) (.inp n!"CVLRt_cudd")))),
  (n!"S8ddRR_1111", (.div (.inp n!"CS8RR_dddd") (.div (.div (.sqrt (.rat 2 1)) (.par n!"GF")) (.rat 4 1)))),
  (n!"V8udduLR_2331", (.neg (.conj (.mul (.mul (.div (.mul (.rat 4 1) (.par n!"GF")) (.sqrt (.rat 2 1))) (.mul (.conj (.ckm 1 2)) (.ckm 0 2))) (.inp n!"CSLR_cubb")))))]

def flavio_to_JMS_9 : List (ℕ × Sym) := [
  (n!"TedRR_3123", (.add (.div (.rat 0 1) (.div (.div (.div (.sqrt (.rat 2 1)) (.par n!"GF")) (.mul (.ckm 2 2) (.conj (.ckm 2 1)))) (.rat 4 1))) (.div (.rat 0 1) (.div (.div (.div (.sqrt (.rat 2 1)) (.par n!"GF")) (.mul (.ckm 2 2) (.conj (.ckm 2 1)))) (.rat 4 1))))),
  (n!"S8ddRR_1332", (.mul (.rat (-16) 1) (.mul (.mul (.div (.mul (.rat 4 1) (.par n!"GF")) (.sqrt (.rat 2 1))) (.mul (.ckm 2 1) (.conj (.ckm 2 0)))) (.inp n!"CTRR_sdbb")))),
  (n!"V8duLR_2211", (.div (.inp n!"CV8LR_ssuu") (.div (.div (.sqrt (.rat 2 1)) (.par n!"GF")) (.rat 4 1)))),
  (n!"S8udduRR_2312", (.mul (.rat (-16) 1) (.mul (.mul (.div (.mul (.rat 4 1) (.par n!"GF")) (.sqrt (.rat 2 1))) (.mul (.ckm 2 2) (.conj (.ckm 2 0)))) (.inp n!"CTRR_bdcc")))),
  (n!"V1uuLR_1222", (.sub (.neg (.div (.mul (.mul (.div (.mul (.rat 4 1) (.par n!"GF")) (.sqrt (.rat 2 1))) (.mul (.conj (.ckm 1 2)) (.ckm 0 2))) (.inp n!"CSRL_cucc")) (.mul (.rat 2 1) (.rat 3 1)))) (.div (.mul (.rat (-2) 1) (.mul (.mul (.div (.mul (.rat 4 1) (.par n!"GF")) (.sqrt (.rat 2 1))) (.mul (.conj (.ckm 1 2)) (.ckm 0 2))) (.inp n!"CVLR_cucc"))) (.rat 2 1)))),
  (n!"dgamma_31", (.conj (.div (.div (.inp n!"C7p_bd") (.div (.div (.mul (.rat 16 1) (.mul .pi .pi)) (.sqrt (.mul (.mul (.rat 4 1) .pi) (.par n!"alpha_e")))) (.par n!"m_b"))) (.div (.div (.div (.sqrt (.rat 2 1)) (.par n!"GF")) (.mul (.ckm 2 2) (.conj (.ckm 2 0)))) (.rat 4 1))))),
  (n!"VuuRR_1111", (.div (.inp n!"CVRR_uuuu") (.div (.div (.sqrt (.rat 2 1)) (.par n!"GF")) (.rat 4 1)))),
  (n!"SnueduRR_3231", (.conj (.div (.inp n!"CSL_bumunutau") (.div (.div (.div (.neg (.sqrt (.rat 2 1))) (.par n!"GF")) (.ckm 0 2)) (.rat 4 1))))),
  (n!"TedRR_1231", (.sub (.conj (.div (.rat 0 1) (.div (.div (.div (.sqrt (.rat 2 1)) (.par n!"GF")) (.mul (.ckm 2 2) (.conj (.ckm 2 0)))) (.rat 4 1)))) (.conj (.div (.rat 0 1) (.div (.div (.div (.sqrt (.rat 2 1)) (.par n!"GF")) (.mul (.ckm 2 2) (.conj (.ckm 2 0)))) (.rat 4 1)))))),
  (n!"VnueduLL_3211", (.conj (.div (.inp n!"CVL_dumunutau") (.div (.div (.div (.neg (.sqrt (.rat 2 1))) (.par n!"GF")) (.ckm 0 0)) (.rat 4 1))))),
  (n!"VnudLL_1321", (.conj (.div (.div (.inp n!"CL_sdnuenutau") (.div (.mul (.rat 8 1) (.mul .pi .pi)) (.mul (.sqrt (.mul (.mul (.rat 4 1) .pi) (.par n!"alpha_e"))) (.sqrt (.mul (.mul (.rat 4 1) .pi) (.par n!"alpha_e")))))) (.div (.div (.div (.sqrt (.rat 2 1)) (.par n!"GF")) (.mul (.ckm 2 1) (.conj (.ckm 2 0)))) (.rat 4 1))))),
  (n!"V1ddLR_1311", (.sub (.neg (.div (.mul (.mul (.div (.mul (.rat 4 1) (.par n!"GF")) (.sqrt (.rat 2 1))) (.mul (.ckm 2 2) (.conj (.ckm 2 0)))) (.inp n!"CSLR_bddd")) (.mul (.rat 2 1) (.rat 3 1)))) (.div (.mul (.rat (-2) 1) (.mul (.mul (.div (.mul (.rat 4 1) (.par n!"GF")) (.sqrt (.rat 2 1))) (.mul (.ckm 2 2) (.conj (.ckm 2 0)))) (.inp n!"CVLR_bddd"))) (.rat 2 1)))),
  (n!"TedRR_2313", (.add (.div (.rat 0 1) (.div (.div (.div (.sqrt (.rat 2 1)) (.par n!"GF")) (.mul (.ckm 2 2) (.conj (.ckm 2 0)))) (.rat 4 1))) (.div (.rat 0 1) (.div (.div (.div (.sqrt (.rat 2 1)) (.par n!"GF")) (.mul (.ckm 2 2) (.conj (.ckm 2 0)))) (.rat 4 1))))),
  (n!"S8udRR_1122", (.div (.inp n!"CS8RR_uuss") (.div (.div (.sqrt (.rat 2 1)) (.par n!"GF")) (.rat 4 1)))),
  (n!"TnueduRR_1111", (.conj (.div (.inp n!"CT_duenue") (.div (.div (.div (.neg (.sqrt (.rat 2 1))) (.par n!"GF")) (.ckm 0 0)) (.rat 4 1))))),
  (n!"SnueduRL_2331", (.conj (.div (.inp n!"CSR_butaunumu") (.div (.div (.div (.neg (.sqrt (.rat 2 1))) (.par n!"GF")) (.ckm 0 2)) (.rat 4 1))))),
  (n!"V8udLL_1113", (.mul (.rat 2 1) (.mul (.mul (.div (.mul (.rat 4 1) (.par n!"GF")) (.sqrt (.rat 2 1))) (.mul (.ckm 2 2) (.conj (.ckm 2 0)))) (.inp n!"CVLLt_bduu")))),
  (n!"SedRR_1232", (.add (.neg (.conj (.div (.div (.inp n!"CPp_bsemu") (.div (.div (.mul (.rat 16 1) (.mul .pi .pi)) (.mul (.sqrt (.mul (.mul (.rat 4 1) .pi) (.par n!"alpha_e"))) (.sqrt (.mul (.mul (.rat 4 1) .pi) (.par n!"alpha_e"))))) (.par n!"m_b"))) (.div (.div (.div (.sqrt (.rat 2 1)) (.par n!"GF")) (.mul (.ckm 2 2) (.conj (.ckm 2 1)))) (.rat 4 1))))) (.conj (.div (.div (.inp n!"CSp_bsemu") (.div (.div (.mul (.rat 16 1) (.mul .pi .pi)) (.mul (.sqrt (.mul (.mul (.rat 4 1) .pi) (.par n!"alpha_e"))) (.sqrt (.mul (.mul (.rat 4 1) .pi) (.par n!"alpha_e"))))) (.par n!"m_b"))) (.div (.div (.div (.sqrt (.rat 2 1)) (.par n!"GF")) (.mul (.ckm 2 2) (.conj (.ckm 2 1)))) (.rat 4 1)))))),
  (n!"TnueduRR_1332", (.conj (.div (.inp n!"CT_bctaunue") (.div (.div (.div (.neg (.sqrt (.rat 2 1))) (.par n!"GF")) (.ckm 1 2)) (.rat 4 1))))),
  (n!"V1udRR_2233", (.div (.inp n!"CV1RR_ccbb") (.div (.div (.sqrt (.rat 2 1)) (.par n!"GF")) (.rat 4 1)))),
  (n!"V8ddLR_1133", (.div (.inp n!"CV8LR_ddbb") (.div (.div (.sqrt (.rat 2 1)) (.par n!"GF")) (.rat 4 1)))),
  (n!"V8uuLR_2222", (.div (.inp n!"CV8LR_cccc") (.div (.div (.sqrt (.rat 2 1)) (.par n!"GF")) (.rat 4 1)))),
  (n!"VedRR_1221", (.conj (.add (.div (.div (.inp n!"C10p_sdemu") (.div (.mul (.rat 16 1) (.mul .pi .pi)) (.mul (.sqrt (.mul (.mul (.rat 4 1) .pi) (.par n!"alpha_e"))) (.sqrt (.mul (.mul (.rat 4 1) .pi) (.par n!"alpha_e")))))) (.div (.div (.div (.sqrt (.rat 2 1)) (.par n!"GF")) (.mul (.ckm 2 1) (.conj (.ckm 2 0)))) (.rat 4 1))) (.div (.div (.inp n!"C9p_sdemu") (.div (.mul (.rat 16 1) (.mul .pi .pi)) (.mul (.sqrt (.mul (.mul (.rat 4 1) .pi) (.par n!"alpha_e"))) (.sqrt (.mul (.mul (.rat 4 1) .pi) (.par n!"alpha_e")))))) (.div (.div (.div (.sqrt (.rat 2 1)) (.par n!"GF")) (.mul (.ckm 2 1) (.conj (.ckm 2 0)))) (.rat 4 1)))))),
  (n!"VeuRR_3322", (.div (.inp n!"CVRR_tautaucc") (.div (.div (.sqrt (.rat 2 1)) (.par n!"GF")) (.rat 4 1)))),
  (n!"SeuRL_2212", (.add (.div (.div (.inp n!"CPp_cumumu") (.div (.div (.mul (.rat 16 1) (.mul .pi .pi)) (.mul (.sqrt (.mul (.mul (.rat 4 1) .pi) (.par n!"alpha_e"))) (.sqrt (.mul (.mul (.rat 4 1) .pi) (.par n!"alpha_e"))))) (.par n!"m_c"))) (.div (.div (.div (.sqrt (.rat 2 1)) (.par n!"GF")) (.mul (.conj (.ckm 1 2)) (.ckm 0 2))) (.rat 4 1))) (.div (.div (.inp n!"CSp_cumumu") (.div (.div (.mul (.rat 16 1) (.mul .pi .pi)) (.mul (.sqrt (.mul (.mul (.rat 4 1) .pi) (.par n!"alpha_e"))) (.sqrt (.mul (.mul (.rat 4 1) .pi) (.par n!"alpha_e"))))) (.par n!"m_c"))) (.div (.div (.div (.sqrt (.rat 2 1)) (.par n!"GF")) (.mul (.conj (.ckm 1 2)) (.ckm 0 2))) (.rat 4 1))))),
  (n!"VnueLR_2333", (.div (.inp n!"CVLR_numunutautautau") (.div (.div (.sqrt (.rat 2 1)) (.par n!"GF")) (.rat 4 1)))),
  (n!"S8udduRR_1222", (.mul (.rat (-16) 1) (.mul (.mul (.div (.mul (.rat 4 1) (.par n!"GF")) (.sqrt (.rat 2 1))) (.mul (.conj (.ckm 1 2)) (.ckm 0 2))) (.inp n!"CTRR_cuss")))),
  (n!"V8ddLR_2311", (.mul (.rat 2 1) (.mul (.mul (.div (.mul (.rat 4 1) (.par n!"GF")) (.sqrt (.rat 2 1))) (.mul (.ckm 2 2) (.conj (.ckm 2 1)))) (.inp n!"CVLRt_bsdd")))),
  (n!"S1ddRR_1222", (.sub (.neg (.div (.mul (.rat 8 1) (.mul (.mul (.div (.mul (.rat 4 1) (.par n!"GF")) (.sqrt (.rat 2 1))) (.mul (.ckm 2 1) (.conj (.ckm 2 0)))) (.inp n!"CTRR_sdss"))) (.rat 3 1))) (.mul (.rat 8 1) (.add (.mul (.div (.rat (-1) 1) (.rat 8 1)) (.mul (.mul (.div (.mul (.rat 4 1) (.par n!"GF")) (.sqrt (.rat 2 1))) (.mul (.ckm 2 1) (.conj (.ckm 2 0)))) (.inp n!"CSRR_sdss"))) (.mul (.div (.rat 1 1) (.rat 2 1)) (.mul (.mul (.div (.mul (.rat 4 1) (.par n!"GF")) (.sqrt (.rat 2 1))) (.mul (.ckm 2 1) (.conj (.ckm 2 0)))) (.inp n!"CTRR_sdss"))))))),
  (n!"VnudLR_2213", (.div (.div (.inp n!"CR_bdnumunumu") (.div (.mul (.rat 8 1) (.mul .pi .pi)) (.mul (.sqrt (.mul (.mul (.rat 4 1) .pi) (.par n!"alpha_e"))) (.sqrt (.mul (.mul (.rat 4 1) .pi) (.par n!"alpha_e")))))) (.div (.div (.div (.sqrt (.rat 2 1)) (.par n!"GF")) (.mul (.ckm 2 2) (.conj (.ckm 2 0)))) (.rat 4 1)))),
  (n!"VddRR_2223", (.mul (.mul (.div (.mul (.rat 4 1) (.par n!"GF")) (.sqrt (.rat 2 1))) (.mul (.ckm 2 2) (.conj (.ckm 2 1)))) (.inp n!"CVRR_bsss"))),
  (n!"dgamma_23", (.div (.div (.inp n!"C7_bs") (.div (.div (.mul (.rat 16 1) (.mul .pi .pi)) (.sqrt (.mul (.mul (.rat 4 1) .pi) (.par n!"alpha_e")))) (.par n!"m_b"))) (.div (.div (.div (.sqrt (.rat 2 1)) (.par n!"GF")) (.mul (.ckm 2 2) (.conj (.ckm 2 1)))) (.rat 4 1)))),
  (n!"VdeLR_1211", (.add (.div (.div (.inp n!"C10_sdee") (.div (.mul (.rat 16 1) (.mul .pi .pi)) (.mul (.sqrt (.mul (.mul (.rat 4 1) .pi) (.par n!"alpha_e"))) (.sqrt (.mul (.mul (.rat 4 1) .pi) (.par n!"alpha_e")))))) (.div (.div (.div (.sqrt (.rat 2 1)) (.par n!"GF")) (.mul (.ckm 2 1) (.conj (.ckm 2 0)))) (.rat 4 1))) (.div (.div (.inp n!"C9_sdee") (.div (.mul (.rat 16 1) (.mul .pi .pi)) (.mul (.sqrt (.mul (.mul (.rat 4 1) .pi) (.par n!"alpha_e"))) (.sqrt (.mul (.mul (.rat 4 1) .pi) (.par n!"alpha_e")))))) (.div (.div (.div (.sqrt (.rat 2 1)) (.par n!"GF")) (.mul (.ckm 2 1) (.conj (.ckm 2 0)))) (.rat 4 1))))),
  (n!"VnueduLL_2121", (.conj (.div (.inp n!"CVL_suenumu") (.div (.div (.div (.neg (.sqrt (.rat 2 1))) (.par n!"GF")) (.ckm 0 1)) (.rat 4 1))))),
  (n!"S1udduRR_1311", (.sub (.neg (.div (.mul (.rat 8 1) (.mul (.mul (.div (.mul (.rat 4 1) (.par n!"GF")) (.sqrt (.rat 2 1))) (.mul (.ckm 2 2) (.conj (.ckm 2 0)))) (.inp n!"CTRR_bduu"))) (.rat 3 1))) (.mul (.rat 8 1) (.mul (.mul (.div (.mul (.rat 4 1) (.par n!"GF")) (.sqrt (.rat 2 1))) (.mul (.ckm 2 2) (.conj (.ckm 2 0)))) (.inp n!"CTRRt_bduu"))))),
  (n!"Gtilde", (.div (.inp n!"CGtilde") (.div (.div (.sqrt (.rat 2 1)) (.par n!"GF")) (.rat 4 1)))),
  (n!"TedRR_1223", (.add (.div (.rat 0 1) (.div (.div (.div (.sqrt (.rat 2 1)) (.par n!"GF")) (.mul (.ckm 2 2) (.conj (.ckm 2 1)))) (.rat 4 1))) (.div (.rat 0 1) (.div (.div (.div (.sqrt (.rat 2 1)) (.par n!"GF")) (.mul (.ckm 2 2) (.conj (.ckm 2 1)))) (.rat 4 1))))),
  (n!"V1duLR_2322", (.add (.mul (.mul (.div (.mul (.rat 4 1) (.par n!"GF")) (.sqrt (.rat 2 1))) (.mul (.ckm 2 2) (.conj (.ckm 2 1)))) (.inp n!"CVLR_bscc")) (.div (.mul (.mul (.div (.mul (.rat 4 1) (.par n!"GF")) (.sqrt (.rat 2 1))) (.mul (.ckm 2 2) (.conj (.ckm 2 1)))) (.inp n!"CVLRt_bscc")) (.rat 3 1)))),
  (n!"VddLL_1222", (.mul (.mul (.div (.mul (.rat 4 1) (.par n!"GF")) (.sqrt (.rat 2 1))) (.mul (.ckm 2 1) (.conj (.ckm 2 0)))) (.inp n!"CVLL_sdss"))),
  (n!"VnudLL_1313", (.div (.div (.inp n!"CL_bdnutaunue") (.div (.mul (.rat 8 1) (.mul .pi .pi)) (.mul (.sqrt (.mul (.mul (.rat 4 1) .pi) (.par n!"alpha_e"))) (.sqrt (.mul (.mul (.rat 4 1) .pi) (.par n!"alpha_e")))))) (.div (.div (.div (.sqrt (.rat 2 1)) (.par n!"GF")) (.mul (.ckm 2 2) (.conj (.ckm 2 0)))) (.rat 4 1)))),
  (n!"SedRR_3212", (.add (.div (.div (.inp n!"CP_sdmutau") (.div (.div (.mul (.rat 16 1) (.mul .pi .pi)) (.mul (.sqrt (.mul (.mul (.rat 4 1) .pi) (.par n!"alpha_e"))) (.sqrt (.mul (.mul (.rat 4 1) .pi) (.par n!"alpha_e"))))) (.par n!"m_s"))) (.div (.div (.div (.sqrt (.rat 2 1)) (.par n!"GF")) (.mul (.ckm 2 1) (.conj (.ckm 2 0)))) (.rat 4 1))) (.div (.div (.inp n!"CS_sdmutau") (.div (.div (.mul (.rat 16 1) (.mul .pi .pi)) (.mul (.sqrt (.mul (.mul (.rat 4 1) .pi) (.par n!"alpha_e"))) (.sqrt (.mul (.mul (.rat 4 1) .pi) (.par n!"alpha_e"))))) (.par n!"m_s"))) (.div (.div (.div (.sqrt (.rat 2 1)) (.par n!"GF")) (.mul (.ckm 2 1) (.conj (.ckm 2 0)))) (.rat 4 1))))),
  (n!"VnueduLR_2211", (.conj (.div (.inp n!"CVR_dumunumu") (.div (.div (.div (.neg (.sqrt (.rat 2 1))) (.par n!"GF")) (.ckm 0 0)) (.rat 4 1))))),
  (n!"TnueduRR_3312", (.conj (.div (.inp n!"CT_dctaunutau") (.div (.div (.div (.neg (.sqrt (.rat 2 1))) (.par n!"GF")) (.ckm 1 0)) (.rat 4 1))))),
  (n!"V1udduLR_2132", (.sub (.neg (.div (.conj (.mul (.mul (.div (.mul (.rat 4 1) (.par n!"GF")) (.sqrt (.rat 2 1))) (.mul (.ckm 2 2) (.conj (.ckm 2 0)))) (.inp n!"CSRL_bdcc"))) (.mul (.rat 2 1) (.rat 3 1)))) (.div (.conj (.mul (.mul (.div (.mul (.rat 4 1) (.par n!"GF")) (.sqrt (.rat 2 1))) (.mul (.ckm 2 2) (.conj (.ckm 2 0)))) (.inp n!"CSRLt_bdcc"))) (.rat 2 1)))),
  (n!"VedLR_1112", (.add (.neg (.div (.div (.inp n!"C10p_sdee") (.div (.mul (.rat 16 1) (.mul .pi .pi)) (.mul (.sqrt (.mul (.mul (.rat 4 1) .pi) (.par n!"alpha_e"))) (.sqrt (.mul (.mul (.rat 4 1) .pi) (.par n!"alpha_e")))))) (.div (.div (.div (.sqrt (.rat 2 1)) (.par n!"GF")) (.mul (.ckm 2 1) (.conj (.ckm 2 0)))) (.rat 4 1)))) (.div (.div (.inp n!"C9p_sdee") (.div (.mul (.rat 16 1) (.mul .pi .pi)) (.mul (.sqrt (.mul (.mul (.rat 4 1) .pi) (.par n!"alpha_e"))) (.sqrt (.mul (.mul (.rat 4 1) .pi) (.par n!"alpha_e")))))) (.div (.div (.div (.sqrt (.rat 2 1)) (.par n!"GF")) (.mul (.ckm 2 1) (.conj (.ckm 2 0)))) (.rat 4 1))))),
  (n!"SeuRL_1122", (.div (.inp n!"CSRL_eecc") (.div (.div (.sqrt (.rat 2 1)) (.par n!"GF")) (.rat 4 1)))),
  (n!"SnueduRR_1331", (.conj (.div (.inp n!"CSL_butaunue") (.div (.div (.div (.neg (.sqrt (.rat 2 1))) (.par n!"GF")) (.ckm 0 2)) (.rat 4 1))))),
  (n!"S8ddRR_2222", (.div (.inp n!"CS8RR_ssss") (.div (.div (.sqrt (.rat 2 1)) (.par n!"GF")) (.rat 4 1)))),
  (n!"SedRL_2312", (.add (.div (.div (.inp n!"CPp_sdtaumu") (.div (.div (.mul (.rat 16 1) (.mul .pi .pi)) (.mul (.sqrt (.mul (.mul (.rat 4 1) .pi) (.par n!"alpha_e"))) (.sqrt (.mul (.mul (.rat 4 1) .pi) (.par n!"alpha_e"))))) (.par n!"m_s"))) (.div (.div (.div (.sqrt (.rat 2 1)) (.par n!"GF")) (.mul (.ckm 2 1) (.conj (.ckm 2 0)))) (.rat 4 1))) (.div (.div (.inp n!"CSp_sdtaumu") (.div (.div (.mul (.rat 16 1) (.mul .pi .pi)) (.mul (.sqrt (.mul (.mul (.rat 4 1) .pi) (.par n!"alpha_e"))) (.sqrt (.mul (.mul (.rat 4 1) .pi) (.par n!"alpha_e"))))) (.par n!"m_s"))) (.div (.div (.div (.sqrt (.rat 2 1)) (.par n!"GF")) (.mul (.ckm 2 1) (.conj (.ckm 2 0)))) (.rat 4 1))))),
  (n!"VnueduLL_1311", (.conj (.div (.inp n!"CVL_dutaunue") (.div (.div (.div (.neg (.sqrt (.rat 2 1))) (.par n!"GF")) (.ckm 0 0)) (.rat 4 1)))))]

def flavio_to_JMS_10 : List (ℕ × Sym) := [
  (n!"VedRR_1213", (.add (.div (.div (.inp n!"C10p_bdmue") (.div (.mul (.rat 16 1) (.mul .pi .pi)) (.mul (.sqrt (.mul (.mul (.rat 4 1) .pi) (.par n!"alpha_e"))) (.sqrt (.mul (.mul (.rat 4 1) .pi) (.par n!"alpha_e")))))) (.div (.div (.div (.sqrt (.rat 2 1)) (.par n!"GF")) (.mul (.ckm 2 2) (.conj (.ckm 2 0)))) (.rat 4 1))) (.div (.div (.inp n!"C9p_bdmue") (.div (.mul (.rat 16 1) (.mul .pi .pi)) (.mul (.sqrt (.mul (.mul (.rat 4 1) .pi) (.par n!"alpha_e"))) (.sqrt (.mul (.mul (.rat 4 1) .pi) (.par n!"alpha_e")))))) (.div (.div (.div (.sqrt (.rat 2 1)) (.par n!"GF")) (.mul (.ckm 2 2) (.conj (.ckm 2 0)))) (.rat 4 1))))),
  (n!"S1udRR_1233", (.sub (.sub (.add (.mul (.mul (.div (.mul (.rat 4 1) (.par n!"GF")) (.sqrt (.rat 2 1))) (.mul (.conj (.ckm 1 2)) (.ckm 0 2))) (.inp n!"CSRR_cubb")) (.div (.mul (.mul (.div (.mul (.rat 4 1) (.par n!"GF")) (.sqrt (.rat 2 1))) (.mul (.conj (.ckm 1 2)) (.ckm 0 2))) (.inp n!"CSRRt_cubb")) (.rat 3 1))) (.mul (.rat 4 1) (.mul (.mul (.div (.mul (.rat 4 1) (.par n!"GF")) (.sqrt (.rat 2 1))) (.mul (.conj (.ckm 1 2)) (.ckm 0 2))) (.inp n!"CTRR_cubb")))) (.div (.mul (.rat 4 1) (.mul (.mul (.div (.mul (.rat 4 1) (.par n!"GF")) (.sqrt (.rat 2 1))) (.mul (.conj (.ckm 1 2)) (.ckm 0 2))) (.inp n!"CTRRt_cubb"))) (.rat 3 1)))),
  (n!"VueLR_1222", (.add (.div (.div (.inp n!"C10_cumumu") (.div (.mul (.rat 16 1) (.mul .pi .pi)) (.mul (.sqrt (.mul (.mul (.rat 4 1) .pi) (.par n!"alpha_e"))) (.sqrt (.mul (.mul (.rat 4 1) .pi) (.par n!"alpha_e")))))) (.div (.div (.div (.sqrt (.rat 2 1)) (.par n!"GF")) (.mul (.conj (.ckm 1 2)) (.ckm 0 2))) (.rat 4 1))) (.div (.div (.inp n!"C9_cumumu") (.div (.mul (.rat 16 1) (.mul .pi .pi)) (.mul (.sqrt (.mul (.mul (.rat 4 1) .pi) (.par n!"alpha_e"))) (.sqrt (.mul (.mul (.rat 4 1) .pi) (.par n!"alpha_e")))))) (.div (.div (.div (.sqrt (.rat 2 1)) (.par n!"GF")) (.mul (.conj (.ckm 1 2)) (.ckm 0 2))) (.rat 4 1))))),
  (n!"V8ddLR_1221", (.div (.inp n!"CV8LR_dssd") (.div (.div (.sqrt (.rat 2 1)) (.par n!"GF")) (.rat 4 1)))),
  (n!"V8duLR_3322", (.div (.inp n!"CV8LR_bbcc") (.div (.div (.sqrt (.rat 2 1)) (.par n!"GF")) (.rat 4 1)))),
  (n!"TedRR_2121", (.sub (.conj (.div (.rat 0 1) (.div (.div (.div (.sqrt (.rat 2 1)) (.par n!"GF")) (.mul (.ckm 2 1) (.conj (.ckm 2 0)))) (.rat 4 1)))) (.conj (.div (.rat 0 1) (.div (.div (.div (.sqrt (.rat 2 1)) (.par n!"GF")) (.mul (.ckm 2 1) (.conj (.ckm 2 0)))) (.rat 4 1)))))),
  (n!"VnudLR_1123", (.div (.div (.inp n!"CR_bsnuenue") (.div (.mul (.rat 8 1) (.mul .pi .pi)) (.mul (.sqrt (.mul (.mul (.rat 4 1) .pi) (.par n!"alpha_e"))) (.sqrt (.mul (.mul (.rat 4 1) .pi) (.par n!"alpha_e")))))) (.div (.div (.div (.sqrt (.rat 2 1)) (.par n!"GF")) (.mul (.ckm 2 2) (.conj (.ckm 2 1)))) (.rat 4 1)))),
  (n!"S1uuRR_1221", (.div (.inp n!"CS1RR_uccu") (.div (.div (.sqrt (.rat 2 1)) (.par n!"GF")) (.rat 4 1)))),
  (n!"VddRR_1133", (.div (.inp n!"CVRR_ddbb") (.div (.div (.sqrt (.rat 2 1)) (.par n!"GF")) (.rat 4 1)))),
  (n!"VuuRR_2222", (.div (.inp n!"CVRR_cccc") (.div (.div (.sqrt (.rat 2 1)) (.par n!"GF")) (.rat 4 1)))),
  (n!"VnudLL_2211", (.div (.inp n!"CVLL_numunumudd") (.div (.div (.sqrt (.rat 2 1)) (.par n!"GF")) (.rat 4 1)))),
  (n!"SnueduRL_3221", (.conj (.div (.inp n!"CSR_sumunutau") (.div (.div (.div (.neg (.sqrt (.rat 2 1))) (.par n!"GF")) (.ckm 0 1)) (.rat 4 1))))),
  (n!"VuuLL_1221", (.div (.inp n!"CVLL_uccu") (.div (.div (.sqrt (.rat 2 1)) (.par n!"GF")) (.rat 4 1)))),
  (n!"VnuuLR_1111", (.div (.inp n!"CVLR_nuenueuu") (.div (.div (.sqrt (.rat 2 1)) (.par n!"GF")) (.rat 4 1)))),
  (n!"VnueduLR_1121", (.conj (.div (.inp n!"CVR_suenue") (.div (.div (.div (.neg (.sqrt (.rat 2 1))) (.par n!"GF")) (.ckm 0 1)) (.rat 4 1))))),
  (n!"S8udRR_2233", (.div (.inp n!"CS8RR_ccbb") (.div (.div (.sqrt (.rat 2 1)) (.par n!"GF")) (.rat 4 1)))),
  (n!"dG_22", (.div (.mul (.div (.par n!"m_s") (.div (.mul (.rat 16 1) (.mul .pi .pi)) (.sqrt (.mul (.mul (.rat 4 1) .pi) (.par n!"alpha_s"))))) (.inp n!"C8_ss")) (.div (.div (.sqrt (.rat 2 1)) (.par n!"GF")) (.rat 4 1)))),
  (n!"TnueduRR_2222", (.conj (.div (.inp n!"CT_scmunumu") (.div (.div (.div (.neg (.sqrt (.rat 2 1))) (.par n!"GF")) (.ckm 1 1)) (.rat 4 1))))),
  (n!"SnueduRR_3311", (.conj (.div (.inp n!"CSL_dutaunutau") (.div (.div (.div (.neg (.sqrt (.rat 2 1))) (.par n!"GF")) (.ckm 0 0)) (.rat 4 1))))),
  (n!"V8udRR_1112", (.mul (.rat 2 1) (.mul (.mul (.div (.mul (.rat 4 1) (.par n!"GF")) (.sqrt (.rat 2 1))) (.mul (.ckm 2 1) (.conj (.ckm 2 0)))) (.inp n!"CVRRt_sduu")))),
  (n!"VedRR_2332", (.conj (.add (.div (.div (.inp n!"C10p_bsmutau") (.div (.mul (.rat 16 1) (.mul .pi .pi)) (.mul (.sqrt (.mul (.mul (.rat 4 1) .pi) (.par n!"alpha_e"))) (.sqrt (.mul (.mul (.rat 4 1) .pi) (.par n!"alpha_e")))))) (.div (.div (.div (.sqrt (.rat 2 1)) (.par n!"GF")) (.mul (.ckm 2 2) (.conj (.ckm 2 1)))) (.rat 4 1))) (.div (.div (.inp n!"C9p_bsmutau") (.div (.mul (.rat 16 1) (.mul .pi .pi)) (.mul (.sqrt (.mul (.mul (.rat 4 1) .pi) (.par n!"alpha_e"))) (.sqrt (.mul (.mul (.rat 4 1) .pi) (.par n!"alpha_e")))))) (.div (.div (.div (.sqrt (.rat 2 1)) (.par n!"GF")) (.mul (.ckm 2 2) (.conj (.ckm 2 1)))) (.rat 4 1)))))),
  (n!"S8ddRR_1132", (.sub (.mul (.rat 2 1) (.conj (.mul (.mul (.div (.mul (.rat 4 1) (.par n!"GF")) (.sqrt (.rat 2 1))) (.mul (.ckm 2 2) (.conj (.ckm 2 1)))) (.inp n!"CSLLt_bsdd")))) (.mul (.rat 8 1) (.conj (.mul (.mul (.div (.mul (.rat 4 1) (.par n!"GF")) (.sqrt (.rat 2 1))) (.mul (.ckm 2 2) (.conj (.ckm 2 1)))) (.inp n!"CTLLt_bsdd")))))),
  (n!"VedLR_3313", (.add (.neg (.div (.div (.inp n!"C10p_bdtautau") (.div (.mul (.rat 16 1) (.mul .pi .pi)) (.mul (.sqrt (.mul (.mul (.rat 4 1) .pi) (.par n!"alpha_e"))) (.sqrt (.mul (.mul (.rat 4 1) .pi) (.par n!"alpha_e")))))) (.div (.div (.div (.sqrt (.rat 2 1)) (.par n!"GF")) (.mul (.ckm 2 2) (.conj (.ckm 2 0)))) (.rat 4 1)))) (.div (.div (.inp n!"C9p_bdtautau") (.div (.mul (.rat 16 1) (.mul .pi .pi)) (.mul (.sqrt (.mul (.mul (.rat 4 1) .pi) (.par n!"alpha_e"))) (.sqrt (.mul (.mul (.rat 4 1) .pi) (.par n!"alpha_e")))))) (.div (.div (.div (.sqrt (.rat 2 1)) (.par n!"GF")) (.mul (.ckm 2 2) (.conj (.ckm 2 0)))) (.rat 4 1))))),
  (n!"S8udduRR_2112", (.div (.inp n!"CS8RR_cddc") (.div (.div (.sqrt (.rat 2 1)) (.par n!"GF")) (.rat 4 1)))),
  (n!"VedLL_1331", (.conj (.add (.neg (.div (.div (.inp n!"C10_bdetau") (.div (.mul (.rat 16 1) (.mul .pi .pi)) (.mul (.sqrt (.mul (.mul (.rat 4 1) .pi) (.par n!"alpha_e"))) (.sqrt (.mul (.mul (.rat 4 1) .pi) (.par n!"alpha_e")))))) (.div (.div (.div (.sqrt (.rat 2 1)) (.par n!"GF")) (.mul (.ckm 2 2) (.conj (.ckm 2 0)))) (.rat 4 1)))) (.div (.div (.inp n!"C9_bdetau") (.div (.mul (.rat 16 1) (.mul .pi .pi)) (.mul (.sqrt (.mul (.mul (.rat 4 1) .pi) (.par n!"alpha_e"))) (.sqrt (.mul (.mul (.rat 4 1) .pi) (.par n!"alpha_e")))))) (.div (.div (.div (.sqrt (.rat 2 1)) (.par n!"GF")) (.mul (.ckm 2 2) (.conj (.ckm 2 0)))) (.rat 4 1)))))),
  (n!"V1udLR_2212", (.add (.mul (.mul (.div (.mul (.rat 4 1) (.par n!"GF")) (.sqrt (.rat 2 1))) (.mul (.ckm 2 1) (.conj (.ckm 2 0)))) (.inp n!"CVRL_sdcc")) (.div (.mul (.mul (.div (.mul (.rat 4 1) (.par n!"GF")) (.sqrt (.rat 2 1))) (.mul (.ckm 2 1) (.conj (.ckm 2 0)))) (.inp n!"CVRLt_sdcc")) (.rat 3 1)))),
  (n!"SedRR_1312", (.add (.div (.div (.inp n!"CP_sdtaue") (.div (.div (.mul (.rat 16 1) (.mul .pi .pi)) (.mul (.sqrt (.mul (.mul (.rat 4 1) .pi) (.par n!"alpha_e"))) (.sqrt (.mul (.mul (.rat 4 1) .pi) (.par n!"alpha_e"))))) (.par n!"m_s"))) (.div (.div (.div (.sqrt (.rat 2 1)) (.par n!"GF")) (.mul (.ckm 2 1) (.conj (.ckm 2 0)))) (.rat 4 1))) (.div (.div (.inp n!"CS_sdtaue") (.div (.div (.mul (.rat 16 1) (.mul .pi .pi)) (.mul (.sqrt (.mul (.mul (.rat 4 1) .pi) (.par n!"alpha_e"))) (.sqrt (.mul (.mul (.rat 4 1) .pi) (.par n!"alpha_e"))))) (.par n!"m_s"))) (.div (.div (.div (.sqrt (.rat 2 1)) (.par n!"GF")) (.mul (.ckm 2 1) (.conj (.ckm 2 0)))) (.rat 4 1))))),
  (n!"S1ddRR_2333", (.sub (.neg (.div (.mul (.rat 8 1) (.mul (.mul (.div (.mul (.rat 4 1) (.par n!"GF")) (.sqrt (.rat 2 1))) (.mul (.ckm 2 2) (.conj (.ckm 2 1)))) (.inp n!"CTRR_bsbb"))) (.rat 3 1))) (.mul (.rat 8 1) (.add (.mul (.div (.rat (-1) 1) (.rat 8 1)) (.mul (.mul (.div (.mul (.rat 4 1) (.par n!"GF")) (.sqrt (.rat 2 1))) (.mul (.ckm 2 2) (.conj (.ckm 2 1)))) (.inp n!"CSRR_bsbb"))) (.mul (.div (.rat 1 1) (.rat 2 1)) (.mul (.mul (.div (.mul (.rat 4 1) (.par n!"GF")) (.sqrt (.rat 2 1))) (.mul (.ckm 2 2) (.conj (.ckm 2 1)))) (.inp n!"CTRR_bsbb"))))))),
  (n!"V8udduLR_1321", (.neg (.mul (.mul (.div (.mul (.rat 4 1) (.par n!"GF")) (.sqrt (.rat 2 1))) (.mul (.ckm 2 2) (.conj (.ckm 2 1)))) (.inp n!"CSLR_bsuu")))),
  (n!"V1ddLR_1111", (.div (.inp n!"CV1LR_dddd") (.div (.div (.sqrt (.rat 2 1)) (.par n!"GF")) (.rat 4 1)))),
  (n!"TedRR_2113", (.add (.div (.rat 0 1) (.div (.div (.div (.sqrt (.rat 2 1)) (.par n!"GF")) (.mul (.ckm 2 2) (.conj (.ckm 2 0)))) (.rat 4 1))) (.div (.rat 0 1) (.div (.div (.div (.sqrt (.rat 2 1)) (.par n!"GF")) (.mul (.ckm 2 2) (.conj (.ckm 2 0)))) (.rat 4 1))))),
  (n!"VdeLR_2322", (.add (.div (.div (.inp n!"C10_bsmumu") (.div (.mul (.rat 16 1) (.mul .pi .pi)) (.mul (.sqrt (.mul (.mul (.rat 4 1) .pi) (.par n!"alpha_e"))) (.sqrt (.mul (.mul (.rat 4 1) .pi) (.par n!"alpha_e")))))) (.div (.div (.div (.sqrt (.rat 2 1)) (.par n!"GF")) (.mul (.ckm 2 2) (.conj (.ckm 2 1)))) (.rat 4 1))) (.div (.div (.inp n!"C9_bsmumu") (.div (.mul (.rat 16 1) (.mul .pi .pi)) (.mul (.sqrt (.mul (.mul (.rat 4 1) .pi) (.par n!"alpha_e"))) (.sqrt (.mul (.mul (.rat 4 1) .pi) (.par n!"alpha_e")))))) (.div (.div (.div (.sqrt (.rat 2 1)) (.par n!"GF")) (.mul (.ckm 2 2) (.conj (.ckm 2 1)))) (.rat 4 1))))),
  (n!"VnueduLL_3232", (.conj (.div (.inp n!"CVL_bcmunutau") (.div (.div (.div (.neg (.sqrt (.rat 2 1))) (.par n!"GF")) (.ckm 1 2)) (.rat 4 1))))),
  (n!"SnueduRL_2131", (.conj (.div (.inp n!"CSR_buenumu") (.div (.div (.div (.neg (.sqrt (.rat 2 1))) (.par n!"GF")) (.ckm 0 2)) (.rat 4 1))))),
  (n!"V1ddLR_1332", (.sub (.neg (.div (.mul (.mul (.div (.mul (.rat 4 1) (.par n!"GF")) (.sqrt (.rat 2 1))) (.mul (.ckm 2 1) (.conj (.ckm 2 0)))) (.inp n!"CSRL_sdbb")) (.mul (.rat 2 1) (.rat 3 1)))) (.div (.mul (.mul (.div (.mul (.rat 4 1) (.par n!"GF")) (.sqrt (.rat 2 1))) (.mul (.ckm 2 1) (.conj (.ckm 2 0)))) (.inp n!"CSRLt_sdbb")) (.rat 2 1)))),
  (n!"VddLL_2333", (.mul (.mul (.div (.mul (.rat 4 1) (.par n!"GF")) (.sqrt (.rat 2 1))) (.mul (.ckm 2 2) (.conj (.ckm 2 1)))) (.inp n!"CVLL_bsbb"))),
  (n!"VnudLR_1211", (.div (.inp n!"CVLR_nuenumudd") (.div (.div (.sqrt (.rat 2 1)) (.par n!"GF")) (.rat 4 1)))),
  (n!"TnueduRR_1132", (.conj (.div (.inp n!"CT_bcenue") (.div (.div (.div (.neg (.sqrt (.rat 2 1))) (.par n!"GF")) (.ckm 1 2)) (.rat 4 1))))),
  (n!"VddRR_1221", (.div (.inp n!"CVRR_dssd") (.div (.div (.sqrt (.rat 2 1)) (.par n!"GF")) (.rat 4 1)))),
  (n!"VnueduLR_3322", (.conj (.div (.inp n!"CVR_sctaunutau") (.div (.div (.div (.neg (.sqrt (.rat 2 1))) (.par n!"GF")) (.ckm 1 1)) (.rat 4 1))))),
  (n!"SnueduRR_2221", (.conj (.div (.inp n!"CSL_sumunumu") (.div (.div (.div (.neg (.sqrt (.rat 2 1))) (.par n!"GF")) (.ckm 0 1)) (.rat 4 1))))),
  (n!"VedLR_2223", (.add (.neg (.div (.div (.inp n!"C10p_bsmumu") (.div (.mul (.rat 16 1) (.mul .pi .pi)) (.mul (.sqrt (.mul (.mul (.rat 4 1) .pi) (.par n!"alpha_e"))) (.sqrt (.mul (.mul (.rat 4 1) .pi) (.par n!"alpha_e")))))) (.div (.div (.div (.sqrt (.rat 2 1)) (.par n!"GF")) (.mul (.ckm 2 2) (.conj (.ckm 2 1)))) (.rat 4 1)))) (.div (.div (.inp n!"C9p_bsmumu") (.div (.mul (.rat 16 1) (.mul .pi .pi)) (.mul (.sqrt (.mul (.mul (.rat 4 1) .pi) (.par n!"alpha_e"))) (.sqrt (.mul (.mul (.rat 4 1) .pi) (.par n!"alpha_e")))))) (.div (.div (.div (.sqrt (.rat 2 1)) (.par n!"GF")) (.mul (.ckm 2 2) (.conj (.ckm 2 1)))) (.rat 4 1))))),
  (n!"S8ddRR_3333", (.div (.inp n!"CS8RR_bbbb") (.div (.div (.sqrt (.rat 2 1)) (.par n!"GF")) (.rat 4 1)))),
  (n!"VedLL_3311", (.div (.inp n!"CVLL_tautaudd") (.div (.div (.sqrt (.rat 2 1)) (.par n!"GF")) (.rat 4 1)))),
  (n!"SnueduRL_1321", (.conj (.div (.inp n!"CSR_sutaunue") (.div (.div (.div (.neg (.sqrt (.rat 2 1))) (.par n!"GF")) (.ckm 0 1)) (.rat 4 1))))),
  (n!"V1udLR_1122", (.div (.inp n!"CV1LR_uuss") (.div (.div (.sqrt (.rat 2 1)) (.par n!"GF")) (.rat 4 1)))),
  (n!"V8ddLR_2332", (.div (.inp n!"CV8LR_sbbs") (.div (.div (.sqrt (.rat 2 1)) (.par n!"GF")) (.rat 4 1)))),
  (n!"VnueLL_1233", (.div (.inp n!"CVLL_nuenumutautau") (.div (.div (.sqrt (.rat 2 1)) (.par n!"GF")) (.rat 4 1)))),
  (n!"VeuLR_2211", (.div (.inp n!"CVLR_mumuuu") (.div (.div (.sqrt (.rat 2 1)) (.par n!"GF")) (.rat 4 1)))),
  (n!"VedLL_1323", (.add (.neg (.div (.div (.inp n!"C10_bstaue") (.div (.mul (.rat 16 1) (.mul .pi .pi)) (.mul (.sqrt (.mul (.mul (.rat 4 1) .pi) (.par n!"alpha_e"))) (.sqrt (.mul (.mul (.rat 4 1) .pi) (.par n!"alpha_e")))))) (.div (.div (.div (.sqrt (.rat 2 1)) (.par n!"GF")) (.mul (.ckm 2 2) (.conj (.ckm 2 1)))) (.rat 4 1)))) (.div (.div (.inp n!"C9_bstaue") (.div (.mul (.rat 16 1) (.mul .pi .pi)) (.mul (.sqrt (.mul (.mul (.rat 4 1) .pi) (.par n!"alpha_e"))) (.sqrt (.mul (.mul (.rat 4 1) .pi) (.par n!"alpha_e")))))) (.div (.div (.div (.sqrt (.rat 2 1)) (.par n!"GF")) (.mul (.ckm 2 2) (.conj (.ckm 2 1)))) (.rat 4 1)))))]

def flavio_to_JMS_11 : List (ℕ × Sym) := [
  (n!"VnueLR_3311", (.div (.inp n!"CVLR_nutaunutauee") (.div (.div (.sqrt (.rat 2 1)) (.par n!"GF")) (.rat 4 1)))),
  (n!"V1udduLR_2212", (.sub (.neg (.div (.mul (.mul (.div (.mul (.rat 4 1) (.par n!"GF")) (.sqrt (.rat 2 1))) (.mul (.ckm 2 1) (.conj (.ckm 2 0)))) (.inp n!"CSLR_sdcc")) (.mul (.rat 2 1) (.rat 3 1)))) (.div (.mul (.mul (.div (.mul (.rat 4 1) (.par n!"GF")) (.sqrt (.rat 2 1))) (.mul (.ckm 2 1) (.conj (.ckm 2 0)))) (.inp n!"CSLRt_sdcc")) (.rat 2 1)))),
  (n!"V8uuLR_1212", (.conj (.neg (.inp n!"CSLR_ucuc")))),
  (n!"TedRR_3232", (.sub (.conj (.div (.rat 0 1) (.div (.div (.div (.sqrt (.rat 2 1)) (.par n!"GF")) (.mul (.ckm 2 2) (.conj (.ckm 2 1)))) (.rat 4 1)))) (.conj (.div (.rat 0 1) (.div (.div (.div (.sqrt (.rat 2 1)) (.par n!"GF")) (.mul (.ckm 2 2) (.conj (.ckm 2 1)))) (.rat 4 1)))))),
  (n!"S1udduRR_1111", (.div (.inp n!"CS1RR_uddu") (.div (.div (.sqrt (.rat 2 1)) (.par n!"GF")) (.rat 4 1)))),
  (n!"VdeLR_1232", (.add (.div (.div (.inp n!"C10_sdmutau") (.div (.mul (.rat 16 1) (.mul .pi .pi)) (.mul (.sqrt (.mul (.mul (.rat 4 1) .pi) (.par n!"alpha_e"))) (.sqrt (.mul (.mul (.rat 4 1) .pi) (.par n!"alpha_e")))))) (.div (.div (.div (.sqrt (.rat 2 1)) (.par n!"GF")) (.mul (.ckm 2 1) (.conj (.ckm 2 0)))) (.rat 4 1))) (.div (.div (.inp n!"C9_sdmutau") (.div (.mul (.rat 16 1) (.mul .pi .pi)) (.mul (.sqrt (.mul (.mul (.rat 4 1) .pi) (.par n!"alpha_e"))) (.sqrt (.mul (.mul (.rat 4 1) .pi) (.par n!"alpha_e")))))) (.div (.div (.div (.sqrt (.rat 2 1)) (.par n!"GF")) (.mul (.ckm 2 1) (.conj (.ckm 2 0)))) (.rat 4 1))))),
  (n!"VnudLL_3322", (.div (.inp n!"CVLL_nutaunutauss") (.div (.div (.sqrt (.rat 2 1)) (.par n!"GF")) (.rat 4 1)))),
  (n!"S1udduRR_1332", (.sub (.neg (.div (.mul (.rat 8 1) (.mul (.mul (.div (.mul (.rat 4 1) (.par n!"GF")) (.sqrt (.rat 2 1))) (.mul (.conj (.ckm 1 2)) (.ckm 0 2))) (.inp n!"CTRR_cubb"))) (.rat 3 1))) (.mul (.rat 8 1) (.mul (.mul (.div (.mul (.rat 4 1) (.par n!"GF")) (.sqrt (.rat 2 1))) (.mul (.conj (.ckm 1 2)) (.ckm 0 2))) (.inp n!"CTRRt_cubb"))))),
  (n!"V1ddLR_3312", (.add (.mul (.mul (.div (.mul (.rat 4 1) (.par n!"GF")) (.sqrt (.rat 2 1))) (.mul (.ckm 2 1) (.conj (.ckm 2 0)))) (.inp n!"CVRL_sdbb")) (.div (.mul (.mul (.div (.mul (.rat 4 1) (.par n!"GF")) (.sqrt (.rat 2 1))) (.mul (.ckm 2 1) (.conj (.ckm 2 0)))) (.inp n!"CVRLt_sdbb")) (.rat 3 1)))),
  (n!"VnudLL_1113", (.div (.div (.inp n!"CL_bdnuenue") (.div (.mul (.rat 8 1) (.mul .pi .pi)) (.mul (.sqrt (.mul (.mul (.rat 4 1) .pi) (.par n!"alpha_e"))) (.sqrt (.mul (.mul (.rat 4 1) .pi) (.par n!"alpha_e")))))) (.div (.div (.div (.sqrt (.rat 2 1)) (.par n!"GF")) (.mul (.ckm 2 2) (.conj (.ckm 2 0)))) (.rat 4 1)))),
  (n!"VeeRR_1133", (.div (.inp n!"CVRR_eetautau") (.div (.div (.sqrt (.rat 2 1)) (.par n!"GF")) (.rat 4 1)))),
  (n!"TnueduRR_3112", (.conj (.div (.inp n!"CT_dcenutau") (.div (.div (.div (.neg (.sqrt (.rat 2 1))) (.par n!"GF")) (.ckm 1 0)) (.rat 4 1))))),
  (n!"VnuuLR_2222", (.div (.inp n!"CVLR_numunumucc") (.div (.div (.sqrt (.rat 2 1)) (.par n!"GF")) (.rat 4 1)))),
  (n!"VnueduLR_2232", (.conj (.div (.inp n!"CVR_bcmunumu") (.div (.div (.div (.neg (.sqrt (.rat 2 1))) (.par n!"GF")) (.ckm 1 2)) (.rat 4 1))))),
  (n!"SnueduRR_1131", (.conj (.div (.inp n!"CSL_buenue") (.div (.div (.div (.neg (.sqrt (.rat 2 1))) (.par n!"GF")) (.ckm 0 2)) (.rat 4 1))))),
  (n!"SedRL_2112", (.add (.div (.div (.inp n!"CPp_sdemu") (.div (.div (.mul (.rat 16 1) (.mul .pi .pi)) (.mul (.sqrt (.mul (.mul (.rat 4 1) .pi) (.par n!"alpha_e"))) (.sqrt (.mul (.mul (.rat 4 1) .pi) (.par n!"alpha_e"))))) (.par n!"m_s"))) (.div (.div (.div (.sqrt (.rat 2 1)) (.par n!"GF")) (.mul (.ckm 2 1) (.conj (.ckm 2 0)))) (.rat 4 1))) (.div (.div (.inp n!"CSp_sdemu") (.div (.div (.mul (.rat 16 1) (.mul .pi .pi)) (.mul (.sqrt (.mul (.mul (.rat 4 1) .pi) (.par n!"alpha_e"))) (.sqrt (.mul (.mul (.rat 4 1) .pi) (.par n!"alpha_e"))))) (.par n!"m_s"))) (.div (.div (.div (.sqrt (.rat 2 1)) (.par n!"GF")) (.mul (.ckm 2 1) (.conj (.ckm 2 0)))) (.rat 4 1))))),
  (n!"VnueduLL_1111", (.conj (.div (.inp n!"CVL_duenue") (.div (.div (.div (.neg (.sqrt (.rat 2 1))) (.par n!"GF")) (.ckm 0 0)) (.rat 4 1))))),
  (n!"V8udRR_2223", (.mul (.rat 2 1) (.mul (.mul (.div (.mul (.rat 4 1) (.par n!"GF")) (.sqrt (.rat 2 1))) (.mul (.ckm 2 2) (.conj (.ckm 2 1)))) (.inp n!"CVRRt_bscc")))),
  (n!"VedLR_1133", (.div (.inp n!"CVLR_eebb") (.div (.div (.sqrt (.rat 2 1)) (.par n!"GF")) (.rat 4 1)))),
  (n!"VnuuLL_1322", (.div (.inp n!"CVLL_nuenutaucc") (.div (.div (.sqrt (.rat 2 1)) (.par n!"GF")) (.rat 4 1)))),
  (n!"VnueduLL_1332", (.conj (.div (.inp n!"CVL_bctaunue") (.div (.div (.div (.neg (.sqrt (.rat 2 1))) (.par n!"GF")) (.ckm 1 2)) (.rat 4 1))))),
  (n!"V8udLL_1222", (.mul (.rat 2 1) (.mul (.mul (.div (.mul (.rat 4 1) (.par n!"GF")) (.sqrt (.rat 2 1))) (.mul (.conj (.ckm 1 2)) (.ckm 0 2))) (.inp n!"CVLLt_cuss")))),
  (n!"S1udRR_2211", (.div (.inp n!"CS1RR_ccdd") (.div (.div (.sqrt (.rat 2 1)) (.par n!"GF")) (.rat 4 1)))),
  (n!"S8ddRR_1212", (.mul (.rat 2 1) (.mul (.rat (-8) 1) (.inp n!"CTRR_sdsd")))),
  (n!"V1ddLR_2222", (.div (.inp n!"CV1LR_ssss") (.div (.div (.sqrt (.rat 2 1)) (.par n!"GF")) (.rat 4 1)))),
  (n!"S8udduRR_1331", (.div (.inp n!"CS8RR_ubbu") (.div (.div (.sqrt (.rat 2 1)) (.par n!"GF")) (.rat 4 1)))),
  (n!"S1ddRR_1331", (.div (.inp n!"CS1RR_dbbd") (.div (.div (.sqrt (.rat 2 1)) (.par n!"GF")) (.rat 4 1)))),
  (n!"SnueduRR_3111", (.conj (.div (.inp n!"CSL_duenutau") (.div (.div (.div (.neg (.sqrt (.rat 2 1))) (.par n!"GF")) (.ckm 0 0)) (.rat 4 1))))),
  (n!"VnudLR_2322", (.div (.inp n!"CVLR_numunutauss") (.div (.div (.sqrt (.rat 2 1)) (.par n!"GF")) (.rat 4 1)))),
  (n!"TedRR_1111", (.div (.inp n!"CTRR_eedd") (.div (.div (.sqrt (.rat 2 1)) (.par n!"GF")) (.rat 4 1)))),
  (n!"VddRR_2332", (.div (.inp n!"CVRR_sbbs") (.div (.div (.sqrt (.rat 2 1)) (.par n!"GF")) (.rat 4 1)))),
  (n!"SedRL_3231", (.add (.neg (.conj (.div (.div (.inp n!"CP_bdtaumu") (.div (.div (.mul (.rat 16 1) (.mul .pi .pi)) (.mul (.sqrt (.mul (.mul (.rat 4 1) .pi) (.par n!"alpha_e"))) (.sqrt (.mul (.mul (.rat 4 1) .pi) (.par n!"alpha_e"))))) (.par n!"m_b"))) (.div (.div (.div (.sqrt (.rat 2 1)) (.par n!"GF")) (.mul (.ckm 2 2) (.conj (.ckm 2 0)))) (.rat 4 1))))) (.conj (.div (.div (.inp n!"CS_bdtaumu") (.div (.div (.mul (.rat 16 1) (.mul .pi .pi)) (.mul (.sqrt (.mul (.mul (.rat 4 1) .pi) (.par n!"alpha_e"))) (.sqrt (.mul (.mul (.rat 4 1) .pi) (.par n!"alpha_e"))))) (.par n!"m_b"))) (.div (.div (.div (.sqrt (.rat 2 1)) (.par n!"GF")) (.mul (.ckm 2 2) (.conj (.ckm 2 0)))) (.rat 4 1)))))),
  (n!"VuuRR_1212", (.conj (.inp n!"CVRR_ucuc"))),
  (n!"SnueduRR_3332", (.conj (.div (.inp n!"CSL_bctaunutau") (.div (.div (.div (.neg (.sqrt (.rat 2 1))) (.par n!"GF")) (.ckm 1 2)) (.rat 4 1))))),
  (n!"V8udRR_1133", (.div (.inp n!"CV8RR_uubb") (.div (.div (.sqrt (.rat 2 1)) (.par n!"GF")) (.rat 4 1)))),
  (n!"TedRR_1332", (.sub (.conj (.div (.rat 0 1) (.div (.div (.div (.sqrt (.rat 2 1)) (.par n!"GF")) (.mul (.ckm 2 2) (.conj (.ckm 2 1)))) (.rat 4 1)))) (.conj (.div (.rat 0 1) (.div (.div (.div (.sqrt (.rat 2 1)) (.par n!"GF")) (.mul (.ckm 2 2) (.conj (.ckm 2 1)))) (.rat 4 1)))))),
  (n!"VnueduLL_3312", (.conj (.div (.inp n!"CVL_dctaunutau") (.div (.div (.div (.neg (.sqrt (.rat 2 1))) (.par n!"GF")) (.ckm 1 0)) (.rat 4 1))))),
  (n!"VddLL_1331", (.div (.inp n!"CVLL_dbbd") (.div (.div (.sqrt (.rat 2 1)) (.par n!"GF")) (.rat 4 1)))),
  (n!"SnueduRL_2211", (.conj (.div (.inp n!"CSR_dumunumu") (.div (.div (.div (.neg (.sqrt (.rat 2 1))) (.par n!"GF")) (.ckm 0 0)) (.rat 4 1))))),
  (n!"SedRR_3321", (.add (.neg (.conj (.div (.div (.inp n!"CPp_sdtautau") (.div (.div (.mul (.rat 16 1) (.mul .pi .pi)) (.mul (.sqrt (.mul (.mul (.rat 4 1) .pi) (.par n!"alpha_e"))) (.sqrt (.mul (.mul (.rat 4 1) .pi) (.par n!"alpha_e"))))) (.par n!"m_s"))) (.div (.div (.div (.sqrt (.rat 2 1)) (.par n!"GF")) (.mul (.ckm 2 1) (.conj (.ckm 2 0)))) (.rat 4 1))))) (.conj (.div (.div (.inp n!"CSp_sdtautau") (.div (.div (.mul (.rat 16 1) (.mul .pi .pi)) (.mul (.sqrt (.mul (.mul (.rat 4 1) .pi) (.par n!"alpha_e"))) (.sqrt (.mul (.mul (.rat 4 1) .pi) (.par n!"alpha_e"))))) (.par n!"m_s"))) (.div (.div (.div (.sqrt (.rat 2 1)) (.par n!"GF")) (.mul (.ckm 2 1) (.conj (.ckm 2 0)))) (.rat 4 1)))))),
  (n!"SedRR_1112", (.add (.div (.div (.inp n!"CP_sdee") (.div (.div (.mul (.rat 16 1) (.mul .pi .pi)) (.mul (.sqrt (.mul (.mul (.rat 4 1) .pi) (.par n!"alpha_e"))) (.sqrt (.mul (.mul (.rat 4 1) .pi) (.par n!"alpha_e"))))) (.par n!"m_s"))) (.div (.div (.div (.sqrt (.rat 2 1)) (.par n!"GF")) (.mul (.ckm 2 1) (.conj (.ckm 2 0)))) (.rat 4 1))) (.div (.div (.inp n!"CS_sdee") (.div (.div (.mul (.rat 16 1) (.mul .pi .pi)) (.mul (.sqrt (.mul (.mul (.rat 4 1) .pi) (.par n!"alpha_e"))) (.sqrt (.mul (.mul (.rat 4 1) .pi) (.par n!"alpha_e"))))) (.par n!"m_s"))) (.div (.div (.div (.sqrt (.rat 2 1)) (.par n!"GF")) (.mul (.ckm 2 1) (.conj (.ckm 2 0)))) (.rat 4 1))))),
  (n!"TnueduRR_1212", (.conj (.div (.inp n!"CT_dcmunue") (.div (.div (.div (.neg (.sqrt (.rat 2 1))) (.par n!"GF")) (.ckm 1 0)) (.rat 4 1))))),
  (n!"VedLL_2213", (.add (.neg (.div (.div (.inp n!"C10_bdmumu") (.div (.mul (.rat 16 1) (.mul .pi .pi)) (.mul (.sqrt (.mul (.mul (.rat 4 1) .pi) (.par n!"alpha_e"))) (.sqrt (.mul (.mul (.rat 4 1) .pi) (.par n!"alpha_e")))))) (.div (.div (.div (.sqrt (.rat 2 1)) (.par n!"GF")) (.mul (.ckm 2 2) (.conj (.ckm 2 0)))) (.rat 4 1)))) (.div (.div (.inp n!"C9_bdmumu") (.div (.mul (.rat 16 1) (.mul .pi .pi)) (.mul (.sqrt (.mul (.mul (.rat 4 1) .pi) (.par n!"alpha_e"))) (.sqrt (.mul (.mul (.rat 4 1) .pi) (.par n!"alpha_e")))))) (.div (.div (.div (.sqrt (.rat 2 1)) (.par n!"GF")) (.mul (.ckm 2 2) (.conj (.ckm 2 0)))) (.rat 4 1))))),
  (n!"V1udLR_2233", (.div (.inp n!"CV1LR_ccbb") (.div (.div (.sqrt (.rat 2 1)) (.par n!"GF")) (.rat 4 1)))),
  (n!"VedLR_1221", (.conj (.add (.neg (.div (.div (.inp n!"C10p_sdemu") (.div (.mul (.rat 16 1) (.mul .pi .pi)) (.mul (.sqrt (.mul (.mul (.rat 4 1) .pi) (.par n!"alpha_e"))) (.sqrt (.mul (.mul (.rat 4 1) .pi) (.par n!"alpha_e")))))) (.div (.div (.div (.sqrt (.rat 2 1)) (.par n!"GF")) (.mul (.ckm 2 1) (.conj (.ckm 2 0)))) (.rat 4 1)))) (.div (.div (.inp n!"C9p_sdemu") (.div (.mul (.rat 16 1) (.mul .pi .pi)) (.mul (.sqrt (.mul (.mul (.rat 4 1) .pi) (.par n!"alpha_e"))) (.sqrt (.mul (.mul (.rat 4 1) .pi) (.par n!"alpha_e")))))) (.div (.div (.div (.sqrt (.rat 2 1)) (.par n!"GF")) (.mul (.ckm 2 1) (.conj (.ckm 2 0)))) (.rat 4 1)))))),
  (n!"S1ddRR_2133", (.sub (.sub (.add (.conj (.mul (.mul (.div (.mul (.rat 4 1) (.par n!"GF")) (.sqrt (.rat 2 1))) (.mul (.ckm 2 1) (.conj (.ckm 2 0)))) (.inp n!"CSLL_sdbb"))) (.div (.conj (.mul (.mul (.div (.mul (.rat 4 1) (.par n!"GF")) (.sqrt (.rat 2 1))) (.mul (.ckm 2 1) (.conj (.ckm 2 0)))) (.inp n!"CSLLt_sdbb"))) (.rat 3 1))) (.mul (.rat 4 1) (.conj (.mul (.mul (.div (.mul (.rat 4 1) (.par n!"GF")) (.sqrt (.rat 2 1))) (.mul (.ckm 2 1) (.conj (.ckm 2 0)))) (.inp n!"CTLL_sdbb"))))) (.div (.mul (.rat 4 1) (.conj (.mul (.mul (.div (.mul (.rat 4 1) (.par n!"GF")) (.sqrt (.rat 2 1))) (.mul (.ckm 2 1) (.conj (.ckm 2 0)))) (.inp n!"CTLLt_sdbb")))) (.rat 3 1)))),
  (n!"S1udRR_1121", (.sub (.sub (.add (.conj (.mul (.mul (.div (.mul (.rat 4 1) (.par n!"GF")) (.sqrt (.rat 2 1))) (.mul (.ckm 2 1) (.conj (.ckm 2 0)))) (.inp n!"CSLL_sduu"))) (.div (.conj (.mul (.mul (.div (.mul (.rat 4 1) (.par n!"GF")) (.sqrt (.rat 2 1))) (.mul (.ckm 2 1) (.conj (.ckm 2 0)))) (.inp n!"CSLLt_sduu"))) (.rat 3 1))) (.mul (.rat 4 1) (.conj (.mul (.mul (.div (.mul (.rat 4 1) (.par n!"GF")) (.sqrt (.rat 2 1))) (.mul (.ckm 2 1) (.conj (.ckm 2 0)))) (.inp n!"CTLL_sduu"))))) (.div (.mul (.rat 4 1) (.conj (.mul (.mul (.div (.mul (.rat 4 1) (.par n!"GF")) (.sqrt (.rat 2 1))) (.mul (.ckm 2 1) (.conj (.ckm 2 0)))) (.inp n!"CTLLt_sduu")))) (.rat 3 1)))),
  (n!"V8udduLR_1121", (.neg (.conj (.mul (.mul (.div (.mul (.rat 4 1) (.par n!"GF")) (.sqrt (.rat 2 1))) (.mul (.ckm 2 1) (.conj (.ckm 2 0)))) (.inp n!"CSRL_sduu"))))),
  (n!"VeuLR_3322", (.div (.inp n!"CVLR_tautaucc") (.div (.div (.sqrt (.rat 2 1)) (.par n!"GF")) (.rat 4 1)))),
  (n!"S8ddRR_2331", (.mul (.rat (-16) 1) (.conj (.mul (.mul (.div (.mul (.rat 4 1) (.par n!"GF")) (.sqrt (.rat 2 1))) (.mul (.ckm 2 1) (.conj (.ckm 2 0)))) (.inp n!"CTLL_sdbb")))))]

def flavio_to_JMS_12 : List (ℕ × Sym) := [
  (n!"V1udLL_1112", (.add (.mul (.mul (.div (.mul (.rat 4 1) (.par n!"GF")) (.sqrt (.rat 2 1))) (.mul (.ckm 2 1) (.conj (.ckm 2 0)))) (.inp n!"CVLL_sduu")) (.div (.mul (.mul (.div (.mul (.rat 4 1) (.par n!"GF")) (.sqrt (.rat 2 1))) (.mul (.ckm 2 1) (.conj (.ckm 2 0)))) (.inp n!"CVLLt_sduu")) (.rat 3 1)))),
  (n!"S1udduRR_2222", (.div (.inp n!"CS1RR_cssc") (.div (.div (.sqrt (.rat 2 1)) (.par n!"GF")) (.rat 4 1)))),
  (n!"VnueduLR_3122", (.conj (.div (.inp n!"CVR_scenutau") (.div (.div (.div (.neg (.sqrt (.rat 2 1))) (.par n!"GF")) (.ckm 1 1)) (.rat 4 1))))),
  (n!"V8duLR_1222", (.mul (.rat 2 1) (.mul (.mul (.div (.mul (.rat 4 1) (.par n!"GF")) (.sqrt (.rat 2 1))) (.mul (.ckm 2 1) (.conj (.ckm 2 0)))) (.inp n!"CVLRt_sdcc")))),
  (n!"VnudLR_1232", (.conj (.div (.div (.inp n!"CR_bsnuenumu") (.div (.mul (.rat 8 1) (.mul .pi .pi)) (.mul (.sqrt (.mul (.mul (.rat 4 1) .pi) (.par n!"alpha_e"))) (.sqrt (.mul (.mul (.rat 4 1) .pi) (.par n!"alpha_e")))))) (.div (.div (.div (.sqrt (.rat 2 1)) (.par n!"GF")) (.mul (.ckm 2 2) (.conj (.ckm 2 1)))) (.rat 4 1))))),
  (n!"TedRR_3312", (.add (.div (.rat 0 1) (.div (.div (.div (.sqrt (.rat 2 1)) (.par n!"GF")) (.mul (.ckm 2 1) (.conj (.ckm 2 0)))) (.rat 4 1))) (.div (.rat 0 1) (.div (.div (.div (.sqrt (.rat 2 1)) (.par n!"GF")) (.mul (.ckm 2 1) (.conj (.ckm 2 0)))) (.rat 4 1))))),
  (n!"S8ddRR_3133", (.mul (.rat (-16) 1) (.conj (.mul (.mul (.div (.mul (.rat 4 1) (.par n!"GF")) (.sqrt (.rat 2 1))) (.mul (.ckm 2 2) (.conj (.ckm 2 0)))) (.inp n!"CTLL_bdbb"))))),
  (n!"SedRL_3223", (.add (.div (.div (.inp n!"CPp_bsmutau") (.div (.div (.mul (.rat 16 1) (.mul .pi .pi)) (.mul (.sqrt (.mul (.mul (.rat 4 1) .pi) (.par n!"alpha_e"))) (.sqrt (.mul (.mul (.rat 4 1) .pi) (.par n!"alpha_e"))))) (.par n!"m_b"))) (.div (.div (.div (.sqrt (.rat 2 1)) (.par n!"GF")) (.mul (.ckm 2 2) (.conj (.ckm 2 1)))) (.rat 4 1))) (.div (.div (.inp n!"CSp_bsmutau") (.div (.div (.mul (.rat 16 1) (.mul .pi .pi)) (.mul (.sqrt (.mul (.mul (.rat 4 1) .pi) (.par n!"alpha_e"))) (.sqrt (.mul (.mul (.rat 4 1) .pi) (.par n!"alpha_e"))))) (.par n!"m_b"))) (.div (.div (.div (.sqrt (.rat 2 1)) (.par n!"GF")) (.mul (.ckm 2 2) (.conj (.ckm 2 1)))) (.rat 4 1))))),
  (n!"VdeLR_1312", (.add (.div (.div (.inp n!"C10_bdmue") (.div (.mul (.rat 16 1) (.mul .pi .pi)) (.mul (.sqrt (.mul (.mul (.rat 4 1) .pi) (.par n!"alpha_e"))) (.sqrt (.mul (.mul (.rat 4 1) .pi) (.par n!"alpha_e")))))) (.div (.div (.div (.sqrt (.rat 2 1)) (.par n!"GF")) (.mul (.ckm 2 2) (.conj (.ckm 2 0)))) (.rat 4 1))) (.div (.div (.inp n!"C9_bdmue") (.div (.mul (.rat 16 1) (.mul .pi .pi)) (.mul (.sqrt (.mul (.mul (.rat 4 1) .pi) (.par n!"alpha_e"))) (.sqrt (.mul (.mul (.rat 4 1) .pi) (.par n!"alpha_e")))))) (.div (.div (.div (.sqrt (.rat 2 1)) (.par n!"GF")) (.mul (.ckm 2 2) (.conj (.ckm 2 0)))) (.rat 4 1))))),
  (n!"VnueduLL_2222", (.conj (.div (.inp n!"CVL_scmunumu") (.div (.div (.div (.neg (.sqrt (.rat 2 1))) (.par n!"GF")) (.ckm 1 1)) (.rat 4 1))))),
  (n!"SnueduRL_1121", (.conj (.div (.inp n!"CSR_suenue") (.div (.div (.div (.neg (.sqrt (.rat 2 1))) (.par n!"GF")) (.ckm 0 1)) (.rat 4 1))))),
  (n!"SedRR_2231", (.add (.neg (.conj (.div (.div (.inp n!"CPp_bdmumu") (.div (.div (.mul (.rat 16 1) (.mul .pi .pi)) (.mul (.sqrt (.mul (.mul (.rat 4 1) .pi) (.par n!"alpha_e"))) (.sqrt (.mul (.mul (.rat 4 1) .pi) (.par n!"alpha_e"))))) (.par n!"m_b"))) (.div (.div (.div (.sqrt (.rat 2 1)) (.par n!"GF")) (.mul (.ckm 2 2) (.conj (.ckm 2 0)))) (.rat 4 1))))) (.conj (.div (.div (.inp n!"CSp_bdmumu") (.div (.div (.mul (.rat 16 1) (.mul .pi .pi)) (.mul (.sqrt (.mul (.mul (.rat 4 1) .pi) (.par n!"alpha_e"))) (.sqrt (.mul (.mul (.rat 4 1) .pi) (.par n!"alpha_e"))))) (.par n!"m_b"))) (.div (.div (.div (.sqrt (.rat 2 1)) (.par n!"GF")) (.mul (.ckm 2 2) (.conj (.ckm 2 0)))) (.rat 4 1)))))),
  (n!"TnueduRR_2331", (.conj (.div (.inp n!"CT_butaunumu") (.div (.div (.div (.neg (.sqrt (.rat 2 1))) (.par n!"GF")) (.ckm 0 2)) (.rat 4 1))))),
  (n!"VedLL_1123", (.add (.neg (.div (.div (.inp n!"C10_bsee") (.div (.mul (.rat 16 1) (.mul .pi .pi)) (.mul (.sqrt (.mul (.mul (.rat 4 1) .pi) (.par n!"alpha_e"))) (.sqrt (.mul (.mul (.rat 4 1) .pi) (.par n!"alpha_e")))))) (.div (.div (.div (.sqrt (.rat 2 1)) (.par n!"GF")) (.mul (.ckm 2 2) (.conj (.ckm 2 1)))) (.rat 4 1)))) (.div (.div (.inp n!"C9_bsee") (.div (.mul (.rat 16 1) (.mul .pi .pi)) (.mul (.sqrt (.mul (.mul (.rat 4 1) .pi) (.par n!"alpha_e"))) (.sqrt (.mul (.mul (.rat 4 1) .pi) (.par n!"alpha_e")))))) (.div (.div (.div (.sqrt (.rat 2 1)) (.par n!"GF")) (.mul (.ckm 2 2) (.conj (.ckm 2 1)))) (.rat 4 1))))),
  (n!"SedRR_3313", (.add (.div (.div (.inp n!"CP_bdtautau") (.div (.div (.mul (.rat 16 1) (.mul .pi .pi)) (.mul (.sqrt (.mul (.mul (.rat 4 1) .pi) (.par n!"alpha_e"))) (.sqrt (.mul (.mul (.rat 4 1) .pi) (.par n!"alpha_e"))))) (.par n!"m_b"))) (.div (.div (.div (.sqrt (.rat 2 1)) (.par n!"GF")) (.mul (.ckm 2 2) (.conj (.ckm 2 0)))) (.rat 4 1))) (.div (.div (.inp n!"CS_bdtautau") (.div (.div (.mul (.rat 16 1) (.mul .pi .pi)) (.mul (.sqrt (.mul (.mul (.rat 4 1) .pi) (.par n!"alpha_e"))) (.sqrt (.mul (.mul (.rat 4 1) .pi) (.par n!"alpha_e"))))) (.par n!"m_b"))) (.div (.div (.div (.sqrt (.rat 2 1)) (.par n!"GF")) (.mul (.ckm 2 2) (.conj (.ckm 2 0)))) (.rat 4 1))))),
  (n!"VnueduLR_2312", (.conj (.div (.inp n!"CVR_dctaunumu") (.div (.div (.div (.neg (.sqrt (.rat 2 1))) (.par n!"GF")) (.ckm 1 0)) (.rat 4 1))))),
  (n!"SnueduRR_1211", (.conj (.div (.inp n!"CSL_dumunue") (.div (.div (.div (.neg (.sqrt (.rat 2 1))) (.par n!"GF")) (.ckm 0 0)) (.rat 4 1))))),
  (n!"SedRL_1331", (.add (.neg (.conj (.div (.div (.inp n!"CP_bdetau") (.div (.div (.mul (.rat 16 1) (.mul .pi .pi)) (.mul (.sqrt (.mul (.mul (.rat 4 1) .pi) (.par n!"alpha_e"))) (.sqrt (.mul (.mul (.rat 4 1) .pi) (.par n!"alpha_e"))))) (.par n!"m_b"))) (.div (.div (.div (.sqrt (.rat 2 1)) (.par n!"GF")) (.mul (.ckm 2 2) (.conj (.ckm 2 0)))) (.rat 4 1))))) (.conj (.div (.div (.inp n!"CS_bdetau") (.div (.div (.mul (.rat 16 1) (.mul .pi .pi)) (.mul (.sqrt (.mul (.mul (.rat 4 1) .pi) (.par n!"alpha_e"))) (.sqrt (.mul (.mul (.rat 4 1) .pi) (.par n!"alpha_e"))))) (.par n!"m_b"))) (.div (.div (.div (.sqrt (.rat 2 1)) (.par n!"GF")) (.mul (.ckm 2 2) (.conj (.ckm 2 0)))) (.rat 4 1)))))),
  (n!"VedLR_1213", (.add (.neg (.div (.div (.inp n!"C10p_bdmue") (.div (.mul (.rat 16 1) (.mul .pi .pi)) (.mul (.sqrt (.mul (.mul (.rat 4 1) .pi) (.par n!"alpha_e"))) (.sqrt (.mul (.mul (.rat 4 1) .pi) (.par n!"alpha_e")))))) (.div (.div (.div (.sqrt (.rat 2 1)) (.par n!"GF")) (.mul (.ckm 2 2) (.conj (.ckm 2 0)))) (.rat 4 1)))) (.div (.div (.inp n!"C9p_bdmue") (.div (.mul (.rat 16 1) (.mul .pi .pi)) (.mul (.sqrt (.mul (.mul (.rat 4 1) .pi) (.par n!"alpha_e"))) (.sqrt (.mul (.mul (.rat 4 1) .pi) (.par n!"alpha_e")))))) (.div (.div (.div (.sqrt (.rat 2 1)) (.par n!"GF")) (.mul (.ckm 2 2) (.conj (.ckm 2 0)))) (.rat 4 1))))),
  (n!"S8udduRR_2221", (.mul (.rat (-16) 1) (.conj (.mul (.mul (.div (.mul (.rat 4 1) (.par n!"GF")) (.sqrt (.rat 2 1))) (.mul (.conj (.ckm 1 2)) (.ckm 0 2))) (.inp n!"CTLL_cuss"))))),
  (n!"S1udRR_1113", (.sub (.sub (.add (.mul (.mul (.div (.mul (.rat 4 1) (.par n!"GF")) (.sqrt (.rat 2 1))) (.mul (.ckm 2 2) (.conj (.ckm 2 0)))) (.inp n!"CSRR_bduu")) (.div (.mul (.mul (.div (.mul (.rat 4 1) (.par n!"GF")) (.sqrt (.rat 2 1))) (.mul (.ckm 2 2) (.conj (.ckm 2 0)))) (.inp n!"CSRRt_bduu")) (.rat 3 1))) (.mul (.rat 4 1) (.mul (.mul (.div (.mul (.rat 4 1) (.par n!"GF")) (.sqrt (.rat 2 1))) (.mul (.ckm 2 2) (.conj (.ckm 2 0)))) (.inp n!"CTRR_bduu")))) (.div (.mul (.rat 4 1) (.mul (.mul (.div (.mul (.rat 4 1) (.par n!"GF")) (.sqrt (.rat 2 1))) (.mul (.ckm 2 2) (.conj (.ckm 2 0)))) (.inp n!"CTRRt_bduu"))) (.rat 3 1)))),
  (n!"VeuLL_1111", (.div (.inp n!"CVLL_eeuu") (.div (.div (.sqrt (.rat 2 1)) (.par n!"GF")) (.rat 4 1)))),
  (n!"S8ddRR_2323", (.mul (.rat 2 1) (.mul (.rat (-8) 1) (.inp n!"CTRR_bsbs")))),
  (n!"VnueLL_2211", (.div (.inp n!"CVLL_numunumuee") (.div (.div (.sqrt (.rat 2 1)) (.par n!"GF")) (.rat 4 1)))),
  (n!"V1ddLR_3333", (.div (.inp n!"CV1LR_bbbb") (.div (.div (.sqrt (.rat 2 1)) (.par n!"GF")) (.rat 4 1)))),
  (n!"V8ddLR_1322", (.mul (.rat 2 1) (.mul (.mul (.div (.mul (.rat 4 1) (.par n!"GF")) (.sqrt (.rat 2 1))) (.mul (.ckm 2 2) (.conj (.ckm 2 0)))) (.inp n!"CVLRt_bdss")))),
  (n!"TedRR_2222", (.div (.inp n!"CTRR_mumuss") (.div (.div (.sqrt (.rat 2 1)) (.par n!"GF")) (.rat 4 1)))),
  (n!"VnuuLL_1122", (.div (.inp n!"CVLL_nuenuecc") (.div (.div (.sqrt (.rat 2 1)) (.par n!"GF")) (.rat 4 1)))),
  (n!"V1duLR_1112", (.add (.mul (.mul (.div (.mul (.rat 4 1) (.par n!"GF")) (.sqrt (.rat 2 1))) (.mul (.conj (.ckm 1 2)) (.ckm 0 2))) (.inp n!"CVRL_cudd")) (.div (.mul (.mul (.div (.mul (.rat 4 1) (.par n!"GF")) (.sqrt (.rat 2 1))) (.mul (.conj (.ckm 1 2)) (.ckm 0 2))) (.inp n!"CVRLt_cudd")) (.rat 3 1)))),
  (n!"VnueduLL_1132", (.conj (.div (.inp n!"CVL_bcenue") (.div (.div (.div (.neg (.sqrt (.rat 2 1))) (.par n!"GF")) (.ckm 1 2)) (.rat 4 1))))),
  (n!"VnudLL_2312", (.div (.div (.inp n!"CL_sdnutaunumu") (.div (.mul (.rat 8 1) (.mul .pi .pi)) (.mul (.sqrt (.mul (.mul (.rat 4 1) .pi) (.par n!"alpha_e"))) (.sqrt (.mul (.mul (.rat 4 1) .pi) (.par n!"alpha_e")))))) (.div (.div (.div (.sqrt (.rat 2 1)) (.par n!"GF")) (.mul (.ckm 2 1) (.conj (.ckm 2 0)))) (.rat 4 1)))),
  (n!"SnueduRL_3322", (.conj (.div (.inp n!"CSR_sctaunutau") (.div (.div (.div (.neg (.sqrt (.rat 2 1))) (.par n!"GF")) (.ckm 1 1)) (.rat 4 1))))),
  (n!"SedRR_2223", (.add (.div (.div (.inp n!"CP_bsmumu") (.div (.div (.mul (.rat 16 1) (.mul .pi .pi)) (.mul (.sqrt (.mul (.mul (.rat 4 1) .pi) (.par n!"alpha_e"))) (.sqrt (.mul (.mul (.rat 4 1) .pi) (.par n!"alpha_e"))))) (.par n!"m_b"))) (.div (.div (.div (.sqrt (.rat 2 1)) (.par n!"GF")) (.mul (.ckm 2 2) (.conj (.ckm 2 1)))) (.rat 4 1))) (.div (.div (.inp n!"CS_bsmumu") (.div (.div (.mul (.rat 16 1) (.mul .pi .pi)) (.mul (.sqrt (.mul (.mul (.rat 4 1) .pi) (.par n!"alpha_e"))) (.sqrt (.mul (.mul (.rat 4 1) .pi) (.par n!"alpha_e"))))) (.par n!"m_b"))) (.div (.div (.div (.sqrt (.rat 2 1)) (.par n!"GF")) (.mul (.ckm 2 2) (.conj (.ckm 2 1)))) (.rat 4 1))))),
  (n!"VnueduLR_1222", (.conj (.div (.inp n!"CVR_scmunue") (.div (.div (.div (.neg (.sqrt (.rat 2 1))) (.par n!"GF")) (.ckm 1 1)) (.rat 4 1))))),
  (n!"SedRL_3311", (.div (.inp n!"CSRL_tautaudd") (.div (.div (.sqrt (.rat 2 1)) (.par n!"GF")) (.rat 4 1)))),
  (n!"V8udLR_1112", (.mul (.rat 2 1) (.mul (.mul (.div (.mul (.rat 4 1) (.par n!"GF")) (.sqrt (.rat 2 1))) (.mul (.ckm 2 1) (.conj (.ckm 2 0)))) (.inp n!"CVRLt_sduu")))),
  (n!"VedRR_2212", (.add (.div (.div (.inp n!"C10p_sdmumu") (.div (.mul (.rat 16 1) (.mul .pi .pi)) (.mul (.sqrt (.mul (.mul (.rat 4 1) .pi) (.par n!"alpha_e"))) (.sqrt (.mul (.mul (.rat 4 1) .pi) (.par n!"alpha_e")))))) (.div (.div (.div (.sqrt (.rat 2 1)) (.par n!"GF")) (.mul (.ckm 2 1) (.conj (.ckm 2 0)))) (.rat 4 1))) (.div (.div (.inp n!"C9p_sdmumu") (.div (.mul (.rat 16 1) (.mul .pi .pi)) (.mul (.sqrt (.mul (.mul (.rat 4 1) .pi) (.par n!"alpha_e"))) (.sqrt (.mul (.mul (.rat 4 1) .pi) (.par n!"alpha_e")))))) (.div (.div (.div (.sqrt (.rat 2 1)) (.par n!"GF")) (.mul (.ckm 2 1) (.conj (.ckm 2 0)))) (.rat 4 1))))),
  (n!"VedLR_2332", (.conj (.add (.neg (.div (.div (.inp n!"C10p_bsmutau") (.div (.mul (.rat 16 1) (.mul .pi .pi)) (.mul (.sqrt (.mul (.mul (.rat 4 1) .pi) (.par n!"alpha_e"))) (.sqrt (.mul (.mul (.rat 4 1) .pi) (.par n!"alpha_e")))))) (.div (.div (.div (.sqrt (.rat 2 1)) (.par n!"GF")) (.mul (.ckm 2 2) (.conj (.ckm 2 1)))) (.rat 4 1)))) (.div (.div (.inp n!"C9p_bsmutau") (.div (.mul (.rat 16 1) (.mul .pi .pi)) (.mul (.sqrt (.mul (.mul (.rat 4 1) .pi) (.par n!"alpha_e"))) (.sqrt (.mul (.mul (.rat 4 1) .pi) (.par n!"alpha_e")))))) (.div (.div (.div (.sqrt (.rat 2 1)) (.par n!"GF")) (.mul (.ckm 2 2) (.conj (.ckm 2 1)))) (.rat 4 1)))))),
  (n!"S1udRR_2232", (.sub (.sub (.add (.conj (.mul (.mul (.div (.mul (.rat 4 1) (.par n!"GF")) (.sqrt (.rat 2 1))) (.mul (.ckm 2 2) (.conj (.ckm 2 1)))) (.inp n!"CSLL_bscc"))) (.div (.conj (.mul (.mul (.div (.mul (.rat 4 1) (.par n!"GF")) (.sqrt (.rat 2 1))) (.mul (.ckm 2 2) (.conj (.ckm 2 1)))) (.inp n!"CSLLt_bscc"))) (.rat 3 1))) (.mul (.rat 4 1) (.conj (.mul (.mul (.div (.mul (.rat 4 1) (.par n!"GF")) (.sqrt (.rat 2 1))) (.mul (.ckm 2 2) (.conj (.ckm 2 1)))) (.inp n!"CTLL_bscc"))))) (.div (.mul (.rat 4 1) (.conj (.mul (.mul (.div (.mul (.rat 4 1) (.par n!"GF")) (.sqrt (.rat 2 1))) (.mul (.ckm 2 2) (.conj (.ckm 2 1)))) (.inp n!"CTLLt_bscc")))) (.rat 3 1)))),
  (n!"V8udduLR_2232", (.neg (.conj (.mul (.mul (.div (.mul (.rat 4 1) (.par n!"GF")) (.sqrt (.rat 2 1))) (.mul (.ckm 2 2) (.conj (.ckm 2 1)))) (.inp n!"CSRL_bscc"))))),
  (n!"S8udduRR_1131", (.mul (.rat (-16) 1) (.conj (.mul (.mul (.div (.mul (.rat 4 1) (.par n!"GF")) (.sqrt (.rat 2 1))) (.mul (.ckm 2 2) (.conj (.ckm 2 0)))) (.inp n!"CTLL_bduu"))))),
  (n!"V1udLL_2223", (.add (.mul (.mul (.div (.mul (.rat 4 1) (.par n!"GF")) (.sqrt (.rat 2 1))) (.mul (.ckm 2 2) (.conj (.ckm 2 1)))) (.inp n!"CVLL_bscc")) (.div (.mul (.mul (.div (.mul (.rat 4 1) (.par n!"GF")) (.sqrt (.rat 2 1))) (.mul (.ckm 2 2) (.conj (.ckm 2 1)))) (.inp n!"CVLLt_bscc")) (.rat 3 1)))),
  (n!"SeuRR_2211", (.div (.inp n!"CSRR_mumuuu") (.div (.div (.sqrt (.rat 2 1)) (.par n!"GF")) (.rat 4 1)))),
  (n!"S8ddRR_1233", (.sub (.mul (.rat 2 1) (.mul (.mul (.div (.mul (.rat 4 1) (.par n!"GF")) (.sqrt (.rat 2 1))) (.mul (.ckm 2 1) (.conj (.ckm 2 0)))) (.inp n!"CSRRt_sdbb"))) (.mul (.rat 8 1) (.mul (.mul (.div (.mul (.rat 4 1) (.par n!"GF")) (.sqrt (.rat 2 1))) (.mul (.ckm 2 1) (.conj (.ckm 2 0)))) (.inp n!"CTRRt_sdbb"))))),
  (n!"SedRL_1323", (.add (.div (.div (.inp n!"CPp_bstaue") (.div (.div (.mul (.rat 16 1) (.mul .pi .pi)) (.mul (.sqrt (.mul (.mul (.rat 4 1) .pi) (.par n!"alpha_e"))) (.sqrt (.mul (.mul (.rat 4 1) .pi) (.par n!"alpha_e"))))) (.par n!"m_b"))) (.div (.div (.div (.sqrt (.rat 2 1)) (.par n!"GF")) (.mul (.ckm 2 2) (.conj (.ckm 2 1)))) (.rat 4 1))) (.div (.div (.inp n!"CSp_bstaue") (.div (.div (.mul (.rat 16 1) (.mul .pi .pi)) (.mul (.sqrt (.mul (.mul (.rat 4 1) .pi) (.par n!"alpha_e"))) (.sqrt (.mul (.mul (.rat 4 1) .pi) (.par n!"alpha_e"))))) (.par n!"m_b"))) (.div (.div (.div (.sqrt (.rat 2 1)) (.par n!"GF")) (.mul (.ckm 2 2) (.conj (.ckm 2 1)))) (.rat 4 1))))),
  (n!"V1udRR_1111", (.div (.inp n!"CV1RR_uudd") (.div (.div (.sqrt (.rat 2 1)) (.par n!"GF")) (.rat 4 1)))),
  (n!"VeuLL_3312", (.add (.neg (.div (.div (.inp n!"C10_cutautau") (.div (.mul (.rat 16 1) (.mul .pi .pi)) (.mul (.sqrt (.mul (.mul (.rat 4 1) .pi) (.par n!"alpha_e"))) (.sqrt (.mul (.mul (.rat 4 1) .pi) (.par n!"alpha_e")))))) (.div (.div (.div (.sqrt (.rat 2 1)) (.par n!"GF")) (.mul (.conj (.ckm 1 2)) (.ckm 0 2))) (.rat 4 1)))) (.div (.div (.inp n!"C9_cutautau") (.div (.mul (.rat 16 1) (.mul .pi .pi)) (.mul (.sqrt (.mul (.mul (.rat 4 1) .pi) (.par n!"alpha_e"))) (.sqrt (.mul (.mul (.rat 4 1) .pi) (.par n!"alpha_e")))))) (.div (.div (.div (.sqrt (.rat 2 1)) (.par n!"GF")) (.mul (.conj (.ckm 1 2)) (.ckm 0 2))) (.rat 4 1))))),
  (n!"S1ddRR_1131", (.sub (.neg (.div (.mul (.rat 8 1) (.conj (.mul (.mul (.div (.mul (.rat 4 1) (.par n!"GF")) (.sqrt (.rat 2 1))) (.mul (.ckm 2 2) (.conj (.ckm 2 0)))) (.inp n!"CTLL_bddd")))) (.rat 3 1))) (.mul (.rat 8 1) (.conj (.add (.mul (.div (.rat (-1) 1) (.rat 8 1)) (.mul (.mul (.div (.mul (.rat 4 1) (.par n!"GF")) (.sqrt (.rat 2 1))) (.mul (.ckm 2 2) (.conj (.ckm 2 0)))) (.inp n!"CSLL_bddd"))) (.mul (.div (.rat 1 1) (.rat 2 1)) (.mul (.mul (.div (.mul (.rat 4 1) (.par n!"GF")) (.sqrt (.rat 2 1))) (.mul (.ckm 2 2) (.conj (.ckm 2 0)))) (.inp n!"CTLL_bddd")))))))),
  (n!"VnueLR_1211", (.div (.inp n!"CVLR_nuenumuee") (.div (.div (.sqrt (.rat 2 1)) (.par n!"GF")) (.rat 4 1)))),
  (n!"SnueduRR_3132", (.conj (.div (.inp n!"CSL_bcenutau") (.div (.div (.div (.neg (.sqrt (.rat 2 1))) (.par n!"GF")) (.ckm 1 2)) (.rat 4 1)))))]

def flavio_to_JMS_13 : List (ℕ × Sym) := [
  (n!"TedRR_1132", (.sub (.conj (.div (.rat 0 1) (.div (.div (.div (.sqrt (.rat 2 1)) (.par n!"GF")) (.mul (.ckm 2 2) (.conj (.ckm 2 1)))) (.rat 4 1)))) (.conj (.div (.rat 0 1) (.div (.div (.div (.sqrt (.rat 2 1)) (.par n!"GF")) (.mul (.ckm 2 2) (.conj (.ckm 2 1)))) (.rat 4 1)))))),
  (n!"VnueduLL_3112", (.conj (.div (.inp n!"CVL_dcenutau") (.div (.div (.div (.neg (.sqrt (.rat 2 1))) (.par n!"GF")) (.ckm 1 0)) (.rat 4 1))))),
  (n!"VnudLL_1222", (.div (.inp n!"CVLL_nuenumuss") (.div (.div (.sqrt (.rat 2 1)) (.par n!"GF")) (.rat 4 1)))),
  (n!"SedRR_3121", (.add (.neg (.conj (.div (.div (.inp n!"CPp_sdtaue") (.div (.div (.mul (.rat 16 1) (.mul .pi .pi)) (.mul (.sqrt (.mul (.mul (.rat 4 1) .pi) (.par n!"alpha_e"))) (.sqrt (.mul (.mul (.rat 4 1) .pi) (.par n!"alpha_e"))))) (.par n!"m_s"))) (.div (.div (.div (.sqrt (.rat 2 1)) (.par n!"GF")) (.mul (.ckm 2 1) (.conj (.ckm 2 0)))) (.rat 4 1))))) (.conj (.div (.div (.inp n!"CSp_sdtaue") (.div (.div (.mul (.rat 16 1) (.mul .pi .pi)) (.mul (.sqrt (.mul (.mul (.rat 4 1) .pi) (.par n!"alpha_e"))) (.sqrt (.mul (.mul (.rat 4 1) .pi) (.par n!"alpha_e"))))) (.par n!"m_s"))) (.div (.div (.div (.sqrt (.rat 2 1)) (.par n!"GF")) (.mul (.ckm 2 1) (.conj (.ckm 2 0)))) (.rat 4 1)))))),
  (n!"V1ddLR_1212", (.sub (.div (.neg (.inp n!"CSLR_sdsd")) (.rat 6 1)) (.div (.mul (.rat (-2) 1) (.inp n!"CVLR_sdsd")) (.rat 2 1)))),
  (n!"TnueduRR_3221", (.conj (.div (.inp n!"CT_sumunutau") (.div (.div (.div (.neg (.sqrt (.rat 2 1))) (.par n!"GF")) (.ckm 0 1)) (.rat 4 1))))),
  (n!"SnueduRL_2232", (.conj (.div (.inp n!"CSR_bcmunumu") (.div (.div (.div (.neg (.sqrt (.rat 2 1))) (.par n!"GF")) (.ckm 1 2)) (.rat 4 1))))),
  (n!"SedRR_1133", (.div (.inp n!"CSRR_eebb") (.div (.div (.sqrt (.rat 2 1)) (.par n!"GF")) (.rat 4 1)))),
  (n!"VnudLR_1312", (.div (.div (.inp n!"CR_sdnutaunue") (.div (.mul (.rat 8 1) (.mul .pi .pi)) (.mul (.sqrt (.mul (.mul (.rat 4 1) .pi) (.par n!"alpha_e"))) (.sqrt (.mul (.mul (.rat 4 1) .pi) (.par n!"alpha_e")))))) (.div (.div (.div (.sqrt (.rat 2 1)) (.par n!"GF")) (.mul (.ckm 2 1) (.conj (.ckm 2 0)))) (.rat 4 1)))),
  (n!"VddRR_1322", (.mul (.mul (.div (.mul (.rat 4 1) (.par n!"GF")) (.sqrt (.rat 2 1))) (.mul (.ckm 2 2) (.conj (.ckm 2 0)))) (.inp n!"CVRR_bdss"))),
  (n!"SedRL_2221", (.add (.neg (.conj (.div (.div (.inp n!"CP_sdmumu") (.div (.div (.mul (.rat 16 1) (.mul .pi .pi)) (.mul (.sqrt (.mul (.mul (.rat 4 1) .pi) (.par n!"alpha_e"))) (.sqrt (.mul (.mul (.rat 4 1) .pi) (.par n!"alpha_e"))))) (.par n!"m_s"))) (.div (.div (.div (.sqrt (.rat 2 1)) (.par n!"GF")) (.mul (.ckm 2 1) (.conj (.ckm 2 0)))) (.rat 4 1))))) (.conj (.div (.div (.inp n!"CS_sdmumu") (.div (.div (.mul (.rat 16 1) (.mul .pi .pi)) (.mul (.sqrt (.mul (.mul (.rat 4 1) .pi) (.par n!"alpha_e"))) (.sqrt (.mul (.mul (.rat 4 1) .pi) (.par n!"alpha_e"))))) (.par n!"m_s"))) (.div (.div (.div (.sqrt (.rat 2 1)) (.par n!"GF")) (.mul (.ckm 2 1) (.conj (.ckm 2 0)))) (.rat 4 1)))))),
  (n!"VedRR_1122", (.div (.inp n!"CVRR_eess") (.div (.div (.sqrt (.rat 2 1)) (.par n!"GF")) (.rat 4 1)))),
  (n!"SnueduRR_2322", (.conj (.div (.inp n!"CSL_sctaunumu") (.div (.div (.div (.neg (.sqrt (.rat 2 1))) (.par n!"GF")) (.ckm 1 1)) (.rat 4 1))))),
  (n!"V1udLL_1133", (.div (.inp n!"CV1LL_uubb") (.div (.div (.sqrt (.rat 2 1)) (.par n!"GF")) (.rat 4 1)))),
  (n!"SeuRR_1121", (.add (.neg (.conj (.div (.div (.inp n!"CPp_cuee") (.div (.div (.mul (.rat 16 1) (.mul .pi .pi)) (.mul (.sqrt (.mul (.mul (.rat 4 1) .pi) (.par n!"alpha_e"))) (.sqrt (.mul (.mul (.rat 4 1) .pi) (.par n!"alpha_e"))))) (.par n!"m_c"))) (.div (.div (.div (.sqrt (.rat 2 1)) (.par n!"GF")) (.mul (.conj (.ckm 1 2)) (.ckm 0 2))) (.rat 4 1))))) (.conj (.div (.div (.inp n!"CSp_cuee") (.div (.div (.mul (.rat 16 1) (.mul .pi .pi)) (.mul (.sqrt (.mul (.mul (.rat 4 1) .pi) (.par n!"alpha_e"))) (.sqrt (.mul (.mul (.rat 4 1) .pi) (.par n!"alpha_e"))))) (.par n!"m_c"))) (.div (.div (.div (.sqrt (.rat 2 1)) (.par n!"GF")) (.mul (.conj (.ckm 1 2)) (.ckm 0 2))) (.rat 4 1)))))),
  (n!"VeuLL_2222", (.div (.inp n!"CVLL_mumucc") (.div (.div (.sqrt (.rat 2 1)) (.par n!"GF")) (.rat 4 1)))),
  (n!"VnueLL_3322", (.div (.inp n!"CVLL_nutaunutaumumu") (.div (.div (.sqrt (.rat 2 1)) (.par n!"GF")) (.rat 4 1)))),
  (n!"V8ddLR_2212", (.neg (.mul (.mul (.div (.mul (.rat 4 1) (.par n!"GF")) (.sqrt (.rat 2 1))) (.mul (.ckm 2 1) (.conj (.ckm 2 0)))) (.inp n!"CSLR_sdss")))),
  (n!"V1udduLR_1231", (.sub (.neg (.div (.conj (.mul (.mul (.div (.mul (.rat 4 1) (.par n!"GF")) (.sqrt (.rat 2 1))) (.mul (.ckm 2 2) (.conj (.ckm 2 1)))) (.inp n!"CSRL_bsuu"))) (.mul (.rat 2 1) (.rat 3 1)))) (.div (.conj (.mul (.mul (.div (.mul (.rat 4 1) (.par n!"GF")) (.sqrt (.rat 2 1))) (.mul (.ckm 2 2) (.conj (.ckm 2 1)))) (.inp n!"CSRLt_bsuu"))) (.rat 2 1)))),
  (n!"TedRR_3112", (.add (.div (.rat 0 1) (.div (.div (.div (.sqrt (.rat 2 1)) (.par n!"GF")) (.mul (.ckm 2 1) (.conj (.ckm 2 0)))) (.rat 4 1))) (.div (.rat 0 1) (.div (.div (.div (.sqrt (.rat 2 1)) (.par n!"GF")) (.mul (.ckm 2 1) (.conj (.ckm 2 0)))) (.rat 4 1))))),
  (n!"S1ddRR_1123", (.sub (.sub (.add (.mul (.mul (.div (.mul (.rat 4 1) (.par n!"GF")) (.sqrt (.rat 2 1))) (.mul (.ckm 2 2) (.conj (.ckm 2 1)))) (.inp n!"CSRR_bsdd")) (.div (.mul (.mul (.div (.mul (.rat 4 1) (.par n!"GF")) (.sqrt (.rat 2 1))) (.mul (.ckm 2 2) (.conj (.ckm 2 1)))) (.inp n!"CSRRt_bsdd")) (.rat 3 1))) (.mul (.rat 4 1) (.mul (.mul (.div (.mul (.rat 4 1) (.par n!"GF")) (.sqrt (.rat 2 1))) (.mul (.ckm 2 2) (.conj (.ckm 2 1)))) (.inp n!"CTRR_bsdd")))) (.div (.mul (.rat 4 1) (.mul (.mul (.div (.mul (.rat 4 1) (.par n!"GF")) (.sqrt (.rat 2 1))) (.mul (.ckm 2 2) (.conj (.ckm 2 1)))) (.inp n!"CTRRt_bsdd"))) (.rat 3 1)))),
  (n!"S8ddRR_1321", (.mul (.rat (-16) 1) (.mul (.mul (.div (.mul (.rat 4 1) (.par n!"GF")) (.sqrt (.rat 2 1))) (.mul (.ckm 2 2) (.conj (.ckm 2 1)))) (.inp n!"CTRR_bsdd")))),
  (n!"V1ddLR_2331", (.conj (.sub (.neg (.div (.mul (.mul (.div (.mul (.rat 4 1) (.par n!"GF")) (.sqrt (.rat 2 1))) (.mul (.ckm 2 1) (.conj (.ckm 2 0)))) (.inp n!"CSLR_sdbb")) (.mul (.rat 2 1) (.rat 3 1)))) (.div (.mul (.mul (.div (.mul (.rat 4 1) (.par n!"GF")) (.sqrt (.rat 2 1))) (.mul (.ckm 2 1) (.conj (.ckm 2 0)))) (.inp n!"CSLRt_sdbb")) (.rat 2 1))))),
  (n!"TedRR_3333", (.div (.inp n!"CTRR_tautaubb") (.div (.div (.sqrt (.rat 2 1)) (.par n!"GF")) (.rat 4 1)))),
  (n!"VdeLR_1333", (.add (.div (.div (.inp n!"C10_bdtautau") (.div (.mul (.rat 16 1) (.mul .pi .pi)) (.mul (.sqrt (.mul (.mul (.rat 4 1) .pi) (.par n!"alpha_e"))) (.sqrt (.mul (.mul (.rat 4 1) .pi) (.par n!"alpha_e")))))) (.div (.div (.div (.sqrt (.rat 2 1)) (.par n!"GF")) (.mul (.ckm 2 2) (.conj (.ckm 2 0)))) (.rat 4 1))) (.div (.div (.inp n!"C9_bdtautau") (.div (.mul (.rat 16 1) (.mul .pi .pi)) (.mul (.sqrt (.mul (.mul (.rat 4 1) .pi) (.par n!"alpha_e"))) (.sqrt (.mul (.mul (.rat 4 1) .pi) (.par n!"alpha_e")))))) (.div (.div (.div (.sqrt (.rat 2 1)) (.par n!"GF")) (.mul (.ckm 2 2) (.conj (.ckm 2 0)))) (.rat 4 1))))),
  (n!"TnueduRR_2131", (.conj (.div (.inp n!"CT_buenumu") (.div (.div (.div (.neg (.sqrt (.rat 2 1))) (.par n!"GF")) (.ckm 0 2)) (.rat 4 1))))),
  (n!"V1uuLR_1211", (.sub (.neg (.div (.mul (.mul (.div (.mul (.rat 4 1) (.par n!"GF")) (.sqrt (.rat 2 1))) (.mul (.conj (.ckm 1 2)) (.ckm 0 2))) (.inp n!"CSLR_cuuu")) (.mul (.rat 2 1) (.rat 3 1)))) (.div (.mul (.rat (-2) 1) (.mul (.mul (.div (.mul (.rat 4 1) (.par n!"GF")) (.sqrt (.rat 2 1))) (.mul (.conj (.ckm 1 2)) (.ckm 0 2))) (.inp n!"CVLR_cuuu"))) (.rat 2 1)))),
  (n!"VeeLR_1133", (.div (.inp n!"CVLR_eetautau") (.div (.div (.sqrt (.rat 2 1)) (.par n!"GF")) (.rat 4 1)))),
  (n!"VddLL_1123", (.mul (.mul (.div (.mul (.rat 4 1) (.par n!"GF")) (.sqrt (.rat 2 1))) (.mul (.ckm 2 2) (.conj (.ckm 2 1)))) (.inp n!"CVLL_bsdd"))),
  (n!"SedRR_3113", (.add (.div (.div (.inp n!"CP_bdetau") (.div (.div (.mul (.rat 16 1) (.mul .pi .pi)) (.mul (.sqrt (.mul (.mul (.rat 4 1) .pi) (.par n!"alpha_e"))) (.sqrt (.mul (.mul (.rat 4 1) .pi) (.par n!"alpha_e"))))) (.par n!"m_b"))) (.div (.div (.div (.sqrt (.rat 2 1)) (.par n!"GF")) (.mul (.ckm 2 2) (.conj (.ckm 2 0)))) (.rat 4 1))) (.div (.div (.inp n!"CS_bdetau") (.div (.div (.mul (.rat 16 1) (.mul .pi .pi)) (.mul (.sqrt (.mul (.mul (.rat 4 1) .pi) (.par n!"alpha_e"))) (.sqrt (.mul (.mul (.rat 4 1) .pi) (.par n!"alpha_e"))))) (.par n!"m_b"))) (.div (.div (.div (.sqrt (.rat 2 1)) (.par n!"GF")) (.mul (.ckm 2 2) (.conj (.ckm 2 0)))) (.rat 4 1))))),
  (n!"VnueduLR_2112", (.conj (.div (.inp n!"CVR_dcenumu") (.div (.div (.div (.neg (.sqrt (.rat 2 1))) (.par n!"GF")) (.ckm 1 0)) (.rat 4 1))))),
  (n!"TeuRR_3321", (.sub (.conj (.div (.rat 0 1) (.div (.div (.div (.sqrt (.rat 2 1)) (.par n!"GF")) (.mul (.conj (.ckm 1 2)) (.ckm 0 2))) (.rat 4 1)))) (.conj (.div (.rat 0 1) (.div (.div (.div (.sqrt (.rat 2 1)) (.par n!"GF")) (.mul (.conj (.ckm 1 2)) (.ckm 0 2))) (.rat 4 1)))))),
  (n!"SedRL_1131", (.add (.neg (.conj (.div (.div (.inp n!"CP_bdee") (.div (.div (.mul (.rat 16 1) (.mul .pi .pi)) (.mul (.sqrt (.mul (.mul (.rat 4 1) .pi) (.par n!"alpha_e"))) (.sqrt (.mul (.mul (.rat 4 1) .pi) (.par n!"alpha_e"))))) (.par n!"m_b"))) (.div (.div (.div (.sqrt (.rat 2 1)) (.par n!"GF")) (.mul (.ckm 2 2) (.conj (.ckm 2 0)))) (.rat 4 1))))) (.conj (.div (.div (.inp n!"CS_bdee") (.div (.div (.mul (.rat 16 1) (.mul .pi .pi)) (.mul (.sqrt (.mul (.mul (.rat 4 1) .pi) (.par n!"alpha_e"))) (.sqrt (.mul (.mul (.rat 4 1) .pi) (.par n!"alpha_e"))))) (.par n!"m_b"))) (.div (.div (.div (.sqrt (.rat 2 1)) (.par n!"GF")) (.mul (.ckm 2 2) (.conj (.ckm 2 0)))) (.rat 4 1)))))),
  (n!"TeuRR_1112", (.add (.div (.rat 0 1) (.div (.div (.div (.sqrt (.rat 2 1)) (.par n!"GF")) (.mul (.conj (.ckm 1 2)) (.ckm 0 2))) (.rat 4 1))) (.div (.rat 0 1) (.div (.div (.div (.sqrt (.rat 2 1)) (.par n!"GF")) (.mul (.conj (.ckm 1 2)) (.ckm 0 2))) (.rat 4 1))))),
  (n!"SnueduRR_1232", (.conj (.div (.inp n!"CSL_bcmunue") (.div (.div (.div (.neg (.sqrt (.rat 2 1))) (.par n!"GF")) (.ckm 1 2)) (.rat 4 1))))),
  (n!"V8udLR_2223", (.mul (.rat 2 1) (.mul (.mul (.div (.mul (.rat 4 1) (.par n!"GF")) (.sqrt (.rat 2 1))) (.mul (.ckm 2 2) (.conj (.ckm 2 1)))) (.inp n!"CVRLt_bscc")))),
  (n!"VedRR_3323", (.add (.div (.div (.inp n!"C10p_bstautau") (.div (.mul (.rat 16 1) (.mul .pi .pi)) (.mul (.sqrt (.mul (.mul (.rat 4 1) .pi) (.par n!"alpha_e"))) (.sqrt (.mul (.mul (.rat 4 1) .pi) (.par n!"alpha_e")))))) (.div (.div (.div (.sqrt (.rat 2 1)) (.par n!"GF")) (.mul (.ckm 2 2) (.conj (.ckm 2 1)))) (.rat 4 1))) (.div (.div (.inp n!"C9p_bstautau") (.div (.mul (.rat 16 1) (.mul .pi .pi)) (.mul (.sqrt (.mul (.mul (.rat 4 1) .pi) (.par n!"alpha_e"))) (.sqrt (.mul (.mul (.rat 4 1) .pi) (.par n!"alpha_e")))))) (.div (.div (.div (.sqrt (.rat 2 1)) (.par n!"GF")) (.mul (.ckm 2 2) (.conj (.ckm 2 1)))) (.rat 4 1))))),
  (n!"S8udRR_1111", (.div (.inp n!"CS8RR_uudd") (.div (.div (.sqrt (.rat 2 1)) (.par n!"GF")) (.rat 4 1)))),
  (n!"SedRL_2213", (.add (.div (.div (.inp n!"CPp_bdmumu") (.div (.div (.mul (.rat 16 1) (.mul .pi .pi)) (.mul (.sqrt (.mul (.mul (.rat 4 1) .pi) (.par n!"alpha_e"))) (.sqrt (.mul (.mul (.rat 4 1) .pi) (.par n!"alpha_e"))))) (.par n!"m_b"))) (.div (.div (.div (.sqrt (.rat 2 1)) (.par n!"GF")) (.mul (.ckm 2 2) (.conj (.ckm 2 0)))) (.rat 4 1))) (.div (.div (.inp n!"CSp_bdmumu") (.div (.div (.mul (.rat 16 1) (.mul .pi .pi)) (.mul (.sqrt (.mul (.mul (.rat 4 1) .pi) (.par n!"alpha_e"))) (.sqrt (.mul (.mul (.rat 4 1) .pi) (.par n!"alpha_e"))))) (.par n!"m_b"))) (.div (.div (.div (.sqrt (.rat 2 1)) (.par n!"GF")) (.mul (.ckm 2 2) (.conj (.ckm 2 0)))) (.rat 4 1))))),
  (n!"VnueduLL_1212", (.conj (.div (.inp n!"CVL_dcmunue") (.div (.div (.div (.neg (.sqrt (.rat 2 1))) (.par n!"GF")) (.ckm 1 0)) (.rat 4 1))))),
  (n!"SedRR_1221", (.add (.neg (.conj (.div (.div (.inp n!"CPp_sdemu") (.div (.div (.mul (.rat 16 1) (.mul .pi .pi)) (.mul (.sqrt (.mul (.mul (.rat 4 1) .pi) (.par n!"alpha_e"))) (.sqrt (.mul (.mul (.rat 4 1) .pi) (.par n!"alpha_e"))))) (.par n!"m_s"))) (.div (.div (.div (.sqrt (.rat 2 1)) (.par n!"GF")) (.mul (.ckm 2 1) (.conj (.ckm 2 0)))) (.rat 4 1))))) (.conj (.div (.div (.inp n!"CSp_sdemu") (.div (.div (.mul (.rat 16 1) (.mul .pi .pi)) (.mul (.sqrt (.mul (.mul (.rat 4 1) .pi) (.par n!"alpha_e"))) (.sqrt (.mul (.mul (.rat 4 1) .pi) (.par n!"alpha_e"))))) (.par n!"m_s"))) (.div (.div (.div (.sqrt (.rat 2 1)) (.par n!"GF")) (.mul (.ckm 2 1) (.conj (.ckm 2 0)))) (.rat 4 1)))))),
  (n!"SeuRR_3322", (.div (.inp n!"CSRR_tautaucc") (.div (.div (.sqrt (.rat 2 1)) (.par n!"GF")) (.rat 4 1)))),
  (n!"TnueduRR_1321", (.conj (.div (.inp n!"CT_sutaunue") (.div (.div (.div (.neg (.sqrt (.rat 2 1))) (.par n!"GF")) (.ckm 0 1)) (.rat 4 1))))),
  (n!"V1udRR_2222", (.div (.inp n!"CV1RR_ccss") (.div (.div (.sqrt (.rat 2 1)) (.par n!"GF")) (.rat 4 1)))),
  (n!"V8ddLR_1122", (.div (.inp n!"CV8LR_ddss") (.div (.div (.sqrt (.rat 2 1)) (.par n!"GF")) (.rat 4 1)))),
  (n!"V8uuLR_2211", (.div (.inp n!"CV8LR_ccuu") (.div (.div (.sqrt (.rat 2 1)) (.par n!"GF")) (.rat 4 1)))),
  (n!"VeuRR_3311", (.div (.inp n!"CVRR_tautauuu") (.div (.div (.sqrt (.rat 2 1)) (.par n!"GF")) (.rat 4 1)))),
  (n!"S1uuRR_1122", (.div (.inp n!"CS1RR_uucc") (.div (.div (.sqrt (.rat 2 1)) (.par n!"GF")) (.rat 4 1)))),
  (n!"VnueLR_2322", (.div (.inp n!"CVLR_numunutaumumu") (.div (.div (.sqrt (.rat 2 1)) (.par n!"GF")) (.rat 4 1)))),
  (n!"S1udduRR_2331", (.sub (.neg (.div (.mul (.rat 8 1) (.conj (.mul (.mul (.div (.mul (.rat 4 1) (.par n!"GF")) (.sqrt (.rat 2 1))) (.mul (.conj (.ckm 1 2)) (.ckm 0 2))) (.inp n!"CTLL_cubb")))) (.rat 3 1))) (.mul (.rat 8 1) (.conj (.mul (.mul (.div (.mul (.rat 4 1) (.par n!"GF")) (.sqrt (.rat 2 1))) (.mul (.conj (.ckm 1 2)) (.ckm 0 2))) (.inp n!"CTLLt_cubb"))))))]

def flavio_to_JMS_14 : List (ℕ × Sym) := [
  (n!"V8udduLR_2312", (.neg (.mul (.mul (.div (.mul (.rat 4 1) (.par n!"GF")) (.sqrt (.rat 2 1))) (.mul (.ckm 2 2) (.conj (.ckm 2 0)))) (.inp n!"CSLR_bdcc")))),
  (n!"S8udduRR_1211", (.mul (.rat (-16) 1) (.mul (.mul (.div (.mul (.rat 4 1) (.par n!"GF")) (.sqrt (.rat 2 1))) (.mul (.ckm 2 1) (.conj (.ckm 2 0)))) (.inp n!"CTRR_sduu")))),
  (n!"S8ddRR_1313", (.mul (.rat 2 1) (.mul (.rat (-8) 1) (.inp n!"CTRR_bdbd")))),
  (n!"SnueduRL_3122", (.conj (.div (.inp n!"CSR_scenutau") (.div (.div (.div (.neg (.sqrt (.rat 2 1))) (.par n!"GF")) (.ckm 1 1)) (.rat 4 1))))),
  (n!"VnudLL_2333", (.div (.inp n!"CVLL_numunutaubb") (.div (.div (.sqrt (.rat 2 1)) (.par n!"GF")) (.rat 4 1)))),
  (n!"VuuLL_1122", (.div (.inp n!"CVLL_uucc") (.div (.div (.sqrt (.rat 2 1)) (.par n!"GF")) (.rat 4 1)))),
  (n!"VnueduLR_3231", (.conj (.div (.inp n!"CVR_bumunutau") (.div (.div (.div (.neg (.sqrt (.rat 2 1))) (.par n!"GF")) (.ckm 0 2)) (.rat 4 1))))),
  (n!"V1ddLR_2323", (.sub (.div (.neg (.inp n!"CSLR_bsbs")) (.rat 6 1)) (.div (.mul (.rat (-2) 1) (.inp n!"CVLR_bsbs")) (.rat 2 1)))),
  (n!"dgamma_12", (.div (.div (.inp n!"C7_sd") (.div (.div (.mul (.rat 16 1) (.mul .pi .pi)) (.sqrt (.mul (.mul (.rat 4 1) .pi) (.par n!"alpha_e")))) (.par n!"m_s"))) (.div (.div (.div (.sqrt (.rat 2 1)) (.par n!"GF")) (.mul (.ckm 2 1) (.conj (.ckm 2 0)))) (.rat 4 1)))),
  (n!"SnueduRR_3212", (.conj (.div (.inp n!"CSL_dcmunutau") (.div (.div (.div (.neg (.sqrt (.rat 2 1))) (.par n!"GF")) (.ckm 1 0)) (.rat 4 1))))),
  (n!"TedRR_1212", (.add (.div (.rat 0 1) (.div (.div (.div (.sqrt (.rat 2 1)) (.par n!"GF")) (.mul (.ckm 2 1) (.conj (.ckm 2 0)))) (.rat 4 1))) (.div (.rat 0 1) (.div (.div (.div (.sqrt (.rat 2 1)) (.par n!"GF")) (.mul (.ckm 2 1) (.conj (.ckm 2 0)))) (.rat 4 1))))),
  (n!"SedRL_3332", (.add (.neg (.conj (.div (.div (.inp n!"CP_bstautau") (.div (.div (.mul (.rat 16 1) (.mul .pi .pi)) (.mul (.sqrt (.mul (.mul (.rat 4 1) .pi) (.par n!"alpha_e"))) (.sqrt (.mul (.mul (.rat 4 1) .pi) (.par n!"alpha_e"))))) (.par n!"m_b"))) (.div (.div (.div (.sqrt (.rat 2 1)) (.par n!"GF")) (.mul (.ckm 2 2) (.conj (.ckm 2 1)))) (.rat 4 1))))) (.conj (.div (.div (.inp n!"CS_bstautau") (.div (.div (.mul (.rat 16 1) (.mul .pi .pi)) (.mul (.sqrt (.mul (.mul (.rat 4 1) .pi) (.par n!"alpha_e"))) (.sqrt (.mul (.mul (.rat 4 1) .pi) (.par n!"alpha_e"))))) (.par n!"m_b"))) (.div (.div (.div (.sqrt (.rat 2 1)) (.par n!"GF")) (.mul (.ckm 2 2) (.conj (.ckm 2 1)))) (.rat 4 1)))))),
  (n!"V8udLR_1133", (.div (.inp n!"CV8LR_uubb") (.div (.div (.sqrt (.rat 2 1)) (.par n!"GF")) (.rat 4 1)))),
  (n!"V1duLR_2311", (.add (.mul (.mul (.div (.mul (.rat 4 1) (.par n!"GF")) (.sqrt (.rat 2 1))) (.mul (.ckm 2 2) (.conj (.ckm 2 1)))) (.inp n!"CVLR_bsuu")) (.div (.mul (.mul (.div (.mul (.rat 4 1) (.par n!"GF")) (.sqrt (.rat 2 1))) (.mul (.ckm 2 2) (.conj (.ckm 2 1)))) (.inp n!"CVLRt_bsuu")) (.rat 3 1)))),
  (n!"VnueduLL_2331", (.conj (.div (.inp n!"CVL_butaunumu") (.div (.div (.div (.neg (.sqrt (.rat 2 1))) (.par n!"GF")) (.ckm 0 2)) (.rat 4 1))))),
  (n!"VedRR_2233", (.div (.inp n!"CVRR_mumubb") (.div (.div (.sqrt (.rat 2 1)) (.par n!"GF")) (.rat 4 1)))),
  (n!"egamma_33", (.div (.mul (.div (.par n!"m_tau") (.div (.mul (.rat 16 1) (.mul .pi .pi)) (.sqrt (.mul (.mul (.rat 4 1) .pi) (.par n!"alpha_e"))))) (.inp n!"C7_tautau")) (.div (.div (.sqrt (.rat 2 1)) (.par n!"GF")) (.rat 4 1)))),
  (n!"VeeLR_1221", (.div (.inp n!"CVLR_emumue") (.div (.div (.sqrt (.rat 2 1)) (.par n!"GF")) (.rat 4 1)))),
  (n!"SedRL_1123", (.add (.div (.div (.inp n!"CPp_bsee") (.div (.div (.mul (.rat 16 1) (.mul .pi .pi)) (.mul (.sqrt (.mul (.mul (.rat 4 1) .pi) (.par n!"alpha_e"))) (.sqrt (.mul (.mul (.rat 4 1) .pi) (.par n!"alpha_e"))))) (.par n!"m_b"))) (.div (.div (.div (.sqrt (.rat 2 1)) (.par n!"GF")) (.mul (.ckm 2 2) (.conj (.ckm 2 1)))) (.rat 4 1))) (.div (.div (.inp n!"CSp_bsee") (.div (.div (.mul (.rat 16 1) (.mul .pi .pi)) (.mul (.sqrt (.mul (.mul (.rat 4 1) .pi) (.par n!"alpha_e"))) (.sqrt (.mul (.mul (.rat 4 1) .pi) (.par n!"alpha_e"))))) (.par n!"m_b"))) (.div (.div (.div (.sqrt (.rat 2 1)) (.par n!"GF")) (.mul (.ckm 2 2) (.conj (.ckm 2 1)))) (.rat 4 1))))),
  (n!"S8uuRR_2122", (.mul (.rat (-16) 1) (.conj (.mul (.mul (.div (.mul (.rat 4 1) (.par n!"GF")) (.sqrt (.rat 2 1))) (.mul (.conj (.ckm 1 2)) (.ckm 0 2))) (.inp n!"CTLL_cucc"))))),
  (n!"VedLL_1232", (.conj (.add (.neg (.div (.div (.inp n!"C10_bsemu") (.div (.mul (.rat 16 1) (.mul .pi .pi)) (.mul (.sqrt (.mul (.mul (.rat 4 1) .pi) (.par n!"alpha_e"))) (.sqrt (.mul (.mul (.rat 4 1) .pi) (.par n!"alpha_e")))))) (.div (.div (.div (.sqrt (.rat 2 1)) (.par n!"GF")) (.mul (.ckm 2 2) (.conj (.ckm 2 1)))) (.rat 4 1)))) (.div (.div (.inp n!"C9_bsemu") (.div (.mul (.rat 16 1) (.mul .pi .pi)) (.mul (.sqrt (.mul (.mul (.rat 4 1) .pi) (.par n!"alpha_e"))) (.sqrt (.mul (.mul (.rat 4 1) .pi) (.par n!"alpha_e")))))) (.div (.div (.div (.sqrt (.rat 2 1)) (.par n!"GF")) (.mul (.ckm 2 2) (.conj (.ckm 2 1)))) (.rat 4 1)))))),
  (n!"SnueduRL_2312", (.conj (.div (.inp n!"CSR_dctaunumu") (.div (.div (.div (.neg (.sqrt (.rat 2 1))) (.par n!"GF")) (.ckm 1 0)) (.rat 4 1))))),
  (n!"SedRR_1213", (.add (.div (.div (.inp n!"CP_bdmue") (.div (.div (.mul (.rat 16 1) (.mul .pi .pi)) (.mul (.sqrt (.mul (.mul (.rat 4 1) .pi) (.par n!"alpha_e"))) (.sqrt (.mul (.mul (.rat 4 1) .pi) (.par n!"alpha_e"))))) (.par n!"m_b"))) (.div (.div (.div (.sqrt (.rat 2 1)) (.par n!"GF")) (.mul (.ckm 2 2) (.conj (.ckm 2 0)))) (.rat 4 1))) (.div (.div (.inp n!"CS_bdmue") (.div (.div (.mul (.rat 16 1) (.mul .pi .pi)) (.mul (.sqrt (.mul (.mul (.rat 4 1) .pi) (.par n!"alpha_e"))) (.sqrt (.mul (.mul (.rat 4 1) .pi) (.par n!"alpha_e"))))) (.par n!"m_b"))) (.div (.div (.div (.sqrt (.rat 2 1)) (.par n!"GF")) (.mul (.ckm 2 2) (.conj (.ckm 2 0)))) (.rat 4 1))))),
  (n!"SeuRL_1111", (.div (.inp n!"CSRL_eeuu") (.div (.div (.sqrt (.rat 2 1)) (.par n!"GF")) (.rat 4 1)))),
  (n!"V8ddLR_3323", (.neg (.mul (.mul (.div (.mul (.rat 4 1) (.par n!"GF")) (.sqrt (.rat 2 1))) (.mul (.ckm 2 2) (.conj (.ckm 2 1)))) (.inp n!"CSLR_bsbb")))),
  (n!"S1udRR_1222", (.sub (.sub (.add (.mul (.mul (.div (.mul (.rat 4 1) (.par n!"GF")) (.sqrt (.rat 2 1))) (.mul (.conj (.ckm 1 2)) (.ckm 0 2))) (.inp n!"CSRR_cuss")) (.div (.mul (.mul (.div (.mul (.rat 4 1) (.par n!"GF")) (.sqrt (.rat 2 1))) (.mul (.conj (.ckm 1 2)) (.ckm 0 2))) (.inp n!"CSRRt_cuss")) (.rat 3 1))) (.mul (.rat 4 1) (.mul (.mul (.div (.mul (.rat 4 1) (.par n!"GF")) (.sqrt (.rat 2 1))) (.mul (.conj (.ckm 1 2)) (.ckm 0 2))) (.inp n!"CTRR_cuss")))) (.div (.mul (.rat 4 1) (.mul (.mul (.div (.mul (.rat 4 1) (.par n!"GF")) (.sqrt (.rat 2 1))) (.mul (.conj (.ckm 1 2)) (.ckm 0 2))) (.inp n!"CTRRt_cuss"))) (.rat 3 1)))),
  (n!"V8udduLR_1222", (.neg (.mul (.mul (.div (.mul (.rat 4 1) (.par n!"GF")) (.sqrt (.rat 2 1))) (.mul (.conj (.ckm 1 2)) (.ckm 0 2))) (.inp n!"CSRL_cuss")))),
  (n!"VueLR_1211", (.add (.div (.div (.inp n!"C10_cuee") (.div (.mul (.rat 16 1) (.mul .pi .pi)) (.mul (.sqrt (.mul (.mul (.rat 4 1) .pi) (.par n!"alpha_e"))) (.sqrt (.mul (.mul (.rat 4 1) .pi) (.par n!"alpha_e")))))) (.div (.div (.div (.sqrt (.rat 2 1)) (.par n!"GF")) (.mul (.conj (.ckm 1 2)) (.ckm 0 2))) (.rat 4 1))) (.div (.div (.inp n!"C9_cuee") (.div (.mul (.rat 16 1) (.mul .pi .pi)) (.mul (.sqrt (.mul (.mul (.rat 4 1) .pi) (.par n!"alpha_e"))) (.sqrt (.mul (.mul (.rat 4 1) .pi) (.par n!"alpha_e")))))) (.div (.div (.div (.sqrt (.rat 2 1)) (.par n!"GF")) (.mul (.conj (.ckm 1 2)) (.ckm 0 2))) (.rat 4 1))))),
  (n!"V8duLR_3311", (.div (.inp n!"CV8LR_bbuu") (.div (.div (.sqrt (.rat 2 1)) (.par n!"GF")) (.rat 4 1)))),
  (n!"V1ddLR_1233", (.add (.mul (.mul (.div (.mul (.rat 4 1) (.par n!"GF")) (.sqrt (.rat 2 1))) (.mul (.ckm 2 1) (.conj (.ckm 2 0)))) (.inp n!"CVLR_sdbb")) (.div (.mul (.mul (.div (.mul (.rat 4 1) (.par n!"GF")) (.sqrt (.rat 2 1))) (.mul (.ckm 2 1) (.conj (.ckm 2 0)))) (.inp n!"CVLRt_sdbb")) (.rat 3 1)))),
  (n!"VnudLR_1112", (.div (.div (.inp n!"CR_sdnuenue") (.div (.mul (.rat 8 1) (.mul .pi .pi)) (.mul (.sqrt (.mul (.mul (.rat 4 1) .pi) (.par n!"alpha_e"))) (.sqrt (.mul (.mul (.rat 4 1) .pi) (.par n!"alpha_e")))))) (.div (.div (.div (.sqrt (.rat 2 1)) (.par n!"GF")) (.mul (.ckm 2 1) (.conj (.ckm 2 0)))) (.rat 4 1)))),
  (n!"VddRR_1122", (.div (.inp n!"CVRR_ddss") (.div (.div (.sqrt (.rat 2 1)) (.par n!"GF")) (.rat 4 1)))),
  (n!"V1udduLR_1311", (.sub (.neg (.div (.mul (.mul (.div (.mul (.rat 4 1) (.par n!"GF")) (.sqrt (.rat 2 1))) (.mul (.ckm 2 2) (.conj (.ckm 2 0)))) (.inp n!"CSLR_bduu")) (.mul (.rat 2 1) (.rat 3 1)))) (.div (.mul (.mul (.div (.mul (.rat 4 1) (.par n!"GF")) (.sqrt (.rat 2 1))) (.mul (.ckm 2 2) (.conj (.ckm 2 0)))) (.inp n!"CSLRt_bduu")) (.rat 2 1)))),
  (n!"TedRR_2331", (.sub (.conj (.div (.rat 0 1) (.div (.div (.div (.sqrt (.rat 2 1)) (.par n!"GF")) (.mul (.ckm 2 2) (.conj (.ckm 2 0)))) (.rat 4 1)))) (.conj (.div (.rat 0 1) (.div (.div (.div (.sqrt (.rat 2 1)) (.par n!"GF")) (.mul (.ckm 2 2) (.conj (.ckm 2 0)))) (.rat 4 1)))))),
  (n!"SnueduRR_2122", (.conj (.div (.inp n!"CSL_scenumu") (.div (.div (.div (.neg (.sqrt (.rat 2 1))) (.par n!"GF")) (.ckm 1 1)) (.rat 4 1))))),
  (n!"VnudLR_1333", (.div (.inp n!"CVLR_nuenutaubb") (.div (.div (.sqrt (.rat 2 1)) (.par n!"GF")) (.rat 4 1)))),
  (n!"S8udRR_2222", (.div (.inp n!"CS8RR_ccss") (.div (.div (.sqrt (.rat 2 1)) (.par n!"GF")) (.rat 4 1)))),
  (n!"dG_11", (.div (.mul (.div (.par n!"m_d") (.div (.mul (.rat 16 1) (.mul .pi .pi)) (.sqrt (.mul (.mul (.rat 4 1) .pi) (.par n!"alpha_s"))))) (.inp n!"C8_dd")) (.div (.div (.sqrt (.rat 2 1)) (.par n!"GF")) (.rat 4 1)))),
  (n!"TnueduRR_2211", (.conj (.div (.inp n!"CT_dumunumu") (.div (.div (.div (.neg (.sqrt (.rat 2 1))) (.par n!"GF")) (.ckm 0 0)) (.rat 4 1))))),
  (n!"SnueduRL_1222", (.conj (.div (.inp n!"CSR_scmunue") (.div (.div (.div (.neg (.sqrt (.rat 2 1))) (.par n!"GF")) (.ckm 1 1)) (.rat 4 1))))),
  (n!"V8udLL_2213", (.mul (.rat 2 1) (.mul (.mul (.div (.mul (.rat 4 1) (.par n!"GF")) (.sqrt (.rat 2 1))) (.mul (.ckm 2 2) (.conj (.ckm 2 0)))) (.inp n!"CVLLt_bdcc")))),
  (n!"SedRR_2332", (.add (.neg (.conj (.div (.div (.inp n!"CPp_bsmutau") (.div (.div (.mul (.rat 16 1) (.mul .pi .pi)) (.mul (.sqrt (.mul (.mul (.rat 4 1) .pi) (.par n!"alpha_e"))) (.sqrt (.mul (.mul (.rat 4 1) .pi) (.par n!"alpha_e"))))) (.par n!"m_b"))) (.div (.div (.div (.sqrt (.rat 2 1)) (.par n!"GF")) (.mul (.ckm 2 2) (.conj (.ckm 2 1)))) (.rat 4 1))))) (.conj (.div (.div (.inp n!"CSp_bsmutau") (.div (.div (.mul (.rat 16 1) (.mul .pi .pi)) (.mul (.sqrt (.mul (.mul (.rat 4 1) .pi) (.par n!"alpha_e"))) (.sqrt (.mul (.mul (.rat 4 1) .pi) (.par n!"alpha_e"))))) (.par n!"m_b"))) (.div (.div (.div (.sqrt (.rat 2 1)) (.par n!"GF")) (.mul (.ckm 2 2) (.conj (.ckm 2 1)))) (.rat 4 1)))))),
  (n!"VnueduLR_1331", (.conj (.div (.inp n!"CVR_butaunue") (.div (.div (.div (.neg (.sqrt (.rat 2 1))) (.par n!"GF")) (.ckm 0 2)) (.rat 4 1))))),
  (n!"V8ddLR_2233", (.div (.inp n!"CV8LR_ssbb") (.div (.div (.sqrt (.rat 2 1)) (.par n!"GF")) (.rat 4 1)))),
  (n!"VedRR_2321", (.conj (.add (.div (.div (.inp n!"C10p_sdmutau") (.div (.mul (.rat 16 1) (.mul .pi .pi)) (.mul (.sqrt (.mul (.mul (.rat 4 1) .pi) (.par n!"alpha_e"))) (.sqrt (.mul (.mul (.rat 4 1) .pi) (.par n!"alpha_e")))))) (.div (.div (.div (.sqrt (.rat 2 1)) (.par n!"GF")) (.mul (.ckm 2 1) (.conj (.ckm 2 0)))) (.rat 4 1))) (.div (.div (.inp n!"C9p_sdmutau") (.div (.mul (.rat 16 1) (.mul .pi .pi)) (.mul (.sqrt (.mul (.mul (.rat 4 1) .pi) (.par n!"alpha_e"))) (.sqrt (.mul (.mul (.rat 4 1) .pi) (.par n!"alpha_e")))))) (.div (.div (.div (.sqrt (.rat 2 1)) (.par n!"GF")) (.mul (.ckm 2 1) (.conj (.ckm 2 0)))) (.rat 4 1)))))),
  (n!"S8ddRR_1121", (.mul (.rat (-16) 1) (.conj (.mul (.mul (.div (.mul (.rat 4 1) (.par n!"GF")) (.sqrt (.rat 2 1))) (.mul (.ckm 2 1) (.conj (.ckm 2 0)))) (.inp n!"CTLL_sddd"))))),
  (n!"SeuRL_3312", (.add (.div (.div (.inp n!"CPp_cutautau") (.div (.div (.mul (.rat 16 1) (.mul .pi .pi)) (.mul (.sqrt (.mul (.mul (.rat 4 1) .pi) (.par n!"alpha_e"))) (.sqrt (.mul (.mul (.rat 4 1) .pi) (.par n!"alpha_e"))))) (.par n!"m_c"))) (.div (.div (.div (.sqrt (.rat 2 1)) (.par n!"GF")) (.mul (.conj (.ckm 1 2)) (.ckm 0 2))) (.rat 4 1))) (.div (.div (.inp n!"CSp_cutautau") (.div (.div (.mul (.rat 16 1) (.mul .pi .pi)) (.mul (.sqrt (.mul (.mul (.rat 4 1) .pi) (.par n!"alpha_e"))) (.sqrt (.mul (.mul (.rat 4 1) .pi) (.par n!"alpha_e"))))) (.par n!"m_c"))) (.div (.div (.div (.sqrt (.rat 2 1)) (.par n!"GF")) (.mul (.conj (.ckm 1 2)) (.ckm 0 2))) (.rat 4 1))))),
  (n!"SnueduRR_1312", (.conj (.div (.inp n!"CSL_dctaunue") (.div (.div (.div (.neg (.sqrt (.rat 2 1))) (.par n!"GF")) (.ckm 1 0)) (.rat 4 1))))),
  (n!"VdeLR_1133", (.div (.inp n!"CVLR_ddtautau") (.div (.div (.sqrt (.rat 2 1)) (.par n!"GF")) (.rat 4 1)))),
  (n!"S8udduRR_2322", (.mul (.rat (-16) 1) (.mul (.mul (.div (.mul (.rat 4 1) (.par n!"GF")) (.sqrt (.rat 2 1))) (.mul (.ckm 2 2) (.conj (.ckm 2 1)))) (.inp n!"CTRR_bscc"))))]

def flavio_to_JMS_15 : List (ℕ × Sym) := [
  (n!"VnudLR_3313", (.div (.div (.inp n!"CR_bdnutaunutau") (.div (.mul (.rat 8 1) (.mul .pi .pi)) (.mul (.sqrt (.mul (.mul (.rat 4 1) .pi) (.par n!"alpha_e"))) (.sqrt (.mul (.mul (.rat 4 1) .pi) (.par n!"alpha_e")))))) (.div (.div (.div (.sqrt (.rat 2 1)) (.par n!"GF")) (.mul (.ckm 2 2) (.conj (.ckm 2 0)))) (.rat 4 1)))),
  (n!"VdeLR_2311", (.add (.div (.div (.inp n!"C10_bsee") (.div (.mul (.rat 16 1) (.mul .pi .pi)) (.mul (.sqrt (.mul (.mul (.rat 4 1) .pi) (.par n!"alpha_e"))) (.sqrt (.mul (.mul (.rat 4 1) .pi) (.par n!"alpha_e")))))) (.div (.div (.div (.sqrt (.rat 2 1)) (.par n!"GF")) (.mul (.ckm 2 2) (.conj (.ckm 2 1)))) (.rat 4 1))) (.div (.div (.inp n!"C9_bsee") (.div (.mul (.rat 16 1) (.mul .pi .pi)) (.mul (.sqrt (.mul (.mul (.rat 4 1) .pi) (.par n!"alpha_e"))) (.sqrt (.mul (.mul (.rat 4 1) .pi) (.par n!"alpha_e")))))) (.div (.div (.div (.sqrt (.rat 2 1)) (.par n!"GF")) (.mul (.ckm 2 2) (.conj (.ckm 2 1)))) (.rat 4 1))))),
  (n!"VnueduLL_3221", (.conj (.div (.inp n!"CVL_sumunutau") (.div (.div (.div (.neg (.sqrt (.rat 2 1))) (.par n!"GF")) (.ckm 0 1)) (.rat 4 1))))),
  (n!"VnudLL_1331", (.conj (.div (.div (.inp n!"CL_bdnuenutau") (.div (.mul (.rat 8 1) (.mul .pi .pi)) (.mul (.sqrt (.mul (.mul (.rat 4 1) .pi) (.par n!"alpha_e"))) (.sqrt (.mul (.mul (.rat 4 1) .pi) (.par n!"alpha_e")))))) (.div (.div (.div (.sqrt (.rat 2 1)) (.par n!"GF")) (.mul (.ckm 2 2) (.conj (.ckm 2 0)))) (.rat 4 1))))),
  (n!"V1ddLR_1321", (.sub (.neg (.div (.mul (.mul (.div (.mul (.rat 4 1) (.par n!"GF")) (.sqrt (.rat 2 1))) (.mul (.ckm 2 2) (.conj (.ckm 2 1)))) (.inp n!"CSLR_bsdd")) (.mul (.rat 2 1) (.rat 3 1)))) (.div (.mul (.mul (.div (.mul (.rat 4 1) (.par n!"GF")) (.sqrt (.rat 2 1))) (.mul (.ckm 2 2) (.conj (.ckm 2 1)))) (.inp n!"CSLRt_bsdd")) (.rat 2 1)))),
  (n!"TedRR_2323", (.add (.div (.rat 0 1) (.div (.div (.div (.sqrt (.rat 2 1)) (.par n!"GF")) (.mul (.ckm 2 2) (.conj (.ckm 2 1)))) (.rat 4 1))) (.div (.rat 0 1) (.div (.div (.div (.sqrt (.rat 2 1)) (.par n!"GF")) (.mul (.ckm 2 2) (.conj (.ckm 2 1)))) (.rat 4 1))))),
  (n!"VeeLR_2332", (.div (.inp n!"CVLR_mutautaumu") (.div (.div (.sqrt (.rat 2 1)) (.par n!"GF")) (.rat 4 1)))),
  (n!"S8udRR_1132", (.sub (.mul (.rat 2 1) (.conj (.mul (.mul (.div (.mul (.rat 4 1) (.par n!"GF")) (.sqrt (.rat 2 1))) (.mul (.ckm 2 2) (.conj (.ckm 2 1)))) (.inp n!"CSLLt_bsuu")))) (.mul (.rat 8 1) (.conj (.mul (.mul (.div (.mul (.rat 4 1) (.par n!"GF")) (.sqrt (.rat 2 1))) (.mul (.ckm 2 2) (.conj (.ckm 2 1)))) (.inp n!"CTLLt_bsuu")))))),
  (n!"TnueduRR_1121", (.conj (.div (.inp n!"CT_suenue") (.div (.div (.div (.neg (.sqrt (.rat 2 1))) (.par n!"GF")) (.ckm 0 1)) (.rat 4 1))))),
  (n!"VnueduLR_3311", (.conj (.div (.inp n!"CVR_dutaunutau") (.div (.div (.div (.neg (.sqrt (.rat 2 1))) (.par n!"GF")) (.ckm 0 0)) (.rat 4 1))))),
  (n!"V8udLL_1123", (.mul (.rat 2 1) (.mul (.mul (.div (.mul (.rat 4 1) (.par n!"GF")) (.sqrt (.rat 2 1))) (.mul (.ckm 2 2) (.conj (.ckm 2 1)))) (.inp n!"CVLLt_bsuu")))),
  (n!"VedRR_1231", (.conj (.add (.div (.div (.inp n!"C10p_bdemu") (.div (.mul (.rat 16 1) (.mul .pi .pi)) (.mul (.sqrt (.mul (.mul (.rat 4 1) .pi) (.par n!"alpha_e"))) (.sqrt (.mul (.mul (.rat 4 1) .pi) (.par n!"alpha_e")))))) (.div (.div (.div (.sqrt (.rat 2 1)) (.par n!"GF")) (.mul (.ckm 2 2) (.conj (.ckm 2 0)))) (.rat 4 1))) (.div (.div (.inp n!"C9p_bdemu") (.div (.mul (.rat 16 1) (.mul .pi .pi)) (.mul (.sqrt (.mul (.mul (.rat 4 1) .pi) (.par n!"alpha_e"))) (.sqrt (.mul (.mul (.rat 4 1) .pi) (.par n!"alpha_e")))))) (.div (.div (.div (.sqrt (.rat 2 1)) (.par n!"GF")) (.mul (.ckm 2 2) (.conj (.ckm 2 0)))) (.rat 4 1)))))),
  (n!"VedLR_2212", (.add (.neg (.div (.div (.inp n!"C10p_sdmumu") (.div (.mul (.rat 16 1) (.mul .pi .pi)) (.mul (.sqrt (.mul (.mul (.rat 4 1) .pi) (.par n!"alpha_e"))) (.sqrt (.mul (.mul (.rat 4 1) .pi) (.par n!"alpha_e")))))) (.div (.div (.div (.sqrt (.rat 2 1)) (.par n!"GF")) (.mul (.ckm 2 1) (.conj (.ckm 2 0)))) (.rat 4 1)))) (.div (.div (.inp n!"C9p_sdmumu") (.div (.mul (.rat 16 1) (.mul .pi .pi)) (.mul (.sqrt (.mul (.mul (.rat 4 1) .pi) (.par n!"alpha_e"))) (.sqrt (.mul (.mul (.rat 4 1) .pi) (.par n!"alpha_e")))))) (.div (.div (.div (.sqrt (.rat 2 1)) (.par n!"GF")) (.mul (.ckm 2 1) (.conj (.ckm 2 0)))) (.rat 4 1))))),
  (n!"SeuRL_2222", (.div (.inp n!"CSRL_mumucc") (.div (.div (.sqrt (.rat 2 1)) (.par n!"GF")) (.rat 4 1)))),
  (n!"V8udduLR_2112", (.div (.inp n!"CV8LR_cddc") (.div (.div (.sqrt (.rat 2 1)) (.par n!"GF")) (.rat 4 1)))),
  (n!"VedRR_2313", (.add (.div (.div (.inp n!"C10p_bdtaumu") (.div (.mul (.rat 16 1) (.mul .pi .pi)) (.mul (.sqrt (.mul (.mul (.rat 4 1) .pi) (.par n!"alpha_e"))) (.sqrt (.mul (.mul (.rat 4 1) .pi) (.par n!"alpha_e")))))) (.div (.div (.div (.sqrt (.rat 2 1)) (.par n!"GF")) (.mul (.ckm 2 2) (.conj (.ckm 2 0)))) (.rat 4 1))) (.div (.div (.inp n!"C9p_bdtaumu") (.div (.mul (.rat 16 1) (.mul .pi .pi)) (.mul (.sqrt (.mul (.mul (.rat 4 1) .pi) (.par n!"alpha_e"))) (.sqrt (.mul (.mul (.rat 4 1) .pi) (.par n!"alpha_e")))))) (.div (.div (.div (.sqrt (.rat 2 1)) (.par n!"GF")) (.mul (.ckm 2 2) (.conj (.ckm 2 0)))) (.rat 4 1))))),
  (n!"S8ddRR_1113", (.mul (.rat (-16) 1) (.mul (.mul (.div (.mul (.rat 4 1) (.par n!"GF")) (.sqrt (.rat 2 1))) (.mul (.ckm 2 2) (.conj (.ckm 2 0)))) (.inp n!"CTRR_bddd")))),
  (n!"V1udLR_1111", (.div (.inp n!"CV1LR_uudd") (.div (.div (.sqrt (.rat 2 1)) (.par n!"GF")) (.rat 4 1)))),
  (n!"VnueLL_1222", (.div (.inp n!"CVLL_nuenumumumu") (.div (.div (.sqrt (.rat 2 1)) (.par n!"GF")) (.rat 4 1)))),
  (n!"VedLL_1312", (.add (.neg (.div (.div (.inp n!"C10_sdtaue") (.div (.mul (.rat 16 1) (.mul .pi .pi)) (.mul (.sqrt (.mul (.mul (.rat 4 1) .pi) (.par n!"alpha_e"))) (.sqrt (.mul (.mul (.rat 4 1) .pi) (.par n!"alpha_e")))))) (.div (.div (.div (.sqrt (.rat 2 1)) (.par n!"GF")) (.mul (.ckm 2 1) (.conj (.ckm 2 0)))) (.rat 4 1)))) (.div (.div (.inp n!"C9_sdtaue") (.div (.mul (.rat 16 1) (.mul .pi .pi)) (.mul (.sqrt (.mul (.mul (.rat 4 1) .pi) (.par n!"alpha_e"))) (.sqrt (.mul (.mul (.rat 4 1) .pi) (.par n!"alpha_e")))))) (.div (.div (.div (.sqrt (.rat 2 1)) (.par n!"GF")) (.mul (.ckm 2 1) (.conj (.ckm 2 0)))) (.rat 4 1))))),
  (n!"TedRR_3221", (.sub (.conj (.div (.rat 0 1) (.div (.div (.div (.sqrt (.rat 2 1)) (.par n!"GF")) (.mul (.ckm 2 1) (.conj (.ckm 2 0)))) (.rat 4 1)))) (.conj (.div (.rat 0 1) (.div (.div (.div (.sqrt (.rat 2 1)) (.par n!"GF")) (.mul (.ckm 2 1) (.conj (.ckm 2 0)))) (.rat 4 1)))))),
  (n!"VnudLR_2223", (.div (.div (.inp n!"CR_bsnumunumu") (.div (.mul (.rat 8 1) (.mul .pi .pi)) (.mul (.sqrt (.mul (.mul (.rat 4 1) .pi) (.par n!"alpha_e"))) (.sqrt (.mul (.mul (.rat 4 1) .pi) (.par n!"alpha_e")))))) (.div (.div (.div (.sqrt (.rat 2 1)) (.par n!"GF")) (.mul (.ckm 2 2) (.conj (.ckm 2 1)))) (.rat 4 1)))),
  (n!"VddRR_2233", (.div (.inp n!"CVRR_ssbb") (.div (.div (.sqrt (.rat 2 1)) (.par n!"GF")) (.rat 4 1)))),
  (n!"SedRL_3132", (.add (.neg (.conj (.div (.div (.inp n!"CP_bstaue") (.div (.div (.mul (.rat 16 1) (.mul .pi .pi)) (.mul (.sqrt (.mul (.mul (.rat 4 1) .pi) (.par n!"alpha_e"))) (.sqrt (.mul (.mul (.rat 4 1) .pi) (.par n!"alpha_e"))))) (.par n!"m_b"))) (.div (.div (.div (.sqrt (.rat 2 1)) (.par n!"GF")) (.mul (.ckm 2 2) (.conj (.ckm 2 1)))) (.rat 4 1))))) (.conj (.div (.div (.inp n!"CS_bstaue") (.div (.div (.mul (.rat 16 1) (.mul .pi .pi)) (.mul (.sqrt (.mul (.mul (.rat 4 1) .pi) (.par n!"alpha_e"))) (.sqrt (.mul (.mul (.rat 4 1) .pi) (.par n!"alpha_e"))))) (.par n!"m_b"))) (.div (.div (.div (.sqrt (.rat 2 1)) (.par n!"GF")) (.mul (.ckm 2 2) (.conj (.ckm 2 1)))) (.rat 4 1)))))),
  (n!"dgamma_33", (.div (.mul (.div (.par n!"m_b") (.div (.mul (.rat 16 1) (.mul .pi .pi)) (.sqrt (.mul (.mul (.rat 4 1) .pi) (.par n!"alpha_e"))))) (.inp n!"C7_bb")) (.div (.div (.sqrt (.rat 2 1)) (.par n!"GF")) (.rat 4 1)))),
  (n!"VdeLR_1221", (.add (.div (.div (.inp n!"C10_sdemu") (.div (.mul (.rat 16 1) (.mul .pi .pi)) (.mul (.sqrt (.mul (.mul (.rat 4 1) .pi) (.par n!"alpha_e"))) (.sqrt (.mul (.mul (.rat 4 1) .pi) (.par n!"alpha_e")))))) (.div (.div (.div (.sqrt (.rat 2 1)) (.par n!"GF")) (.mul (.ckm 2 1) (.conj (.ckm 2 0)))) (.rat 4 1))) (.div (.div (.inp n!"C9_sdemu") (.div (.mul (.rat 16 1) (.mul .pi .pi)) (.mul (.sqrt (.mul (.mul (.rat 4 1) .pi) (.par n!"alpha_e"))) (.sqrt (.mul (.mul (.rat 4 1) .pi) (.par n!"alpha_e")))))) (.div (.div (.div (.sqrt (.rat 2 1)) (.par n!"GF")) (.mul (.ckm 2 1) (.conj (.ckm 2 0)))) (.rat 4 1))))),
  (n!"SeeRR_1133", (.div (.inp n!"CSRR_eetautau") (.div (.div (.sqrt (.rat 2 1)) (.par n!"GF")) (.rat 4 1)))),
  (n!"VnueduLL_2131", (.conj (.div (.inp n!"CVL_buenumu") (.div (.div (.div (.neg (.sqrt (.rat 2 1))) (.par n!"GF")) (.ckm 0 2)) (.rat 4 1))))),
  (n!"VnudLL_3311", (.div (.inp n!"CVLL_nutaunutaudd") (.div (.div (.sqrt (.rat 2 1)) (.par n!"GF")) (.rat 4 1)))),
  (n!"S1udduRR_1321", (.sub (.neg (.div (.mul (.rat 8 1) (.mul (.mul (.div (.mul (.rat 4 1) (.par n!"GF")) (.sqrt (.rat 2 1))) (.mul (.ckm 2 2) (.conj (.ckm 2 1)))) (.inp n!"CTRR_bsuu"))) (.rat 3 1))) (.mul (.rat 8 1) (.mul (.mul (.div (.mul (.rat 4 1) (.par n!"GF")) (.sqrt (.rat 2 1))) (.mul (.ckm 2 2) (.conj (.ckm 2 1)))) (.inp n!"CTRRt_bsuu"))))),
  (n!"VeeRR_1122", (.div (.inp n!"CVRR_eemumu") (.div (.div (.sqrt (.rat 2 1)) (.par n!"GF")) (.rat 4 1)))),
  (n!"VnuuLR_2211", (.div (.inp n!"CVLR_numunumuuu") (.div (.div (.sqrt (.rat 2 1)) (.par n!"GF")) (.rat 4 1)))),
  (n!"SnueduRL_2112", (.conj (.div (.inp n!"CSR_dcenumu") (.div (.div (.div (.neg (.sqrt (.rat 2 1))) (.par n!"GF")) (.ckm 1 0)) (.rat 4 1))))),
  (n!"VnudLL_1323", (.div (.div (.inp n!"CL_bsnutaunue") (.div (.mul (.rat 8 1) (.mul .pi .pi)) (.mul (.sqrt (.mul (.mul (.rat 4 1) .pi) (.par n!"alpha_e"))) (.sqrt (.mul (.mul (.rat 4 1) .pi) (.par n!"alpha_e")))))) (.div (.div (.div (.sqrt (.rat 2 1)) (.par n!"GF")) (.mul (.ckm 2 2) (.conj (.ckm 2 1)))) (.rat 4 1)))),
  (n!"VnueduLR_2221", (.conj (.div (.inp n!"CVR_sumunumu") (.div (.div (.div (.neg (.sqrt (.rat 2 1))) (.par n!"GF")) (.ckm 0 1)) (.rat 4 1))))),
  (n!"V1ddLR_1313", (.sub (.div (.neg (.inp n!"CSLR_bdbd")) (.rat 6 1)) (.div (.mul (.rat (-2) 1) (.inp n!"CVLR_bdbd")) (.rat 2 1)))),
  (n!"TnueduRR_3322", (.conj (.div (.inp n!"CT_sctaunutau") (.div (.div (.div (.neg (.sqrt (.rat 2 1))) (.par n!"GF")) (.ckm 1 1)) (.rat 4 1))))),
  (n!"V8udRR_2212", (.mul (.rat 2 1) (.mul (.mul (.div (.mul (.rat 4 1) (.par n!"GF")) (.sqrt (.rat 2 1))) (.mul (.ckm 2 1) (.conj (.ckm 2 0)))) (.inp n!"CVRRt_sdcc")))),
  (n!"VedLR_1122", (.div (.inp n!"CVLR_eess") (.div (.div (.sqrt (.rat 2 1)) (.par n!"GF")) (.rat 4 1)))),
  (n!"VnuuLL_1311", (.div (.inp n!"CVLL_nuenutauuu") (.div (.div (.sqrt (.rat 2 1)) (.par n!"GF")) (.rat 4 1)))),
  (n!"S8ddRR_2232", (.mul (.rat (-16) 1) (.conj (.mul (.mul (.div (.mul (.rat 4 1) (.par n!"GF")) (.sqrt (.rat 2 1))) (.mul (.ckm 2 2) (.conj (.ckm 2 1)))) (.inp n!"CTLL_bsss"))))),
  (n!"VnueduLL_1321", (.conj (.div (.inp n!"CVL_sutaunue") (.div (.div (.div (.neg (.sqrt (.rat 2 1))) (.par n!"GF")) (.ckm 0 1)) (.rat 4 1))))),
  (n!"VedRR_1223", (.add (.div (.div (.inp n!"C10p_bsmue") (.div (.mul (.rat 16 1) (.mul .pi .pi)) (.mul (.sqrt (.mul (.mul (.rat 4 1) .pi) (.par n!"alpha_e"))) (.sqrt (.mul (.mul (.rat 4 1) .pi) (.par n!"alpha_e")))))) (.div (.div (.div (.sqrt (.rat 2 1)) (.par n!"GF")) (.mul (.ckm 2 2) (.conj (.ckm 2 1)))) (.rat 4 1))) (.div (.div (.inp n!"C9p_bsmue") (.div (.mul (.rat 16 1) (.mul .pi .pi)) (.mul (.sqrt (.mul (.mul (.rat 4 1) .pi) (.par n!"alpha_e"))) (.sqrt (.mul (.mul (.rat 4 1) .pi) (.par n!"alpha_e")))))) (.div (.div (.div (.sqrt (.rat 2 1)) (.par n!"GF")) (.mul (.ckm 2 2) (.conj (.ckm 2 1)))) (.rat 4 1))))),
  (n!"S8uuRR_1112", (.mul (.rat (-16) 1) (.mul (.mul (.div (.mul (.rat 4 1) (.par n!"GF")) (.sqrt (.rat 2 1))) (.mul (.conj (.ckm 1 2)) (.ckm 0 2))) (.inp n!"CTRR_cuuu")))),
  (n!"V8udLL_1211", (.mul (.rat 2 1) (.mul (.mul (.div (.mul (.rat 4 1) (.par n!"GF")) (.sqrt (.rat 2 1))) (.mul (.conj (.ckm 1 2)) (.ckm 0 2))) (.inp n!"CVLLt_cudd")))),
  (n!"V8ddLR_1231", (.conj (.neg (.mul (.mul (.div (.mul (.rat 4 1) (.par n!"GF")) (.sqrt (.rat 2 1))) (.mul (.ckm 2 2) (.conj (.ckm 2 1)))) (.inp n!"CSRL_bsdd"))))),
  (n!"V1udduLR_1111", (.div (.inp n!"CV1LR_uddu") (.div (.div (.sqrt (.rat 2 1)) (.par n!"GF")) (.rat 4 1)))),
  (n!"TedRR_2131", (.sub (.conj (.div (.rat 0 1) (.div (.div (.div (.sqrt (.rat 2 1)) (.par n!"GF")) (.mul (.ckm 2 2) (.conj (.ckm 2 0)))) (.rat 4 1)))) (.conj (.div (.rat 0 1) (.div (.div (.div (.sqrt (.rat 2 1)) (.par n!"GF")) (.mul (.ckm 2 2) (.conj (.ckm 2 0)))) (.rat 4 1)))))),
  (n!"VnudLR_1133", (.div (.inp n!"CVLR_nuenuebb") (.div (.div (.sqrt (.rat 2 1)) (.par n!"GF")) (.rat 4 1)))),
  (n!"V1udduLR_1332", (.sub (.neg (.div (.mul (.mul (.div (.mul (.rat 4 1) (.par n!"GF")) (.sqrt (.rat 2 1))) (.mul (.conj (.ckm 1 2)) (.ckm 0 2))) (.inp n!"CSRL_cubb")) (.mul (.rat 2 1) (.rat 3 1)))) (.div (.mul (.mul (.div (.mul (.rat 4 1) (.par n!"GF")) (.sqrt (.rat 2 1))) (.mul (.conj (.ckm 1 2)) (.ckm 0 2))) (.inp n!"CSRLt_cubb")) (.rat 2 1))))]

def flavio_to_JMS_16 : List (ℕ × Sym) := [
  (n!"V1ddLR_2211", (.div (.inp n!"CV1LR_ssdd") (.div (.div (.sqrt (.rat 2 1)) (.par n!"GF")) (.rat 4 1)))),
  (n!"TedRR_3213", (.add (.div (.rat 0 1) (.div (.div (.div (.sqrt (.rat 2 1)) (.par n!"GF")) (.mul (.ckm 2 2) (.conj (.ckm 2 0)))) (.rat 4 1))) (.div (.rat 0 1) (.div (.div (.div (.sqrt (.rat 2 1)) (.par n!"GF")) (.mul (.ckm 2 2) (.conj (.ckm 2 0)))) (.rat 4 1))))),
  (n!"VdeLR_1213", (.add (.div (.div (.inp n!"C10_sdtaue") (.div (.mul (.rat 16 1) (.mul .pi .pi)) (.mul (.sqrt (.mul (.mul (.rat 4 1) .pi) (.par n!"alpha_e"))) (.sqrt (.mul (.mul (.rat 4 1) .pi) (.par n!"alpha_e")))))) (.div (.div (.div (.sqrt (.rat 2 1)) (.par n!"GF")) (.mul (.ckm 2 1) (.conj (.ckm 2 0)))) (.rat 4 1))) (.div (.div (.inp n!"C9_sdtaue") (.div (.mul (.rat 16 1) (.mul .pi .pi)) (.mul (.sqrt (.mul (.mul (.rat 4 1) .pi) (.par n!"alpha_e"))) (.sqrt (.mul (.mul (.rat 4 1) .pi) (.par n!"alpha_e")))))) (.div (.div (.div (.sqrt (.rat 2 1)) (.par n!"GF")) (.mul (.ckm 2 1) (.conj (.ckm 2 0)))) (.rat 4 1))))),
  (n!"SnueduRL_3231", (.conj (.div (.inp n!"CSR_bumunutau") (.div (.div (.div (.neg (.sqrt (.rat 2 1))) (.par n!"GF")) (.ckm 0 2)) (.rat 4 1))))),
  (n!"SedRR_2132", (.add (.neg (.conj (.div (.div (.inp n!"CPp_bsmue") (.div (.div (.mul (.rat 16 1) (.mul .pi .pi)) (.mul (.sqrt (.mul (.mul (.rat 4 1) .pi) (.par n!"alpha_e"))) (.sqrt (.mul (.mul (.rat 4 1) .pi) (.par n!"alpha_e"))))) (.par n!"m_b"))) (.div (.div (.div (.sqrt (.rat 2 1)) (.par n!"GF")) (.mul (.ckm 2 2) (.conj (.ckm 2 1)))) (.rat 4 1))))) (.conj (.div (.div (.inp n!"CSp_bsmue") (.div (.div (.mul (.rat 16 1) (.mul .pi .pi)) (.mul (.sqrt (.mul (.mul (.rat 4 1) .pi) (.par n!"alpha_e"))) (.sqrt (.mul (.mul (.rat 4 1) .pi) (.par n!"alpha_e"))))) (.par n!"m_b"))) (.div (.div (.div (.sqrt (.rat 2 1)) (.par n!"GF")) (.mul (.ckm 2 2) (.conj (.ckm 2 1)))) (.rat 4 1)))))),
  (n!"VnueduLR_1131", (.conj (.div (.inp n!"CVR_buenue") (.div (.div (.div (.neg (.sqrt (.rat 2 1))) (.par n!"GF")) (.ckm 0 2)) (.rat 4 1))))),
  (n!"dG_32", (.conj (.div (.div (.inp n!"C8p_bs") (.div (.div (.mul (.rat 16 1) (.mul .pi .pi)) (.sqrt (.mul (.mul (.rat 4 1) .pi) (.par n!"alpha_s")))) (.par n!"m_b"))) (.div (.div (.div (.sqrt (.rat 2 1)) (.par n!"GF")) (.mul (.ckm 2 2) (.conj (.ckm 2 1)))) (.rat 4 1))))),
  (n!"VnudLR_2311", (.div (.inp n!"CVLR_numunutaudd") (.div (.div (.sqrt (.rat 2 1)) (.par n!"GF")) (.rat 4 1)))),
  (n!"TnueduRR_2232", (.conj (.div (.inp n!"CT_bcmunumu") (.div (.div (.div (.neg (.sqrt (.rat 2 1))) (.par n!"GF")) (.ckm 1 2)) (.rat 4 1))))),
  (n!"SeeRR_1221", (.div (.inp n!"CSRR_emumue") (.div (.div (.sqrt (.rat 2 1)) (.par n!"GF")) (.rat 4 1)))),
  (n!"SnueduRR_3321", (.conj (.div (.inp n!"CSL_sutaunutau") (.div (.div (.div (.neg (.sqrt (.rat 2 1))) (.par n!"GF")) (.ckm 0 1)) (.rat 4 1))))),
  (n!"V8udRR_1122", (.div (.inp n!"CV8RR_uuss") (.div (.div (.sqrt (.rat 2 1)) (.par n!"GF")) (.rat 4 1)))),
  (n!"TedRR_1321", (.sub (.conj (.div (.rat 0 1) (.div (.div (.div (.sqrt (.rat 2 1)) (.par n!"GF")) (.mul (.ckm 2 1) (.conj (.ckm 2 0)))) (.rat 4 1)))) (.conj (.div (.rat 0 1) (.div (.div (.div (.sqrt (.rat 2 1)) (.par n!"GF")) (.mul (.ckm 2 1) (.conj (.ckm 2 0)))) (.rat 4 1)))))),
  (n!"SnueduRR_1112", (.conj (.div (.inp n!"CSL_dcenue") (.div (.div (.div (.neg (.sqrt (.rat 2 1))) (.par n!"GF")) (.ckm 1 0)) (.rat 4 1))))),
  (n!"SedRL_1232", (.add (.neg (.conj (.div (.div (.inp n!"CP_bsemu") (.div (.div (.mul (.rat 16 1) (.mul .pi .pi)) (.mul (.sqrt (.mul (.mul (.rat 4 1) .pi) (.par n!"alpha_e"))) (.sqrt (.mul (.mul (.rat 4 1) .pi) (.par n!"alpha_e"))))) (.par n!"m_b"))) (.div (.div (.div (.sqrt (.rat 2 1)) (.par n!"GF")) (.mul (.ckm 2 2) (.conj (.ckm 2 1)))) (.rat 4 1))))) (.conj (.div (.div (.inp n!"CS_bsemu") (.div (.div (.mul (.rat 16 1) (.mul .pi .pi)) (.mul (.sqrt (.mul (.mul (.rat 4 1) .pi) (.par n!"alpha_e"))) (.sqrt (.mul (.mul (.rat 4 1) .pi) (.par n!"alpha_e"))))) (.par n!"m_b"))) (.div (.div (.div (.sqrt (.rat 2 1)) (.par n!"GF")) (.mul (.ckm 2 2) (.conj (.ckm 2 1)))) (.rat 4 1)))))),
  (n!"VedLR_3323", (.add (.neg (.div (.div (.inp n!"C10p_bstautau") (.div (.mul (.rat 16 1) (.mul .pi .pi)) (.mul (.sqrt (.mul (.mul (.rat 4 1) .pi) (.par n!"alpha_e"))) (.sqrt (.mul (.mul (.rat 4 1) .pi) (.par n!"alpha_e")))))) (.div (.div (.div (.sqrt (.rat 2 1)) (.par n!"GF")) (.mul (.ckm 2 2) (.conj (.ckm 2 1)))) (.rat 4 1)))) (.div (.div (.inp n!"C9p_bstautau") (.div (.mul (.rat 16 1) (.mul .pi .pi)) (.mul (.sqrt (.mul (.mul (.rat 4 1) .pi) (.par n!"alpha_e"))) (.sqrt (.mul (.mul (.rat 4 1) .pi) (.par n!"alpha_e")))))) (.div (.div (.div (.sqrt (.rat 2 1)) (.par n!"GF")) (.mul (.ckm 2 2) (.conj (.ckm 2 1)))) (.rat 4 1))))),
  (n!"S8udduRR_2122", (.mul (.rat (-16) 1) (.conj (.mul (.mul (.div (.mul (.rat 4 1) (.par n!"GF")) (.sqrt (.rat 2 1))) (.mul (.ckm 2 1) (.conj (.ckm 2 0)))) (.inp n!"CTLL_sdcc"))))),
  (n!"V1udLR_2222", (.div (.inp n!"CV1LR_ccss") (.div (.div (.sqrt (.rat 2 1)) (.par n!"GF")) (.rat 4 1)))),
  (n!"S1ddRR_2122", (.sub (.neg (.div (.mul (.rat 8 1) (.conj (.mul (.mul (.div (.mul (.rat 4 1) (.par n!"GF")) (.sqrt (.rat 2 1))) (.mul (.ckm 2 1) (.conj (.ckm 2 0)))) (.inp n!"CTLL_sdss")))) (.rat 3 1))) (.mul (.rat 8 1) (.conj (.add (.mul (.div (.rat (-1) 1) (.rat 8 1)) (.mul (.mul (.div (.mul (.rat 4 1) (.par n!"GF")) (.sqrt (.rat 2 1))) (.mul (.ckm 2 1) (.conj (.ckm 2 0)))) (.inp n!"CSLL_sdss"))) (.mul (.div (.rat 1 1) (.rat 2 1)) (.mul (.mul (.div (.mul (.rat 4 1) (.par n!"GF")) (.sqrt (.rat 2 1))) (.mul (.ckm 2 1) (.conj (.ckm 2 0)))) (.inp n!"CTLL_sdss")))))))),
  (n!"VnueLL_2333", (.div (.inp n!"CVLL_numunutautautau") (.div (.div (.sqrt (.rat 2 1)) (.par n!"GF")) (.rat 4 1)))),
  (n!"VeuLR_3311", (.div (.inp n!"CVLR_tautauuu") (.div (.div (.sqrt (.rat 2 1)) (.par n!"GF")) (.rat 4 1)))),
  (n!"V8ddLR_1223", (.neg (.mul (.mul (.div (.mul (.rat 4 1) (.par n!"GF")) (.sqrt (.rat 2 1))) (.mul (.ckm 2 2) (.conj (.ckm 2 0)))) (.inp n!"CSRL_bdss")))),
  (n!"V8udduLR_1331", (.div (.inp n!"CV8LR_ubbu") (.div (.div (.sqrt (.rat 2 1)) (.par n!"GF")) (.rat 4 1)))),
  (n!"TedRR_2123", (.add (.div (.rat 0 1) (.div (.div (.div (.sqrt (.rat 2 1)) (.par n!"GF")) (.mul (.ckm 2 2) (.conj (.ckm 2 1)))) (.rat 4 1))) (.div (.rat 0 1) (.div (.div (.div (.sqrt (.rat 2 1)) (.par n!"GF")) (.mul (.ckm 2 2) (.conj (.ckm 2 1)))) (.rat 4 1))))),
  (n!"VdeLR_2332", (.add (.div (.div (.inp n!"C10_bsmutau") (.div (.mul (.rat 16 1) (.mul .pi .pi)) (.mul (.sqrt (.mul (.mul (.rat 4 1) .pi) (.par n!"alpha_e"))) (.sqrt (.mul (.mul (.rat 4 1) .pi) (.par n!"alpha_e")))))) (.div (.div (.div (.sqrt (.rat 2 1)) (.par n!"GF")) (.mul (.ckm 2 2) (.conj (.ckm 2 1)))) (.rat 4 1))) (.div (.div (.inp n!"C9_bsmutau") (.div (.mul (.rat 16 1) (.mul .pi .pi)) (.mul (.sqrt (.mul (.mul (.rat 4 1) .pi) (.par n!"alpha_e"))) (.sqrt (.mul (.mul (.rat 4 1) .pi) (.par n!"alpha_e")))))) (.div (.div (.div (.sqrt (.rat 2 1)) (.par n!"GF")) (.mul (.ckm 2 2) (.conj (.ckm 2 1)))) (.rat 4 1))))),
  (n!"VnudLL_2213", (.div (.div (.inp n!"CL_bdnumunumu") (.div (.mul (.rat 8 1) (.mul .pi .pi)) (.mul (.sqrt (.mul (.mul (.rat 4 1) .pi) (.par n!"alpha_e"))) (.sqrt (.mul (.mul (.rat 4 1) .pi) (.par n!"alpha_e")))))) (.div (.div (.div (.sqrt (.rat 2 1)) (.par n!"GF")) (.mul (.ckm 2 2) (.conj (.ckm 2 0)))) (.rat 4 1)))),
  (n!"VeeRR_2233", (.div (.inp n!"CVRR_mumutautau") (.div (.div (.sqrt (.rat 2 1)) (.par n!"GF")) (.rat 4 1)))),
  (n!"VnueduLR_3111", (.conj (.div (.inp n!"CVR_duenutau") (.div (.div (.div (.neg (.sqrt (.rat 2 1))) (.par n!"GF")) (.ckm 0 0)) (.rat 4 1))))),
  (n!"V8duLR_1211", (.mul (.rat 2 1) (.mul (.mul (.div (.mul (.rat 4 1) (.par n!"GF")) (.sqrt (.rat 2 1))) (.mul (.ckm 2 1) (.conj (.ckm 2 0)))) (.inp n!"CVLRt_sduu")))),
  (n!"VnudLR_1221", (.conj (.div (.div (.inp n!"CR_sdnuenumu") (.div (.mul (.rat 8 1) (.mul .pi .pi)) (.mul (.sqrt (.mul (.mul (.rat 4 1) .pi) (.par n!"alpha_e"))) (.sqrt (.mul (.mul (.rat 4 1) .pi) (.par n!"alpha_e")))))) (.div (.div (.div (.sqrt (.rat 2 1)) (.par n!"GF")) (.mul (.ckm 2 1) (.conj (.ckm 2 0)))) (.rat 4 1))))),
  (n!"VnuuLR_3322", (.div (.inp n!"CVLR_nutaunutaucc") (.div (.div (.sqrt (.rat 2 1)) (.par n!"GF")) (.rat 4 1)))),
  (n!"VddRR_1231", (.conj (.mul (.mul (.div (.mul (.rat 4 1) (.par n!"GF")) (.sqrt (.rat 2 1))) (.mul (.ckm 2 2) (.conj (.ckm 2 1)))) (.inp n!"CVRRt_bsdd")))),
  (n!"VnueduLR_3332", (.conj (.div (.inp n!"CVR_bctaunutau") (.div (.div (.div (.neg (.sqrt (.rat 2 1))) (.par n!"GF")) (.ckm 1 2)) (.rat 4 1))))),
  (n!"SnueduRR_2231", (.conj (.div (.inp n!"CSL_bumunumu") (.div (.div (.div (.neg (.sqrt (.rat 2 1))) (.par n!"GF")) (.ckm 0 2)) (.rat 4 1))))),
  (n!"uG_12", (.div (.div (.inp n!"C8_cu") (.div (.div (.mul (.rat 16 1) (.mul .pi .pi)) (.sqrt (.mul (.mul (.rat 4 1) .pi) (.par n!"alpha_s")))) (.par n!"m_c"))) (.div (.div (.div (.sqrt (.rat 2 1)) (.par n!"GF")) (.mul (.conj (.ckm 1 2)) (.ckm 0 2))) (.rat 4 1)))),
  (n!"SedRL_3212", (.add (.div (.div (.inp n!"CPp_sdmutau") (.div (.div (.mul (.rat 16 1) (.mul .pi .pi)) (.mul (.sqrt (.mul (.mul (.rat 4 1) .pi) (.par n!"alpha_e"))) (.sqrt (.mul (.mul (.rat 4 1) .pi) (.par n!"alpha_e"))))) (.par n!"m_s"))) (.div (.div (.div (.sqrt (.rat 2 1)) (.par n!"GF")) (.mul (.ckm 2 1) (.conj (.ckm 2 0)))) (.rat 4 1))) (.div (.div (.inp n!"CSp_sdmutau") (.div (.div (.mul (.rat 16 1) (.mul .pi .pi)) (.mul (.sqrt (.mul (.mul (.rat 4 1) .pi) (.par n!"alpha_e"))) (.sqrt (.mul (.mul (.rat 4 1) .pi) (.par n!"alpha_e"))))) (.par n!"m_s"))) (.div (.div (.div (.sqrt (.rat 2 1)) (.par n!"GF")) (.mul (.ckm 2 1) (.conj (.ckm 2 0)))) (.rat 4 1))))),
  (n!"VnueduLL_2211", (.conj (.div (.inp n!"CVL_dumunumu") (.div (.div (.div (.neg (.sqrt (.rat 2 1))) (.par n!"GF")) (.ckm 0 0)) (.rat 4 1))))),
  (n!"VedLR_2233", (.div (.inp n!"CVLR_mumubb") (.div (.div (.sqrt (.rat 2 1)) (.par n!"GF")) (.rat 4 1)))),
  (n!"S1udRR_2133", (.sub (.sub (.add (.conj (.mul (.mul (.div (.mul (.rat 4 1) (.par n!"GF")) (.sqrt (.rat 2 1))) (.mul (.conj (.ckm 1 2)) (.ckm 0 2))) (.inp n!"CSLL_cubb"))) (.div (.conj (.mul (.mul (.div (.mul (.rat 4 1) (.par n!"GF")) (.sqrt (.rat 2 1))) (.mul (.conj (.ckm 1 2)) (.ckm 0 2))) (.inp n!"CSLLt_cubb"))) (.rat 3 1))) (.mul (.rat 4 1) (.conj (.mul (.mul (.div (.mul (.rat 4 1) (.par n!"GF")) (.sqrt (.rat 2 1))) (.mul (.conj (.ckm 1 2)) (.ckm 0 2))) (.inp n!"CTLL_cubb"))))) (.div (.mul (.rat 4 1) (.conj (.mul (.mul (.div (.mul (.rat 4 1) (.par n!"GF")) (.sqrt (.rat 2 1))) (.mul (.conj (.ckm 1 2)) (.ckm 0 2))) (.inp n!"CTLLt_cubb")))) (.rat 3 1)))),
  (n!"TedRR_1313", (.add (.div (.rat 0 1) (.div (.div (.div (.sqrt (.rat 2 1)) (.par n!"GF")) (.mul (.ckm 2 2) (.conj (.ckm 2 0)))) (.rat 4 1))) (.div (.rat 0 1) (.div (.div (.div (.sqrt (.rat 2 1)) (.par n!"GF")) (.mul (.ckm 2 2) (.conj (.ckm 2 0)))) (.rat 4 1))))),
  (n!"VedLL_1112", (.add (.neg (.div (.div (.inp n!"C10_sdee") (.div (.mul (.rat 16 1) (.mul .pi .pi)) (.mul (.sqrt (.mul (.mul (.rat 4 1) .pi) (.par n!"alpha_e"))) (.sqrt (.mul (.mul (.rat 4 1) .pi) (.par n!"alpha_e")))))) (.div (.div (.div (.sqrt (.rat 2 1)) (.par n!"GF")) (.mul (.ckm 2 1) (.conj (.ckm 2 0)))) (.rat 4 1)))) (.div (.div (.inp n!"C9_sdee") (.div (.mul (.rat 16 1) (.mul .pi .pi)) (.mul (.sqrt (.mul (.mul (.rat 4 1) .pi) (.par n!"alpha_e"))) (.sqrt (.mul (.mul (.rat 4 1) .pi) (.par n!"alpha_e")))))) (.div (.div (.div (.sqrt (.rat 2 1)) (.par n!"GF")) (.mul (.ckm 2 1) (.conj (.ckm 2 0)))) (.rat 4 1))))),
  (n!"SnueduRL_1331", (.conj (.div (.inp n!"CSR_butaunue") (.div (.div (.div (.neg (.sqrt (.rat 2 1))) (.par n!"GF")) (.ckm 0 2)) (.rat 4 1))))),
  (n!"S1uuRR_2121", (.add (.sub (.inp n!"CSRR_ucuc") (.mul (.rat 4 1) (.inp n!"CTRR_ucuc"))) (.div (.mul (.rat (-8) 1) (.inp n!"CTRR_ucuc")) (.rat 3 1)))),
  (n!"V1udRR_1233", (.add (.mul (.mul (.div (.mul (.rat 4 1) (.par n!"GF")) (.sqrt (.rat 2 1))) (.mul (.conj (.ckm 1 2)) (.ckm 0 2))) (.inp n!"CVRR_cubb")) (.div (.mul (.mul (.div (.mul (.rat 4 1) (.par n!"GF")) (.sqrt (.rat 2 1))) (.mul (.conj (.ckm 1 2)) (.ckm 0 2))) (.inp n!"CVRRt_cubb")) (.rat 3 1)))),
  (n!"V1udduLR_2222", (.div (.inp n!"CV1LR_cssc") (.div (.div (.sqrt (.rat 2 1)) (.par n!"GF")) (.rat 4 1)))),
  (n!"V8uuLR_1222", (.neg (.mul (.mul (.div (.mul (.rat 4 1) (.par n!"GF")) (.sqrt (.rat 2 1))) (.mul (.conj (.ckm 1 2)) (.ckm 0 2))) (.inp n!"CSRL_cucc")))),
  (n!"S1udduRR_1121", (.sub (.neg (.div (.mul (.rat 8 1) (.conj (.mul (.mul (.div (.mul (.rat 4 1) (.par n!"GF")) (.sqrt (.rat 2 1))) (.mul (.ckm 2 1) (.conj (.ckm 2 0)))) (.inp n!"CTLL_sduu")))) (.rat 3 1))) (.mul (.rat 8 1) (.conj (.mul (.mul (.div (.mul (.rat 4 1) (.par n!"GF")) (.sqrt (.rat 2 1))) (.mul (.ckm 2 1) (.conj (.ckm 2 0)))) (.inp n!"CTLLt_sduu")))))),
  (n!"VnueLR_1333", (.div (.inp n!"CVLR_nuenutautautau") (.div (.div (.sqrt (.rat 2 1)) (.par n!"GF")) (.rat 4 1)))),
  (n!"V1ddLR_3322", (.div (.inp n!"CV1LR_bbss") (.div (.div (.sqrt (.rat 2 1)) (.par n!"GF")) (.rat 4 1)))),
  (n!"VnudLL_1123", (.div (.div (.inp n!"CL_bsnuenue") (.div (.mul (.rat 8 1) (.mul .pi .pi)) (.mul (.sqrt (.mul (.mul (.rat 4 1) .pi) (.par n!"alpha_e"))) (.sqrt (.mul (.mul (.rat 4 1) .pi) (.par n!"alpha_e")))))) (.div (.div (.div (.sqrt (.rat 2 1)) (.par n!"GF")) (.mul (.ckm 2 2) (.conj (.ckm 2 1)))) (.rat 4 1))))]

def flavio_to_JMS_17 : List (ℕ × Sym) := [
  (n!"V1ddLR_1113", (.add (.mul (.mul (.div (.mul (.rat 4 1) (.par n!"GF")) (.sqrt (.rat 2 1))) (.mul (.ckm 2 2) (.conj (.ckm 2 0)))) (.inp n!"CVRL_bddd")) (.div (.mul (.div (.rat (-1) 1) (.rat 2 1)) (.mul (.mul (.div (.mul (.rat 4 1) (.par n!"GF")) (.sqrt (.rat 2 1))) (.mul (.ckm 2 2) (.conj (.ckm 2 0)))) (.inp n!"CSRL_bddd"))) (.rat 3 1)))),
  (n!"TnueduRR_3122", (.conj (.div (.inp n!"CT_scenutau") (.div (.div (.div (.neg (.sqrt (.rat 2 1))) (.par n!"GF")) (.ckm 1 1)) (.rat 4 1))))),
  (n!"V8ddLR_1311", (.neg (.mul (.mul (.div (.mul (.rat 4 1) (.par n!"GF")) (.sqrt (.rat 2 1))) (.mul (.ckm 2 2) (.conj (.ckm 2 0)))) (.inp n!"CSLR_bddd")))),
  (n!"TedRR_2211", (.div (.inp n!"CTRR_mumudd") (.div (.div (.sqrt (.rat 2 1)) (.par n!"GF")) (.rat 4 1)))),
  (n!"SeeRR_2332", (.div (.inp n!"CSRR_mutautaumu") (.div (.div (.sqrt (.rat 2 1)) (.par n!"GF")) (.rat 4 1)))),
  (n!"VnudLR_1213", (.div (.div (.inp n!"CR_bdnumunue") (.div (.mul (.rat 8 1) (.mul .pi .pi)) (.mul (.sqrt (.mul (.mul (.rat 4 1) .pi) (.par n!"alpha_e"))) (.sqrt (.mul (.mul (.rat 4 1) .pi) (.par n!"alpha_e")))))) (.div (.div (.div (.sqrt (.rat 2 1)) (.par n!"GF")) (.mul (.ckm 2 2) (.conj (.ckm 2 0)))) (.rat 4 1)))),
  (n!"VnuuLL_1111", (.div (.inp n!"CVLL_nuenueuu") (.div (.div (.sqrt (.rat 2 1)) (.par n!"GF")) (.rat 4 1)))),
  (n!"VddRR_1223", (.mul (.mul (.div (.mul (.rat 4 1) (.par n!"GF")) (.sqrt (.rat 2 1))) (.mul (.ckm 2 2) (.conj (.ckm 2 0)))) (.inp n!"CVRRt_bdss"))),
  (n!"VnueduLL_1121", (.conj (.div (.inp n!"CVL_suenue") (.div (.div (.div (.neg (.sqrt (.rat 2 1))) (.par n!"GF")) (.ckm 0 1)) (.rat 4 1))))),
  (n!"V8udRR_2233", (.div (.inp n!"CV8RR_ccbb") (.div (.div (.sqrt (.rat 2 1)) (.par n!"GF")) (.rat 4 1)))),
  (n!"V1duLR_1322", (.add (.mul (.mul (.div (.mul (.rat 4 1) (.par n!"GF")) (.sqrt (.rat 2 1))) (.mul (.ckm 2 2) (.conj (.ckm 2 0)))) (.inp n!"CVLR_bdcc")) (.div (.mul (.mul (.div (.mul (.rat 4 1) (.par n!"GF")) (.sqrt (.rat 2 1))) (.mul (.ckm 2 2) (.conj (.ckm 2 0)))) (.inp n!"CVLRt_bdcc")) (.rat 3 1)))),
  (n!"SnueduRL_3311", (.conj (.div (.inp n!"CSR_dutaunutau") (.div (.div (.div (.neg (.sqrt (.rat 2 1))) (.par n!"GF")) (.ckm 0 0)) (.rat 4 1))))),
  (n!"SedRR_2212", (.add (.div (.div (.inp n!"CP_sdmumu") (.div (.div (.mul (.rat 16 1) (.mul .pi .pi)) (.mul (.sqrt (.mul (.mul (.rat 4 1) .pi) (.par n!"alpha_e"))) (.sqrt (.mul (.mul (.rat 4 1) .pi) (.par n!"alpha_e"))))) (.par n!"m_s"))) (.div (.div (.div (.sqrt (.rat 2 1)) (.par n!"GF")) (.mul (.ckm 2 1) (.conj (.ckm 2 0)))) (.rat 4 1))) (.div (.div (.inp n!"CS_sdmumu") (.div (.div (.mul (.rat 16 1) (.mul .pi .pi)) (.mul (.sqrt (.mul (.mul (.rat 4 1) .pi) (.par n!"alpha_e"))) (.sqrt (.mul (.mul (.rat 4 1) .pi) (.par n!"alpha_e"))))) (.par n!"m_s"))) (.div (.div (.div (.sqrt (.rat 2 1)) (.par n!"GF")) (.mul (.ckm 2 1) (.conj (.ckm 2 0)))) (.rat 4 1))))),
  (n!"VnueduLR_1211", (.conj (.div (.inp n!"CVR_dumunue") (.div (.div (.div (.neg (.sqrt (.rat 2 1))) (.par n!"GF")) (.ckm 0 0)) (.rat 4 1))))),
  (n!"TnueduRR_2312", (.conj (.div (.inp n!"CT_dctaunumu") (.div (.div (.div (.neg (.sqrt (.rat 2 1))) (.par n!"GF")) (.ckm 1 0)) (.rat 4 1))))),
  (n!"VedLL_3313", (.add (.neg (.div (.div (.inp n!"C10_bdtautau") (.div (.mul (.rat 16 1) (.mul .pi .pi)) (.mul (.sqrt (.mul (.mul (.rat 4 1) .pi) (.par n!"alpha_e"))) (.sqrt (.mul (.mul (.rat 4 1) .pi) (.par n!"alpha_e")))))) (.div (.div (.div (.sqrt (.rat 2 1)) (.par n!"GF")) (.mul (.ckm 2 2) (.conj (.ckm 2 0)))) (.rat 4 1)))) (.div (.div (.inp n!"C9_bdtautau") (.div (.mul (.rat 16 1) (.mul .pi .pi)) (.mul (.sqrt (.mul (.mul (.rat 4 1) .pi) (.par n!"alpha_e"))) (.sqrt (.mul (.mul (.rat 4 1) .pi) (.par n!"alpha_e")))))) (.div (.div (.div (.sqrt (.rat 2 1)) (.par n!"GF")) (.mul (.ckm 2 2) (.conj (.ckm 2 0)))) (.rat 4 1))))),
  (n!"VedLR_2321", (.conj (.add (.neg (.div (.div (.inp n!"C10p_sdmutau") (.div (.mul (.rat 16 1) (.mul .pi .pi)) (.mul (.sqrt (.mul (.mul (.rat 4 1) .pi) (.par n!"alpha_e"))) (.sqrt (.mul (.mul (.rat 4 1) .pi) (.par n!"alpha_e")))))) (.div (.div (.div (.sqrt (.rat 2 1)) (.par n!"GF")) (.mul (.ckm 2 1) (.conj (.ckm 2 0)))) (.rat 4 1)))) (.div (.div (.inp n!"C9p_sdmutau") (.div (.mul (.rat 16 1) (.mul .pi .pi)) (.mul (.sqrt (.mul (.mul (.rat 4 1) .pi) (.par n!"alpha_e"))) (.sqrt (.mul (.mul (.rat 4 1) .pi) (.par n!"alpha_e")))))) (.div (.div (.div (.sqrt (.rat 2 1)) (.par n!"GF")) (.mul (.ckm 2 1) (.conj (.ckm 2 0)))) (.rat 4 1)))))),
  (n!"S1ddRR_3233", (.sub (.neg (.div (.mul (.rat 8 1) (.conj (.mul (.mul (.div (.mul (.rat 4 1) (.par n!"GF")) (.sqrt (.rat 2 1))) (.mul (.ckm 2 2) (.conj (.ckm 2 1)))) (.inp n!"CTLL_bsbb")))) (.rat 3 1))) (.mul (.rat 8 1) (.conj (.add (.mul (.div (.rat (-1) 1) (.rat 8 1)) (.mul (.mul (.div (.mul (.rat 4 1) (.par n!"GF")) (.sqrt (.rat 2 1))) (.mul (.ckm 2 2) (.conj (.ckm 2 1)))) (.inp n!"CSLL_bsbb"))) (.mul (.div (.rat 1 1) (.rat 2 1)) (.mul (.mul (.div (.mul (.rat 4 1) (.par n!"GF")) (.sqrt (.rat 2 1))) (.mul (.ckm 2 2) (.conj (.ckm 2 1)))) (.inp n!"CTLL_bsbb")))))))),
  (n!"S1udRR_2221", (.sub (.sub (.add (.conj (.mul (.mul (.div (.mul (.rat 4 1) (.par n!"GF")) (.sqrt (.rat 2 1))) (.mul (.ckm 2 1) (.conj (.ckm 2 0)))) (.inp n!"CSLL_sdcc"))) (.div (.conj (.mul (.mul (.div (.mul (.rat 4 1) (.par n!"GF")) (.sqrt (.rat 2 1))) (.mul (.ckm 2 1) (.conj (.ckm 2 0)))) (.inp n!"CSLLt_sdcc"))) (.rat 3 1))) (.mul (.rat 4 1) (.conj (.mul (.mul (.div (.mul (.rat 4 1) (.par n!"GF")) (.sqrt (.rat 2 1))) (.mul (.ckm 2 1) (.conj (.ckm 2 0)))) (.inp n!"CTLL_sdcc"))))) (.div (.mul (.rat 4 1) (.conj (.mul (.mul (.div (.mul (.rat 4 1) (.par n!"GF")) (.sqrt (.rat 2 1))) (.mul (.ckm 2 1) (.conj (.ckm 2 0)))) (.inp n!"CTLLt_sdcc")))) (.rat 3 1)))),
  (n!"V8udduLR_2221", (.neg (.conj (.mul (.mul (.div (.mul (.rat 4 1) (.par n!"GF")) (.sqrt (.rat 2 1))) (.mul (.conj (.ckm 1 2)) (.ckm 0 2))) (.inp n!"CSLR_cuss"))))),
  (n!"V1udLL_2212", (.add (.mul (.mul (.div (.mul (.rat 4 1) (.par n!"GF")) (.sqrt (.rat 2 1))) (.mul (.ckm 2 1) (.conj (.ckm 2 0)))) (.inp n!"CVLL_sdcc")) (.div (.mul (.mul (.div (.mul (.rat 4 1) (.par n!"GF")) (.sqrt (.rat 2 1))) (.mul (.ckm 2 1) (.conj (.ckm 2 0)))) (.inp n!"CVLLt_sdcc")) (.rat 3 1)))),
  (n!"S8ddRR_1222", (.mul (.rat (-16) 1) (.mul (.mul (.div (.mul (.rat 4 1) (.par n!"GF")) (.sqrt (.rat 2 1))) (.mul (.ckm 2 1) (.conj (.ckm 2 0)))) (.inp n!"CTRR_sdss")))),
  (n!"SedRL_1312", (.add (.div (.div (.inp n!"CPp_sdtaue") (.div (.div (.mul (.rat 16 1) (.mul .pi .pi)) (.mul (.sqrt (.mul (.mul (.rat 4 1) .pi) (.par n!"alpha_e"))) (.sqrt (.mul (.mul (.rat 4 1) .pi) (.par n!"alpha_e"))))) (.par n!"m_s"))) (.div (.div (.div (.sqrt (.rat 2 1)) (.par n!"GF")) (.mul (.ckm 2 1) (.conj (.ckm 2 0)))) (.rat 4 1))) (.div (.div (.inp n!"CSp_sdtaue") (.div (.div (.mul (.rat 16 1) (.mul .pi .pi)) (.mul (.sqrt (.mul (.mul (.rat 4 1) .pi) (.par n!"alpha_e"))) (.sqrt (.mul (.mul (.rat 4 1) .pi) (.par n!"alpha_e"))))) (.par n!"m_s"))) (.div (.div (.div (.sqrt (.rat 2 1)) (.par n!"GF")) (.mul (.ckm 2 1) (.conj (.ckm 2 0)))) (.rat 4 1))))),
  (n!"V1uuLR_1112", (.add (.mul (.mul (.div (.mul (.rat 4 1) (.par n!"GF")) (.sqrt (.rat 2 1))) (.mul (.conj (.ckm 1 2)) (.ckm 0 2))) (.inp n!"CVRL_cuuu")) (.div (.mul (.div (.rat (-1) 1) (.rat 2 1)) (.mul (.mul (.div (.mul (.rat 4 1) (.par n!"GF")) (.sqrt (.rat 2 1))) (.mul (.conj (.ckm 1 2)) (.ckm 0 2))) (.inp n!"CSRL_cuuu"))) (.rat 3 1)))),
  (n!"V8duLR_2322", (.mul (.rat 2 1) (.mul (.mul (.div (.mul (.rat 4 1) (.par n!"GF")) (.sqrt (.rat 2 1))) (.mul (.ckm 2 2) (.conj (.ckm 2 1)))) (.inp n!"CVLRt_bscc")))),
  (n!"SnueduRR_3121", (.conj (.div (.inp n!"CSL_suenutau") (.div (.div (.div (.neg (.sqrt (.rat 2 1))) (.par n!"GF")) (.ckm 0 1)) (.rat 4 1))))),
  (n!"VnudLR_2332", (.conj (.div (.div (.inp n!"CR_bsnumunutau") (.div (.mul (.rat 8 1) (.mul .pi .pi)) (.mul (.sqrt (.mul (.mul (.rat 4 1) .pi) (.par n!"alpha_e"))) (.sqrt (.mul (.mul (.rat 4 1) .pi) (.par n!"alpha_e")))))) (.div (.div (.div (.sqrt (.rat 2 1)) (.par n!"GF")) (.mul (.ckm 2 2) (.conj (.ckm 2 1)))) (.rat 4 1))))),
  (n!"TedRR_1121", (.sub (.conj (.div (.rat 0 1) (.div (.div (.div (.sqrt (.rat 2 1)) (.par n!"GF")) (.mul (.ckm 2 1) (.conj (.ckm 2 0)))) (.rat 4 1)))) (.conj (.div (.rat 0 1) (.div (.div (.div (.sqrt (.rat 2 1)) (.par n!"GF")) (.mul (.ckm 2 1) (.conj (.ckm 2 0)))) (.rat 4 1)))))),
  (n!"VuuRR_1222", (.mul (.mul (.div (.mul (.rat 4 1) (.par n!"GF")) (.sqrt (.rat 2 1))) (.mul (.conj (.ckm 1 2)) (.ckm 0 2))) (.inp n!"CVRR_cucc"))),
  (n!"VnudLL_1211", (.div (.inp n!"CVLL_nuenumudd") (.div (.div (.sqrt (.rat 2 1)) (.par n!"GF")) (.rat 4 1)))),
  (n!"VnueduLL_3322", (.conj (.div (.inp n!"CVL_sctaunutau") (.div (.div (.div (.neg (.sqrt (.rat 2 1))) (.par n!"GF")) (.ckm 1 1)) (.rat 4 1))))),
  (n!"SnueduRL_2221", (.conj (.div (.inp n!"CSR_sumunumu") (.div (.div (.div (.neg (.sqrt (.rat 2 1))) (.par n!"GF")) (.ckm 0 1)) (.rat 4 1))))),
  (n!"SedRR_3331", (.add (.neg (.conj (.div (.div (.inp n!"CPp_bdtautau") (.div (.div (.mul (.rat 16 1) (.mul .pi .pi)) (.mul (.sqrt (.mul (.mul (.rat 4 1) .pi) (.par n!"alpha_e"))) (.sqrt (.mul (.mul (.rat 4 1) .pi) (.par n!"alpha_e"))))) (.par n!"m_b"))) (.div (.div (.div (.sqrt (.rat 2 1)) (.par n!"GF")) (.mul (.ckm 2 2) (.conj (.ckm 2 0)))) (.rat 4 1))))) (.conj (.div (.div (.inp n!"CSp_bdtautau") (.div (.div (.mul (.rat 16 1) (.mul .pi .pi)) (.mul (.sqrt (.mul (.mul (.rat 4 1) .pi) (.par n!"alpha_e"))) (.sqrt (.mul (.mul (.rat 4 1) .pi) (.par n!"alpha_e"))))) (.par n!"m_b"))) (.div (.div (.div (.sqrt (.rat 2 1)) (.par n!"GF")) (.mul (.ckm 2 2) (.conj (.ckm 2 0)))) (.rat 4 1)))))),
  (n!"SedRR_1122", (.div (.inp n!"CSRR_eess") (.div (.div (.sqrt (.rat 2 1)) (.par n!"GF")) (.rat 4 1)))),
  (n!"S8udRR_1233", (.sub (.mul (.rat 2 1) (.mul (.mul (.div (.mul (.rat 4 1) (.par n!"GF")) (.sqrt (.rat 2 1))) (.mul (.conj (.ckm 1 2)) (.ckm 0 2))) (.inp n!"CSRRt_cubb"))) (.mul (.rat 8 1) (.mul (.mul (.div (.mul (.rat 4 1) (.par n!"GF")) (.sqrt (.rat 2 1))) (.mul (.conj (.ckm 1 2)) (.ckm 0 2))) (.inp n!"CTRRt_cubb"))))),
  (n!"TnueduRR_1222", (.conj (.div (.inp n!"CT_scmunue") (.div (.div (.div (.neg (.sqrt (.rat 2 1))) (.par n!"GF")) (.ckm 1 1)) (.rat 4 1))))),
  (n!"VedLL_2223", (.add (.neg (.div (.div (.inp n!"C10_bsmumu") (.div (.mul (.rat 16 1) (.mul .pi .pi)) (.mul (.sqrt (.mul (.mul (.rat 4 1) .pi) (.par n!"alpha_e"))) (.sqrt (.mul (.mul (.rat 4 1) .pi) (.par n!"alpha_e")))))) (.div (.div (.div (.sqrt (.rat 2 1)) (.par n!"GF")) (.mul (.ckm 2 2) (.conj (.ckm 2 1)))) (.rat 4 1)))) (.div (.div (.inp n!"C9_bsmumu") (.div (.mul (.rat 16 1) (.mul .pi .pi)) (.mul (.sqrt (.mul (.mul (.rat 4 1) .pi) (.par n!"alpha_e"))) (.sqrt (.mul (.mul (.rat 4 1) .pi) (.par n!"alpha_e")))))) (.div (.div (.div (.sqrt (.rat 2 1)) (.par n!"GF")) (.mul (.ckm 2 2) (.conj (.ckm 2 1)))) (.rat 4 1))))),
  (n!"VedRR_1111", (.div (.inp n!"CVRR_eedd") (.div (.div (.sqrt (.rat 2 1)) (.par n!"GF")) (.rat 4 1)))),
  (n!"VedLR_1231", (.conj (.add (.neg (.div (.div (.inp n!"C10p_bdemu") (.div (.mul (.rat 16 1) (.mul .pi .pi)) (.mul (.sqrt (.mul (.mul (.rat 4 1) .pi) (.par n!"alpha_e"))) (.sqrt (.mul (.mul (.rat 4 1) .pi) (.par n!"alpha_e")))))) (.div (.div (.div (.sqrt (.rat 2 1)) (.par n!"GF")) (.mul (.ckm 2 2) (.conj (.ckm 2 0)))) (.rat 4 1)))) (.div (.div (.inp n!"C9p_bdemu") (.div (.mul (.rat 16 1) (.mul .pi .pi)) (.mul (.sqrt (.mul (.mul (.rat 4 1) .pi) (.par n!"alpha_e"))) (.sqrt (.mul (.mul (.rat 4 1) .pi) (.par n!"alpha_e")))))) (.div (.div (.div (.sqrt (.rat 2 1)) (.par n!"GF")) (.mul (.ckm 2 2) (.conj (.ckm 2 0)))) (.rat 4 1)))))),
  (n!"S1udRR_1131", (.sub (.sub (.add (.conj (.mul (.mul (.div (.mul (.rat 4 1) (.par n!"GF")) (.sqrt (.rat 2 1))) (.mul (.ckm 2 2) (.conj (.ckm 2 0)))) (.inp n!"CSLL_bduu"))) (.div (.conj (.mul (.mul (.div (.mul (.rat 4 1) (.par n!"GF")) (.sqrt (.rat 2 1))) (.mul (.ckm 2 2) (.conj (.ckm 2 0)))) (.inp n!"CSLLt_bduu"))) (.rat 3 1))) (.mul (.rat 4 1) (.conj (.mul (.mul (.div (.mul (.rat 4 1) (.par n!"GF")) (.sqrt (.rat 2 1))) (.mul (.ckm 2 2) (.conj (.ckm 2 0)))) (.inp n!"CTLL_bduu"))))) (.div (.mul (.rat 4 1) (.conj (.mul (.mul (.div (.mul (.rat 4 1) (.par n!"GF")) (.sqrt (.rat 2 1))) (.mul (.ckm 2 2) (.conj (.ckm 2 0)))) (.inp n!"CTLLt_bduu")))) (.rat 3 1)))),
  (n!"V8udduLR_1131", (.neg (.conj (.mul (.mul (.div (.mul (.rat 4 1) (.par n!"GF")) (.sqrt (.rat 2 1))) (.mul (.ckm 2 2) (.conj (.ckm 2 0)))) (.inp n!"CSRL_bduu"))))),
  (n!"SnueduRR_2311", (.conj (.div (.inp n!"CSL_dutaunumu") (.div (.div (.div (.neg (.sqrt (.rat 2 1))) (.par n!"GF")) (.ckm 0 0)) (.rat 4 1))))),
  (n!"VedRR_1332", (.conj (.add (.div (.div (.inp n!"C10p_bsetau") (.div (.mul (.rat 16 1) (.mul .pi .pi)) (.mul (.sqrt (.mul (.mul (.rat 4 1) .pi) (.par n!"alpha_e"))) (.sqrt (.mul (.mul (.rat 4 1) .pi) (.par n!"alpha_e")))))) (.div (.div (.div (.sqrt (.rat 2 1)) (.par n!"GF")) (.mul (.ckm 2 2) (.conj (.ckm 2 1)))) (.rat 4 1))) (.div (.div (.inp n!"C9p_bsetau") (.div (.mul (.rat 16 1) (.mul .pi .pi)) (.mul (.sqrt (.mul (.mul (.rat 4 1) .pi) (.par n!"alpha_e"))) (.sqrt (.mul (.mul (.rat 4 1) .pi) (.par n!"alpha_e")))))) (.div (.div (.div (.sqrt (.rat 2 1)) (.par n!"GF")) (.mul (.ckm 2 2) (.conj (.ckm 2 1)))) (.rat 4 1)))))),
  (n!"V1udLL_1122", (.div (.inp n!"CV1LL_uuss") (.div (.div (.sqrt (.rat 2 1)) (.par n!"GF")) (.rat 4 1)))),
  (n!"S1udduRR_2232", (.sub (.neg (.div (.mul (.rat 8 1) (.conj (.mul (.mul (.div (.mul (.rat 4 1) (.par n!"GF")) (.sqrt (.rat 2 1))) (.mul (.ckm 2 2) (.conj (.ckm 2 1)))) (.inp n!"CTLL_bscc")))) (.rat 3 1))) (.mul (.rat 8 1) (.conj (.mul (.mul (.div (.mul (.rat 4 1) (.par n!"GF")) (.sqrt (.rat 2 1))) (.mul (.ckm 2 2) (.conj (.ckm 2 1)))) (.inp n!"CTLLt_bscc")))))),
  (n!"S8uuRR_1221", (.div (.inp n!"CS8RR_uccu") (.div (.div (.sqrt (.rat 2 1)) (.par n!"GF")) (.rat 4 1)))),
  (n!"VedLR_2313", (.add (.neg (.div (.div (.inp n!"C10p_bdtaumu") (.div (.mul (.rat 16 1) (.mul .pi .pi)) (.mul (.sqrt (.mul (.mul (.rat 4 1) .pi) (.par n!"alpha_e"))) (.sqrt (.mul (.mul (.rat 4 1) .pi) (.par n!"alpha_e")))))) (.div (.div (.div (.sqrt (.rat 2 1)) (.par n!"GF")) (.mul (.ckm 2 2) (.conj (.ckm 2 0)))) (.rat 4 1)))) (.div (.div (.inp n!"C9p_bdtaumu") (.div (.mul (.rat 16 1) (.mul .pi .pi)) (.mul (.sqrt (.mul (.mul (.rat 4 1) .pi) (.par n!"alpha_e"))) (.sqrt (.mul (.mul (.rat 4 1) .pi) (.par n!"alpha_e")))))) (.div (.div (.div (.sqrt (.rat 2 1)) (.par n!"GF")) (.mul (.ckm 2 2) (.conj (.ckm 2 0)))) (.rat 4 1))))),
  (n!"S1udRR_2213", (.sub (.sub (.add (.mul (.mul (.div (.mul (.rat 4 1) (.par n!"GF")) (.sqrt (.rat 2 1))) (.mul (.ckm 2 2) (.conj (.ckm 2 0)))) (.inp n!"CSRR_bdcc")) (.div (.mul (.mul (.div (.mul (.rat 4 1) (.par n!"GF")) (.sqrt (.rat 2 1))) (.mul (.ckm 2 2) (.conj (.ckm 2 0)))) (.inp n!"CSRRt_bdcc")) (.rat 3 1))) (.mul (.rat 4 1) (.mul (.mul (.div (.mul (.rat 4 1) (.par n!"GF")) (.sqrt (.rat 2 1))) (.mul (.ckm 2 2) (.conj (.ckm 2 0)))) (.inp n!"CTRR_bdcc")))) (.div (.mul (.rat 4 1) (.mul (.mul (.div (.mul (.rat 4 1) (.par n!"GF")) (.sqrt (.rat 2 1))) (.mul (.ckm 2 2) (.conj (.ckm 2 0)))) (.inp n!"CTRRt_bdcc"))) (.rat 3 1)))),
  (n!"VeuLL_2211", (.div (.inp n!"CVLL_mumuuu") (.div (.div (.sqrt (.rat 2 1)) (.par n!"GF")) (.rat 4 1)))),
  (n!"VnueLL_3311", (.div (.inp n!"CVLL_nutaunutauee") (.div (.div (.sqrt (.rat 2 1)) (.par n!"GF")) (.rat 4 1))))]

def flavio_to_JMS_18 : List (ℕ × Sym) := [
  (n!"S8udduRR_1112", (.mul (.rat (-16) 1) (.mul (.mul (.div (.mul (.rat 4 1) (.par n!"GF")) (.sqrt (.rat 2 1))) (.mul (.conj (.ckm 1 2)) (.ckm 0 2))) (.inp n!"CTRR_cudd")))),
  (n!"VnueduLR_3132", (.conj (.div (.inp n!"CVR_bcenutau") (.div (.div (.div (.neg (.sqrt (.rat 2 1))) (.par n!"GF")) (.ckm 1 2)) (.rat 4 1))))),
  (n!"S1ddRR_1112", (.sub (.neg (.div (.mul (.rat 8 1) (.mul (.mul (.div (.mul (.rat 4 1) (.par n!"GF")) (.sqrt (.rat 2 1))) (.mul (.ckm 2 1) (.conj (.ckm 2 0)))) (.inp n!"CTRR_sddd"))) (.rat 3 1))) (.mul (.rat 8 1) (.add (.mul (.div (.rat (-1) 1) (.rat 8 1)) (.mul (.mul (.div (.mul (.rat 4 1) (.par n!"GF")) (.sqrt (.rat 2 1))) (.mul (.ckm 2 1) (.conj (.ckm 2 0)))) (.inp n!"CSRR_sddd"))) (.mul (.div (.rat 1 1) (.rat 2 1)) (.mul (.mul (.div (.mul (.rat 4 1) (.par n!"GF")) (.sqrt (.rat 2 1))) (.mul (.ckm 2 1) (.conj (.ckm 2 0)))) (.inp n!"CTRR_sddd"))))))),
  (n!"TedRR_3322", (.div (.inp n!"CTRR_tautauss") (.div (.div (.sqrt (.rat 2 1)) (.par n!"GF")) (.rat 4 1)))),
  (n!"S1ddRR_1333", (.sub (.neg (.div (.mul (.rat 8 1) (.mul (.mul (.div (.mul (.rat 4 1) (.par n!"GF")) (.sqrt (.rat 2 1))) (.mul (.ckm 2 2) (.conj (.ckm 2 0)))) (.inp n!"CTRR_bdbb"))) (.rat 3 1))) (.mul (.rat 8 1) (.add (.mul (.div (.rat (-1) 1) (.rat 8 1)) (.mul (.mul (.div (.mul (.rat 4 1) (.par n!"GF")) (.sqrt (.rat 2 1))) (.mul (.ckm 2 2) (.conj (.ckm 2 0)))) (.inp n!"CSRR_bdbb"))) (.mul (.div (.rat 1 1) (.rat 2 1)) (.mul (.mul (.div (.mul (.rat 4 1) (.par n!"GF")) (.sqrt (.rat 2 1))) (.mul (.ckm 2 2) (.conj (.ckm 2 0)))) (.inp n!"CTRR_bdbb"))))))),
  (n!"VnuuLL_2222", (.div (.inp n!"CVLL_numunumucc") (.div (.div (.sqrt (.rat 2 1)) (.par n!"GF")) (.rat 4 1)))),
  (n!"TedRR_1113", (.add (.div (.rat 0 1) (.div (.div (.div (.sqrt (.rat 2 1)) (.par n!"GF")) (.mul (.ckm 2 2) (.conj (.ckm 2 0)))) (.rat 4 1))) (.div (.rat 0 1) (.div (.div (.div (.sqrt (.rat 2 1)) (.par n!"GF")) (.mul (.ckm 2 2) (.conj (.ckm 2 0)))) (.rat 4 1))))),
  (n!"VdeLR_1322", (.add (.div (.div (.inp n!"C10_bdmumu") (.div (.mul (.rat 16 1) (.mul .pi .pi)) (.mul (.sqrt (.mul (.mul (.rat 4 1) .pi) (.par n!"alpha_e"))) (.sqrt (.mul (.mul (.rat 4 1) .pi) (.par n!"alpha_e")))))) (.div (.div (.div (.sqrt (.rat 2 1)) (.par n!"GF")) (.mul (.ckm 2 2) (.conj (.ckm 2 0)))) (.rat 4 1))) (.div (.div (.inp n!"C9_bdmumu") (.div (.mul (.rat 16 1) (.mul .pi .pi)) (.mul (.sqrt (.mul (.mul (.rat 4 1) .pi) (.par n!"alpha_e"))) (.sqrt (.mul (.mul (.rat 4 1) .pi) (.par n!"alpha_e")))))) (.div (.div (.div (.sqrt (.rat 2 1)) (.par n!"GF")) (.mul (.ckm 2 2) (.conj (.ckm 2 0)))) (.rat 4 1))))),
  (n!"V1duLR_2212", (.add (.mul (.mul (.div (.mul (.rat 4 1) (.par n!"GF")) (.sqrt (.rat 2 1))) (.mul (.conj (.ckm 1 2)) (.ckm 0 2))) (.inp n!"CVRL_cuss")) (.div (.mul (.mul (.div (.mul (.rat 4 1) (.par n!"GF")) (.sqrt (.rat 2 1))) (.mul (.conj (.ckm 1 2)) (.ckm 0 2))) (.inp n!"CVRLt_cuss")) (.rat 3 1)))),
  (n!"VnueduLL_2232", (.conj (.div (.inp n!"CVL_bcmunumu") (.div (.div (.div (.neg (.sqrt (.rat 2 1))) (.par n!"GF")) (.ckm 1 2)) (.rat 4 1))))),
  (n!"VeeLR_1122", (.div (.inp n!"CVLR_eemumu") (.div (.div (.sqrt (.rat 2 1)) (.par n!"GF")) (.rat 4 1)))),
  (n!"VddLL_1112", (.mul (.mul (.div (.mul (.rat 4 1) (.par n!"GF")) (.sqrt (.rat 2 1))) (.mul (.ckm 2 1) (.conj (.ckm 2 0)))) (.inp n!"CVLL_sddd"))),
  (n!"SnueduRL_1131", (.conj (.div (.inp n!"CSR_buenue") (.div (.div (.div (.neg (.sqrt (.rat 2 1))) (.par n!"GF")) (.ckm 0 2)) (.rat 4 1))))),
  (n!"VddLL_1333", (.mul (.mul (.div (.mul (.rat 4 1) (.par n!"GF")) (.sqrt (.rat 2 1))) (.mul (.ckm 2 2) (.conj (.ckm 2 0)))) (.inp n!"CVLL_bdbb"))),
  (n!"VedLL_1133", (.div (.inp n!"CVLL_eebb") (.div (.div (.sqrt (.rat 2 1)) (.par n!"GF")) (.rat 4 1)))),
  (n!"SedRR_3323", (.add (.div (.div (.inp n!"CP_bstautau") (.div (.div (.mul (.rat 16 1) (.mul .pi .pi)) (.mul (.sqrt (.mul (.mul (.rat 4 1) .pi) (.par n!"alpha_e"))) (.sqrt (.mul (.mul (.rat 4 1) .pi) (.par n!"alpha_e"))))) (.par n!"m_b"))) (.div (.div (.div (.sqrt (.rat 2 1)) (.par n!"GF")) (.mul (.ckm 2 2) (.conj (.ckm 2 1)))) (.rat 4 1))) (.div (.div (.inp n!"CS_bstautau") (.div (.div (.mul (.rat 16 1) (.mul .pi .pi)) (.mul (.sqrt (.mul (.mul (.rat 4 1) .pi) (.par n!"alpha_e"))) (.sqrt (.mul (.mul (.rat 4 1) .pi) (.par n!"alpha_e"))))) (.par n!"m_b"))) (.div (.div (.div (.sqrt (.rat 2 1)) (.par n!"GF")) (.mul (.ckm 2 2) (.conj (.ckm 2 1)))) (.rat 4 1))))),
  (n!"VnueduLR_2322", (.conj (.div (.inp n!"CVR_sctaunumu") (.div (.div (.div (.neg (.sqrt (.rat 2 1))) (.par n!"GF")) (.ckm 1 1)) (.rat 4 1))))),
  (n!"SnueduRR_1221", (.conj (.div (.inp n!"CSL_sumunue") (.div (.div (.div (.neg (.sqrt (.rat 2 1))) (.par n!"GF")) (.ckm 0 1)) (.rat 4 1))))),
  (n!"V8udLR_2212", (.mul (.rat 2 1) (.mul (.mul (.div (.mul (.rat 4 1) (.par n!"GF")) (.sqrt (.rat 2 1))) (.mul (.ckm 2 1) (.conj (.ckm 2 0)))) (.inp n!"CVRLt_sdcc")))),
  (n!"VedRR_3312", (.add (.div (.div (.inp n!"C10p_sdtautau") (.div (.mul (.rat 16 1) (.mul .pi .pi)) (.mul (.sqrt (.mul (.mul (.rat 4 1) .pi) (.par n!"alpha_e"))) (.sqrt (.mul (.mul (.rat 4 1) .pi) (.par n!"alpha_e")))))) (.div (.div (.div (.sqrt (.rat 2 1)) (.par n!"GF")) (.mul (.ckm 2 1) (.conj (.ckm 2 0)))) (.rat 4 1))) (.div (.div (.inp n!"C9p_sdtautau") (.div (.mul (.rat 16 1) (.mul .pi .pi)) (.mul (.sqrt (.mul (.mul (.rat 4 1) .pi) (.par n!"alpha_e"))) (.sqrt (.mul (.mul (.rat 4 1) .pi) (.par n!"alpha_e")))))) (.div (.div (.div (.sqrt (.rat 2 1)) (.par n!"GF")) (.mul (.ckm 2 1) (.conj (.ckm 2 0)))) (.rat 4 1))))),
  (n!"VnueLR_1133", (.div (.inp n!"CVLR_nuenuetautau") (.div (.div (.sqrt (.rat 2 1)) (.par n!"GF")) (.rat 4 1)))),
  (n!"VedLR_1223", (.add (.neg (.div (.div (.inp n!"C10p_bsmue") (.div (.mul (.rat 16 1) (.mul .pi .pi)) (.mul (.sqrt (.mul (.mul (.rat 4 1) .pi) (.par n!"alpha_e"))) (.sqrt (.mul (.mul (.rat 4 1) .pi) (.par n!"alpha_e")))))) (.div (.div (.div (.sqrt (.rat 2 1)) (.par n!"GF")) (.mul (.ckm 2 2) (.conj (.ckm 2 1)))) (.rat 4 1)))) (.div (.div (.inp n!"C9p_bsmue") (.div (.mul (.rat 16 1) (.mul .pi .pi)) (.mul (.sqrt (.mul (.mul (.rat 4 1) .pi) (.par n!"alpha_e"))) (.sqrt (.mul (.mul (.rat 4 1) .pi) (.par n!"alpha_e")))))) (.div (.div (.div (.sqrt (.rat 2 1)) (.par n!"GF")) (.mul (.ckm 2 2) (.conj (.ckm 2 1)))) (.rat 4 1))))),
  (n!"S1udRR_1123", (.sub (.sub (.add (.mul (.mul (.div (.mul (.rat 4 1) (.par n!"GF")) (.sqrt (.rat 2 1))) (.mul (.ckm 2 2) (.conj (.ckm 2 1)))) (.inp n!"CSRR_bsuu")) (.div (.mul (.mul (.div (.mul (.rat 4 1) (.par n!"GF")) (.sqrt (.rat 2 1))) (.mul (.ckm 2 2) (.conj (.ckm 2 1)))) (.inp n!"CSRRt_bsuu")) (.rat 3 1))) (.mul (.rat 4 1) (.mul (.mul (.div (.mul (.rat 4 1) (.par n!"GF")) (.sqrt (.rat 2 1))) (.mul (.ckm 2 2) (.conj (.ckm 2 1)))) (.inp n!"CTRR_bsuu")))) (.div (.mul (.rat 4 1) (.mul (.mul (.div (.mul (.rat 4 1) (.par n!"GF")) (.sqrt (.rat 2 1))) (.mul (.ckm 2 2) (.conj (.ckm 2 1)))) (.inp n!"CTRRt_bsuu"))) (.rat 3 1)))),
  (n!"SeuRR_3311", (.div (.inp n!"CSRR_tautauuu") (.div (.div (.sqrt (.rat 2 1)) (.par n!"GF")) (.rat 4 1)))),
  (n!"S8ddRR_2333", (.mul (.rat (-16) 1) (.mul (.mul (.div (.mul (.rat 4 1) (.par n!"GF")) (.sqrt (.rat 2 1))) (.mul (.ckm 2 2) (.conj (.ckm 2 1)))) (.inp n!"CTRR_bsbb")))),
  (n!"V1udRR_2211", (.div (.inp n!"CV1RR_ccdd") (.div (.div (.sqrt (.rat 2 1)) (.par n!"GF")) (.rat 4 1)))),
  (n!"V8ddLR_1111", (.div (.inp n!"CV8LR_dddd") (.div (.div (.sqrt (.rat 2 1)) (.par n!"GF")) (.rat 4 1)))),
  (n!"S1ddRR_2231", (.sub (.sub (.add (.conj (.mul (.mul (.div (.mul (.rat 4 1) (.par n!"GF")) (.sqrt (.rat 2 1))) (.mul (.ckm 2 2) (.conj (.ckm 2 0)))) (.inp n!"CSLL_bdss"))) (.div (.conj (.mul (.mul (.div (.mul (.rat 4 1) (.par n!"GF")) (.sqrt (.rat 2 1))) (.mul (.ckm 2 2) (.conj (.ckm 2 0)))) (.inp n!"CSLLt_bdss"))) (.rat 3 1))) (.mul (.rat 4 1) (.conj (.mul (.mul (.div (.mul (.rat 4 1) (.par n!"GF")) (.sqrt (.rat 2 1))) (.mul (.ckm 2 2) (.conj (.ckm 2 0)))) (.inp n!"CTLL_bdss"))))) (.div (.mul (.rat 4 1) (.conj (.mul (.mul (.div (.mul (.rat 4 1) (.par n!"GF")) (.sqrt (.rat 2 1))) (.mul (.ckm 2 2) (.conj (.ckm 2 0)))) (.inp n!"CTLLt_bdss")))) (.rat 3 1)))),
  (n!"V8ddLR_1332", (.neg (.mul (.mul (.div (.mul (.rat 4 1) (.par n!"GF")) (.sqrt (.rat 2 1))) (.mul (.ckm 2 1) (.conj (.ckm 2 0)))) (.inp n!"CSRL_sdbb")))),
  (n!"S1uuRR_1111", (.div (.inp n!"CS1RR_uuuu") (.div (.div (.sqrt (.rat 2 1)) (.par n!"GF")) (.rat 4 1)))),
  (n!"VnueLR_2311", (.div (.inp n!"CVLR_numunutauee") (.div (.div (.sqrt (.rat 2 1)) (.par n!"GF")) (.rat 4 1)))),
  (n!"TedRR_2232", (.sub (.conj (.div (.rat 0 1) (.div (.div (.div (.sqrt (.rat 2 1)) (.par n!"GF")) (.mul (.ckm 2 2) (.conj (.ckm 2 1)))) (.rat 4 1)))) (.conj (.div (.rat 0 1) (.div (.div (.div (.sqrt (.rat 2 1)) (.par n!"GF")) (.mul (.ckm 2 2) (.conj (.ckm 2 1)))) (.rat 4 1)))))),
  (n!"V1duLR_1122", (.div (.inp n!"CV1LR_ddcc") (.div (.div (.sqrt (.rat 2 1)) (.par n!"GF")) (.rat 4 1)))),
  (n!"SnueduRL_3111", (.conj (.div (.inp n!"CSR_duenutau") (.div (.div (.div (.neg (.sqrt (.rat 2 1))) (.par n!"GF")) (.ckm 0 0)) (.rat 4 1))))),
  (n!"VnudLL_2322", (.div (.inp n!"CVLL_numunutauss") (.div (.div (.sqrt (.rat 2 1)) (.par n!"GF")) (.rat 4 1)))),
  (n!"VuuLL_1111", (.div (.inp n!"CVLL_uuuu") (.div (.div (.sqrt (.rat 2 1)) (.par n!"GF")) (.rat 4 1)))),
  (n!"V1ddLR_2312", (.sub (.neg (.div (.mul (.mul (.div (.mul (.rat 4 1) (.par n!"GF")) (.sqrt (.rat 2 1))) (.mul (.ckm 2 2) (.conj (.ckm 2 0)))) (.inp n!"CSLR_bdss")) (.mul (.rat 2 1) (.rat 3 1)))) (.div (.mul (.mul (.div (.mul (.rat 4 1) (.par n!"GF")) (.sqrt (.rat 2 1))) (.mul (.ckm 2 2) (.conj (.ckm 2 0)))) (.inp n!"CSLRt_bdss")) (.rat 2 1)))),
  (n!"TnueduRR_2112", (.conj (.div (.inp n!"CT_dcenumu") (.div (.div (.div (.neg (.sqrt (.rat 2 1))) (.par n!"GF")) (.ckm 1 0)) (.rat 4 1))))),
  (n!"SnueduRL_3332", (.conj (.div (.inp n!"CSR_bctaunutau") (.div (.div (.div (.neg (.sqrt (.rat 2 1))) (.par n!"GF")) (.ckm 1 2)) (.rat 4 1))))),
  (n!"VnuuLR_1222", (.div (.inp n!"CVLR_nuenumucc") (.div (.div (.sqrt (.rat 2 1)) (.par n!"GF")) (.rat 4 1)))),
  (n!"SedRR_2233", (.div (.inp n!"CSRR_mumubb") (.div (.div (.sqrt (.rat 2 1)) (.par n!"GF")) (.rat 4 1)))),
  (n!"VnueduLR_1232", (.conj (.div (.inp n!"CVR_bcmunue") (.div (.div (.div (.neg (.sqrt (.rat 2 1))) (.par n!"GF")) (.ckm 1 2)) (.rat 4 1))))),
  (n!"SedRL_3321", (.add (.neg (.conj (.div (.div (.inp n!"CP_sdtautau") (.div (.div (.mul (.rat 16 1) (.mul .pi .pi)) (.mul (.sqrt (.mul (.mul (.rat 4 1) .pi) (.par n!"alpha_e"))) (.sqrt (.mul (.mul (.rat 4 1) .pi) (.par n!"alpha_e"))))) (.par n!"m_s"))) (.div (.div (.div (.sqrt (.rat 2 1)) (.par n!"GF")) (.mul (.ckm 2 1) (.conj (.ckm 2 0)))) (.rat 4 1))))) (.conj (.div (.div (.inp n!"CS_sdtautau") (.div (.div (.mul (.rat 16 1) (.mul .pi .pi)) (.mul (.sqrt (.mul (.mul (.rat 4 1) .pi) (.par n!"alpha_e"))) (.sqrt (.mul (.mul (.rat 4 1) .pi) (.par n!"alpha_e"))))) (.par n!"m_s"))) (.div (.div (.div (.sqrt (.rat 2 1)) (.par n!"GF")) (.mul (.ckm 2 1) (.conj (.ckm 2 0)))) (.rat 4 1)))))),
  (n!"V8udLR_1122", (.div (.inp n!"CV8LR_uuss") (.div (.div (.sqrt (.rat 2 1)) (.par n!"GF")) (.rat 4 1)))),
  (n!"VedRR_2222", (.div (.inp n!"CVRR_mumuss") (.div (.div (.sqrt (.rat 2 1)) (.par n!"GF")) (.rat 4 1)))),
  (n!"egamma_22", (.div (.mul (.div (.par n!"m_mu") (.div (.mul (.rat 16 1) (.mul .pi .pi)) (.sqrt (.mul (.mul (.rat 4 1) .pi) (.par n!"alpha_e"))))) (.inp n!"C7_mumu")) (.div (.div (.sqrt (.rat 2 1)) (.par n!"GF")) (.rat 4 1)))),
  (n!"SedRL_1112", (.add (.div (.div (.inp n!"CPp_sdee") (.div (.div (.mul (.rat 16 1) (.mul .pi .pi)) (.mul (.sqrt (.mul (.mul (.rat 4 1) .pi) (.par n!"alpha_e"))) (.sqrt (.mul (.mul (.rat 4 1) .pi) (.par n!"alpha_e"))))) (.par n!"m_s"))) (.div (.div (.div (.sqrt (.rat 2 1)) (.par n!"GF")) (.mul (.ckm 2 1) (.conj (.ckm 2 0)))) (.rat 4 1))) (.div (.div (.inp n!"CSp_sdee") (.div (.div (.mul (.rat 16 1) (.mul .pi .pi)) (.mul (.sqrt (.mul (.mul (.rat 4 1) .pi) (.par n!"alpha_e"))) (.sqrt (.mul (.mul (.rat 4 1) .pi) (.par n!"alpha_e"))))) (.par n!"m_s"))) (.div (.div (.div (.sqrt (.rat 2 1)) (.par n!"GF")) (.mul (.ckm 2 1) (.conj (.ckm 2 0)))) (.rat 4 1))))),
  (n!"V1udLL_2233", (.div (.inp n!"CV1LL_ccbb") (.div (.div (.sqrt (.rat 2 1)) (.par n!"GF")) (.rat 4 1)))),
  (n!"SeuRR_2221", (.add (.neg (.conj (.div (.div (.inp n!"CPp_cumumu") (.div (.div (.mul (.rat 16 1) (.mul .pi .pi)) (.mul (.sqrt (.mul (.mul (.rat 4 1) .pi) (.par n!"alpha_e"))) (.sqrt (.mul (.mul (.rat 4 1) .pi) (.par n!"alpha_e"))))) (.par n!"m_c"))) (.div (.div (.div (.sqrt (.rat 2 1)) (.par n!"GF")) (.mul (.conj (.ckm 1 2)) (.ckm 0 2))) (.rat 4 1))))) (.conj (.div (.div (.inp n!"CSp_cumumu") (.div (.div (.mul (.rat 16 1) (.mul .pi .pi)) (.mul (.sqrt (.mul (.mul (.rat 4 1) .pi) (.par n!"alpha_e"))) (.sqrt (.mul (.mul (.rat 4 1) .pi) (.par n!"alpha_e"))))) (.par n!"m_c"))) (.div (.div (.div (.sqrt (.rat 2 1)) (.par n!"GF")) (.mul (.conj (.ckm 1 2)) (.ckm 0 2))) (.rat 4 1)))))),
  (n!"VedLL_1221", (.conj (.add (.neg (.div (.div (.inp n!"C10_sdemu") (.div (.mul (.rat 16 1) (.mul .pi .pi)) (.mul (.sqrt (.mul (.mul (.rat 4 1) .pi) (.par n!"alpha_e"))) (.sqrt (.mul (.mul (.rat 4 1) .pi) (.par n!"alpha_e")))))) (.div (.div (.div (.sqrt (.rat 2 1)) (.par n!"GF")) (.mul (.ckm 2 1) (.conj (.ckm 2 0)))) (.rat 4 1)))) (.div (.div (.inp n!"C9_sdemu") (.div (.mul (.rat 16 1) (.mul .pi .pi)) (.mul (.sqrt (.mul (.mul (.rat 4 1) .pi) (.par n!"alpha_e"))) (.sqrt (.mul (.mul (.rat 4 1) .pi) (.par n!"alpha_e")))))) (.div (.div (.div (.sqrt (.rat 2 1)) (.par n!"GF")) (.mul (.ckm 2 1) (.conj (.ckm 2 0)))) (.rat 4 1))))))]

def flavio_to_JMS_19 : List (ℕ × Sym) := [
  (n!"VeuLL_3322", (.div (.inp n!"CVLL_tautaucc") (.div (.div (.sqrt (.rat 2 1)) (.par n!"GF")) (.rat 4 1)))),
  (n!"V8ddLR_3312", (.mul (.rat 2 1) (.mul (.mul (.div (.mul (.rat 4 1) (.par n!"GF")) (.sqrt (.rat 2 1))) (.mul (.ckm 2 1) (.conj (.ckm 2 0)))) (.inp n!"CVRLt_sdbb")))),
  (n!"V1udduLR_2331", (.sub (.neg (.div (.conj (.mul (.mul (.div (.mul (.rat 4 1) (.par n!"GF")) (.sqrt (.rat 2 1))) (.mul (.conj (.ckm 1 2)) (.ckm 0 2))) (.inp n!"CSLR_cubb"))) (.mul (.rat 2 1) (.rat 3 1)))) (.div (.conj (.mul (.mul (.div (.mul (.rat 4 1) (.par n!"GF")) (.sqrt (.rat 2 1))) (.mul (.conj (.ckm 1 2)) (.ckm 0 2))) (.inp n!"CSLRt_cubb"))) (.rat 2 1)))),
  (n!"S1ddRR_2223", (.sub (.neg (.div (.mul (.rat 8 1) (.mul (.mul (.div (.mul (.rat 4 1) (.par n!"GF")) (.sqrt (.rat 2 1))) (.mul (.ckm 2 2) (.conj (.ckm 2 1)))) (.inp n!"CTRR_bsss"))) (.rat 3 1))) (.mul (.rat 8 1) (.add (.mul (.div (.rat (-1) 1) (.rat 8 1)) (.mul (.mul (.div (.mul (.rat 4 1) (.par n!"GF")) (.sqrt (.rat 2 1))) (.mul (.ckm 2 2) (.conj (.ckm 2 1)))) (.inp n!"CSRR_bsss"))) (.mul (.div (.rat 1 1) (.rat 2 1)) (.mul (.mul (.div (.mul (.rat 4 1) (.par n!"GF")) (.sqrt (.rat 2 1))) (.mul (.ckm 2 2) (.conj (.ckm 2 1)))) (.inp n!"CTRR_bsss"))))))),
  (n!"S1udRR_1211", (.sub (.sub (.add (.mul (.mul (.div (.mul (.rat 4 1) (.par n!"GF")) (.sqrt (.rat 2 1))) (.mul (.conj (.ckm 1 2)) (.ckm 0 2))) (.inp n!"CSRR_cudd")) (.div (.mul (.mul (.div (.mul (.rat 4 1) (.par n!"GF")) (.sqrt (.rat 2 1))) (.mul (.conj (.ckm 1 2)) (.ckm 0 2))) (.inp n!"CSRRt_cudd")) (.rat 3 1))) (.mul (.rat 4 1) (.mul (.mul (.div (.mul (.rat 4 1) (.par n!"GF")) (.sqrt (.rat 2 1))) (.mul (.conj (.ckm 1 2)) (.ckm 0 2))) (.inp n!"CTRR_cudd")))) (.div (.mul (.rat 4 1) (.mul (.mul (.div (.mul (.rat 4 1) (.par n!"GF")) (.sqrt (.rat 2 1))) (.mul (.conj (.ckm 1 2)) (.ckm 0 2))) (.inp n!"CTRRt_cudd"))) (.rat 3 1)))),
  (n!"V8udduLR_1211", (.neg (.mul (.mul (.div (.mul (.rat 4 1) (.par n!"GF")) (.sqrt (.rat 2 1))) (.mul (.ckm 2 1) (.conj (.ckm 2 0)))) (.inp n!"CSLR_sduu")))),
  (n!"ugamma_12", (.div (.div (.inp n!"C7_cu") (.div (.div (.mul (.rat 16 1) (.mul .pi .pi)) (.sqrt (.mul (.mul (.rat 4 1) .pi) (.par n!"alpha_e")))) (.par n!"m_c"))) (.div (.div (.div (.sqrt (.rat 2 1)) (.par n!"GF")) (.mul (.conj (.ckm 1 2)) (.ckm 0 2))) (.rat 4 1)))),
  (n!"VnueduLL_3122", (.conj (.div (.inp n!"CVL_scenutau") (.div (.div (.div (.neg (.sqrt (.rat 2 1))) (.par n!"GF")) (.ckm 1 1)) (.rat 4 1))))),
  (n!"S1udduRR_2312", (.sub (.neg (.div (.mul (.rat 8 1) (.mul (.mul (.div (.mul (.rat 4 1) (.par n!"GF")) (.sqrt (.rat 2 1))) (.mul (.ckm 2 2) (.conj (.ckm 2 0)))) (.inp n!"CTRR_bdcc"))) (.rat 3 1))) (.mul (.rat 8 1) (.mul (.mul (.div (.mul (.rat 4 1) (.par n!"GF")) (.sqrt (.rat 2 1))) (.mul (.ckm 2 2) (.conj (.ckm 2 0)))) (.inp n!"CTRRt_bdcc"))))),
  (n!"VnudLL_1232", (.conj (.div (.div (.inp n!"CL_bsnuenumu") (.div (.mul (.rat 8 1) (.mul .pi .pi)) (.mul (.sqrt (.mul (.mul (.rat 4 1) .pi) (.par n!"alpha_e"))) (.sqrt (.mul (.mul (.rat 4 1) .pi) (.par n!"alpha_e")))))) (.div (.div (.div (.sqrt (.rat 2 1)) (.par n!"GF")) (.mul (.ckm 2 2) (.conj (.ckm 2 1)))) (.rat 4 1))))),
  (n!"SedRR_3131", (.add (.neg (.conj (.div (.div (.inp n!"CPp_bdtaue") (.div (.div (.mul (.rat 16 1) (.mul .pi .pi)) (.mul (.sqrt (.mul (.mul (.rat 4 1) .pi) (.par n!"alpha_e"))) (.sqrt (.mul (.mul (.rat 4 1) .pi) (.par n!"alpha_e"))))) (.par n!"m_b"))) (.div (.div (.div (.sqrt (.rat 2 1)) (.par n!"GF")) (.mul (.ckm 2 2) (.conj (.ckm 2 0)))) (.rat 4 1))))) (.conj (.div (.div (.inp n!"CSp_bdtaue") (.div (.div (.mul (.rat 16 1) (.mul .pi .pi)) (.mul (.sqrt (.mul (.mul (.rat 4 1) .pi) (.par n!"alpha_e"))) (.sqrt (.mul (.mul (.rat 4 1) .pi) (.par n!"alpha_e"))))) (.par n!"m_b"))) (.div (.div (.div (.sqrt (.rat 2 1)) (.par n!"GF")) (.mul (.ckm 2 2) (.conj (.ckm 2 0)))) (.rat 4 1)))))),
  (n!"V1ddLR_1222", (.sub (.neg (.div (.mul (.mul (.div (.mul (.rat 4 1) (.par n!"GF")) (.sqrt (.rat 2 1))) (.mul (.ckm 2 1) (.conj (.ckm 2 0)))) (.inp n!"CSRL_sdss")) (.mul (.rat 2 1) (.rat 3 1)))) (.div (.mul (.rat (-2) 1) (.mul (.mul (.div (.mul (.rat 4 1) (.par n!"GF")) (.sqrt (.rat 2 1))) (.mul (.ckm 2 1) (.conj (.ckm 2 0)))) (.inp n!"CVLR_sdss"))) (.rat 2 1)))),
  (n!"TnueduRR_3231", (.conj (.div (.inp n!"CT_bumunutau") (.div (.div (.div (.neg (.sqrt (.rat 2 1))) (.par n!"GF")) (.ckm 0 2)) (.rat 4 1))))),
  (n!"VeeLR_2233", (.div (.inp n!"CVLR_mumutautau") (.div (.div (.sqrt (.rat 2 1)) (.par n!"GF")) (.rat 4 1)))),
  (n!"VddLL_2223", (.mul (.mul (.div (.mul (.rat 4 1) (.par n!"GF")) (.sqrt (.rat 2 1))) (.mul (.ckm 2 2) (.conj (.ckm 2 1)))) (.inp n!"CVLL_bsss"))),
  (n!"VddRR_1111", (.div (.inp n!"CVRR_dddd") (.div (.div (.sqrt (.rat 2 1)) (.par n!"GF")) (.rat 4 1)))),
  (n!"VnueduLR_3212", (.conj (.div (.inp n!"CVR_dcmunutau") (.div (.div (.div (.neg (.sqrt (.rat 2 1))) (.par n!"GF")) (.ckm 1 0)) (.rat 4 1))))),
  (n!"SnueduRR_2111", (.conj (.div (.inp n!"CSL_duenumu") (.div (.div (.div (.neg (.sqrt (.rat 2 1))) (.par n!"GF")) (.ckm 0 0)) (.rat 4 1))))),
  (n!"VnudLR_1322", (.div (.inp n!"CVLR_nuenutauss") (.div (.div (.sqrt (.rat 2 1)) (.par n!"GF")) (.rat 4 1)))),
  (n!"VddRR_1332", (.mul (.mul (.div (.mul (.rat 4 1) (.par n!"GF")) (.sqrt (.rat 2 1))) (.mul (.ckm 2 1) (.conj (.ckm 2 0)))) (.inp n!"CVRRt_sdbb"))),
  (n!"SedRL_2231", (.add (.neg (.conj (.div (.div (.inp n!"CP_bdmumu") (.div (.div (.mul (.rat 16 1) (.mul .pi .pi)) (.mul (.sqrt (.mul (.mul (.rat 4 1) .pi) (.par n!"alpha_e"))) (.sqrt (.mul (.mul (.rat 4 1) .pi) (.par n!"alpha_e"))))) (.par n!"m_b"))) (.div (.div (.div (.sqrt (.rat 2 1)) (.par n!"GF")) (.mul (.ckm 2 2) (.conj (.ckm 2 0)))) (.rat 4 1))))) (.conj (.div (.div (.inp n!"CS_bdmumu") (.div (.div (.mul (.rat 16 1) (.mul .pi .pi)) (.mul (.sqrt (.mul (.mul (.rat 4 1) .pi) (.par n!"alpha_e"))) (.sqrt (.mul (.mul (.rat 4 1) .pi) (.par n!"alpha_e"))))) (.par n!"m_b"))) (.div (.div (.div (.sqrt (.rat 2 1)) (.par n!"GF")) (.mul (.ckm 2 2) (.conj (.ckm 2 0)))) (.rat 4 1)))))),
  (n!"TeuRR_2212", (.add (.div (.rat 0 1) (.div (.div (.div (.sqrt (.rat 2 1)) (.par n!"GF")) (.mul (.conj (.ckm 1 2)) (.ckm 0 2))) (.rat 4 1))) (.div (.rat 0 1) (.div (.div (.div (.sqrt (.rat 2 1)) (.par n!"GF")) (.mul (.conj (.ckm 1 2)) (.ckm 0 2))) (.rat 4 1))))),
  (n!"SnueduRR_2332", (.conj (.div (.inp n!"CSL_bctaunumu") (.div (.div (.div (.neg (.sqrt (.rat 2 1))) (.par n!"GF")) (.ckm 1 2)) (.rat 4 1))))),
  (n!"S8udRR_2211", (.div (.inp n!"CS8RR_ccdd") (.div (.div (.sqrt (.rat 2 1)) (.par n!"GF")) (.rat 4 1)))),
  (n!"SedRL_3313", (.add (.div (.div (.inp n!"CPp_bdtautau") (.div (.div (.mul (.rat 16 1) (.mul .pi .pi)) (.mul (.sqrt (.mul (.mul (.rat 4 1) .pi) (.par n!"alpha_e"))) (.sqrt (.mul (.mul (.rat 4 1) .pi) (.par n!"alpha_e"))))) (.par n!"m_b"))) (.div (.div (.div (.sqrt (.rat 2 1)) (.par n!"GF")) (.mul (.ckm 2 2) (.conj (.ckm 2 0)))) (.rat 4 1))) (.div (.div (.inp n!"CSp_bdtautau") (.div (.div (.mul (.rat 16 1) (.mul .pi .pi)) (.mul (.sqrt (.mul (.mul (.rat 4 1) .pi) (.par n!"alpha_e"))) (.sqrt (.mul (.mul (.rat 4 1) .pi) (.par n!"alpha_e"))))) (.par n!"m_b"))) (.div (.div (.div (.sqrt (.rat 2 1)) (.par n!"GF")) (.mul (.ckm 2 2) (.conj (.ckm 2 0)))) (.rat 4 1))))),
  (n!"VnueduLL_2312", (.conj (.div (.inp n!"CVL_dctaunumu") (.div (.div (.div (.neg (.sqrt (.rat 2 1))) (.par n!"GF")) (.ckm 1 0)) (.rat 4 1))))),
  (n!"SnueduRL_1211", (.conj (.div (.inp n!"CSR_dumunue") (.div (.div (.div (.neg (.sqrt (.rat 2 1))) (.par n!"GF")) (.ckm 0 0)) (.rat 4 1))))),
  (n!"SedRR_2321", (.add (.neg (.conj (.div (.div (.inp n!"CPp_sdmutau") (.div (.div (.mul (.rat 16 1) (.mul .pi .pi)) (.mul (.sqrt (.mul (.mul (.rat 4 1) .pi) (.par n!"alpha_e"))) (.sqrt (.mul (.mul (.rat 4 1) .pi) (.par n!"alpha_e"))))) (.par n!"m_s"))) (.div (.div (.div (.sqrt (.rat 2 1)) (.par n!"GF")) (.mul (.ckm 2 1) (.conj (.ckm 2 0)))) (.rat 4 1))))) (.conj (.div (.div (.inp n!"CSp_sdmutau") (.div (.div (.mul (.rat 16 1) (.mul .pi .pi)) (.mul (.sqrt (.mul (.mul (.rat 4 1) .pi) (.par n!"alpha_e"))) (.sqrt (.mul (.mul (.rat 4 1) .pi) (.par n!"alpha_e"))))) (.par n!"m_s"))) (.div (.div (.div (.sqrt (.rat 2 1)) (.par n!"GF")) (.mul (.ckm 2 1) (.conj (.ckm 2 0)))) (.rat 4 1)))))),
  (n!"V8ddLR_2222", (.div (.inp n!"CV8LR_ssss") (.div (.div (.sqrt (.rat 2 1)) (.par n!"GF")) (.rat 4 1)))),
  (n!"VedLL_1213", (.add (.neg (.div (.div (.inp n!"C10_bdmue") (.div (.mul (.rat 16 1) (.mul .pi .pi)) (.mul (.sqrt (.mul (.mul (.rat 4 1) .pi) (.par n!"alpha_e"))) (.sqrt (.mul (.mul (.rat 4 1) .pi) (.par n!"alpha_e")))))) (.div (.div (.div (.sqrt (.rat 2 1)) (.par n!"GF")) (.mul (.ckm 2 2) (.conj (.ckm 2 0)))) (.rat 4 1)))) (.div (.div (.inp n!"C9_bdmue") (.div (.mul (.rat 16 1) (.mul .pi .pi)) (.mul (.sqrt (.mul (.mul (.rat 4 1) .pi) (.par n!"alpha_e"))) (.sqrt (.mul (.mul (.rat 4 1) .pi) (.par n!"alpha_e")))))) (.div (.div (.div (.sqrt (.rat 2 1)) (.par n!"GF")) (.mul (.ckm 2 2) (.conj (.ckm 2 0)))) (.rat 4 1))))),
  (n!"V1udRR_1113", (.add (.mul (.mul (.div (.mul (.rat 4 1) (.par n!"GF")) (.sqrt (.rat 2 1))) (.mul (.ckm 2 2) (.conj (.ckm 2 0)))) (.inp n!"CVRR_bduu")) (.div (.mul (.mul (.div (.mul (.rat 4 1) (.par n!"GF")) (.sqrt (.rat 2 1))) (.mul (.ckm 2 2) (.conj (.ckm 2 0)))) (.inp n!"CVRRt_bduu")) (.rat 3 1)))),
  (n!"V1udLR_1233", (.add (.mul (.mul (.div (.mul (.rat 4 1) (.par n!"GF")) (.sqrt (.rat 2 1))) (.mul (.conj (.ckm 1 2)) (.ckm 0 2))) (.inp n!"CVLR_cubb")) (.div (.mul (.mul (.div (.mul (.rat 4 1) (.par n!"GF")) (.sqrt (.rat 2 1))) (.mul (.conj (.ckm 1 2)) (.ckm 0 2))) (.inp n!"CVLRt_cubb")) (.rat 3 1)))),
  (n!"S1ddRR_1133", (.div (.inp n!"CS1RR_ddbb") (.div (.div (.sqrt (.rat 2 1)) (.par n!"GF")) (.rat 4 1)))),
  (n!"S1uuRR_2222", (.div (.inp n!"CS1RR_cccc") (.div (.div (.sqrt (.rat 2 1)) (.par n!"GF")) (.rat 4 1)))),
  (n!"S8ddRR_1331", (.div (.inp n!"CS8RR_dbbd") (.div (.div (.sqrt (.rat 2 1)) (.par n!"GF")) (.rat 4 1)))),
  (n!"VdeLR_1122", (.div (.inp n!"CVLR_ddmumu") (.div (.div (.sqrt (.rat 2 1)) (.par n!"GF")) (.rat 4 1)))),
  (n!"S1udduRR_1222", (.sub (.neg (.div (.mul (.rat 8 1) (.mul (.mul (.div (.mul (.rat 4 1) (.par n!"GF")) (.sqrt (.rat 2 1))) (.mul (.conj (.ckm 1 2)) (.ckm 0 2))) (.inp n!"CTRR_cuss"))) (.rat 3 1))) (.mul (.rat 8 1) (.mul (.mul (.div (.mul (.rat 4 1) (.par n!"GF")) (.sqrt (.rat 2 1))) (.mul (.conj (.ckm 1 2)) (.ckm 0 2))) (.inp n!"CTRRt_cuss"))))),
  (n!"V1uuLR_1221", (.div (.inp n!"CV1LR_uccu") (.div (.div (.sqrt (.rat 2 1)) (.par n!"GF")) (.rat 4 1)))),
  (n!"VddLL_1133", (.div (.inp n!"CVLL_ddbb") (.div (.div (.sqrt (.rat 2 1)) (.par n!"GF")) (.rat 4 1)))),
  (n!"VuuLL_2222", (.div (.inp n!"CVLL_cccc") (.div (.div (.sqrt (.rat 2 1)) (.par n!"GF")) (.rat 4 1)))),
  (n!"SedRR_3123", (.add (.div (.div (.inp n!"CP_bsetau") (.div (.div (.mul (.rat 16 1) (.mul .pi .pi)) (.mul (.sqrt (.mul (.mul (.rat 4 1) .pi) (.par n!"alpha_e"))) (.sqrt (.mul (.mul (.rat 4 1) .pi) (.par n!"alpha_e"))))) (.par n!"m_b"))) (.div (.div (.div (.sqrt (.rat 2 1)) (.par n!"GF")) (.mul (.ckm 2 2) (.conj (.ckm 2 1)))) (.rat 4 1))) (.div (.div (.inp n!"CS_bsetau") (.div (.div (.mul (.rat 16 1) (.mul .pi .pi)) (.mul (.sqrt (.mul (.mul (.rat 4 1) .pi) (.par n!"alpha_e"))) (.sqrt (.mul (.mul (.rat 4 1) .pi) (.par n!"alpha_e"))))) (.par n!"m_b"))) (.div (.div (.div (.sqrt (.rat 2 1)) (.par n!"GF")) (.mul (.ckm 2 2) (.conj (.ckm 2 1)))) (.rat 4 1))))),
  (n!"VnueduLR_2122", (.conj (.div (.inp n!"CVR_scenumu") (.div (.div (.div (.neg (.sqrt (.rat 2 1))) (.par n!"GF")) (.ckm 1 1)) (.rat 4 1))))),
  (n!"TeuRR_1122", (.div (.inp n!"CTRR_eecc") (.div (.div (.sqrt (.rat 2 1)) (.par n!"GF")) (.rat 4 1)))),
  (n!"TedRR_2312", (.add (.div (.rat 0 1) (.div (.div (.div (.sqrt (.rat 2 1)) (.par n!"GF")) (.mul (.ckm 2 1) (.conj (.ckm 2 0)))) (.rat 4 1))) (.div (.rat 0 1) (.div (.div (.div (.sqrt (.rat 2 1)) (.par n!"GF")) (.mul (.ckm 2 1) (.conj (.ckm 2 0)))) (.rat 4 1))))),
  (n!"V8udLR_2233", (.div (.inp n!"CV8LR_ccbb") (.div (.div (.sqrt (.rat 2 1)) (.par n!"GF")) (.rat 4 1)))),
  (n!"VedRR_3333", (.div (.inp n!"CVRR_tautaubb") (.div (.div (.sqrt (.rat 2 1)) (.par n!"GF")) (.rat 4 1)))),
  (n!"S8ddRR_2133", (.sub (.mul (.rat 2 1) (.conj (.mul (.mul (.div (.mul (.rat 4 1) (.par n!"GF")) (.sqrt (.rat 2 1))) (.mul (.ckm 2 1) (.conj (.ckm 2 0)))) (.inp n!"CSLLt_sdbb")))) (.mul (.rat 8 1) (.conj (.mul (.mul (.div (.mul (.rat 4 1) (.par n!"GF")) (.sqrt (.rat 2 1))) (.mul (.ckm 2 1) (.conj (.ckm 2 0)))) (.inp n!"CTLLt_sdbb")))))),
  (n!"S8udRR_1121", (.sub (.mul (.rat 2 1) (.conj (.mul (.mul (.div (.mul (.rat 4 1) (.par n!"GF")) (.sqrt (.rat 2 1))) (.mul (.ckm 2 1) (.conj (.ckm 2 0)))) (.inp n!"CSLLt_sduu")))) (.mul (.rat 8 1) (.conj (.mul (.mul (.div (.mul (.rat 4 1) (.par n!"GF")) (.sqrt (.rat 2 1))) (.mul (.ckm 2 1) (.conj (.ckm 2 0)))) (.inp n!"CTLLt_sduu")))))),
  (n!"SedRL_2223", (.add (.div (.div (.inp n!"CPp_bsmumu") (.div (.div (.mul (.rat 16 1) (.mul .pi .pi)) (.mul (.sqrt (.mul (.mul (.rat 4 1) .pi) (.par n!"alpha_e"))) (.sqrt (.mul (.mul (.rat 4 1) .pi) (.par n!"alpha_e"))))) (.par n!"m_b"))) (.div (.div (.div (.sqrt (.rat 2 1)) (.par n!"GF")) (.mul (.ckm 2 2) (.conj (.ckm 2 1)))) (.rat 4 1))) (.div (.div (.inp n!"CSp_bsmumu") (.div (.div (.mul (.rat 16 1) (.mul .pi .pi)) (.mul (.sqrt (.mul (.mul (.rat 4 1) .pi) (.par n!"alpha_e"))) (.sqrt (.mul (.mul (.rat 4 1) .pi) (.par n!"alpha_e"))))) (.par n!"m_b"))) (.div (.div (.div (.sqrt (.rat 2 1)) (.par n!"GF")) (.mul (.ckm 2 2) (.conj (.ckm 2 1)))) (.rat 4 1))))),
  (n!"VnueduLL_1222", (.conj (.div (.inp n!"CVL_scmunue") (.div (.div (.div (.neg (.sqrt (.rat 2 1))) (.par n!"GF")) (.ckm 1 1)) (.rat 4 1)))))]

def flavio_to_JMS_20 : List (ℕ × Sym) := [
  (n!"V8udLL_1112", (.mul (.rat 2 1) (.mul (.mul (.div (.mul (.rat 4 1) (.par n!"GF")) (.sqrt (.rat 2 1))) (.mul (.ckm 2 1) (.conj (.ckm 2 0)))) (.inp n!"CVLLt_sduu")))),
  (n!"SedRR_1231", (.add (.neg (.conj (.div (.div (.inp n!"CPp_bdemu") (.div (.div (.mul (.rat 16 1) (.mul .pi .pi)) (.mul (.sqrt (.mul (.mul (.rat 4 1) .pi) (.par n!"alpha_e"))) (.sqrt (.mul (.mul (.rat 4 1) .pi) (.par n!"alpha_e"))))) (.par n!"m_b"))) (.div (.div (.div (.sqrt (.rat 2 1)) (.par n!"GF")) (.mul (.ckm 2 2) (.conj (.ckm 2 0)))) (.rat 4 1))))) (.conj (.div (.div (.inp n!"CSp_bdemu") (.div (.div (.mul (.rat 16 1) (.mul .pi .pi)) (.mul (.sqrt (.mul (.mul (.rat 4 1) .pi) (.par n!"alpha_e"))) (.sqrt (.mul (.mul (.rat 4 1) .pi) (.par n!"alpha_e"))))) (.par n!"m_b"))) (.div (.div (.div (.sqrt (.rat 2 1)) (.par n!"GF")) (.mul (.ckm 2 2) (.conj (.ckm 2 0)))) (.rat 4 1)))))),
  (n!"VueLR_1133", (.div (.inp n!"CVLR_uutautau") (.div (.div (.sqrt (.rat 2 1)) (.par n!"GF")) (.rat 4 1)))),
  (n!"TnueduRR_1331", (.conj (.div (.inp n!"CT_butaunue") (.div (.div (.div (.neg (.sqrt (.rat 2 1))) (.par n!"GF")) (.ckm 0 2)) (.rat 4 1))))),
  (n!"VedLL_2332", (.conj (.add (.neg (.div (.div (.inp n!"C10_bsmutau") (.div (.mul (.rat 16 1) (.mul .pi .pi)) (.mul (.sqrt (.mul (.mul (.rat 4 1) .pi) (.par n!"alpha_e"))) (.sqrt (.mul (.mul (.rat 4 1) .pi) (.par n!"alpha_e")))))) (.div (.div (.div (.sqrt (.rat 2 1)) (.par n!"GF")) (.mul (.ckm 2 2) (.conj (.ckm 2 1)))) (.rat 4 1)))) (.div (.div (.inp n!"C9_bsmutau") (.div (.mul (.rat 16 1) (.mul .pi .pi)) (.mul (.sqrt (.mul (.mul (.rat 4 1) .pi) (.par n!"alpha_e"))) (.sqrt (.mul (.mul (.rat 4 1) .pi) (.par n!"alpha_e")))))) (.div (.div (.div (.sqrt (.rat 2 1)) (.par n!"GF")) (.mul (.ckm 2 2) (.conj (.ckm 2 1)))) (.rat 4 1)))))),
  (n!"SedRR_2313", (.add (.div (.div (.inp n!"CP_bdtaumu") (.div (.div (.mul (.rat 16 1) (.mul .pi .pi)) (.mul (.sqrt (.mul (.mul (.rat 4 1) .pi) (.par n!"alpha_e"))) (.sqrt (.mul (.mul (.rat 4 1) .pi) (.par n!"alpha_e"))))) (.par n!"m_b"))) (.div (.div (.div (.sqrt (.rat 2 1)) (.par n!"GF")) (.mul (.ckm 2 2) (.conj (.ckm 2 0)))) (.rat 4 1))) (.div (.div (.inp n!"CS_bdtaumu") (.div (.div (.mul (.rat 16 1) (.mul .pi .pi)) (.mul (.sqrt (.mul (.mul (.rat 4 1) .pi) (.par n!"alpha_e"))) (.sqrt (.mul (.mul (.rat 4 1) .pi) (.par n!"alpha_e"))))) (.par n!"m_b"))) (.div (.div (.div (.sqrt (.rat 2 1)) (.par n!"GF")) (.mul (.ckm 2 2) (.conj (.ckm 2 0)))) (.rat 4 1))))),
  (n!"SeuRL_2211", (.div (.inp n!"CSRL_mumuuu") (.div (.div (.sqrt (.rat 2 1)) (.par n!"GF")) (.rat 4 1)))),
  (n!"VnueduLR_1312", (.conj (.div (.inp n!"CVR_dctaunue") (.div (.div (.div (.neg (.sqrt (.rat 2 1))) (.par n!"GF")) (.ckm 1 0)) (.rat 4 1))))),
  (n!"VeuRR_1112", (.add (.div (.div (.inp n!"C10p_cuee") (.div (.mul (.rat 16 1) (.mul .pi .pi)) (.mul (.sqrt (.mul (.mul (.rat 4 1) .pi) (.par n!"alpha_e"))) (.sqrt (.mul (.mul (.rat 4 1) .pi) (.par n!"alpha_e")))))) (.div (.div (.div (.sqrt (.rat 2 1)) (.par n!"GF")) (.mul (.conj (.ckm 1 2)) (.ckm 0 2))) (.rat 4 1))) (.div (.div (.inp n!"C9p_cuee") (.div (.mul (.rat 16 1) (.mul .pi .pi)) (.mul (.sqrt (.mul (.mul (.rat 4 1) .pi) (.par n!"alpha_e"))) (.sqrt (.mul (.mul (.rat 4 1) .pi) (.par n!"alpha_e")))))) (.div (.div (.div (.sqrt (.rat 2 1)) (.par n!"GF")) (.mul (.conj (.ckm 1 2)) (.ckm 0 2))) (.rat 4 1))))),
  (n!"V8udduLR_2322", (.neg (.mul (.mul (.div (.mul (.rat 4 1) (.par n!"GF")) (.sqrt (.rat 2 1))) (.mul (.ckm 2 2) (.conj (.ckm 2 1)))) (.inp n!"CSLR_bscc")))),
  (n!"S8udduRR_1221", (.div (.inp n!"CS8RR_ussu") (.div (.div (.sqrt (.rat 2 1)) (.par n!"GF")) (.rat 4 1)))),
  (n!"VnueLL_1211", (.div (.inp n!"CVLL_nuenumuee") (.div (.div (.sqrt (.rat 2 1)) (.par n!"GF")) (.rat 4 1)))),
  (n!"SnueduRL_3132", (.conj (.div (.inp n!"CSR_bcenutau") (.div (.div (.div (.neg (.sqrt (.rat 2 1))) (.par n!"GF")) (.ckm 1 2)) (.rat 4 1))))),
  (n!"V1ddLR_2333", (.sub (.neg (.div (.mul (.mul (.div (.mul (.rat 4 1) (.par n!"GF")) (.sqrt (.rat 2 1))) (.mul (.ckm 2 2) (.conj (.ckm 2 1)))) (.inp n!"CSRL_bsbb")) (.mul (.rat 2 1) (.rat 3 1)))) (.div (.mul (.rat (-2) 1) (.mul (.mul (.div (.mul (.rat 4 1) (.par n!"GF")) (.sqrt (.rat 2 1))) (.mul (.ckm 2 2) (.conj (.ckm 2 1)))) (.inp n!"CVLR_bsbb"))) (.rat 2 1)))),
  (n!"S1ddRR_1221", (.div (.inp n!"CS1RR_dssd") (.div (.div (.sqrt (.rat 2 1)) (.par n!"GF")) (.rat 4 1)))),
  (n!"VnudLR_2212", (.div (.div (.inp n!"CR_sdnumunumu") (.div (.mul (.rat 8 1) (.mul .pi .pi)) (.mul (.sqrt (.mul (.mul (.rat 4 1) .pi) (.par n!"alpha_e"))) (.sqrt (.mul (.mul (.rat 4 1) .pi) (.par n!"alpha_e")))))) (.div (.div (.div (.sqrt (.rat 2 1)) (.par n!"GF")) (.mul (.ckm 2 1) (.conj (.ckm 2 0)))) (.rat 4 1)))),
  (n!"VddRR_2222", (.div (.inp n!"CVRR_ssss") (.div (.div (.sqrt (.rat 2 1)) (.par n!"GF")) (.rat 4 1)))),
  (n!"SedRL_3121", (.add (.neg (.conj (.div (.div (.inp n!"CP_sdtaue") (.div (.div (.mul (.rat 16 1) (.mul .pi .pi)) (.mul (.sqrt (.mul (.mul (.rat 4 1) .pi) (.par n!"alpha_e"))) (.sqrt (.mul (.mul (.rat 4 1) .pi) (.par n!"alpha_e"))))) (.par n!"m_s"))) (.div (.div (.div (.sqrt (.rat 2 1)) (.par n!"GF")) (.mul (.ckm 2 1) (.conj (.ckm 2 0)))) (.rat 4 1))))) (.conj (.div (.div (.inp n!"CS_sdtaue") (.div (.div (.mul (.rat 16 1) (.mul .pi .pi)) (.mul (.sqrt (.mul (.mul (.rat 4 1) .pi) (.par n!"alpha_e"))) (.sqrt (.mul (.mul (.rat 4 1) .pi) (.par n!"alpha_e"))))) (.par n!"m_s"))) (.div (.div (.div (.sqrt (.rat 2 1)) (.par n!"GF")) (.mul (.ckm 2 1) (.conj (.ckm 2 0)))) (.rat 4 1)))))),
  (n!"dgamma_22", (.div (.mul (.div (.par n!"m_s") (.div (.mul (.rat 16 1) (.mul .pi .pi)) (.sqrt (.mul (.mul (.rat 4 1) .pi) (.par n!"alpha_e"))))) (.inp n!"C7_ss")) (.div (.div (.sqrt (.rat 2 1)) (.par n!"GF")) (.rat 4 1)))),
  (n!"SeeRR_1122", (.div (.inp n!"CSRR_eemumu") (.div (.div (.sqrt (.rat 2 1)) (.par n!"GF")) (.rat 4 1)))),
  (n!"SnueduRR_3222", (.conj (.div (.inp n!"CSL_scmunutau") (.div (.div (.div (.neg (.sqrt (.rat 2 1))) (.par n!"GF")) (.ckm 1 1)) (.rat 4 1))))),
  (n!"VeeRR_1111", (.div (.inp n!"CVRR_eeee") (.div (.div (.sqrt (.rat 2 1)) (.par n!"GF")) (.rat 4 1)))),
  (n!"VddLL_1221", (.div (.inp n!"CVLL_dssd") (.div (.div (.sqrt (.rat 2 1)) (.par n!"GF")) (.rat 4 1)))),
  (n!"SedRL_1133", (.div (.inp n!"CSRL_eebb") (.div (.div (.sqrt (.rat 2 1)) (.par n!"GF")) (.rat 4 1)))),
  (n!"VnudLL_1312", (.div (.div (.inp n!"CL_sdnutaunue") (.div (.mul (.rat 8 1) (.mul .pi .pi)) (.mul (.sqrt (.mul (.mul (.rat 4 1) .pi) (.par n!"alpha_e"))) (.sqrt (.mul (.mul (.rat 4 1) .pi) (.par n!"alpha_e")))))) (.div (.div (.div (.sqrt (.rat 2 1)) (.par n!"GF")) (.mul (.ckm 2 1) (.conj (.ckm 2 0)))) (.rat 4 1)))),
  (n!"TnueduRR_3311", (.conj (.div (.inp n!"CT_dutaunutau") (.div (.div (.div (.neg (.sqrt (.rat 2 1))) (.par n!"GF")) (.ckm 0 0)) (.rat 4 1))))),
  (n!"S8udRR_1113", (.sub (.mul (.rat 2 1) (.mul (.mul (.div (.mul (.rat 4 1) (.par n!"GF")) (.sqrt (.rat 2 1))) (.mul (.ckm 2 2) (.conj (.ckm 2 0)))) (.inp n!"CSRRt_bduu"))) (.mul (.rat 8 1) (.mul (.mul (.div (.mul (.rat 4 1) (.par n!"GF")) (.sqrt (.rat 2 1))) (.mul (.ckm 2 2) (.conj (.ckm 2 0)))) (.inp n!"CTRRt_bduu"))))),
  (n!"SnueduRL_2322", (.conj (.div (.inp n!"CSR_sctaunumu") (.div (.div (.div (.neg (.sqrt (.rat 2 1))) (.par n!"GF")) (.ckm 1 1)) (.rat 4 1))))),
  (n!"SedRR_1223", (.add (.div (.div (.inp n!"CP_bsmue") (.div (.div (.mul (.rat 16 1) (.mul .pi .pi)) (.mul (.sqrt (.mul (.mul (.rat 4 1) .pi) (.par n!"alpha_e"))) (.sqrt (.mul (.mul (.rat 4 1) .pi) (.par n!"alpha_e"))))) (.par n!"m_b"))) (.div (.div (.div (.sqrt (.rat 2 1)) (.par n!"GF")) (.mul (.ckm 2 2) (.conj (.ckm 2 1)))) (.rat 4 1))) (.div (.div (.inp n!"CS_bsmue") (.div (.div (.mul (.rat 16 1) (.mul .pi .pi)) (.mul (.sqrt (.mul (.mul (.rat 4 1) .pi) (.par n!"alpha_e"))) (.sqrt (.mul (.mul (.rat 4 1) .pi) (.par n!"alpha_e"))))) (.par n!"m_b"))) (.div (.div (.div (.sqrt (.rat 2 1)) (.par n!"GF")) (.mul (.ckm 2 2) (.conj (.ckm 2 1)))) (.rat 4 1))))),
  (n!"VedLR_1111", (.div (.inp n!"CVLR_eedd") (.div (.div (.sqrt (.rat 2 1)) (.par n!"GF")) (.rat 4 1)))),
  (n!"SeuRL_1121", (.add (.neg (.conj (.div (.div (.inp n!"CP_cuee") (.div (.div (.mul (.rat 16 1) (.mul .pi .pi)) (.mul (.sqrt (.mul (.mul (.rat 4 1) .pi) (.par n!"alpha_e"))) (.sqrt (.mul (.mul (.rat 4 1) .pi) (.par n!"alpha_e"))))) (.par n!"m_c"))) (.div (.div (.div (.sqrt (.rat 2 1)) (.par n!"GF")) (.mul (.conj (.ckm 1 2)) (.ckm 0 2))) (.rat 4 1))))) (.conj (.div (.div (.inp n!"CS_cuee") (.div (.div (.mul (.rat 16 1) (.mul .pi .pi)) (.mul (.sqrt (.mul (.mul (.rat 4 1) .pi) (.par n!"alpha_e"))) (.sqrt (.mul (.mul (.rat 4 1) .pi) (.par n!"alpha_e"))))) (.par n!"m_c"))) (.div (.div (.div (.sqrt (.rat 2 1)) (.par n!"GF")) (.mul (.conj (.ckm 1 2)) (.ckm 0 2))) (.rat 4 1)))))),
  (n!"V8ddLR_3333", (.div (.inp n!"CV8LR_bbbb") (.div (.div (.sqrt (.rat 2 1)) (.par n!"GF")) (.rat 4 1)))),
  (n!"VedRR_1212", (.add (.div (.div (.inp n!"C10p_sdmue") (.div (.mul (.rat 16 1) (.mul .pi .pi)) (.mul (.sqrt (.mul (.mul (.rat 4 1) .pi) (.par n!"alpha_e"))) (.sqrt (.mul (.mul (.rat 4 1) .pi) (.par n!"alpha_e")))))) (.div (.div (.div (.sqrt (.rat 2 1)) (.par n!"GF")) (.mul (.ckm 2 1) (.conj (.ckm 2 0)))) (.rat 4 1))) (.div (.div (.inp n!"C9p_sdmue") (.div (.mul (.rat 16 1) (.mul .pi .pi)) (.mul (.sqrt (.mul (.mul (.rat 4 1) .pi) (.par n!"alpha_e"))) (.sqrt (.mul (.mul (.rat 4 1) .pi) (.par n!"alpha_e")))))) (.div (.div (.div (.sqrt (.rat 2 1)) (.par n!"GF")) (.mul (.ckm 2 1) (.conj (.ckm 2 0)))) (.rat 4 1))))),
  (n!"VedLR_1332", (.conj (.add (.neg (.div (.div (.inp n!"C10p_bsetau") (.div (.mul (.rat 16 1) (.mul .pi .pi)) (.mul (.sqrt (.mul (.mul (.rat 4 1) .pi) (.par n!"alpha_e"))) (.sqrt (.mul (.mul (.rat 4 1) .pi) (.par n!"alpha_e")))))) (.div (.div (.div (.sqrt (.rat 2 1)) (.par n!"GF")) (.mul (.ckm 2 2) (.conj (.ckm 2 1)))) (.rat 4 1)))) (.div (.div (.inp n!"C9p_bsetau") (.div (.mul (.rat 16 1) (.mul .pi .pi)) (.mul (.sqrt (.mul (.mul (.rat 4 1) .pi) (.par n!"alpha_e"))) (.sqrt (.mul (.mul (.rat 4 1) .pi) (.par n!"alpha_e")))))) (.div (.div (.div (.sqrt (.rat 2 1)) (.par n!"GF")) (.mul (.ckm 2 2) (.conj (.ckm 2 1)))) (.rat 4 1)))))),
  (n!"S1udduRR_2112", (.div (.inp n!"CS1RR_cddc") (.div (.div (.sqrt (.rat 2 1)) (.par n!"GF")) (.rat 4 1)))),
  (n!"VdeLR_2233", (.div (.inp n!"CVLR_sstautau") (.div (.div (.sqrt (.rat 2 1)) (.par n!"GF")) (.rat 4 1)))),
  (n!"V8duLR_1112", (.mul (.rat 2 1) (.mul (.mul (.div (.mul (.rat 4 1) (.par n!"GF")) (.sqrt (.rat 2 1))) (.mul (.conj (.ckm 1 2)) (.ckm 0 2))) (.inp n!"CVRLt_cudd")))),
  (n!"VnudLR_1122", (.div (.inp n!"CVLR_nuenuess") (.div (.div (.sqrt (.rat 2 1)) (.par n!"GF")) (.rat 4 1)))),
  (n!"V1udduLR_1321", (.sub (.neg (.div (.mul (.mul (.div (.mul (.rat 4 1) (.par n!"GF")) (.sqrt (.rat 2 1))) (.mul (.ckm 2 2) (.conj (.ckm 2 1)))) (.inp n!"CSLR_bsuu")) (.mul (.rat 2 1) (.rat 3 1)))) (.div (.mul (.mul (.div (.mul (.rat 4 1) (.par n!"GF")) (.sqrt (.rat 2 1))) (.mul (.ckm 2 2) (.conj (.ckm 2 1)))) (.inp n!"CSLRt_bsuu")) (.rat 2 1)))),
  (n!"VeeLL_1133", (.div (.inp n!"CVLL_eetautau") (.div (.div (.sqrt (.rat 2 1)) (.par n!"GF")) (.rat 4 1)))),
  (n!"SnueduRR_2132", (.conj (.div (.inp n!"CSL_bcenumu") (.div (.div (.div (.neg (.sqrt (.rat 2 1))) (.par n!"GF")) (.ckm 1 2)) (.rat 4 1))))),
  (n!"SedRL_3113", (.add (.div (.div (.inp n!"CPp_bdetau") (.div (.div (.mul (.rat 16 1) (.mul .pi .pi)) (.mul (.sqrt (.mul (.mul (.rat 4 1) .pi) (.par n!"alpha_e"))) (.sqrt (.mul (.mul (.rat 4 1) .pi) (.par n!"alpha_e"))))) (.par n!"m_b"))) (.div (.div (.div (.sqrt (.rat 2 1)) (.par n!"GF")) (.mul (.ckm 2 2) (.conj (.ckm 2 0)))) (.rat 4 1))) (.div (.div (.inp n!"CSp_bdetau") (.div (.div (.mul (.rat 16 1) (.mul .pi .pi)) (.mul (.sqrt (.mul (.mul (.rat 4 1) .pi) (.par n!"alpha_e"))) (.sqrt (.mul (.mul (.rat 4 1) .pi) (.par n!"alpha_e"))))) (.par n!"m_b"))) (.div (.div (.div (.sqrt (.rat 2 1)) (.par n!"GF")) (.mul (.ckm 2 2) (.conj (.ckm 2 0)))) (.rat 4 1))))),
  (n!"VnueduLL_2112", (.conj (.div (.inp n!"CVL_dcenumu") (.div (.div (.div (.neg (.sqrt (.rat 2 1))) (.par n!"GF")) (.ckm 1 0)) (.rat 4 1))))),
  (n!"SedRR_2121", (.add (.neg (.conj (.div (.div (.inp n!"CPp_sdmue") (.div (.div (.mul (.rat 16 1) (.mul .pi .pi)) (.mul (.sqrt (.mul (.mul (.rat 4 1) .pi) (.par n!"alpha_e"))) (.sqrt (.mul (.mul (.rat 4 1) .pi) (.par n!"alpha_e"))))) (.par n!"m_s"))) (.div (.div (.div (.sqrt (.rat 2 1)) (.par n!"GF")) (.mul (.ckm 2 1) (.conj (.ckm 2 0)))) (.rat 4 1))))) (.conj (.div (.div (.inp n!"CSp_sdmue") (.div (.div (.mul (.rat 16 1) (.mul .pi .pi)) (.mul (.sqrt (.mul (.mul (.rat 4 1) .pi) (.par n!"alpha_e"))) (.sqrt (.mul (.mul (.rat 4 1) .pi) (.par n!"alpha_e"))))) (.par n!"m_s"))) (.div (.div (.div (.sqrt (.rat 2 1)) (.par n!"GF")) (.mul (.ckm 2 1) (.conj (.ckm 2 0)))) (.rat 4 1)))))),
  (n!"S8udRR_2232", (.sub (.mul (.rat 2 1) (.conj (.mul (.mul (.div (.mul (.rat 4 1) (.par n!"GF")) (.sqrt (.rat 2 1))) (.mul (.ckm 2 2) (.conj (.ckm 2 1)))) (.inp n!"CSLLt_bscc")))) (.mul (.rat 8 1) (.conj (.mul (.mul (.div (.mul (.rat 4 1) (.par n!"GF")) (.sqrt (.rat 2 1))) (.mul (.ckm 2 2) (.conj (.ckm 2 1)))) (.inp n!"CTLLt_bscc")))))),
  (n!"dG_21", (.conj (.div (.div (.inp n!"C8p_sd") (.div (.div (.mul (.rat 16 1) (.mul .pi .pi)) (.sqrt (.mul (.mul (.rat 4 1) .pi) (.par n!"alpha_s")))) (.par n!"m_s"))) (.div (.div (.div (.sqrt (.rat 2 1)) (.par n!"GF")) (.mul (.ckm 2 1) (.conj (.ckm 2 0)))) (.rat 4 1))))),
  (n!"TnueduRR_2221", (.conj (.div (.inp n!"CT_sumunumu") (.div (.div (.div (.neg (.sqrt (.rat 2 1))) (.par n!"GF")) (.ckm 0 1)) (.rat 4 1))))),
  (n!"SnueduRL_1232", (.conj (.div (.inp n!"CSR_bcmunue") (.div (.div (.div (.neg (.sqrt (.rat 2 1))) (.par n!"GF")) (.ckm 1 2)) (.rat 4 1))))),
  (n!"V8udLL_2223", (.mul (.rat 2 1) (.mul (.mul (.div (.mul (.rat 4 1) (.par n!"GF")) (.sqrt (.rat 2 1))) (.mul (.ckm 2 2) (.conj (.ckm 2 1)))) (.inp n!"CVLLt_bscc")))),
  (n!"V8udRR_1111", (.div (.inp n!"CV8RR_uudd") (.div (.div (.sqrt (.rat 2 1)) (.par n!"GF")) (.rat 4 1))))]

def flavio_to_JMS_21 : List (ℕ × Sym) := [
  (n!"VedRR_2331", (.conj (.add (.div (.div (.inp n!"C10p_bdmutau") (.div (.mul (.rat 16 1) (.mul .pi .pi)) (.mul (.sqrt (.mul (.mul (.rat 4 1) .pi) (.par n!"alpha_e"))) (.sqrt (.mul (.mul (.rat 4 1) .pi) (.par n!"alpha_e")))))) (.div (.div (.div (.sqrt (.rat 2 1)) (.par n!"GF")) (.mul (.ckm 2 2) (.conj (.ckm 2 0)))) (.rat 4 1))) (.div (.div (.inp n!"C9p_bdmutau") (.div (.mul (.rat 16 1) (.mul .pi .pi)) (.mul (.sqrt (.mul (.mul (.rat 4 1) .pi) (.par n!"alpha_e"))) (.sqrt (.mul (.mul (.rat 4 1) .pi) (.par n!"alpha_e")))))) (.div (.div (.div (.sqrt (.rat 2 1)) (.par n!"GF")) (.mul (.ckm 2 2) (.conj (.ckm 2 0)))) (.rat 4 1)))))),
  (n!"S8ddRR_1131", (.mul (.rat (-16) 1) (.conj (.mul (.mul (.div (.mul (.rat 4 1) (.par n!"GF")) (.sqrt (.rat 2 1))) (.mul (.ckm 2 2) (.conj (.ckm 2 0)))) (.inp n!"CTLL_bddd"))))),
  (n!"SedRL_1221", (.add (.neg (.conj (.div (.div (.inp n!"CP_sdemu") (.div (.div (.mul (.rat 16 1) (.mul .pi .pi)) (.mul (.sqrt (.mul (.mul (.rat 4 1) .pi) (.par n!"alpha_e"))) (.sqrt (.mul (.mul (.rat 4 1) .pi) (.par n!"alpha_e"))))) (.par n!"m_s"))) (.div (.div (.div (.sqrt (.rat 2 1)) (.par n!"GF")) (.mul (.ckm 2 1) (.conj (.ckm 2 0)))) (.rat 4 1))))) (.conj (.div (.div (.inp n!"CS_sdemu") (.div (.div (.mul (.rat 16 1) (.mul .pi .pi)) (.mul (.sqrt (.mul (.mul (.rat 4 1) .pi) (.par n!"alpha_e"))) (.sqrt (.mul (.mul (.rat 4 1) .pi) (.par n!"alpha_e"))))) (.par n!"m_s"))) (.div (.div (.div (.sqrt (.rat 2 1)) (.par n!"GF")) (.mul (.ckm 2 1) (.conj (.ckm 2 0)))) (.rat 4 1)))))),
  (n!"VedLR_3312", (.add (.neg (.div (.div (.inp n!"C10p_sdtautau") (.div (.mul (.rat 16 1) (.mul .pi .pi)) (.mul (.sqrt (.mul (.mul (.rat 4 1) .pi) (.par n!"alpha_e"))) (.sqrt (.mul (.mul (.rat 4 1) .pi) (.par n!"alpha_e")))))) (.div (.div (.div (.sqrt (.rat 2 1)) (.par n!"GF")) (.mul (.ckm 2 1) (.conj (.ckm 2 0)))) (.rat 4 1)))) (.div (.div (.inp n!"C9p_sdtautau") (.div (.mul (.rat 16 1) (.mul .pi .pi)) (.mul (.sqrt (.mul (.mul (.rat 4 1) .pi) (.par n!"alpha_e"))) (.sqrt (.mul (.mul (.rat 4 1) .pi) (.par n!"alpha_e")))))) (.div (.div (.div (.sqrt (.rat 2 1)) (.par n!"GF")) (.mul (.ckm 2 1) (.conj (.ckm 2 0)))) (.rat 4 1))))),
  (n!"SeuRL_3322", (.div (.inp n!"CSRL_tautaucc") (.div (.div (.sqrt (.rat 2 1)) (.par n!"GF")) (.rat 4 1)))),
  (n!"SnueduRR_1322", (.conj (.div (.inp n!"CSL_sctaunue") (.div (.div (.div (.neg (.sqrt (.rat 2 1))) (.par n!"GF")) (.ckm 1 1)) (.rat 4 1))))),
  (n!"S8udduRR_2111", (.mul (.rat (-16) 1) (.conj (.mul (.mul (.div (.mul (.rat 4 1) (.par n!"GF")) (.sqrt (.rat 2 1))) (.mul (.conj (.ckm 1 2)) (.ckm 0 2))) (.inp n!"CTLL_cudd"))))),
  (n!"V1udLR_2211", (.div (.inp n!"CV1LR_ccdd") (.div (.div (.sqrt (.rat 2 1)) (.par n!"GF")) (.rat 4 1)))),
  (n!"S8udduRR_2332", (.div (.inp n!"CS8RR_cbbc") (.div (.div (.sqrt (.rat 2 1)) (.par n!"GF")) (.rat 4 1)))),
  (n!"VnueLL_2322", (.div (.inp n!"CVLL_numunutaumumu") (.div (.div (.sqrt (.rat 2 1)) (.par n!"GF")) (.rat 4 1)))),
  (n!"V8ddLR_1212", (.neg (.inp n!"CSLR_sdsd"))),
  (n!"S1ddRR_2332", (.div (.inp n!"CS1RR_sbbs") (.div (.div (.sqrt (.rat 2 1)) (.par n!"GF")) (.rat 4 1)))),
  (n!"VnudLR_3323", (.div (.div (.inp n!"CR_bsnutaunutau") (.div (.mul (.rat 8 1) (.mul .pi .pi)) (.mul (.sqrt (.mul (.mul (.rat 4 1) .pi) (.par n!"alpha_e"))) (.sqrt (.mul (.mul (.rat 4 1) .pi) (.par n!"alpha_e")))))) (.div (.div (.div (.sqrt (.rat 2 1)) (.par n!"GF")) (.mul (.ckm 2 2) (.conj (.ckm 2 1)))) (.rat 4 1)))),
  (n!"TedRR_2112", (.add (.div (.rat 0 1) (.div (.div (.div (.sqrt (.rat 2 1)) (.par n!"GF")) (.mul (.ckm 2 1) (.conj (.ckm 2 0)))) (.rat 4 1))) (.div (.rat 0 1) (.div (.div (.div (.sqrt (.rat 2 1)) (.par n!"GF")) (.mul (.ckm 2 1) (.conj (.ckm 2 0)))) (.rat 4 1))))),
  (n!"VddRR_3333", (.div (.inp n!"CVRR_bbbb") (.div (.div (.sqrt (.rat 2 1)) (.par n!"GF")) (.rat 4 1)))),
  (n!"VdeLR_2321", (.add (.div (.div (.inp n!"C10_bsemu") (.div (.mul (.rat 16 1) (.mul .pi .pi)) (.mul (.sqrt (.mul (.mul (.rat 4 1) .pi) (.par n!"alpha_e"))) (.sqrt (.mul (.mul (.rat 4 1) .pi) (.par n!"alpha_e")))))) (.div (.div (.div (.sqrt (.rat 2 1)) (.par n!"GF")) (.mul (.ckm 2 2) (.conj (.ckm 2 1)))) (.rat 4 1))) (.div (.div (.inp n!"C9_bsemu") (.div (.mul (.rat 16 1) (.mul .pi .pi)) (.mul (.sqrt (.mul (.mul (.rat 4 1) .pi) (.par n!"alpha_e"))) (.sqrt (.mul (.mul (.rat 4 1) .pi) (.par n!"alpha_e")))))) (.div (.div (.div (.sqrt (.rat 2 1)) (.par n!"GF")) (.mul (.ckm 2 2) (.conj (.ckm 2 1)))) (.rat 4 1))))),
  (n!"SeeRR_2233", (.div (.inp n!"CSRR_mumutautau") (.div (.div (.sqrt (.rat 2 1)) (.par n!"GF")) (.rat 4 1)))),
  (n!"S1uuRR_1212", (.add (.conj (.sub (.inp n!"CSLL_ucuc") (.mul (.rat 4 1) (.inp n!"CTLL_ucuc")))) (.div (.conj (.mul (.rat (-8) 1) (.inp n!"CTLL_ucuc"))) (.rat 3 1)))),
  (n!"VnueduLL_3231", (.conj (.div (.inp n!"CVL_bumunutau") (.div (.div (.div (.neg (.sqrt (.rat 2 1))) (.par n!"GF")) (.ckm 0 2)) (.rat 4 1))))),
  (n!"V1ddLR_1331", (.div (.inp n!"CV1LR_dbbd") (.div (.div (.sqrt (.rat 2 1)) (.par n!"GF")) (.rat 4 1)))),
  (n!"VeeRR_2222", (.div (.inp n!"CVRR_mumumumu") (.div (.div (.sqrt (.rat 2 1)) (.par n!"GF")) (.rat 4 1)))),
  (n!"VddLL_2332", (.div (.inp n!"CVLL_sbbs") (.div (.div (.sqrt (.rat 2 1)) (.par n!"GF")) (.rat 4 1)))),
  (n!"TnueduRR_1131", (.conj (.div (.inp n!"CT_buenue") (.div (.div (.div (.neg (.sqrt (.rat 2 1))) (.par n!"GF")) (.ckm 0 2)) (.rat 4 1))))),
  (n!"VnuuLR_3311", (.div (.inp n!"CVLR_nutaunutauuu") (.div (.div (.sqrt (.rat 2 1)) (.par n!"GF")) (.rat 4 1)))),
  (n!"SnueduRL_3212", (.conj (.div (.inp n!"CSR_dcmunutau") (.div (.div (.div (.neg (.sqrt (.rat 2 1))) (.par n!"GF")) (.ckm 1 0)) (.rat 4 1))))),
  (n!"VuuLL_1212", (.conj (.inp n!"CVLL_ucuc"))),
  (n!"VnueduLR_3321", (.conj (.div (.inp n!"CVR_sutaunutau") (.div (.div (.div (.neg (.sqrt (.rat 2 1))) (.par n!"GF")) (.ckm 0 1)) (.rat 4 1))))),
  (n!"V8udLL_1133", (.div (.inp n!"CV8LL_uubb") (.div (.div (.sqrt (.rat 2 1)) (.par n!"GF")) (.rat 4 1)))),
  (n!"SedRR_2113", (.add (.div (.div (.inp n!"CP_bdemu") (.div (.div (.mul (.rat 16 1) (.mul .pi .pi)) (.mul (.sqrt (.mul (.mul (.rat 4 1) .pi) (.par n!"alpha_e"))) (.sqrt (.mul (.mul (.rat 4 1) .pi) (.par n!"alpha_e"))))) (.par n!"m_b"))) (.div (.div (.div (.sqrt (.rat 2 1)) (.par n!"GF")) (.mul (.ckm 2 2) (.conj (.ckm 2 0)))) (.rat 4 1))) (.div (.div (.inp n!"CS_bdemu") (.div (.div (.mul (.rat 16 1) (.mul .pi .pi)) (.mul (.sqrt (.mul (.mul (.rat 4 1) .pi) (.par n!"alpha_e"))) (.sqrt (.mul (.mul (.rat 4 1) .pi) (.par n!"alpha_e"))))) (.par n!"m_b"))) (.div (.div (.div (.sqrt (.rat 2 1)) (.par n!"GF")) (.mul (.ckm 2 2) (.conj (.ckm 2 0)))) (.rat 4 1))))),
  (n!"VnueduLR_1112", (.conj (.div (.inp n!"CVR_dcenue") (.div (.div (.div (.neg (.sqrt (.rat 2 1))) (.par n!"GF")) (.ckm 1 0)) (.rat 4 1))))),
  (n!"dG_13", (.div (.div (.inp n!"C8_bd") (.div (.div (.mul (.rat 16 1) (.mul .pi .pi)) (.sqrt (.mul (.mul (.rat 4 1) .pi) (.par n!"alpha_s")))) (.par n!"m_b"))) (.div (.div (.div (.sqrt (.rat 2 1)) (.par n!"GF")) (.mul (.ckm 2 2) (.conj (.ckm 2 0)))) (.rat 4 1)))),
  (n!"VedLR_2222", (.div (.inp n!"CVLR_mumuss") (.div (.div (.sqrt (.rat 2 1)) (.par n!"GF")) (.rat 4 1)))),
  (n!"S1udRR_2122", (.sub (.sub (.add (.conj (.mul (.mul (.div (.mul (.rat 4 1) (.par n!"GF")) (.sqrt (.rat 2 1))) (.mul (.conj (.ckm 1 2)) (.ckm 0 2))) (.inp n!"CSLL_cuss"))) (.div (.conj (.mul (.mul (.div (.mul (.rat 4 1) (.par n!"GF")) (.sqrt (.rat 2 1))) (.mul (.conj (.ckm 1 2)) (.ckm 0 2))) (.inp n!"CSLLt_cuss"))) (.rat 3 1))) (.mul (.rat 4 1) (.conj (.mul (.mul (.div (.mul (.rat 4 1) (.par n!"GF")) (.sqrt (.rat 2 1))) (.mul (.conj (.ckm 1 2)) (.ckm 0 2))) (.inp n!"CTLL_cuss"))))) (.div (.mul (.rat 4 1) (.conj (.mul (.mul (.div (.mul (.rat 4 1) (.par n!"GF")) (.sqrt (.rat 2 1))) (.mul (.conj (.ckm 1 2)) (.ckm 0 2))) (.inp n!"CTLLt_cuss")))) (.rat 3 1)))),
  (n!"V8udduLR_2122", (.neg (.conj (.mul (.mul (.div (.mul (.rat 4 1) (.par n!"GF")) (.sqrt (.rat 2 1))) (.mul (.ckm 2 1) (.conj (.ckm 2 0)))) (.inp n!"CSRL_sdcc"))))),
  (n!"VedRR_2323", (.add (.div (.div (.inp n!"C10p_bstaumu") (.div (.mul (.rat 16 1) (.mul .pi .pi)) (.mul (.sqrt (.mul (.mul (.rat 4 1) .pi) (.par n!"alpha_e"))) (.sqrt (.mul (.mul (.rat 4 1) .pi) (.par n!"alpha_e")))))) (.div (.div (.div (.sqrt (.rat 2 1)) (.par n!"GF")) (.mul (.ckm 2 2) (.conj (.ckm 2 1)))) (.rat 4 1))) (.div (.div (.inp n!"C9p_bstaumu") (.div (.mul (.rat 16 1) (.mul .pi .pi)) (.mul (.sqrt (.mul (.mul (.rat 4 1) .pi) (.par n!"alpha_e"))) (.sqrt (.mul (.mul (.rat 4 1) .pi) (.par n!"alpha_e")))))) (.div (.div (.div (.sqrt (.rat 2 1)) (.par n!"GF")) (.mul (.ckm 2 2) (.conj (.ckm 2 1)))) (.rat 4 1))))),
  (n!"S8ddRR_1123", (.sub (.mul (.rat 2 1) (.mul (.mul (.div (.mul (.rat 4 1) (.par n!"GF")) (.sqrt (.rat 2 1))) (.mul (.ckm 2 2) (.conj (.ckm 2 1)))) (.inp n!"CSRRt_bsdd"))) (.mul (.rat 8 1) (.mul (.mul (.div (.mul (.rat 4 1) (.par n!"GF")) (.sqrt (.rat 2 1))) (.mul (.ckm 2 2) (.conj (.ckm 2 1)))) (.inp n!"CTRRt_bsdd"))))),
  (n!"SedRL_1213", (.add (.div (.div (.inp n!"CPp_bdmue") (.div (.div (.mul (.rat 16 1) (.mul .pi .pi)) (.mul (.sqrt (.mul (.mul (.rat 4 1) .pi) (.par n!"alpha_e"))) (.sqrt (.mul (.mul (.rat 4 1) .pi) (.par n!"alpha_e"))))) (.par n!"m_b"))) (.div (.div (.div (.sqrt (.rat 2 1)) (.par n!"GF")) (.mul (.ckm 2 2) (.conj (.ckm 2 0)))) (.rat 4 1))) (.div (.div (.inp n!"CSp_bdmue") (.div (.div (.mul (.rat 16 1) (.mul .pi .pi)) (.mul (.sqrt (.mul (.mul (.rat 4 1) .pi) (.par n!"alpha_e"))) (.sqrt (.mul (.mul (.rat 4 1) .pi) (.par n!"alpha_e"))))) (.par n!"m_b"))) (.div (.div (.div (.sqrt (.rat 2 1)) (.par n!"GF")) (.mul (.ckm 2 2) (.conj (.ckm 2 0)))) (.rat 4 1))))),
  (n!"V8ddLR_2331", (.conj (.neg (.mul (.mul (.div (.mul (.rat 4 1) (.par n!"GF")) (.sqrt (.rat 2 1))) (.mul (.ckm 2 1) (.conj (.ckm 2 0)))) (.inp n!"CSLR_sdbb"))))),
  (n!"V1udRR_1222", (.add (.mul (.mul (.div (.mul (.rat 4 1) (.par n!"GF")) (.sqrt (.rat 2 1))) (.mul (.conj (.ckm 1 2)) (.ckm 0 2))) (.inp n!"CVRR_cuss")) (.div (.mul (.mul (.div (.mul (.rat 4 1) (.par n!"GF")) (.sqrt (.rat 2 1))) (.mul (.conj (.ckm 1 2)) (.ckm 0 2))) (.inp n!"CVRRt_cuss")) (.rat 3 1)))),
  (n!"V8uuLR_1211", (.neg (.mul (.mul (.div (.mul (.rat 4 1) (.par n!"GF")) (.sqrt (.rat 2 1))) (.mul (.conj (.ckm 1 2)) (.ckm 0 2))) (.inp n!"CSLR_cuuu")))),
  (n!"TedRR_3231", (.sub (.conj (.div (.rat 0 1) (.div (.div (.div (.sqrt (.rat 2 1)) (.par n!"GF")) (.mul (.ckm 2 2) (.conj (.ckm 2 0)))) (.rat 4 1)))) (.conj (.div (.rat 0 1) (.div (.div (.div (.sqrt (.rat 2 1)) (.par n!"GF")) (.mul (.ckm 2 2) (.conj (.ckm 2 0)))) (.rat 4 1)))))),
  (n!"VnudLR_2233", (.div (.inp n!"CVLR_numunumubb") (.div (.div (.sqrt (.rat 2 1)) (.par n!"GF")) (.rat 4 1)))),
  (n!"VdeLR_1231", (.add (.div (.div (.inp n!"C10_sdetau") (.div (.mul (.rat 16 1) (.mul .pi .pi)) (.mul (.sqrt (.mul (.mul (.rat 4 1) .pi) (.par n!"alpha_e"))) (.sqrt (.mul (.mul (.rat 4 1) .pi) (.par n!"alpha_e")))))) (.div (.div (.div (.sqrt (.rat 2 1)) (.par n!"GF")) (.mul (.ckm 2 1) (.conj (.ckm 2 0)))) (.rat 4 1))) (.div (.div (.inp n!"C9_sdetau") (.div (.mul (.rat 16 1) (.mul .pi .pi)) (.mul (.sqrt (.mul (.mul (.rat 4 1) .pi) (.par n!"alpha_e"))) (.sqrt (.mul (.mul (.rat 4 1) .pi) (.par n!"alpha_e")))))) (.div (.div (.div (.sqrt (.rat 2 1)) (.par n!"GF")) (.mul (.ckm 2 1) (.conj (.ckm 2 0)))) (.rat 4 1))))),
  (n!"VnueLR_1322", (.div (.inp n!"CVLR_nuenutaumumu") (.div (.div (.sqrt (.rat 2 1)) (.par n!"GF")) (.rat 4 1)))),
  (n!"S1udduRR_1331", (.div (.inp n!"CS1RR_ubbu") (.div (.div (.sqrt (.rat 2 1)) (.par n!"GF")) (.rat 4 1)))),
  (n!"V1ddLR_3311", (.div (.inp n!"CV1LR_bbdd") (.div (.div (.sqrt (.rat 2 1)) (.par n!"GF")) (.rat 4 1)))),
  (n!"VnudLL_1112", (.div (.div (.inp n!"CL_sdnuenue") (.div (.mul (.rat 8 1) (.mul .pi .pi)) (.mul (.sqrt (.mul (.mul (.rat 4 1) .pi) (.par n!"alpha_e"))) (.sqrt (.mul (.mul (.rat 4 1) .pi) (.par n!"alpha_e")))))) (.div (.div (.div (.sqrt (.rat 2 1)) (.par n!"GF")) (.mul (.ckm 2 1) (.conj (.ckm 2 0)))) (.rat 4 1)))),
  (n!"VdeLR_2313", (.add (.div (.div (.inp n!"C10_bstaue") (.div (.mul (.rat 16 1) (.mul .pi .pi)) (.mul (.sqrt (.mul (.mul (.rat 4 1) .pi) (.par n!"alpha_e"))) (.sqrt (.mul (.mul (.rat 4 1) .pi) (.par n!"alpha_e")))))) (.div (.div (.div (.sqrt (.rat 2 1)) (.par n!"GF")) (.mul (.ckm 2 2) (.conj (.ckm 2 1)))) (.rat 4 1))) (.div (.div (.inp n!"C9_bstaue") (.div (.mul (.rat 16 1) (.mul .pi .pi)) (.mul (.sqrt (.mul (.mul (.rat 4 1) .pi) (.par n!"alpha_e"))) (.sqrt (.mul (.mul (.rat 4 1) .pi) (.par n!"alpha_e")))))) (.div (.div (.div (.sqrt (.rat 2 1)) (.par n!"GF")) (.mul (.ckm 2 2) (.conj (.ckm 2 1)))) (.rat 4 1))))),
  (n!"TnueduRR_3111", (.conj (.div (.inp n!"CT_duenutau") (.div (.div (.div (.neg (.sqrt (.rat 2 1))) (.par n!"GF")) (.ckm 0 0)) (.rat 4 1))))),
  (n!"SnueduRL_2122", (.conj (.div (.inp n!"CSR_scenumu") (.div (.div (.div (.neg (.sqrt (.rat 2 1))) (.par n!"GF")) (.ckm 1 1)) (.rat 4 1)))))]

def flavio_to_JMS_22 : List (ℕ × Sym) := [
  (n!"VnudLL_1333", (.div (.inp n!"CVLL_nuenutaubb") (.div (.div (.sqrt (.rat 2 1)) (.par n!"GF")) (.rat 4 1)))),
  (n!"SedRR_3232", (.add (.neg (.conj (.div (.div (.inp n!"CPp_bstaumu") (.div (.div (.mul (.rat 16 1) (.mul .pi .pi)) (.mul (.sqrt (.mul (.mul (.rat 4 1) .pi) (.par n!"alpha_e"))) (.sqrt (.mul (.mul (.rat 4 1) .pi) (.par n!"alpha_e"))))) (.par n!"m_b"))) (.div (.div (.div (.sqrt (.rat 2 1)) (.par n!"GF")) (.mul (.ckm 2 2) (.conj (.ckm 2 1)))) (.rat 4 1))))) (.conj (.div (.div (.inp n!"CSp_bstaumu") (.div (.div (.mul (.rat 16 1) (.mul .pi .pi)) (.mul (.sqrt (.mul (.mul (.rat 4 1) .pi) (.par n!"alpha_e"))) (.sqrt (.mul (.mul (.rat 4 1) .pi) (.par n!"alpha_e"))))) (.par n!"m_b"))) (.div (.div (.div (.sqrt (.rat 2 1)) (.par n!"GF")) (.mul (.ckm 2 2) (.conj (.ckm 2 1)))) (.rat 4 1)))))),
  (n!"VnueduLR_2231", (.conj (.div (.inp n!"CVR_bumunumu") (.div (.div (.div (.neg (.sqrt (.rat 2 1))) (.par n!"GF")) (.ckm 0 2)) (.rat 4 1))))),
  (n!"TnueduRR_3332", (.conj (.div (.inp n!"CT_bctaunutau") (.div (.div (.div (.neg (.sqrt (.rat 2 1))) (.par n!"GF")) (.ckm 1 2)) (.rat 4 1))))),
  (n!"VddRR_1212", (.inp n!"CVRR_sdsd")),
  (n!"V8udRR_2222", (.div (.inp n!"CV8RR_ccss") (.div (.div (.sqrt (.rat 2 1)) (.par n!"GF")) (.rat 4 1)))),
  (n!"SnueduRR_2212", (.conj (.div (.inp n!"CSL_dcmunumu") (.div (.div (.div (.neg (.sqrt (.rat 2 1))) (.par n!"GF")) (.ckm 1 0)) (.rat 4 1))))),
  (n!"SedRL_2332", (.add (.neg (.conj (.div (.div (.inp n!"CP_bsmutau") (.div (.div (.mul (.rat 16 1) (.mul .pi .pi)) (.mul (.sqrt (.mul (.mul (.rat 4 1) .pi) (.par n!"alpha_e"))) (.sqrt (.mul (.mul (.rat 4 1) .pi) (.par n!"alpha_e"))))) (.par n!"m_b"))) (.div (.div (.div (.sqrt (.rat 2 1)) (.par n!"GF")) (.mul (.ckm 2 2) (.conj (.ckm 2 1)))) (.rat 4 1))))) (.conj (.div (.div (.inp n!"CS_bsmutau") (.div (.div (.mul (.rat 16 1) (.mul .pi .pi)) (.mul (.sqrt (.mul (.mul (.rat 4 1) .pi) (.par n!"alpha_e"))) (.sqrt (.mul (.mul (.rat 4 1) .pi) (.par n!"alpha_e"))))) (.par n!"m_b"))) (.div (.div (.div (.sqrt (.rat 2 1)) (.par n!"GF")) (.mul (.ckm 2 2) (.conj (.ckm 2 1)))) (.rat 4 1)))))),
  (n!"V1duLR_1311", (.add (.mul (.mul (.div (.mul (.rat 4 1) (.par n!"GF")) (.sqrt (.rat 2 1))) (.mul (.ckm 2 2) (.conj (.ckm 2 0)))) (.inp n!"CVLR_bduu")) (.div (.mul (.mul (.div (.mul (.rat 4 1) (.par n!"GF")) (.sqrt (.rat 2 1))) (.mul (.ckm 2 2) (.conj (.ckm 2 0)))) (.inp n!"CVLRt_bduu")) (.rat 3 1)))),
  (n!"VnueduLL_1331", (.conj (.div (.inp n!"CVL_butaunue") (.div (.div (.div (.neg (.sqrt (.rat 2 1))) (.par n!"GF")) (.ckm 0 2)) (.rat 4 1))))),
  (n!"S8uuRR_1122", (.div (.inp n!"CS8RR_uucc") (.div (.div (.sqrt (.rat 2 1)) (.par n!"GF")) (.rat 4 1)))),
  (n!"SnueduRL_1312", (.conj (.div (.inp n!"CSR_dctaunue") (.div (.div (.div (.neg (.sqrt (.rat 2 1))) (.par n!"GF")) (.ckm 1 0)) (.rat 4 1))))),
  (n!"V1udduLR_1121", (.sub (.neg (.div (.conj (.mul (.mul (.div (.mul (.rat 4 1) (.par n!"GF")) (.sqrt (.rat 2 1))) (.mul (.ckm 2 1) (.conj (.ckm 2 0)))) (.inp n!"CSRL_sduu"))) (.mul (.rat 2 1) (.rat 3 1)))) (.div (.conj (.mul (.mul (.div (.mul (.rat 4 1) (.par n!"GF")) (.sqrt (.rat 2 1))) (.mul (.ckm 2 1) (.conj (.ckm 2 0)))) (.inp n!"CSRLt_sduu"))) (.rat 2 1)))),
  (n!"V1udLR_1113", (.add (.mul (.mul (.div (.mul (.rat 4 1) (.par n!"GF")) (.sqrt (.rat 2 1))) (.mul (.ckm 2 2) (.conj (.ckm 2 0)))) (.inp n!"CVRL_bduu")) (.div (.mul (.mul (.div (.mul (.rat 4 1) (.par n!"GF")) (.sqrt (.rat 2 1))) (.mul (.ckm 2 2) (.conj (.ckm 2 0)))) (.inp n!"CVRLt_bduu")) (.rat 3 1)))),
  (n!"V8ddLR_2323", (.neg (.inp n!"CSLR_bsbs"))),
  (n!"TedRR_3223", (.add (.div (.rat 0 1) (.div (.div (.div (.sqrt (.rat 2 1)) (.par n!"GF")) (.mul (.ckm 2 2) (.conj (.ckm 2 1)))) (.rat 4 1))) (.div (.rat 0 1) (.div (.div (.div (.sqrt (.rat 2 1)) (.par n!"GF")) (.mul (.ckm 2 2) (.conj (.ckm 2 1)))) (.rat 4 1))))),
  (n!"VdeLR_1223", (.add (.div (.div (.inp n!"C10_sdtaumu") (.div (.mul (.rat 16 1) (.mul .pi .pi)) (.mul (.sqrt (.mul (.mul (.rat 4 1) .pi) (.par n!"alpha_e"))) (.sqrt (.mul (.mul (.rat 4 1) .pi) (.par n!"alpha_e")))))) (.div (.div (.div (.sqrt (.rat 2 1)) (.par n!"GF")) (.mul (.ckm 2 1) (.conj (.ckm 2 0)))) (.rat 4 1))) (.div (.div (.inp n!"C9_sdtaumu") (.div (.mul (.rat 16 1) (.mul .pi .pi)) (.mul (.sqrt (.mul (.mul (.rat 4 1) .pi) (.par n!"alpha_e"))) (.sqrt (.mul (.mul (.rat 4 1) .pi) (.par n!"alpha_e")))))) (.div (.div (.div (.sqrt (.rat 2 1)) (.par n!"GF")) (.mul (.ckm 2 1) (.conj (.ckm 2 0)))) (.rat 4 1))))),
  (n!"VnudLL_3313", (.div (.div (.inp n!"CL_bdnutaunutau") (.div (.mul (.rat 8 1) (.mul .pi .pi)) (.mul (.sqrt (.mul (.mul (.rat 4 1) .pi) (.par n!"alpha_e"))) (.sqrt (.mul (.mul (.rat 4 1) .pi) (.par n!"alpha_e")))))) (.div (.div (.div (.sqrt (.rat 2 1)) (.par n!"GF")) (.mul (.ckm 2 2) (.conj (.ckm 2 0)))) (.rat 4 1)))),
  (n!"VeeRR_3333", (.div (.inp n!"CVRR_tautautautau") (.div (.div (.sqrt (.rat 2 1)) (.par n!"GF")) (.rat 4 1)))),
  (n!"V8duLR_2311", (.mul (.rat 2 1) (.mul (.mul (.div (.mul (.rat 4 1) (.par n!"GF")) (.sqrt (.rat 2 1))) (.mul (.ckm 2 2) (.conj (.ckm 2 1)))) (.inp n!"CVLRt_bsuu")))),
  (n!"VnudLR_2321", (.conj (.div (.div (.inp n!"CR_sdnumunutau") (.div (.mul (.rat 8 1) (.mul .pi .pi)) (.mul (.sqrt (.mul (.mul (.rat 4 1) .pi) (.par n!"alpha_e"))) (.sqrt (.mul (.mul (.rat 4 1) .pi) (.par n!"alpha_e")))))) (.div (.div (.div (.sqrt (.rat 2 1)) (.par n!"GF")) (.mul (.ckm 2 1) (.conj (.ckm 2 0)))) (.rat 4 1))))),
  (n!"SnueduRR_3331", (.conj (.div (.inp n!"CSL_butaunutau") (.div (.div (.div (.neg (.sqrt (.rat 2 1))) (.par n!"GF")) (.ckm 0 2)) (.rat 4 1))))),
  (n!"TedRR_1331", (.sub (.conj (.div (.rat 0 1) (.div (.div (.div (.sqrt (.rat 2 1)) (.par n!"GF")) (.mul (.ckm 2 2) (.conj (.ckm 2 0)))) (.rat 4 1)))) (.conj (.div (.rat 0 1) (.div (.div (.div (.sqrt (.rat 2 1)) (.par n!"GF")) (.mul (.ckm 2 2) (.conj (.ckm 2 0)))) (.rat 4 1)))))),
  (n!"SnueduRR_1122", (.conj (.div (.inp n!"CSL_scenue") (.div (.div (.div (.neg (.sqrt (.rat 2 1))) (.par n!"GF")) (.ckm 1 1)) (.rat 4 1))))),
  (n!"VnueduLL_3311", (.conj (.div (.inp n!"CVL_dutaunutau") (.div (.div (.div (.neg (.sqrt (.rat 2 1))) (.par n!"GF")) (.ckm 0 0)) (.rat 4 1))))),
  (n!"VedLR_3333", (.div (.inp n!"CVLR_tautaubb") (.div (.div (.sqrt (.rat 2 1)) (.par n!"GF")) (.rat 4 1)))),
  (n!"S8udduRR_2132", (.mul (.rat (-16) 1) (.conj (.mul (.mul (.div (.mul (.rat 4 1) (.par n!"GF")) (.sqrt (.rat 2 1))) (.mul (.ckm 2 2) (.conj (.ckm 2 0)))) (.inp n!"CTLL_bdcc"))))),
  (n!"SedRR_1111", (.div (.inp n!"CSRR_eedd") (.div (.div (.sqrt (.rat 2 1)) (.par n!"GF")) (.rat 4 1)))),
  (n!"S8udRR_1222", (.sub (.mul (.rat 2 1) (.mul (.mul (.div (.mul (.rat 4 1) (.par n!"GF")) (.sqrt (.rat 2 1))) (.mul (.conj (.ckm 1 2)) (.ckm 0 2))) (.inp n!"CSRRt_cuss"))) (.mul (.rat 8 1) (.mul (.mul (.div (.mul (.rat 4 1) (.par n!"GF")) (.sqrt (.rat 2 1))) (.mul (.conj (.ckm 1 2)) (.ckm 0 2))) (.inp n!"CTRRt_cuss"))))),
  (n!"TnueduRR_1211", (.conj (.div (.inp n!"CT_dumunue") (.div (.div (.div (.neg (.sqrt (.rat 2 1))) (.par n!"GF")) (.ckm 0 0)) (.rat 4 1))))),
  (n!"VedLL_2212", (.add (.neg (.div (.div (.inp n!"C10_sdmumu") (.div (.mul (.rat 16 1) (.mul .pi .pi)) (.mul (.sqrt (.mul (.mul (.rat 4 1) .pi) (.par n!"alpha_e"))) (.sqrt (.mul (.mul (.rat 4 1) .pi) (.par n!"alpha_e")))))) (.div (.div (.div (.sqrt (.rat 2 1)) (.par n!"GF")) (.mul (.ckm 2 1) (.conj (.ckm 2 0)))) (.rat 4 1)))) (.div (.div (.inp n!"C9_sdmumu") (.div (.mul (.rat 16 1) (.mul .pi .pi)) (.mul (.sqrt (.mul (.mul (.rat 4 1) .pi) (.par n!"alpha_e"))) (.sqrt (.mul (.mul (.rat 4 1) .pi) (.par n!"alpha_e")))))) (.div (.div (.div (.sqrt (.rat 2 1)) (.par n!"GF")) (.mul (.ckm 2 1) (.conj (.ckm 2 0)))) (.rat 4 1))))),
  (n!"SedRR_1332", (.add (.neg (.conj (.div (.div (.inp n!"CPp_bsetau") (.div (.div (.mul (.rat 16 1) (.mul .pi .pi)) (.mul (.sqrt (.mul (.mul (.rat 4 1) .pi) (.par n!"alpha_e"))) (.sqrt (.mul (.mul (.rat 4 1) .pi) (.par n!"alpha_e"))))) (.par n!"m_b"))) (.div (.div (.div (.sqrt (.rat 2 1)) (.par n!"GF")) (.mul (.ckm 2 2) (.conj (.ckm 2 1)))) (.rat 4 1))))) (.conj (.div (.div (.inp n!"CSp_bsetau") (.div (.div (.mul (.rat 16 1) (.mul .pi .pi)) (.mul (.sqrt (.mul (.mul (.rat 4 1) .pi) (.par n!"alpha_e"))) (.sqrt (.mul (.mul (.rat 4 1) .pi) (.par n!"alpha_e"))))) (.par n!"m_b"))) (.div (.div (.div (.sqrt (.rat 2 1)) (.par n!"GF")) (.mul (.ckm 2 2) (.conj (.ckm 2 1)))) (.rat 4 1)))))),
  (n!"S1ddRR_2132", (.sub (.neg (.div (.mul (.rat 8 1) (.conj (.mul (.mul (.div (.mul (.rat 4 1) (.par n!"GF")) (.sqrt (.rat 2 1))) (.mul (.ckm 2 2) (.conj (.ckm 2 0)))) (.inp n!"CTLL_bdss")))) (.rat 3 1))) (.mul (.rat 8 1) (.conj (.mul (.mul (.div (.mul (.rat 4 1) (.par n!"GF")) (.sqrt (.rat 2 1))) (.mul (.ckm 2 2) (.conj (.ckm 2 0)))) (.inp n!"CTLLt_bdss")))))),
  (n!"V8ddLR_1233", (.mul (.rat 2 1) (.mul (.mul (.div (.mul (.rat 4 1) (.par n!"GF")) (.sqrt (.rat 2 1))) (.mul (.ckm 2 1) (.conj (.ckm 2 0)))) (.inp n!"CVLRt_sdbb")))),
  (n!"VeuLR_1112", (.add (.neg (.div (.div (.inp n!"C10p_cuee") (.div (.mul (.rat 16 1) (.mul .pi .pi)) (.mul (.sqrt (.mul (.mul (.rat 4 1) .pi) (.par n!"alpha_e"))) (.sqrt (.mul (.mul (.rat 4 1) .pi) (.par n!"alpha_e")))))) (.div (.div (.div (.sqrt (.rat 2 1)) (.par n!"GF")) (.mul (.conj (.ckm 1 2)) (.ckm 0 2))) (.rat 4 1)))) (.div (.div (.inp n!"C9p_cuee") (.div (.mul (.rat 16 1) (.mul .pi .pi)) (.mul (.sqrt (.mul (.mul (.rat 4 1) .pi) (.par n!"alpha_e"))) (.sqrt (.mul (.mul (.rat 4 1) .pi) (.par n!"alpha_e")))))) (.div (.div (.div (.sqrt (.rat 2 1)) (.par n!"GF")) (.mul (.conj (.ckm 1 2)) (.ckm 0 2))) (.rat 4 1))))),
  (n!"VedRR_1321", (.conj (.add (.div (.div (.inp n!"C10p_sdetau") (.div (.mul (.rat 16 1) (.mul .pi .pi)) (.mul (.sqrt (.mul (.mul (.rat 4 1) .pi) (.par n!"alpha_e"))) (.sqrt (.mul (.mul (.rat 4 1) .pi) (.par n!"alpha_e")))))) (.div (.div (.div (.sqrt (.rat 2 1)) (.par n!"GF")) (.mul (.ckm 2 1) (.conj (.ckm 2 0)))) (.rat 4 1))) (.div (.div (.inp n!"C9p_sdetau") (.div (.mul (.rat 16 1) (.mul .pi .pi)) (.mul (.sqrt (.mul (.mul (.rat 4 1) .pi) (.par n!"alpha_e"))) (.sqrt (.mul (.mul (.rat 4 1) .pi) (.par n!"alpha_e")))))) (.div (.div (.div (.sqrt (.rat 2 1)) (.par n!"GF")) (.mul (.ckm 2 1) (.conj (.ckm 2 0)))) (.rat 4 1)))))),
  (n!"V1udLL_1111", (.div (.inp n!"CV1LL_uudd") (.div (.div (.sqrt (.rat 2 1)) (.par n!"GF")) (.rat 4 1)))),
  (n!"S1udduRR_2221", (.sub (.neg (.div (.mul (.rat 8 1) (.conj (.mul (.mul (.div (.mul (.rat 4 1) (.par n!"GF")) (.sqrt (.rat 2 1))) (.mul (.conj (.ckm 1 2)) (.ckm 0 2))) (.inp n!"CTLL_cuss")))) (.rat 3 1))) (.mul (.rat 8 1) (.conj (.mul (.mul (.div (.mul (.rat 4 1) (.par n!"GF")) (.sqrt (.rat 2 1))) (.mul (.conj (.ckm 1 2)) (.ckm 0 2))) (.inp n!"CTLLt_cuss")))))),
  (n!"VnudLL_2223", (.div (.div (.inp n!"CL_bsnumunumu") (.div (.mul (.rat 8 1) (.mul .pi .pi)) (.mul (.sqrt (.mul (.mul (.rat 4 1) .pi) (.par n!"alpha_e"))) (.sqrt (.mul (.mul (.rat 4 1) .pi) (.par n!"alpha_e")))))) (.div (.div (.div (.sqrt (.rat 2 1)) (.par n!"GF")) (.mul (.ckm 2 2) (.conj (.ckm 2 1)))) (.rat 4 1)))),
  (n!"VnueduLR_3121", (.conj (.div (.inp n!"CVR_suenutau") (.div (.div (.div (.neg (.sqrt (.rat 2 1))) (.par n!"GF")) (.ckm 0 1)) (.rat 4 1))))),
  (n!"V1ddLR_2213", (.add (.mul (.mul (.div (.mul (.rat 4 1) (.par n!"GF")) (.sqrt (.rat 2 1))) (.mul (.ckm 2 2) (.conj (.ckm 2 0)))) (.inp n!"CVRL_bdss")) (.div (.mul (.mul (.div (.mul (.rat 4 1) (.par n!"GF")) (.sqrt (.rat 2 1))) (.mul (.ckm 2 2) (.conj (.ckm 2 0)))) (.inp n!"CVRLt_bdss")) (.rat 3 1)))),
  (n!"VnudLR_1231", (.conj (.div (.div (.inp n!"CR_bdnuenumu") (.div (.mul (.rat 8 1) (.mul .pi .pi)) (.mul (.sqrt (.mul (.mul (.rat 4 1) .pi) (.par n!"alpha_e"))) (.sqrt (.mul (.mul (.rat 4 1) .pi) (.par n!"alpha_e")))))) (.div (.div (.div (.sqrt (.rat 2 1)) (.par n!"GF")) (.mul (.ckm 2 2) (.conj (.ckm 2 0)))) (.rat 4 1))))),
  (n!"TedRR_3311", (.div (.inp n!"CTRR_tautaudd") (.div (.div (.sqrt (.rat 2 1)) (.par n!"GF")) (.rat 4 1)))),
  (n!"S1ddRR_1322", (.sub (.sub (.add (.mul (.mul (.div (.mul (.rat 4 1) (.par n!"GF")) (.sqrt (.rat 2 1))) (.mul (.ckm 2 2) (.conj (.ckm 2 0)))) (.inp n!"CSRR_bdss")) (.div (.mul (.mul (.div (.mul (.rat 4 1) (.par n!"GF")) (.sqrt (.rat 2 1))) (.mul (.ckm 2 2) (.conj (.ckm 2 0)))) (.inp n!"CSRRt_bdss")) (.rat 3 1))) (.mul (.rat 4 1) (.mul (.mul (.div (.mul (.rat 4 1) (.par n!"GF")) (.sqrt (.rat 2 1))) (.mul (.ckm 2 2) (.conj (.ckm 2 0)))) (.inp n!"CTRR_bdss")))) (.div (.mul (.rat 4 1) (.mul (.mul (.div (.mul (.rat 4 1) (.par n!"GF")) (.sqrt (.rat 2 1))) (.mul (.ckm 2 2) (.conj (.ckm 2 0)))) (.inp n!"CTRRt_bdss"))) (.rat 3 1)))),
  (n!"VnudLR_2313", (.div (.div (.inp n!"CR_bdnutaunumu") (.div (.mul (.rat 8 1) (.mul .pi .pi)) (.mul (.sqrt (.mul (.mul (.rat 4 1) .pi) (.par n!"alpha_e"))) (.sqrt (.mul (.mul (.rat 4 1) .pi) (.par n!"alpha_e")))))) (.div (.div (.div (.sqrt (.rat 2 1)) (.par n!"GF")) (.mul (.ckm 2 2) (.conj (.ckm 2 0)))) (.rat 4 1)))),
  (n!"uG_22", (.div (.mul (.div (.par n!"m_c") (.div (.mul (.rat 16 1) (.mul .pi .pi)) (.sqrt (.mul (.mul (.rat 4 1) .pi) (.par n!"alpha_s"))))) (.inp n!"C8_cc")) (.div (.div (.sqrt (.rat 2 1)) (.par n!"GF")) (.rat 4 1)))),
  (n!"VnuuLL_2211", (.div (.inp n!"CVLL_numunumuuu") (.div (.div (.sqrt (.rat 2 1)) (.par n!"GF")) (.rat 4 1)))),
  (n!"VddRR_2323", (.inp n!"CVRR_bsbs")),
  (n!"VdeLR_1311", (.add (.div (.div (.inp n!"C10_bdee") (.div (.mul (.rat 16 1) (.mul .pi .pi)) (.mul (.sqrt (.mul (.mul (.rat 4 1) .pi) (.par n!"alpha_e"))) (.sqrt (.mul (.mul (.rat 4 1) .pi) (.par n!"alpha_e")))))) (.div (.div (.div (.sqrt (.rat 2 1)) (.par n!"GF")) (.mul (.ckm 2 2) (.conj (.ckm 2 0)))) (.rat 4 1))) (.div (.div (.inp n!"C9_bdee") (.div (.mul (.rat 16 1) (.mul .pi .pi)) (.mul (.sqrt (.mul (.mul (.rat 4 1) .pi) (.par n!"alpha_e"))) (.sqrt (.mul (.mul (.rat 4 1) .pi) (.par n!"alpha_e")))))) (.div (.div (.div (.sqrt (.rat 2 1)) (.par n!"GF")) (.mul (.ckm 2 2) (.conj (.ckm 2 0)))) (.rat 4 1))))),
  (n!"VnueduLL_2221", (.conj (.div (.inp n!"CVL_sumunumu") (.div (.div (.div (.neg (.sqrt (.rat 2 1))) (.par n!"GF")) (.ckm 0 1)) (.rat 4 1)))))]

def flavio_to_JMS_23 : List (ℕ × Sym) := [
  (n!"VeeLR_1111", (.div (.inp n!"CVLR_eeee") (.div (.div (.sqrt (.rat 2 1)) (.par n!"GF")) (.rat 4 1)))),
  (n!"TedRR_1323", (.add (.div (.rat 0 1) (.div (.div (.div (.sqrt (.rat 2 1)) (.par n!"GF")) (.mul (.ckm 2 2) (.conj (.ckm 2 1)))) (.rat 4 1))) (.div (.rat 0 1) (.div (.div (.div (.sqrt (.rat 2 1)) (.par n!"GF")) (.mul (.ckm 2 2) (.conj (.ckm 2 1)))) (.rat 4 1))))),
  (n!"VddLL_1322", (.mul (.mul (.div (.mul (.rat 4 1) (.par n!"GF")) (.sqrt (.rat 2 1))) (.mul (.ckm 2 2) (.conj (.ckm 2 0)))) (.inp n!"CVLL_bdss"))),
  (n!"VedLL_1122", (.div (.inp n!"CVLL_eess") (.div (.div (.sqrt (.rat 2 1)) (.par n!"GF")) (.rat 4 1)))),
  (n!"SedRR_3312", (.add (.div (.div (.inp n!"CP_sdtautau") (.div (.div (.mul (.rat 16 1) (.mul .pi .pi)) (.mul (.sqrt (.mul (.mul (.rat 4 1) .pi) (.par n!"alpha_e"))) (.sqrt (.mul (.mul (.rat 4 1) .pi) (.par n!"alpha_e"))))) (.par n!"m_s"))) (.div (.div (.div (.sqrt (.rat 2 1)) (.par n!"GF")) (.mul (.ckm 2 1) (.conj (.ckm 2 0)))) (.rat 4 1))) (.div (.div (.inp n!"CS_sdtautau") (.div (.div (.mul (.rat 16 1) (.mul .pi .pi)) (.mul (.sqrt (.mul (.mul (.rat 4 1) .pi) (.par n!"alpha_e"))) (.sqrt (.mul (.mul (.rat 4 1) .pi) (.par n!"alpha_e"))))) (.par n!"m_s"))) (.div (.div (.div (.sqrt (.rat 2 1)) (.par n!"GF")) (.mul (.ckm 2 1) (.conj (.ckm 2 0)))) (.rat 4 1))))),
  (n!"VnueduLR_2311", (.conj (.div (.inp n!"CVR_dutaunumu") (.div (.div (.div (.neg (.sqrt (.rat 2 1))) (.par n!"GF")) (.ckm 0 0)) (.rat 4 1))))),
  (n!"V1udduLR_2232", (.sub (.neg (.div (.conj (.mul (.mul (.div (.mul (.rat 4 1) (.par n!"GF")) (.sqrt (.rat 2 1))) (.mul (.ckm 2 2) (.conj (.ckm 2 1)))) (.inp n!"CSRL_bscc"))) (.mul (.rat 2 1) (.rat 3 1)))) (.div (.conj (.mul (.mul (.div (.mul (.rat 4 1) (.par n!"GF")) (.sqrt (.rat 2 1))) (.mul (.ckm 2 2) (.conj (.ckm 2 1)))) (.inp n!"CSRLt_bscc"))) (.rat 2 1)))),
  (n!"VnueLR_1122", (.div (.inp n!"CVLR_nuenuemumu") (.div (.div (.sqrt (.rat 2 1)) (.par n!"GF")) (.rat 4 1)))),
  (n!"S1udduRR_1131", (.sub (.neg (.div (.mul (.rat 8 1) (.conj (.mul (.mul (.div (.mul (.rat 4 1) (.par n!"GF")) (.sqrt (.rat 2 1))) (.mul (.ckm 2 2) (.conj (.ckm 2 0)))) (.inp n!"CTLL_bduu")))) (.rat 3 1))) (.mul (.rat 8 1) (.conj (.mul (.mul (.div (.mul (.rat 4 1) (.par n!"GF")) (.sqrt (.rat 2 1))) (.mul (.ckm 2 2) (.conj (.ckm 2 0)))) (.inp n!"CTLLt_bduu")))))),
  (n!"VedLR_1212", (.add (.neg (.div (.div (.inp n!"C10p_sdmue") (.div (.mul (.rat 16 1) (.mul .pi .pi)) (.mul (.sqrt (.mul (.mul (.rat 4 1) .pi) (.par n!"alpha_e"))) (.sqrt (.mul (.mul (.rat 4 1) .pi) (.par n!"alpha_e")))))) (.div (.div (.div (.sqrt (.rat 2 1)) (.par n!"GF")) (.mul (.ckm 2 1) (.conj (.ckm 2 0)))) (.rat 4 1)))) (.div (.div (.inp n!"C9p_sdmue") (.div (.mul (.rat 16 1) (.mul .pi .pi)) (.mul (.sqrt (.mul (.mul (.rat 4 1) .pi) (.par n!"alpha_e"))) (.sqrt (.mul (.mul (.rat 4 1) .pi) (.par n!"alpha_e")))))) (.div (.div (.div (.sqrt (.rat 2 1)) (.par n!"GF")) (.mul (.ckm 2 1) (.conj (.ckm 2 0)))) (.rat 4 1))))),
  (n!"S1udRR_1112", (.sub (.sub (.add (.mul (.mul (.div (.mul (.rat 4 1) (.par n!"GF")) (.sqrt (.rat 2 1))) (.mul (.ckm 2 1) (.conj (.ckm 2 0)))) (.inp n!"CSRR_sduu")) (.div (.mul (.mul (.div (.mul (.rat 4 1) (.par n!"GF")) (.sqrt (.rat 2 1))) (.mul (.ckm 2 1) (.conj (.ckm 2 0)))) (.inp n!"CSRRt_sduu")) (.rat 3 1))) (.mul (.rat 4 1) (.mul (.mul (.div (.mul (.rat 4 1) (.par n!"GF")) (.sqrt (.rat 2 1))) (.mul (.ckm 2 1) (.conj (.ckm 2 0)))) (.inp n!"CTRR_sduu")))) (.div (.mul (.rat 4 1) (.mul (.mul (.div (.mul (.rat 4 1) (.par n!"GF")) (.sqrt (.rat 2 1))) (.mul (.ckm 2 1) (.conj (.ckm 2 0)))) (.inp n!"CTRRt_sduu"))) (.rat 3 1)))),
  (n!"V8udduLR_1112", (.neg (.mul (.mul (.div (.mul (.rat 4 1) (.par n!"GF")) (.sqrt (.rat 2 1))) (.mul (.conj (.ckm 1 2)) (.ckm 0 2))) (.inp n!"CSRL_cudd")))),
  (n!"VedRR_1313", (.add (.div (.div (.inp n!"C10p_bdtaue") (.div (.mul (.rat 16 1) (.mul .pi .pi)) (.mul (.sqrt (.mul (.mul (.rat 4 1) .pi) (.par n!"alpha_e"))) (.sqrt (.mul (.mul (.rat 4 1) .pi) (.par n!"alpha_e")))))) (.div (.div (.div (.sqrt (.rat 2 1)) (.par n!"GF")) (.mul (.ckm 2 2) (.conj (.ckm 2 0)))) (.rat 4 1))) (.div (.div (.inp n!"C9p_bdtaue") (.div (.mul (.rat 16 1) (.mul .pi .pi)) (.mul (.sqrt (.mul (.mul (.rat 4 1) .pi) (.par n!"alpha_e"))) (.sqrt (.mul (.mul (.rat 4 1) .pi) (.par n!"alpha_e")))))) (.div (.div (.div (.sqrt (.rat 2 1)) (.par n!"GF")) (.mul (.ckm 2 2) (.conj (.ckm 2 0)))) (.rat 4 1))))),
  (n!"VnudLL_1133", (.div (.inp n!"CVLL_nuenuebb") (.div (.div (.sqrt (.rat 2 1)) (.par n!"GF")) (.rat 4 1)))),
  (n!"V1ddLR_1123", (.add (.mul (.mul (.div (.mul (.rat 4 1) (.par n!"GF")) (.sqrt (.rat 2 1))) (.mul (.ckm 2 2) (.conj (.ckm 2 1)))) (.inp n!"CVRL_bsdd")) (.div (.mul (.mul (.div (.mul (.rat 4 1) (.par n!"GF")) (.sqrt (.rat 2 1))) (.mul (.ckm 2 2) (.conj (.ckm 2 1)))) (.inp n!"CVRLt_bsdd")) (.rat 3 1)))),
  (n!"TnueduRR_3132", (.conj (.div (.inp n!"CT_bcenutau") (.div (.div (.div (.neg (.sqrt (.rat 2 1))) (.par n!"GF")) (.ckm 1 2)) (.rat 4 1))))),
  (n!"V1uuLR_2212", (.sub (.neg (.div (.mul (.mul (.div (.mul (.rat 4 1) (.par n!"GF")) (.sqrt (.rat 2 1))) (.mul (.conj (.ckm 1 2)) (.ckm 0 2))) (.inp n!"CSLR_cucc")) (.mul (.rat 2 1) (.rat 3 1)))) (.div (.mul (.rat (-2) 1) (.mul (.mul (.div (.mul (.rat 4 1) (.par n!"GF")) (.sqrt (.rat 2 1))) (.mul (.conj (.ckm 1 2)) (.ckm 0 2))) (.inp n!"CVRL_cucc"))) (.rat 2 1)))),
  (n!"V8ddLR_1321", (.neg (.mul (.mul (.div (.mul (.rat 4 1) (.par n!"GF")) (.sqrt (.rat 2 1))) (.mul (.ckm 2 2) (.conj (.ckm 2 1)))) (.inp n!"CSLR_bsdd")))),
  (n!"TedRR_2221", (.sub (.conj (.div (.rat 0 1) (.div (.div (.div (.sqrt (.rat 2 1)) (.par n!"GF")) (.mul (.ckm 2 1) (.conj (.ckm 2 0)))) (.rat 4 1)))) (.conj (.div (.rat 0 1) (.div (.div (.div (.sqrt (.rat 2 1)) (.par n!"GF")) (.mul (.ckm 2 1) (.conj (.ckm 2 0)))) (.rat 4 1)))))),
  (n!"VnudLR_1223", (.div (.div (.inp n!"CR_bsnumunue") (.div (.mul (.rat 8 1) (.mul .pi .pi)) (.mul (.sqrt (.mul (.mul (.rat 4 1) .pi) (.par n!"alpha_e"))) (.sqrt (.mul (.mul (.rat 4 1) .pi) (.par n!"alpha_e")))))) (.div (.div (.div (.sqrt (.rat 2 1)) (.par n!"GF")) (.mul (.ckm 2 2) (.conj (.ckm 2 1)))) (.rat 4 1)))),
  (n!"VddRR_1233", (.mul (.mul (.div (.mul (.rat 4 1) (.par n!"GF")) (.sqrt (.rat 2 1))) (.mul (.ckm 2 1) (.conj (.ckm 2 0)))) (.inp n!"CVRR_sdbb"))),
  (n!"SedRL_2132", (.add (.neg (.conj (.div (.div (.inp n!"CP_bsmue") (.div (.div (.mul (.rat 16 1) (.mul .pi .pi)) (.mul (.sqrt (.mul (.mul (.rat 4 1) .pi) (.par n!"alpha_e"))) (.sqrt (.mul (.mul (.rat 4 1) .pi) (.par n!"alpha_e"))))) (.par n!"m_b"))) (.div (.div (.div (.sqrt (.rat 2 1)) (.par n!"GF")) (.mul (.ckm 2 2) (.conj (.ckm 2 1)))) (.rat 4 1))))) (.conj (.div (.div (.inp n!"CS_bsmue") (.div (.div (.mul (.rat 16 1) (.mul .pi .pi)) (.mul (.sqrt (.mul (.mul (.rat 4 1) .pi) (.par n!"alpha_e"))) (.sqrt (.mul (.mul (.rat 4 1) .pi) (.par n!"alpha_e"))))) (.par n!"m_b"))) (.div (.div (.div (.sqrt (.rat 2 1)) (.par n!"GF")) (.mul (.ckm 2 2) (.conj (.ckm 2 1)))) (.rat 4 1)))))),
  (n!"V1duLR_1111", (.div (.inp n!"CV1LR_dduu") (.div (.div (.sqrt (.rat 2 1)) (.par n!"GF")) (.rat 4 1)))),
  (n!"VnueduLL_1131", (.conj (.div (.inp n!"CVL_buenue") (.div (.div (.div (.neg (.sqrt (.rat 2 1))) (.par n!"GF")) (.ckm 0 2)) (.rat 4 1))))),
  (n!"VnudLL_2311", (.div (.inp n!"CVLL_numunutaudd") (.div (.div (.sqrt (.rat 2 1)) (.par n!"GF")) (.rat 4 1)))),
  (n!"SnueduRL_3321", (.conj (.div (.inp n!"CSR_sutaunutau") (.div (.div (.div (.neg (.sqrt (.rat 2 1))) (.par n!"GF")) (.ckm 0 1)) (.rat 4 1))))),
  (n!"VnuuLR_1211", (.div (.inp n!"CVLR_nuenumuuu") (.div (.div (.sqrt (.rat 2 1)) (.par n!"GF")) (.rat 4 1)))),
  (n!"SnueduRL_1112", (.conj (.div (.inp n!"CSR_dcenue") (.div (.div (.div (.neg (.sqrt (.rat 2 1))) (.par n!"GF")) (.ckm 1 0)) (.rat 4 1))))),
  (n!"SedRR_2222", (.div (.inp n!"CSRR_mumuss") (.div (.div (.sqrt (.rat 2 1)) (.par n!"GF")) (.rat 4 1)))),
  (n!"VnueduLR_1221", (.conj (.div (.inp n!"CVR_sumunue") (.div (.div (.div (.neg (.sqrt (.rat 2 1))) (.par n!"GF")) (.ckm 0 1)) (.rat 4 1))))),
  (n!"TnueduRR_2322", (.conj (.div (.inp n!"CT_sctaunumu") (.div (.div (.div (.neg (.sqrt (.rat 2 1))) (.par n!"GF")) (.ckm 1 1)) (.rat 4 1))))),
  (n!"VedLL_3323", (.add (.neg (.div (.div (.inp n!"C10_bstautau") (.div (.mul (.rat 16 1) (.mul .pi .pi)) (.mul (.sqrt (.mul (.mul (.rat 4 1) .pi) (.par n!"alpha_e"))) (.sqrt (.mul (.mul (.rat 4 1) .pi) (.par n!"alpha_e")))))) (.div (.div (.div (.sqrt (.rat 2 1)) (.par n!"GF")) (.mul (.ckm 2 2) (.conj (.ckm 2 1)))) (.rat 4 1)))) (.div (.div (.inp n!"C9_bstautau") (.div (.mul (.rat 16 1) (.mul .pi .pi)) (.mul (.sqrt (.mul (.mul (.rat 4 1) .pi) (.par n!"alpha_e"))) (.sqrt (.mul (.mul (.rat 4 1) .pi) (.par n!"alpha_e")))))) (.div (.div (.div (.sqrt (.rat 2 1)) (.par n!"GF")) (.mul (.ckm 2 2) (.conj (.ckm 2 1)))) (.rat 4 1))))),
  (n!"V8udLR_1111", (.div (.inp n!"CV8LR_uudd") (.div (.div (.sqrt (.rat 2 1)) (.par n!"GF")) (.rat 4 1)))),
  (n!"VedRR_2211", (.div (.inp n!"CVRR_mumudd") (.div (.div (.sqrt (.rat 2 1)) (.par n!"GF")) (.rat 4 1)))),
  (n!"egamma_11", (.div (.mul (.div (.par n!"m_e") (.div (.mul (.rat 16 1) (.mul .pi .pi)) (.sqrt (.mul (.mul (.rat 4 1) .pi) (.par n!"alpha_e"))))) (.inp n!"C7_ee")) (.div (.div (.sqrt (.rat 2 1)) (.par n!"GF")) (.rat 4 1)))),
  (n!"VedLR_2331", (.conj (.add (.neg (.div (.div (.inp n!"C10p_bdmutau") (.div (.mul (.rat 16 1) (.mul .pi .pi)) (.mul (.sqrt (.mul (.mul (.rat 4 1) .pi) (.par n!"alpha_e"))) (.sqrt (.mul (.mul (.rat 4 1) .pi) (.par n!"alpha_e")))))) (.div (.div (.div (.sqrt (.rat 2 1)) (.par n!"GF")) (.mul (.ckm 2 2) (.conj (.ckm 2 0)))) (.rat 4 1)))) (.div (.div (.inp n!"C9p_bdmutau") (.div (.mul (.rat 16 1) (.mul .pi .pi)) (.mul (.sqrt (.mul (.mul (.rat 4 1) .pi) (.par n!"alpha_e"))) (.sqrt (.mul (.mul (.rat 4 1) .pi) (.par n!"alpha_e")))))) (.div (.div (.div (.sqrt (.rat 2 1)) (.par n!"GF")) (.mul (.ckm 2 2) (.conj (.ckm 2 0)))) (.rat 4 1)))))),
  (n!"S1udRR_2231", (.sub (.sub (.add (.conj (.mul (.mul (.div (.mul (.rat 4 1) (.par n!"GF")) (.sqrt (.rat 2 1))) (.mul (.ckm 2 2) (.conj (.ckm 2 0)))) (.inp n!"CSLL_bdcc"))) (.div (.conj (.mul (.mul (.div (.mul (.rat 4 1) (.par n!"GF")) (.sqrt (.rat 2 1))) (.mul (.ckm 2 2) (.conj (.ckm 2 0)))) (.inp n!"CSLLt_bdcc"))) (.rat 3 1))) (.mul (.rat 4 1) (.conj (.mul (.mul (.div (.mul (.rat 4 1) (.par n!"GF")) (.sqrt (.rat 2 1))) (.mul (.ckm 2 2) (.conj (.ckm 2 0)))) (.inp n!"CTLL_bdcc"))))) (.div (.mul (.rat 4 1) (.conj (.mul (.mul (.div (.mul (.rat 4 1) (.par n!"GF")) (.sqrt (.rat 2 1))) (.mul (.ckm 2 2) (.conj (.ckm 2 0)))) (.inp n!"CTLLt_bdcc")))) (.rat 3 1)))),
  (n!"V1udLL_2222", (.div (.inp n!"CV1LL_ccss") (.div (.div (.sqrt (.rat 2 1)) (.par n!"GF")) (.rat 4 1)))),
  (n!"VeuLL_3311", (.div (.inp n!"CVLL_tautauuu") (.div (.div (.sqrt (.rat 2 1)) (.par n!"GF")) (.rat 4 1)))),
  (n!"S8udduRR_2212", (.mul (.rat (-16) 1) (.mul (.mul (.div (.mul (.rat 4 1) (.par n!"GF")) (.sqrt (.rat 2 1))) (.mul (.ckm 2 1) (.conj (.ckm 2 0)))) (.inp n!"CTRR_sdcc")))),
  (n!"V1uuLR_1122", (.div (.inp n!"CV1LR_uucc") (.div (.div (.sqrt (.rat 2 1)) (.par n!"GF")) (.rat 4 1)))),
  (n!"SnueduRR_3131", (.conj (.div (.inp n!"CSL_buenutau") (.div (.div (.div (.neg (.sqrt (.rat 2 1))) (.par n!"GF")) (.ckm 0 2)) (.rat 4 1))))),
  (n!"TedRR_1131", (.sub (.conj (.div (.rat 0 1) (.div (.div (.div (.sqrt (.rat 2 1)) (.par n!"GF")) (.mul (.ckm 2 2) (.conj (.ckm 2 0)))) (.rat 4 1)))) (.conj (.div (.rat 0 1) (.div (.div (.div (.sqrt (.rat 2 1)) (.par n!"GF")) (.mul (.ckm 2 2) (.conj (.ckm 2 0)))) (.rat 4 1)))))),
  (n!"V8ddLR_1313", (.neg (.inp n!"CSLR_bdbd"))),
  (n!"VnueduLL_3111", (.conj (.div (.inp n!"CVL_duenutau") (.div (.div (.div (.neg (.sqrt (.rat 2 1))) (.par n!"GF")) (.ckm 0 0)) (.rat 4 1))))),
  (n!"VnudLL_1221", (.conj (.div (.div (.inp n!"CL_sdnuenumu") (.div (.mul (.rat 8 1) (.mul .pi .pi)) (.mul (.sqrt (.mul (.mul (.rat 4 1) .pi) (.par n!"alpha_e"))) (.sqrt (.mul (.mul (.rat 4 1) .pi) (.par n!"alpha_e")))))) (.div (.div (.div (.sqrt (.rat 2 1)) (.par n!"GF")) (.mul (.ckm 2 1) (.conj (.ckm 2 0)))) (.rat 4 1))))),
  (n!"VnuuLL_3322", (.div (.inp n!"CVLL_nutaunutaucc") (.div (.div (.sqrt (.rat 2 1)) (.par n!"GF")) (.rat 4 1)))),
  (n!"V1ddLR_1211", (.sub (.neg (.div (.mul (.mul (.div (.mul (.rat 4 1) (.par n!"GF")) (.sqrt (.rat 2 1))) (.mul (.ckm 2 1) (.conj (.ckm 2 0)))) (.inp n!"CSLR_sddd")) (.mul (.rat 2 1) (.rat 3 1)))) (.div (.mul (.rat (-2) 1) (.mul (.mul (.div (.mul (.rat 4 1) (.par n!"GF")) (.sqrt (.rat 2 1))) (.mul (.ckm 2 1) (.conj (.ckm 2 0)))) (.inp n!"CVLR_sddd"))) (.rat 2 1)))),
  (n!"TedRR_2213", (.add (.div (.rat 0 1) (.div (.div (.div (.sqrt (.rat 2 1)) (.par n!"GF")) (.mul (.ckm 2 2) (.conj (.ckm 2 0)))) (.rat 4 1))) (.div (.rat 0 1) (.div (.div (.div (.sqrt (.rat 2 1)) (.par n!"GF")) (.mul (.ckm 2 2) (.conj (.ckm 2 0)))) (.rat 4 1))))),
  (n!"V1duLR_3312", (.add (.mul (.mul (.div (.mul (.rat 4 1) (.par n!"GF")) (.sqrt (.rat 2 1))) (.mul (.conj (.ckm 1 2)) (.ckm 0 2))) (.inp n!"CVRL_cubb")) (.div (.mul (.mul (.div (.mul (.rat 4 1) (.par n!"GF")) (.sqrt (.rat 2 1))) (.mul (.conj (.ckm 1 2)) (.ckm 0 2))) (.inp n!"CVRLt_cubb")) (.rat 3 1))))]

def flavio_to_JMS_24 : List (ℕ × Sym) := [
  (n!"VnueduLL_3332", (.conj (.div (.inp n!"CVL_bctaunutau") (.div (.div (.div (.neg (.sqrt (.rat 2 1))) (.par n!"GF")) (.ckm 1 2)) (.rat 4 1))))),
  (n!"VeeLR_2222", (.div (.inp n!"CVLR_mumumumu") (.div (.div (.sqrt (.rat 2 1)) (.par n!"GF")) (.rat 4 1)))),
  (n!"SnueduRL_2231", (.conj (.div (.inp n!"CSR_bumunumu") (.div (.div (.div (.neg (.sqrt (.rat 2 1))) (.par n!"GF")) (.ckm 0 2)) (.rat 4 1))))),
  (n!"SedRR_1132", (.add (.neg (.conj (.div (.div (.inp n!"CPp_bsee") (.div (.div (.mul (.rat 16 1) (.mul .pi .pi)) (.mul (.sqrt (.mul (.mul (.rat 4 1) .pi) (.par n!"alpha_e"))) (.sqrt (.mul (.mul (.rat 4 1) .pi) (.par n!"alpha_e"))))) (.par n!"m_b"))) (.div (.div (.div (.sqrt (.rat 2 1)) (.par n!"GF")) (.mul (.ckm 2 2) (.conj (.ckm 2 1)))) (.rat 4 1))))) (.conj (.div (.div (.inp n!"CSp_bsee") (.div (.div (.mul (.rat 16 1) (.mul .pi .pi)) (.mul (.sqrt (.mul (.mul (.rat 4 1) .pi) (.par n!"alpha_e"))) (.sqrt (.mul (.mul (.rat 4 1) .pi) (.par n!"alpha_e"))))) (.par n!"m_b"))) (.div (.div (.div (.sqrt (.rat 2 1)) (.par n!"GF")) (.mul (.ckm 2 2) (.conj (.ckm 2 1)))) (.rat 4 1)))))),
  (n!"VnudLR_1311", (.div (.inp n!"CVLR_nuenutaudd") (.div (.div (.sqrt (.rat 2 1)) (.par n!"GF")) (.rat 4 1)))),
  (n!"TnueduRR_1232", (.conj (.div (.inp n!"CT_bcmunue") (.div (.div (.div (.neg (.sqrt (.rat 2 1))) (.par n!"GF")) (.ckm 1 2)) (.rat 4 1))))),
  (n!"VedLL_2233", (.div (.inp n!"CVLL_mumubb") (.div (.div (.sqrt (.rat 2 1)) (.par n!"GF")) (.rat 4 1)))),
  (n!"SnueduRR_2321", (.conj (.div (.inp n!"CSL_sutaunumu") (.div (.div (.div (.neg (.sqrt (.rat 2 1))) (.par n!"GF")) (.ckm 0 1)) (.rat 4 1))))),
  (n!"VnueLR_2233", (.div (.inp n!"CVLR_numunumutautau") (.div (.div (.sqrt (.rat 2 1)) (.par n!"GF")) (.rat 4 1)))),
  (n!"VedLR_2323", (.add (.neg (.div (.div (.inp n!"C10p_bstaumu") (.div (.mul (.rat 16 1) (.mul .pi .pi)) (.mul (.sqrt (.mul (.mul (.rat 4 1) .pi) (.par n!"alpha_e"))) (.sqrt (.mul (.mul (.rat 4 1) .pi) (.par n!"alpha_e")))))) (.div (.div (.div (.sqrt (.rat 2 1)) (.par n!"GF")) (.mul (.ckm 2 2) (.conj (.ckm 2 1)))) (.rat 4 1)))) (.div (.div (.inp n!"C9p_bstaumu") (.div (.mul (.rat 16 1) (.mul .pi .pi)) (.mul (.sqrt (.mul (.mul (.rat 4 1) .pi) (.par n!"alpha_e"))) (.sqrt (.mul (.mul (.rat 4 1) .pi) (.par n!"alpha_e")))))) (.div (.div (.div (.sqrt (.rat 2 1)) (.par n!"GF")) (.mul (.ckm 2 2) (.conj (.ckm 2 1)))) (.rat 4 1))))),
  (n!"S1udRR_2223", (.sub (.sub (.add (.mul (.mul (.div (.mul (.rat 4 1) (.par n!"GF")) (.sqrt (.rat 2 1))) (.mul (.ckm 2 2) (.conj (.ckm 2 1)))) (.inp n!"CSRR_bscc")) (.div (.mul (.mul (.div (.mul (.rat 4 1) (.par n!"GF")) (.sqrt (.rat 2 1))) (.mul (.ckm 2 2) (.conj (.ckm 2 1)))) (.inp n!"CSRRt_bscc")) (.rat 3 1))) (.mul (.rat 4 1) (.mul (.mul (.div (.mul (.rat 4 1) (.par n!"GF")) (.sqrt (.rat 2 1))) (.mul (.ckm 2 2) (.conj (.ckm 2 1)))) (.inp n!"CTRR_bscc")))) (.div (.mul (.rat 4 1) (.mul (.mul (.div (.mul (.rat 4 1) (.par n!"GF")) (.sqrt (.rat 2 1))) (.mul (.ckm 2 2) (.conj (.ckm 2 1)))) (.inp n!"CTRRt_bscc"))) (.rat 3 1)))),
  (n!"V8ddLR_2211", (.div (.inp n!"CV8LR_ssdd") (.div (.div (.sqrt (.rat 2 1)) (.par n!"GF")) (.rat 4 1)))),
  (n!"V1udLR_1222", (.add (.mul (.mul (.div (.mul (.rat 4 1) (.par n!"GF")) (.sqrt (.rat 2 1))) (.mul (.conj (.ckm 1 2)) (.ckm 0 2))) (.inp n!"CVLR_cuss")) (.div (.mul (.mul (.div (.mul (.rat 4 1) (.par n!"GF")) (.sqrt (.rat 2 1))) (.mul (.conj (.ckm 1 2)) (.ckm 0 2))) (.inp n!"CVLRt_cuss")) (.rat 3 1)))),
  (n!"S1ddRR_1122", (.div (.inp n!"CS1RR_ddss") (.div (.div (.sqrt (.rat 2 1)) (.par n!"GF")) (.rat 4 1)))),
  (n!"VnueLL_1333", (.div (.inp n!"CVLL_nuenutautautau") (.div (.div (.sqrt (.rat 2 1)) (.par n!"GF")) (.rat 4 1)))),
  (n!"VdeLR_1111", (.div (.inp n!"CVLR_ddee") (.div (.div (.sqrt (.rat 2 1)) (.par n!"GF")) (.rat 4 1)))),
  (n!"V1udduLR_2312", (.sub (.neg (.div (.mul (.mul (.div (.mul (.rat 4 1) (.par n!"GF")) (.sqrt (.rat 2 1))) (.mul (.ckm 2 2) (.conj (.ckm 2 0)))) (.inp n!"CSLR_bdcc")) (.mul (.rat 2 1) (.rat 3 1)))) (.div (.mul (.mul (.div (.mul (.rat 4 1) (.par n!"GF")) (.sqrt (.rat 2 1))) (.mul (.ckm 2 2) (.conj (.ckm 2 0)))) (.inp n!"CSLRt_bdcc")) (.rat 2 1)))),
  (n!"TedRR_3332", (.sub (.conj (.div (.rat 0 1) (.div (.div (.div (.sqrt (.rat 2 1)) (.par n!"GF")) (.mul (.ckm 2 2) (.conj (.ckm 2 1)))) (.rat 4 1)))) (.conj (.div (.rat 0 1) (.div (.div (.div (.sqrt (.rat 2 1)) (.par n!"GF")) (.mul (.ckm 2 2) (.conj (.ckm 2 1)))) (.rat 4 1)))))),
  (n!"S1udduRR_1211", (.sub (.neg (.div (.mul (.rat 8 1) (.mul (.mul (.div (.mul (.rat 4 1) (.par n!"GF")) (.sqrt (.rat 2 1))) (.mul (.ckm 2 1) (.conj (.ckm 2 0)))) (.inp n!"CTRR_sduu"))) (.rat 3 1))) (.mul (.rat 8 1) (.mul (.mul (.div (.mul (.rat 4 1) (.par n!"GF")) (.sqrt (.rat 2 1))) (.mul (.ckm 2 1) (.conj (.ckm 2 0)))) (.inp n!"CTRRt_sduu"))))),
  (n!"TedRR_1123", (.add (.div (.rat 0 1) (.div (.div (.div (.sqrt (.rat 2 1)) (.par n!"GF")) (.mul (.ckm 2 2) (.conj (.ckm 2 1)))) (.rat 4 1))) (.div (.rat 0 1) (.div (.div (.div (.sqrt (.rat 2 1)) (.par n!"GF")) (.mul (.ckm 2 2) (.conj (.ckm 2 1)))) (.rat 4 1))))),
  (n!"VdeLR_1332", (.add (.div (.div (.inp n!"C10_bdmutau") (.div (.mul (.rat 16 1) (.mul .pi .pi)) (.mul (.sqrt (.mul (.mul (.rat 4 1) .pi) (.par n!"alpha_e"))) (.sqrt (.mul (.mul (.rat 4 1) .pi) (.par n!"alpha_e")))))) (.div (.div (.div (.sqrt (.rat 2 1)) (.par n!"GF")) (.mul (.ckm 2 2) (.conj (.ckm 2 0)))) (.rat 4 1))) (.div (.div (.inp n!"C9_bdmutau") (.div (.mul (.rat 16 1) (.mul .pi .pi)) (.mul (.sqrt (.mul (.mul (.rat 4 1) .pi) (.par n!"alpha_e"))) (.sqrt (.mul (.mul (.rat 4 1) .pi) (.par n!"alpha_e")))))) (.div (.div (.div (.sqrt (.rat 2 1)) (.par n!"GF")) (.mul (.ckm 2 2) (.conj (.ckm 2 0)))) (.rat 4 1))))),
  (n!"V1duLR_2222", (.div (.inp n!"CV1LR_sscc") (.div (.div (.sqrt (.rat 2 1)) (.par n!"GF")) (.rat 4 1)))),
  (n!"VddLL_1122", (.div (.inp n!"CVLL_ddss") (.div (.div (.sqrt (.rat 2 1)) (.par n!"GF")) (.rat 4 1)))),
  (n!"VnudLL_1213", (.div (.div (.inp n!"CL_bdnumunue") (.div (.mul (.rat 8 1) (.mul .pi .pi)) (.mul (.sqrt (.mul (.mul (.rat 4 1) .pi) (.par n!"alpha_e"))) (.sqrt (.mul (.mul (.rat 4 1) .pi) (.par n!"alpha_e")))))) (.div (.div (.div (.sqrt (.rat 2 1)) (.par n!"GF")) (.mul (.ckm 2 2) (.conj (.ckm 2 0)))) (.rat 4 1)))),
  (n!"SedRR_3112", (.add (.div (.div (.inp n!"CP_sdetau") (.div (.div (.mul (.rat 16 1) (.mul .pi .pi)) (.mul (.sqrt (.mul (.mul (.rat 4 1) .pi) (.par n!"alpha_e"))) (.sqrt (.mul (.mul (.rat 4 1) .pi) (.par n!"alpha_e"))))) (.par n!"m_s"))) (.div (.div (.div (.sqrt (.rat 2 1)) (.par n!"GF")) (.mul (.ckm 2 1) (.conj (.ckm 2 0)))) (.rat 4 1))) (.div (.div (.inp n!"CS_sdetau") (.div (.div (.mul (.rat 16 1) (.mul .pi .pi)) (.mul (.sqrt (.mul (.mul (.rat 4 1) .pi) (.par n!"alpha_e"))) (.sqrt (.mul (.mul (.rat 4 1) .pi) (.par n!"alpha_e"))))) (.par n!"m_s"))) (.div (.div (.div (.sqrt (.rat 2 1)) (.par n!"GF")) (.mul (.ckm 2 1) (.conj (.ckm 2 0)))) (.rat 4 1))))),
  (n!"VnueduLR_2111", (.conj (.div (.inp n!"CVR_duenumu") (.div (.div (.div (.neg (.sqrt (.rat 2 1))) (.par n!"GF")) (.ckm 0 0)) (.rat 4 1))))),
  (n!"TnueduRR_3212", (.conj (.div (.inp n!"CT_dcmunutau") (.div (.div (.div (.neg (.sqrt (.rat 2 1))) (.par n!"GF")) (.ckm 1 0)) (.rat 4 1))))),
  (n!"VnuuLR_2322", (.div (.inp n!"CVLR_numunutaucc") (.div (.div (.sqrt (.rat 2 1)) (.par n!"GF")) (.rat 4 1)))),
  (n!"SedRR_3333", (.div (.inp n!"CSRR_tautaubb") (.div (.div (.sqrt (.rat 2 1)) (.par n!"GF")) (.rat 4 1)))),
  (n!"TeuRR_1111", (.div (.inp n!"CTRR_eeuu") (.div (.div (.sqrt (.rat 2 1)) (.par n!"GF")) (.rat 4 1)))),
  (n!"VnueduLR_2332", (.conj (.div (.inp n!"CVR_bctaunumu") (.div (.div (.div (.neg (.sqrt (.rat 2 1))) (.par n!"GF")) (.ckm 1 2)) (.rat 4 1))))),
  (n!"SnueduRR_1231", (.conj (.div (.inp n!"CSL_bumunue") (.div (.div (.div (.neg (.sqrt (.rat 2 1))) (.par n!"GF")) (.ckm 0 2)) (.rat 4 1))))),
  (n!"V8udLR_2222", (.div (.inp n!"CV8LR_ccss") (.div (.div (.sqrt (.rat 2 1)) (.par n!"GF")) (.rat 4 1)))),
  (n!"VedRR_3322", (.div (.inp n!"CVRR_tautauss") (.div (.div (.sqrt (.rat 2 1)) (.par n!"GF")) (.rat 4 1)))),
  (n!"S8ddRR_2122", (.mul (.rat (-16) 1) (.conj (.mul (.mul (.div (.mul (.rat 4 1) (.par n!"GF")) (.sqrt (.rat 2 1))) (.mul (.ckm 2 1) (.conj (.ckm 2 0)))) (.inp n!"CTLL_sdss"))))),
  (n!"VddRR_1313", (.inp n!"CVRR_bdbd")),
  (n!"SedRL_2212", (.add (.div (.div (.inp n!"CPp_sdmumu") (.div (.div (.mul (.rat 16 1) (.mul .pi .pi)) (.mul (.sqrt (.mul (.mul (.rat 4 1) .pi) (.par n!"alpha_e"))) (.sqrt (.mul (.mul (.rat 4 1) .pi) (.par n!"alpha_e"))))) (.par n!"m_s"))) (.div (.div (.div (.sqrt (.rat 2 1)) (.par n!"GF")) (.mul (.ckm 2 1) (.conj (.ckm 2 0)))) (.rat 4 1))) (.div (.div (.inp n!"CSp_sdmumu") (.div (.div (.mul (.rat 16 1) (.mul .pi .pi)) (.mul (.sqrt (.mul (.mul (.rat 4 1) .pi) (.par n!"alpha_e"))) (.sqrt (.mul (.mul (.rat 4 1) .pi) (.par n!"alpha_e"))))) (.par n!"m_s"))) (.div (.div (.div (.sqrt (.rat 2 1)) (.par n!"GF")) (.mul (.ckm 2 1) (.conj (.ckm 2 0)))) (.rat 4 1))))),
  (n!"VnueduLL_1211", (.conj (.div (.inp n!"CVL_dumunue") (.div (.div (.div (.neg (.sqrt (.rat 2 1))) (.par n!"GF")) (.ckm 0 0)) (.rat 4 1))))),
  (n!"VedRR_1113", (.add (.div (.div (.inp n!"C10p_bdee") (.div (.mul (.rat 16 1) (.mul .pi .pi)) (.mul (.sqrt (.mul (.mul (.rat 4 1) .pi) (.par n!"alpha_e"))) (.sqrt (.mul (.mul (.rat 4 1) .pi) (.par n!"alpha_e")))))) (.div (.div (.div (.sqrt (.rat 2 1)) (.par n!"GF")) (.mul (.ckm 2 2) (.conj (.ckm 2 0)))) (.rat 4 1))) (.div (.div (.inp n!"C9p_bdee") (.div (.mul (.rat 16 1) (.mul .pi .pi)) (.mul (.sqrt (.mul (.mul (.rat 4 1) .pi) (.par n!"alpha_e"))) (.sqrt (.mul (.mul (.rat 4 1) .pi) (.par n!"alpha_e")))))) (.div (.div (.div (.sqrt (.rat 2 1)) (.par n!"GF")) (.mul (.ckm 2 2) (.conj (.ckm 2 0)))) (.rat 4 1))))),
  (n!"S1udRR_1133", (.div (.inp n!"CS1RR_uubb") (.div (.div (.sqrt (.rat 2 1)) (.par n!"GF")) (.rat 4 1)))),
  (n!"SeuRR_3321", (.add (.neg (.conj (.div (.div (.inp n!"CPp_cutautau") (.div (.div (.mul (.rat 16 1) (.mul .pi .pi)) (.mul (.sqrt (.mul (.mul (.rat 4 1) .pi) (.par n!"alpha_e"))) (.sqrt (.mul (.mul (.rat 4 1) .pi) (.par n!"alpha_e"))))) (.par n!"m_c"))) (.div (.div (.div (.sqrt (.rat 2 1)) (.par n!"GF")) (.mul (.conj (.ckm 1 2)) (.ckm 0 2))) (.rat 4 1))))) (.conj (.div (.div (.inp n!"CSp_cutautau") (.div (.div (.mul (.rat 16 1) (.mul .pi .pi)) (.mul (.sqrt (.mul (.mul (.rat 4 1) .pi) (.par n!"alpha_e"))) (.sqrt (.mul (.mul (.rat 4 1) .pi) (.par n!"alpha_e"))))) (.par n!"m_c"))) (.div (.div (.div (.sqrt (.rat 2 1)) (.par n!"GF")) (.mul (.conj (.ckm 1 2)) (.ckm 0 2))) (.rat 4 1)))))),
  (n!"VueLR_1122", (.div (.inp n!"CVLR_uumumu") (.div (.div (.sqrt (.rat 2 1)) (.par n!"GF")) (.rat 4 1)))),
  (n!"VedLL_2321", (.conj (.add (.neg (.div (.div (.inp n!"C10_sdmutau") (.div (.mul (.rat 16 1) (.mul .pi .pi)) (.mul (.sqrt (.mul (.mul (.rat 4 1) .pi) (.par n!"alpha_e"))) (.sqrt (.mul (.mul (.rat 4 1) .pi) (.par n!"alpha_e")))))) (.div (.div (.div (.sqrt (.rat 2 1)) (.par n!"GF")) (.mul (.ckm 2 1) (.conj (.ckm 2 0)))) (.rat 4 1)))) (.div (.div (.inp n!"C9_sdmutau") (.div (.mul (.rat 16 1) (.mul .pi .pi)) (.mul (.sqrt (.mul (.mul (.rat 4 1) .pi) (.par n!"alpha_e"))) (.sqrt (.mul (.mul (.rat 4 1) .pi) (.par n!"alpha_e")))))) (.div (.div (.div (.sqrt (.rat 2 1)) (.par n!"GF")) (.mul (.ckm 2 1) (.conj (.ckm 2 0)))) (.rat 4 1)))))),
  (n!"SeuRR_1112", (.add (.div (.div (.inp n!"CP_cuee") (.div (.div (.mul (.rat 16 1) (.mul .pi .pi)) (.mul (.sqrt (.mul (.mul (.rat 4 1) .pi) (.par n!"alpha_e"))) (.sqrt (.mul (.mul (.rat 4 1) .pi) (.par n!"alpha_e"))))) (.par n!"m_c"))) (.div (.div (.div (.sqrt (.rat 2 1)) (.par n!"GF")) (.mul (.conj (.ckm 1 2)) (.ckm 0 2))) (.rat 4 1))) (.div (.div (.inp n!"CS_cuee") (.div (.div (.mul (.rat 16 1) (.mul .pi .pi)) (.mul (.sqrt (.mul (.mul (.rat 4 1) .pi) (.par n!"alpha_e"))) (.sqrt (.mul (.mul (.rat 4 1) .pi) (.par n!"alpha_e"))))) (.par n!"m_c"))) (.div (.div (.div (.sqrt (.rat 2 1)) (.par n!"GF")) (.mul (.conj (.ckm 1 2)) (.ckm 0 2))) (.rat 4 1))))),
  (n!"S1uuRR_1121", (.sub (.neg (.div (.mul (.rat 8 1) (.conj (.mul (.mul (.div (.mul (.rat 4 1) (.par n!"GF")) (.sqrt (.rat 2 1))) (.mul (.conj (.ckm 1 2)) (.ckm 0 2))) (.inp n!"CTLL_cuuu")))) (.rat 3 1))) (.mul (.rat 8 1) (.conj (.add (.mul (.div (.rat (-1) 1) (.rat 8 1)) (.mul (.mul (.div (.mul (.rat 4 1) (.par n!"GF")) (.sqrt (.rat 2 1))) (.mul (.conj (.ckm 1 2)) (.ckm 0 2))) (.inp n!"CSLL_cuuu"))) (.mul (.div (.rat 1 1) (.rat 2 1)) (.mul (.mul (.div (.mul (.rat 4 1) (.par n!"GF")) (.sqrt (.rat 2 1))) (.mul (.conj (.ckm 1 2)) (.ckm 0 2))) (.inp n!"CTLL_cuuu")))))))),
  (n!"V1udduLR_1222", (.sub (.neg (.div (.mul (.mul (.div (.mul (.rat 4 1) (.par n!"GF")) (.sqrt (.rat 2 1))) (.mul (.conj (.ckm 1 2)) (.ckm 0 2))) (.inp n!"CSRL_cuss")) (.mul (.rat 2 1) (.rat 3 1)))) (.div (.mul (.mul (.div (.mul (.rat 4 1) (.par n!"GF")) (.sqrt (.rat 2 1))) (.mul (.conj (.ckm 1 2)) (.ckm 0 2))) (.inp n!"CSRLt_cuss")) (.rat 2 1)))),
  (n!"SnueduRL_3121", (.conj (.div (.inp n!"CSR_suenutau") (.div (.div (.div (.neg (.sqrt (.rat 2 1))) (.par n!"GF")) (.ckm 0 1)) (.rat 4 1))))),
  (n!"VnudLL_2332", (.conj (.div (.div (.inp n!"CL_bsnumunutau") (.div (.mul (.rat 8 1) (.mul .pi .pi)) (.mul (.sqrt (.mul (.mul (.rat 4 1) .pi) (.par n!"alpha_e"))) (.sqrt (.mul (.mul (.rat 4 1) .pi) (.par n!"alpha_e")))))) (.div (.div (.div (.sqrt (.rat 2 1)) (.par n!"GF")) (.mul (.ckm 2 2) (.conj (.ckm 2 1)))) (.rat 4 1))))),
  (n!"V1ddLR_2322", (.sub (.neg (.div (.mul (.mul (.div (.mul (.rat 4 1) (.par n!"GF")) (.sqrt (.rat 2 1))) (.mul (.ckm 2 2) (.conj (.ckm 2 1)))) (.inp n!"CSLR_bsss")) (.mul (.rat 2 1) (.rat 3 1)))) (.div (.mul (.rat (-2) 1) (.mul (.mul (.div (.mul (.rat 4 1) (.par n!"GF")) (.sqrt (.rat 2 1))) (.mul (.ckm 2 2) (.conj (.ckm 2 1)))) (.inp n!"CVLR_bsss"))) (.rat 2 1)))),
  (n!"VeeLR_3333", (.div (.inp n!"CVLR_tautautautau") (.div (.div (.sqrt (.rat 2 1)) (.par n!"GF")) (.rat 4 1))))]

def flavio_to_JMS_25 : List (ℕ × Sym) := [
  (n!"S8udRR_2133", (.sub (.mul (.rat 2 1) (.conj (.mul (.mul (.div (.mul (.rat 4 1) (.par n!"GF")) (.sqrt (.rat 2 1))) (.mul (.conj (.ckm 1 2)) (.ckm 0 2))) (.inp n!"CSLLt_cubb")))) (.mul (.rat 8 1) (.conj (.mul (.mul (.div (.mul (.rat 4 1) (.par n!"GF")) (.sqrt (.rat 2 1))) (.mul (.conj (.ckm 1 2)) (.ckm 0 2))) (.inp n!"CTLLt_cubb")))))),
  (n!"TnueduRR_2122", (.conj (.div (.inp n!"CT_scenumu") (.div (.div (.div (.neg (.sqrt (.rat 2 1))) (.par n!"GF")) (.ckm 1 1)) (.rat 4 1))))),
  (n!"dgamma_11", (.div (.mul (.div (.par n!"m_d") (.div (.mul (.rat 16 1) (.mul .pi .pi)) (.sqrt (.mul (.mul (.rat 4 1) .pi) (.par n!"alpha_e"))))) (.inp n!"C7_dd")) (.div (.div (.sqrt (.rat 2 1)) (.par n!"GF")) (.rat 4 1)))),
  (n!"SeeRR_1111", (.div (.inp n!"CSRR_eeee") (.div (.div (.sqrt (.rat 2 1)) (.par n!"GF")) (.rat 4 1)))),
  (n!"SnueduRR_3211", (.conj (.div (.inp n!"CSL_dumunutau") (.div (.div (.div (.neg (.sqrt (.rat 2 1))) (.par n!"GF")) (.ckm 0 0)) (.rat 4 1))))),
  (n!"SedRL_3331", (.add (.neg (.conj (.div (.div (.inp n!"CP_bdtautau") (.div (.div (.mul (.rat 16 1) (.mul .pi .pi)) (.mul (.sqrt (.mul (.mul (.rat 4 1) .pi) (.par n!"alpha_e"))) (.sqrt (.mul (.mul (.rat 4 1) .pi) (.par n!"alpha_e"))))) (.par n!"m_b"))) (.div (.div (.div (.sqrt (.rat 2 1)) (.par n!"GF")) (.mul (.ckm 2 2) (.conj (.ckm 2 0)))) (.rat 4 1))))) (.conj (.div (.div (.inp n!"CS_bdtautau") (.div (.div (.mul (.rat 16 1) (.mul .pi .pi)) (.mul (.sqrt (.mul (.mul (.rat 4 1) .pi) (.par n!"alpha_e"))) (.sqrt (.mul (.mul (.rat 4 1) .pi) (.par n!"alpha_e"))))) (.par n!"m_b"))) (.div (.div (.div (.sqrt (.rat 2 1)) (.par n!"GF")) (.mul (.ckm 2 2) (.conj (.ckm 2 0)))) (.rat 4 1)))))),
  (n!"TeuRR_3312", (.add (.div (.rat 0 1) (.div (.div (.div (.sqrt (.rat 2 1)) (.par n!"GF")) (.mul (.conj (.ckm 1 2)) (.ckm 0 2))) (.rat 4 1))) (.div (.rat 0 1) (.div (.div (.div (.sqrt (.rat 2 1)) (.par n!"GF")) (.mul (.conj (.ckm 1 2)) (.ckm 0 2))) (.rat 4 1))))),
  (n!"SedRL_1122", (.div (.inp n!"CSRL_eess") (.div (.div (.sqrt (.rat 2 1)) (.par n!"GF")) (.rat 4 1)))),
  (n!"S8uuRR_2121", (.mul (.rat 2 1) (.mul (.rat (-8) 1) (.inp n!"CTRR_ucuc")))),
  (n!"V8udRR_1233", (.mul (.rat 2 1) (.mul (.mul (.div (.mul (.rat 4 1) (.par n!"GF")) (.sqrt (.rat 2 1))) (.mul (.conj (.ckm 1 2)) (.ckm 0 2))) (.inp n!"CVRRt_cubb")))),
  (n!"VedLL_1231", (.conj (.add (.neg (.div (.div (.inp n!"C10_bdemu") (.div (.mul (.rat 16 1) (.mul .pi .pi)) (.mul (.sqrt (.mul (.mul (.rat 4 1) .pi) (.par n!"alpha_e"))) (.sqrt (.mul (.mul (.rat 4 1) .pi) (.par n!"alpha_e")))))) (.div (.div (.div (.sqrt (.rat 2 1)) (.par n!"GF")) (.mul (.ckm 2 2) (.conj (.ckm 2 0)))) (.rat 4 1)))) (.div (.div (.inp n!"C9_bdemu") (.div (.mul (.rat 16 1) (.mul .pi .pi)) (.mul (.sqrt (.mul (.mul (.rat 4 1) .pi) (.par n!"alpha_e"))) (.sqrt (.mul (.mul (.rat 4 1) .pi) (.par n!"alpha_e")))))) (.div (.div (.div (.sqrt (.rat 2 1)) (.par n!"GF")) (.mul (.ckm 2 2) (.conj (.ckm 2 0)))) (.rat 4 1)))))),
  (n!"SnueduRL_2311", (.conj (.div (.inp n!"CSR_dutaunumu") (.div (.div (.div (.neg (.sqrt (.rat 2 1))) (.par n!"GF")) (.ckm 0 0)) (.rat 4 1))))),
  (n!"SedRR_1212", (.add (.div (.div (.inp n!"CP_sdmue") (.div (.div (.mul (.rat 16 1) (.mul .pi .pi)) (.mul (.sqrt (.mul (.mul (.rat 4 1) .pi) (.par n!"alpha_e"))) (.sqrt (.mul (.mul (.rat 4 1) .pi) (.par n!"alpha_e"))))) (.par n!"m_s"))) (.div (.div (.div (.sqrt (.rat 2 1)) (.par n!"GF")) (.mul (.ckm 2 1) (.conj (.ckm 2 0)))) (.rat 4 1))) (.div (.div (.inp n!"CS_sdmue") (.div (.div (.mul (.rat 16 1) (.mul .pi .pi)) (.mul (.sqrt (.mul (.mul (.rat 4 1) .pi) (.par n!"alpha_e"))) (.sqrt (.mul (.mul (.rat 4 1) .pi) (.par n!"alpha_e"))))) (.par n!"m_s"))) (.div (.div (.div (.sqrt (.rat 2 1)) (.par n!"GF")) (.mul (.ckm 2 1) (.conj (.ckm 2 0)))) (.rat 4 1))))),
  (n!"V8ddLR_3322", (.div (.inp n!"CV8LR_bbss") (.div (.div (.sqrt (.rat 2 1)) (.par n!"GF")) (.rat 4 1)))),
  (n!"TnueduRR_1312", (.conj (.div (.inp n!"CT_dctaunue") (.div (.div (.div (.neg (.sqrt (.rat 2 1))) (.par n!"GF")) (.ckm 1 0)) (.rat 4 1))))),
  (n!"VedLL_2313", (.add (.neg (.div (.div (.inp n!"C10_bdtaumu") (.div (.mul (.rat 16 1) (.mul .pi .pi)) (.mul (.sqrt (.mul (.mul (.rat 4 1) .pi) (.par n!"alpha_e"))) (.sqrt (.mul (.mul (.rat 4 1) .pi) (.par n!"alpha_e")))))) (.div (.div (.div (.sqrt (.rat 2 1)) (.par n!"GF")) (.mul (.ckm 2 2) (.conj (.ckm 2 0)))) (.rat 4 1)))) (.div (.div (.inp n!"C9_bdtaumu") (.div (.mul (.rat 16 1) (.mul .pi .pi)) (.mul (.sqrt (.mul (.mul (.rat 4 1) .pi) (.par n!"alpha_e"))) (.sqrt (.mul (.mul (.rat 4 1) .pi) (.par n!"alpha_e")))))) (.div (.div (.div (.sqrt (.rat 2 1)) (.par n!"GF")) (.mul (.ckm 2 2) (.conj (.ckm 2 0)))) (.rat 4 1))))),
  (n!"V1udRR_2213", (.add (.mul (.mul (.div (.mul (.rat 4 1) (.par n!"GF")) (.sqrt (.rat 2 1))) (.mul (.ckm 2 2) (.conj (.ckm 2 0)))) (.inp n!"CVRR_bdcc")) (.div (.mul (.mul (.div (.mul (.rat 4 1) (.par n!"GF")) (.sqrt (.rat 2 1))) (.mul (.ckm 2 2) (.conj (.ckm 2 0)))) (.inp n!"CVRRt_bdcc")) (.rat 3 1)))),
  (n!"V8ddLR_1113", (.mul (.rat 2 1) (.mul (.div (.rat (-1) 1) (.rat 2 1)) (.mul (.mul (.div (.mul (.rat 4 1) (.par n!"GF")) (.sqrt (.rat 2 1))) (.mul (.ckm 2 2) (.conj (.ckm 2 0)))) (.inp n!"CSRL_bddd"))))),
  (n!"VedLR_1321", (.conj (.add (.neg (.div (.div (.inp n!"C10p_sdetau") (.div (.mul (.rat 16 1) (.mul .pi .pi)) (.mul (.sqrt (.mul (.mul (.rat 4 1) .pi) (.par n!"alpha_e"))) (.sqrt (.mul (.mul (.rat 4 1) .pi) (.par n!"alpha_e")))))) (.div (.div (.div (.sqrt (.rat 2 1)) (.par n!"GF")) (.mul (.ckm 2 1) (.conj (.ckm 2 0)))) (.rat 4 1)))) (.div (.div (.inp n!"C9p_sdetau") (.div (.mul (.rat 16 1) (.mul .pi .pi)) (.mul (.sqrt (.mul (.mul (.rat 4 1) .pi) (.par n!"alpha_e"))) (.sqrt (.mul (.mul (.rat 4 1) .pi) (.par n!"alpha_e")))))) (.div (.div (.div (.sqrt (.rat 2 1)) (.par n!"GF")) (.mul (.ckm 2 1) (.conj (.ckm 2 0)))) (.rat 4 1)))))),
  (n!"S1ddRR_2233", (.div (.inp n!"CS1RR_ssbb") (.div (.div (.sqrt (.rat 2 1)) (.par n!"GF")) (.rat 4 1)))),
  (n!"V8udduLR_1221", (.div (.inp n!"CV8LR_ussu") (.div (.div (.sqrt (.rat 2 1)) (.par n!"GF")) (.rat 4 1)))),
  (n!"ugamma_22", (.div (.mul (.div (.par n!"m_c") (.div (.mul (.rat 16 1) (.mul .pi .pi)) (.sqrt (.mul (.mul (.rat 4 1) .pi) (.par n!"alpha_e"))))) (.inp n!"C7_cc")) (.div (.div (.sqrt (.rat 2 1)) (.par n!"GF")) (.rat 4 1)))),
  (n!"VdeLR_2222", (.div (.inp n!"CVLR_ssmumu") (.div (.div (.sqrt (.rat 2 1)) (.par n!"GF")) (.rat 4 1)))),
  (n!"VnueduLL_3132", (.conj (.div (.inp n!"CVL_bcenutau") (.div (.div (.div (.neg (.sqrt (.rat 2 1))) (.par n!"GF")) (.ckm 1 2)) (.rat 4 1))))),
  (n!"S1udduRR_2322", (.sub (.neg (.div (.mul (.rat 8 1) (.mul (.mul (.div (.mul (.rat 4 1) (.par n!"GF")) (.sqrt (.rat 2 1))) (.mul (.ckm 2 2) (.conj (.ckm 2 1)))) (.inp n!"CTRR_bscc"))) (.rat 3 1))) (.mul (.rat 8 1) (.mul (.mul (.div (.mul (.rat 4 1) (.par n!"GF")) (.sqrt (.rat 2 1))) (.mul (.ckm 2 2) (.conj (.ckm 2 1)))) (.inp n!"CTRRt_bscc"))))),
  (n!"VddLL_2233", (.div (.inp n!"CVLL_ssbb") (.div (.div (.sqrt (.rat 2 1)) (.par n!"GF")) (.rat 4 1)))),
  (n!"VnudLR_1111", (.div (.inp n!"CVLR_nuenuedd") (.div (.div (.sqrt (.rat 2 1)) (.par n!"GF")) (.rat 4 1)))),
  (n!"VnueduLR_3222", (.conj (.div (.inp n!"CVR_scmunutau") (.div (.div (.div (.neg (.sqrt (.rat 2 1))) (.par n!"GF")) (.ckm 1 1)) (.rat 4 1))))),
  (n!"V8duLR_1322", (.mul (.rat 2 1) (.mul (.mul (.div (.mul (.rat 4 1) (.par n!"GF")) (.sqrt (.rat 2 1))) (.mul (.ckm 2 2) (.conj (.ckm 2 0)))) (.inp n!"CVLRt_bdcc")))),
  (n!"VeeLL_1122", (.div (.inp n!"CVLL_eemumu") (.div (.div (.sqrt (.rat 2 1)) (.par n!"GF")) (.rat 4 1)))),
  (n!"SnueduRR_2121", (.conj (.div (.inp n!"CSL_suenumu") (.div (.div (.div (.neg (.sqrt (.rat 2 1))) (.par n!"GF")) (.ckm 0 1)) (.rat 4 1))))),
  (n!"VnudLR_1332", (.conj (.div (.div (.inp n!"CR_bsnuenutau") (.div (.mul (.rat 8 1) (.mul .pi .pi)) (.mul (.sqrt (.mul (.mul (.rat 4 1) .pi) (.par n!"alpha_e"))) (.sqrt (.mul (.mul (.rat 4 1) .pi) (.par n!"alpha_e")))))) (.div (.div (.div (.sqrt (.rat 2 1)) (.par n!"GF")) (.mul (.ckm 2 2) (.conj (.ckm 2 1)))) (.rat 4 1))))),
  (n!"TeuRR_2222", (.div (.inp n!"CTRR_mumucc") (.div (.div (.sqrt (.rat 2 1)) (.par n!"GF")) (.rat 4 1)))),
  (n!"S8ddRR_3233", (.mul (.rat (-16) 1) (.conj (.mul (.mul (.div (.mul (.rat 4 1) (.par n!"GF")) (.sqrt (.rat 2 1))) (.mul (.ckm 2 2) (.conj (.ckm 2 1)))) (.inp n!"CTLL_bsbb"))))),
  (n!"S8udRR_2221", (.sub (.mul (.rat 2 1) (.conj (.mul (.mul (.div (.mul (.rat 4 1) (.par n!"GF")) (.sqrt (.rat 2 1))) (.mul (.ckm 2 1) (.conj (.ckm 2 0)))) (.inp n!"CSLLt_sdcc")))) (.mul (.rat 8 1) (.conj (.mul (.mul (.div (.mul (.rat 4 1) (.par n!"GF")) (.sqrt (.rat 2 1))) (.mul (.ckm 2 1) (.conj (.ckm 2 0)))) (.inp n!"CTLLt_sdcc")))))),
  (n!"SedRL_3323", (.add (.div (.div (.inp n!"CPp_bstautau") (.div (.div (.mul (.rat 16 1) (.mul .pi .pi)) (.mul (.sqrt (.mul (.mul (.rat 4 1) .pi) (.par n!"alpha_e"))) (.sqrt (.mul (.mul (.rat 4 1) .pi) (.par n!"alpha_e"))))) (.par n!"m_b"))) (.div (.div (.div (.sqrt (.rat 2 1)) (.par n!"GF")) (.mul (.ckm 2 2) (.conj (.ckm 2 1)))) (.rat 4 1))) (.div (.div (.inp n!"CSp_bstautau") (.div (.div (.mul (.rat 16 1) (.mul .pi .pi)) (.mul (.sqrt (.mul (.mul (.rat 4 1) .pi) (.par n!"alpha_e"))) (.sqrt (.mul (.mul (.rat 4 1) .pi) (.par n!"alpha_e"))))) (.par n!"m_b"))) (.div (.div (.div (.sqrt (.rat 2 1)) (.par n!"GF")) (.mul (.ckm 2 2) (.conj (.ckm 2 1)))) (.rat 4 1))))),
  (n!"VnueduLL_2322", (.conj (.div (.inp n!"CVL_sctaunumu") (.div (.div (.div (.neg (.sqrt (.rat 2 1))) (.par n!"GF")) (.ckm 1 1)) (.rat 4 1))))),
  (n!"SnueduRL_1221", (.conj (.div (.inp n!"CSR_sumunue") (.div (.div (.div (.neg (.sqrt (.rat 2 1))) (.par n!"GF")) (.ckm 0 1)) (.rat 4 1))))),
  (n!"V8udLL_2212", (.mul (.rat 2 1) (.mul (.mul (.div (.mul (.rat 4 1) (.par n!"GF")) (.sqrt (.rat 2 1))) (.mul (.ckm 2 1) (.conj (.ckm 2 0)))) (.inp n!"CVLLt_sdcc")))),
  (n!"SedRR_2331", (.add (.neg (.conj (.div (.div (.inp n!"CPp_bdmutau") (.div (.div (.mul (.rat 16 1) (.mul .pi .pi)) (.mul (.sqrt (.mul (.mul (.rat 4 1) .pi) (.par n!"alpha_e"))) (.sqrt (.mul (.mul (.rat 4 1) .pi) (.par n!"alpha_e"))))) (.par n!"m_b"))) (.div (.div (.div (.sqrt (.rat 2 1)) (.par n!"GF")) (.mul (.ckm 2 2) (.conj (.ckm 2 0)))) (.rat 4 1))))) (.conj (.div (.div (.inp n!"CSp_bdmutau") (.div (.div (.mul (.rat 16 1) (.mul .pi .pi)) (.mul (.sqrt (.mul (.mul (.rat 4 1) .pi) (.par n!"alpha_e"))) (.sqrt (.mul (.mul (.rat 4 1) .pi) (.par n!"alpha_e"))))) (.par n!"m_b"))) (.div (.div (.div (.sqrt (.rat 2 1)) (.par n!"GF")) (.mul (.ckm 2 2) (.conj (.ckm 2 0)))) (.rat 4 1)))))),
  (n!"S1ddRR_3131", (.add (.conj (.sub (.inp n!"CSLL_bdbd") (.mul (.rat 4 1) (.inp n!"CTLL_bdbd")))) (.div (.conj (.mul (.rat (-8) 1) (.inp n!"CTLL_bdbd"))) (.rat 3 1)))),
  (n!"VueLR_2233", (.div (.inp n!"CVLR_cctautau") (.div (.div (.sqrt (.rat 2 1)) (.par n!"GF")) (.rat 4 1)))),
  (n!"VnueLL_1133", (.div (.inp n!"CVLL_nuenuetautau") (.div (.div (.sqrt (.rat 2 1)) (.par n!"GF")) (.rat 4 1)))),
  (n!"VedLL_1223", (.add (.neg (.div (.div (.inp n!"C10_bsmue") (.div (.mul (.rat 16 1) (.mul .pi .pi)) (.mul (.sqrt (.mul (.mul (.rat 4 1) .pi) (.par n!"alpha_e"))) (.sqrt (.mul (.mul (.rat 4 1) .pi) (.par n!"alpha_e")))))) (.div (.div (.div (.sqrt (.rat 2 1)) (.par n!"GF")) (.mul (.ckm 2 2) (.conj (.ckm 2 1)))) (.rat 4 1)))) (.div (.div (.inp n!"C9_bsmue") (.div (.mul (.rat 16 1) (.mul .pi .pi)) (.mul (.sqrt (.mul (.mul (.rat 4 1) .pi) (.par n!"alpha_e"))) (.sqrt (.mul (.mul (.rat 4 1) .pi) (.par n!"alpha_e")))))) (.div (.div (.div (.sqrt (.rat 2 1)) (.par n!"GF")) (.mul (.ckm 2 2) (.conj (.ckm 2 1)))) (.rat 4 1))))),
  (n!"V1udRR_1123", (.add (.mul (.mul (.div (.mul (.rat 4 1) (.par n!"GF")) (.sqrt (.rat 2 1))) (.mul (.ckm 2 2) (.conj (.ckm 2 1)))) (.inp n!"CVRR_bsuu")) (.div (.mul (.mul (.div (.mul (.rat 4 1) (.par n!"GF")) (.sqrt (.rat 2 1))) (.mul (.ckm 2 2) (.conj (.ckm 2 1)))) (.inp n!"CVRRt_bsuu")) (.rat 3 1)))),
  (n!"V1udduLR_2112", (.div (.inp n!"CV1LR_cddc") (.div (.div (.sqrt (.rat 2 1)) (.par n!"GF")) (.rat 4 1)))),
  (n!"SeuRL_3311", (.div (.inp n!"CSRL_tautauuu") (.div (.div (.sqrt (.rat 2 1)) (.par n!"GF")) (.rat 4 1)))),
  (n!"V8uuLR_1112", (.mul (.rat 2 1) (.mul (.div (.rat (-1) 1) (.rat 2 1)) (.mul (.mul (.div (.mul (.rat 4 1) (.par n!"GF")) (.sqrt (.rat 2 1))) (.mul (.conj (.ckm 1 2)) (.ckm 0 2))) (.inp n!"CSRL_cuuu"))))),
  (n!"VeuRR_2212", (.add (.div (.div (.inp n!"C10p_cumumu") (.div (.mul (.rat 16 1) (.mul .pi .pi)) (.mul (.sqrt (.mul (.mul (.rat 4 1) .pi) (.par n!"alpha_e"))) (.sqrt (.mul (.mul (.rat 4 1) .pi) (.par n!"alpha_e")))))) (.div (.div (.div (.sqrt (.rat 2 1)) (.par n!"GF")) (.mul (.conj (.ckm 1 2)) (.ckm 0 2))) (.rat 4 1))) (.div (.div (.inp n!"C9p_cumumu") (.div (.mul (.rat 16 1) (.mul .pi .pi)) (.mul (.sqrt (.mul (.mul (.rat 4 1) .pi) (.par n!"alpha_e"))) (.sqrt (.mul (.mul (.rat 4 1) .pi) (.par n!"alpha_e")))))) (.div (.div (.div (.sqrt (.rat 2 1)) (.par n!"GF")) (.mul (.conj (.ckm 1 2)) (.ckm 0 2))) (.rat 4 1))))),
  (n!"TedRR_3132", (.sub (.conj (.div (.rat 0 1) (.div (.div (.div (.sqrt (.rat 2 1)) (.par n!"GF")) (.mul (.ckm 2 2) (.conj (.ckm 2 1)))) (.rat 4 1)))) (.conj (.div (.rat 0 1) (.div (.div (.div (.sqrt (.rat 2 1)) (.par n!"GF")) (.mul (.ckm 2 2) (.conj (.ckm 2 1)))) (.rat 4 1))))))]

def flavio_to_JMS_26 : List (ℕ × Sym) := [
  (n!"SnueduRR_1311", (.conj (.div (.inp n!"CSL_dutaunue") (.div (.div (.div (.neg (.sqrt (.rat 2 1))) (.par n!"GF")) (.ckm 0 0)) (.rat 4 1))))),
  (n!"VedLR_1313", (.add (.neg (.div (.div (.inp n!"C10p_bdtaue") (.div (.mul (.rat 16 1) (.mul .pi .pi)) (.mul (.sqrt (.mul (.mul (.rat 4 1) .pi) (.par n!"alpha_e"))) (.sqrt (.mul (.mul (.rat 4 1) .pi) (.par n!"alpha_e")))))) (.div (.div (.div (.sqrt (.rat 2 1)) (.par n!"GF")) (.mul (.ckm 2 2) (.conj (.ckm 2 0)))) (.rat 4 1)))) (.div (.div (.inp n!"C9p_bdtaue") (.div (.mul (.rat 16 1) (.mul .pi .pi)) (.mul (.sqrt (.mul (.mul (.rat 4 1) .pi) (.par n!"alpha_e"))) (.sqrt (.mul (.mul (.rat 4 1) .pi) (.par n!"alpha_e")))))) (.div (.div (.div (.sqrt (.rat 2 1)) (.par n!"GF")) (.mul (.ckm 2 2) (.conj (.ckm 2 0)))) (.rat 4 1))))),
  (n!"VnueLL_2311", (.div (.inp n!"CVLL_numunutauee") (.div (.div (.sqrt (.rat 2 1)) (.par n!"GF")) (.rat 4 1)))),
  (n!"VnueduLR_2132", (.conj (.div (.inp n!"CVR_bcenumu") (.div (.div (.div (.neg (.sqrt (.rat 2 1))) (.par n!"GF")) (.ckm 1 2)) (.rat 4 1))))),
  (n!"VnudLR_3312", (.div (.div (.inp n!"CR_sdnutaunutau") (.div (.mul (.rat 8 1) (.mul .pi .pi)) (.mul (.sqrt (.mul (.mul (.rat 4 1) .pi) (.par n!"alpha_e"))) (.sqrt (.mul (.mul (.rat 4 1) .pi) (.par n!"alpha_e")))))) (.div (.div (.div (.sqrt (.rat 2 1)) (.par n!"GF")) (.mul (.ckm 2 1) (.conj (.ckm 2 0)))) (.rat 4 1)))),
  (n!"SeeRR_2222", (.div (.inp n!"CSRR_mumumumu") (.div (.div (.sqrt (.rat 2 1)) (.par n!"GF")) (.rat 4 1)))),
  (n!"VddRR_1113", (.mul (.mul (.div (.mul (.rat 4 1) (.par n!"GF")) (.sqrt (.rat 2 1))) (.mul (.ckm 2 2) (.conj (.ckm 2 0)))) (.inp n!"CVRR_bddd"))),
  (n!"VnuuLL_1222", (.div (.inp n!"CVLL_nuenumucc") (.div (.div (.sqrt (.rat 2 1)) (.par n!"GF")) (.rat 4 1)))),
  (n!"S8udRR_1131", (.sub (.mul (.rat 2 1) (.conj (.mul (.mul (.div (.mul (.rat 4 1) (.par n!"GF")) (.sqrt (.rat 2 1))) (.mul (.ckm 2 2) (.conj (.ckm 2 0)))) (.inp n!"CSLLt_bduu")))) (.mul (.rat 8 1) (.conj (.mul (.mul (.div (.mul (.rat 4 1) (.par n!"GF")) (.sqrt (.rat 2 1))) (.mul (.ckm 2 2) (.conj (.ckm 2 0)))) (.inp n!"CTLLt_bduu")))))),
  (n!"SedRL_2233", (.div (.inp n!"CSRL_mumubb") (.div (.div (.sqrt (.rat 2 1)) (.par n!"GF")) (.rat 4 1)))),
  (n!"VnueduLL_1232", (.conj (.div (.inp n!"CVL_bcmunue") (.div (.div (.div (.neg (.sqrt (.rat 2 1))) (.par n!"GF")) (.ckm 1 2)) (.rat 4 1))))),
  (n!"V8udLL_1122", (.div (.inp n!"CV8LL_uuss") (.div (.div (.sqrt (.rat 2 1)) (.par n!"GF")) (.rat 4 1)))),
  (n!"S8udRR_2213", (.sub (.mul (.rat 2 1) (.mul (.mul (.div (.mul (.rat 4 1) (.par n!"GF")) (.sqrt (.rat 2 1))) (.mul (.ckm 2 2) (.conj (.ckm 2 0)))) (.inp n!"CSRRt_bdcc"))) (.mul (.rat 8 1) (.mul (.mul (.div (.mul (.rat 4 1) (.par n!"GF")) (.sqrt (.rat 2 1))) (.mul (.ckm 2 2) (.conj (.ckm 2 0)))) (.inp n!"CTRRt_bdcc"))))),
  (n!"SedRR_2323", (.add (.div (.div (.inp n!"CP_bstaumu") (.div (.div (.mul (.rat 16 1) (.mul .pi .pi)) (.mul (.sqrt (.mul (.mul (.rat 4 1) .pi) (.par n!"alpha_e"))) (.sqrt (.mul (.mul (.rat 4 1) .pi) (.par n!"alpha_e"))))) (.par n!"m_b"))) (.div (.div (.div (.sqrt (.rat 2 1)) (.par n!"GF")) (.mul (.ckm 2 2) (.conj (.ckm 2 1)))) (.rat 4 1))) (.div (.div (.inp n!"CS_bstaumu") (.div (.div (.mul (.rat 16 1) (.mul .pi .pi)) (.mul (.sqrt (.mul (.mul (.rat 4 1) .pi) (.par n!"alpha_e"))) (.sqrt (.mul (.mul (.rat 4 1) .pi) (.par n!"alpha_e"))))) (.par n!"m_b"))) (.div (.div (.div (.sqrt (.rat 2 1)) (.par n!"GF")) (.mul (.ckm 2 2) (.conj (.ckm 2 1)))) (.rat 4 1))))),
  (n!"VedLR_2211", (.div (.inp n!"CVLR_mumudd") (.div (.div (.sqrt (.rat 2 1)) (.par n!"GF")) (.rat 4 1)))),
  (n!"SeuRL_2221", (.add (.neg (.conj (.div (.div (.inp n!"CP_cumumu") (.div (.div (.mul (.rat 16 1) (.mul .pi .pi)) (.mul (.sqrt (.mul (.mul (.rat 4 1) .pi) (.par n!"alpha_e"))) (.sqrt (.mul (.mul (.rat 4 1) .pi) (.par n!"alpha_e"))))) (.par n!"m_c"))) (.div (.div (.div (.sqrt (.rat 2 1)) (.par n!"GF")) (.mul (.conj (.ckm 1 2)) (.ckm 0 2))) (.rat 4 1))))) (.conj (.div (.div (.inp n!"CS_cumumu") (.div (.div (.mul (.rat 16 1) (.mul .pi .pi)) (.mul (.sqrt (.mul (.mul (.rat 4 1) .pi) (.par n!"alpha_e"))) (.sqrt (.mul (.mul (.rat 4 1) .pi) (.par n!"alpha_e"))))) (.par n!"m_c"))) (.div (.div (.div (.sqrt (.rat 2 1)) (.par n!"GF")) (.mul (.conj (.ckm 1 2)) (.ckm 0 2))) (.rat 4 1)))))),
  (n!"S1udRR_2111", (.sub (.sub (.add (.conj (.mul (.mul (.div (.mul (.rat 4 1) (.par n!"GF")) (.sqrt (.rat 2 1))) (.mul (.conj (.ckm 1 2)) (.ckm 0 2))) (.inp n!"CSLL_cudd"))) (.div (.conj (.mul (.mul (.div (.mul (.rat 4 1) (.par n!"GF")) (.sqrt (.rat 2 1))) (.mul (.conj (.ckm 1 2)) (.ckm 0 2))) (.inp n!"CSLLt_cudd"))) (.rat 3 1))) (.mul (.rat 4 1) (.conj (.mul (.mul (.div (.mul (.rat 4 1) (.par n!"GF")) (.sqrt (.rat 2 1))) (.mul (.conj (.ckm 1 2)) (.ckm 0 2))) (.inp n!"CTLL_cudd"))))) (.div (.mul (.rat 4 1) (.conj (.mul (.mul (.div (.mul (.rat 4 1) (.par n!"GF")) (.sqrt (.rat 2 1))) (.mul (.conj (.ckm 1 2)) (.ckm 0 2))) (.inp n!"CTLLt_cudd")))) (.rat 3 1)))),
  (n!"VnueduLR_1322", (.conj (.div (.inp n!"CVR_sctaunue") (.div (.div (.div (.neg (.sqrt (.rat 2 1))) (.par n!"GF")) (.ckm 1 1)) (.rat 4 1))))),
  (n!"V8udduLR_2111", (.neg (.conj (.mul (.mul (.div (.mul (.rat 4 1) (.par n!"GF")) (.sqrt (.rat 2 1))) (.mul (.conj (.ckm 1 2)) (.ckm 0 2))) (.inp n!"CSLR_cudd"))))),
  (n!"VeuRR_1122", (.div (.inp n!"CVRR_eecc") (.div (.div (.sqrt (.rat 2 1)) (.par n!"GF")) (.rat 4 1)))),
  (n!"VedRR_2312", (.add (.div (.div (.inp n!"C10p_sdtaumu") (.div (.mul (.rat 16 1) (.mul .pi .pi)) (.mul (.sqrt (.mul (.mul (.rat 4 1) .pi) (.par n!"alpha_e"))) (.sqrt (.mul (.mul (.rat 4 1) .pi) (.par n!"alpha_e")))))) (.div (.div (.div (.sqrt (.rat 2 1)) (.par n!"GF")) (.mul (.ckm 2 1) (.conj (.ckm 2 0)))) (.rat 4 1))) (.div (.div (.inp n!"C9p_sdtaumu") (.div (.mul (.rat 16 1) (.mul .pi .pi)) (.mul (.sqrt (.mul (.mul (.rat 4 1) .pi) (.par n!"alpha_e"))) (.sqrt (.mul (.mul (.rat 4 1) .pi) (.par n!"alpha_e")))))) (.div (.div (.div (.sqrt (.rat 2 1)) (.par n!"GF")) (.mul (.ckm 2 1) (.conj (.ckm 2 0)))) (.rat 4 1))))),
  (n!"S8ddRR_1112", (.mul (.rat (-16) 1) (.mul (.mul (.div (.mul (.rat 4 1) (.par n!"GF")) (.sqrt (.rat 2 1))) (.mul (.ckm 2 1) (.conj (.ckm 2 0)))) (.inp n!"CTRR_sddd")))),
  (n!"V8udduLR_2332", (.div (.inp n!"CV8LR_cbbc") (.div (.div (.sqrt (.rat 2 1)) (.par n!"GF")) (.rat 4 1)))),
  (n!"S8udduRR_1231", (.mul (.rat (-16) 1) (.conj (.mul (.mul (.div (.mul (.rat 4 1) (.par n!"GF")) (.sqrt (.rat 2 1))) (.mul (.ckm 2 2) (.conj (.ckm 2 1)))) (.inp n!"CTLL_bsuu"))))),
  (n!"VdeLR_3333", (.div (.inp n!"CVLR_bbtautau") (.div (.div (.sqrt (.rat 2 1)) (.par n!"GF")) (.rat 4 1)))),
  (n!"S8ddRR_1333", (.mul (.rat (-16) 1) (.mul (.mul (.div (.mul (.rat 4 1) (.par n!"GF")) (.sqrt (.rat 2 1))) (.mul (.ckm 2 2) (.conj (.ckm 2 0)))) (.inp n!"CTRR_bdbb")))),
  (n!"V1udRR_1211", (.add (.mul (.mul (.div (.mul (.rat 4 1) (.par n!"GF")) (.sqrt (.rat 2 1))) (.mul (.conj (.ckm 1 2)) (.ckm 0 2))) (.inp n!"CVRR_cudd")) (.div (.mul (.mul (.div (.mul (.rat 4 1) (.par n!"GF")) (.sqrt (.rat 2 1))) (.mul (.conj (.ckm 1 2)) (.ckm 0 2))) (.inp n!"CVRRt_cudd")) (.rat 3 1)))),
  (n!"V8duLR_2212", (.mul (.rat 2 1) (.mul (.mul (.div (.mul (.rat 4 1) (.par n!"GF")) (.sqrt (.rat 2 1))) (.mul (.conj (.ckm 1 2)) (.ckm 0 2))) (.inp n!"CVRLt_cuss")))),
  (n!"S1ddRR_1231", (.sub (.neg (.div (.mul (.rat 8 1) (.conj (.mul (.mul (.div (.mul (.rat 4 1) (.par n!"GF")) (.sqrt (.rat 2 1))) (.mul (.ckm 2 2) (.conj (.ckm 2 1)))) (.inp n!"CTLL_bsdd")))) (.rat 3 1))) (.mul (.rat 8 1) (.conj (.mul (.mul (.div (.mul (.rat 4 1) (.par n!"GF")) (.sqrt (.rat 2 1))) (.mul (.ckm 2 2) (.conj (.ckm 2 1)))) (.inp n!"CTLLt_bsdd")))))),
  (n!"VnudLR_2222", (.div (.inp n!"CVLR_numunumuss") (.div (.div (.sqrt (.rat 2 1)) (.par n!"GF")) (.rat 4 1)))),
  (n!"SedRL_3131", (.add (.neg (.conj (.div (.div (.inp n!"CP_bdtaue") (.div (.div (.mul (.rat 16 1) (.mul .pi .pi)) (.mul (.sqrt (.mul (.mul (.rat 4 1) .pi) (.par n!"alpha_e"))) (.sqrt (.mul (.mul (.rat 4 1) .pi) (.par n!"alpha_e"))))) (.par n!"m_b"))) (.div (.div (.div (.sqrt (.rat 2 1)) (.par n!"GF")) (.mul (.ckm 2 2) (.conj (.ckm 2 0)))) (.rat 4 1))))) (.conj (.div (.div (.inp n!"CS_bdtaue") (.div (.div (.mul (.rat 16 1) (.mul .pi .pi)) (.mul (.sqrt (.mul (.mul (.rat 4 1) .pi) (.par n!"alpha_e"))) (.sqrt (.mul (.mul (.rat 4 1) .pi) (.par n!"alpha_e"))))) (.par n!"m_b"))) (.div (.div (.div (.sqrt (.rat 2 1)) (.par n!"GF")) (.mul (.ckm 2 2) (.conj (.ckm 2 0)))) (.rat 4 1)))))),
  (n!"dgamma_32", (.conj (.div (.div (.inp n!"C7p_bs") (.div (.div (.mul (.rat 16 1) (.mul .pi .pi)) (.sqrt (.mul (.mul (.rat 4 1) .pi) (.par n!"alpha_e")))) (.par n!"m_b"))) (.div (.div (.div (.sqrt (.rat 2 1)) (.par n!"GF")) (.mul (.ckm 2 2) (.conj (.ckm 2 1)))) (.rat 4 1))))),
  (n!"VnueLR_1311", (.div (.inp n!"CVLR_nuenutauee") (.div (.div (.sqrt (.rat 2 1)) (.par n!"GF")) (.rat 4 1)))),
  (n!"VeeLL_2233", (.div (.inp n!"CVLL_mumutautau") (.div (.div (.sqrt (.rat 2 1)) (.par n!"GF")) (.rat 4 1)))),
  (n!"VuuRR_1112", (.mul (.mul (.div (.mul (.rat 4 1) (.par n!"GF")) (.sqrt (.rat 2 1))) (.mul (.conj (.ckm 1 2)) (.ckm 0 2))) (.inp n!"CVRR_cuuu"))),
  (n!"SnueduRR_3232", (.conj (.div (.inp n!"CSL_bcmunutau") (.div (.div (.div (.neg (.sqrt (.rat 2 1))) (.par n!"GF")) (.ckm 1 2)) (.rat 4 1))))),
  (n!"TedRR_1232", (.sub (.conj (.div (.rat 0 1) (.div (.div (.div (.sqrt (.rat 2 1)) (.par n!"GF")) (.mul (.ckm 2 2) (.conj (.ckm 2 1)))) (.rat 4 1)))) (.conj (.div (.rat 0 1) (.div (.div (.div (.sqrt (.rat 2 1)) (.par n!"GF")) (.mul (.ckm 2 2) (.conj (.ckm 2 1)))) (.rat 4 1)))))),
  (n!"VnueduLL_3212", (.conj (.div (.inp n!"CVL_dcmunutau") (.div (.div (.div (.neg (.sqrt (.rat 2 1))) (.par n!"GF")) (.ckm 1 0)) (.rat 4 1))))),
  (n!"VddLL_1231", (.conj (.mul (.mul (.div (.mul (.rat 4 1) (.par n!"GF")) (.sqrt (.rat 2 1))) (.mul (.ckm 2 2) (.conj (.ckm 2 1)))) (.inp n!"CVLLt_bsdd")))),
  (n!"SnueduRL_2111", (.conj (.div (.inp n!"CSR_duenumu") (.div (.div (.div (.neg (.sqrt (.rat 2 1))) (.par n!"GF")) (.ckm 0 0)) (.rat 4 1))))),
  (n!"VnudLL_1322", (.div (.inp n!"CVLL_nuenutauss") (.div (.div (.sqrt (.rat 2 1)) (.par n!"GF")) (.rat 4 1)))),
  (n!"SedRR_3221", (.add (.neg (.conj (.div (.div (.inp n!"CPp_sdtaumu") (.div (.div (.mul (.rat 16 1) (.mul .pi .pi)) (.mul (.sqrt (.mul (.mul (.rat 4 1) .pi) (.par n!"alpha_e"))) (.sqrt (.mul (.mul (.rat 4 1) .pi) (.par n!"alpha_e"))))) (.par n!"m_s"))) (.div (.div (.div (.sqrt (.rat 2 1)) (.par n!"GF")) (.mul (.ckm 2 1) (.conj (.ckm 2 0)))) (.rat 4 1))))) (.conj (.div (.div (.inp n!"CSp_sdtaumu") (.div (.div (.mul (.rat 16 1) (.mul .pi .pi)) (.mul (.sqrt (.mul (.mul (.rat 4 1) .pi) (.par n!"alpha_e"))) (.sqrt (.mul (.mul (.rat 4 1) .pi) (.par n!"alpha_e"))))) (.par n!"m_s"))) (.div (.div (.div (.sqrt (.rat 2 1)) (.par n!"GF")) (.mul (.ckm 2 1) (.conj (.ckm 2 0)))) (.rat 4 1)))))),
  (n!"TnueduRR_3321", (.conj (.div (.inp n!"CT_sutaunutau") (.div (.div (.div (.neg (.sqrt (.rat 2 1))) (.par n!"GF")) (.ckm 0 1)) (.rat 4 1))))),
  (n!"S8udRR_1123", (.sub (.mul (.rat 2 1) (.mul (.mul (.div (.mul (.rat 4 1) (.par n!"GF")) (.sqrt (.rat 2 1))) (.mul (.ckm 2 2) (.conj (.ckm 2 1)))) (.inp n!"CSRRt_bsuu"))) (.mul (.rat 8 1) (.mul (.mul (.div (.mul (.rat 4 1) (.par n!"GF")) (.sqrt (.rat 2 1))) (.mul (.ckm 2 2) (.conj (.ckm 2 1)))) (.inp n!"CTRRt_bsuu"))))),
  (n!"TnueduRR_1112", (.conj (.div (.inp n!"CT_dcenue") (.div (.div (.div (.neg (.sqrt (.rat 2 1))) (.par n!"GF")) (.ckm 1 0)) (.rat 4 1))))),
  (n!"SnueduRL_2332", (.conj (.div (.inp n!"CSR_bctaunumu") (.div (.div (.div (.neg (.sqrt (.rat 2 1))) (.par n!"GF")) (.ckm 1 2)) (.rat 4 1))))),
  (n!"V8udRR_2211", (.div (.inp n!"CV8RR_ccdd") (.div (.div (.sqrt (.rat 2 1)) (.par n!"GF")) (.rat 4 1)))),
  (n!"S8ddRR_2231", (.sub (.mul (.rat 2 1) (.conj (.mul (.mul (.div (.mul (.rat 4 1) (.par n!"GF")) (.sqrt (.rat 2 1))) (.mul (.ckm 2 2) (.conj (.ckm 2 0)))) (.inp n!"CSLLt_bdss")))) (.mul (.rat 8 1) (.conj (.mul (.mul (.div (.mul (.rat 4 1) (.par n!"GF")) (.sqrt (.rat 2 1))) (.mul (.ckm 2 2) (.conj (.ckm 2 0)))) (.inp n!"CTLLt_bdss")))))),
  (n!"SedRL_2321", (.add (.neg (.conj (.div (.div (.inp n!"CP_sdmutau") (.div (.div (.mul (.rat 16 1) (.mul .pi .pi)) (.mul (.sqrt (.mul (.mul (.rat 4 1) .pi) (.par n!"alpha_e"))) (.sqrt (.mul (.mul (.rat 4 1) .pi) (.par n!"alpha_e"))))) (.par n!"m_s"))) (.div (.div (.div (.sqrt (.rat 2 1)) (.par n!"GF")) (.mul (.ckm 2 1) (.conj (.ckm 2 0)))) (.rat 4 1))))) (.conj (.div (.div (.inp n!"CS_sdmutau") (.div (.div (.mul (.rat 16 1) (.mul .pi .pi)) (.mul (.sqrt (.mul (.mul (.rat 4 1) .pi) (.par n!"alpha_e"))) (.sqrt (.mul (.mul (.rat 4 1) .pi) (.par n!"alpha_e"))))) (.par n!"m_s"))) (.div (.div (.div (.sqrt (.rat 2 1)) (.par n!"GF")) (.mul (.ckm 2 1) (.conj (.ckm 2 0)))) (.rat 4 1)))))),
  (n!"S1udduRR_2122", (.sub (.neg (.div (.mul (.rat 8 1) (.conj (.mul (.mul (.div (.mul (.rat 4 1) (.par n!"GF")) (.sqrt (.rat 2 1))) (.mul (.ckm 2 1) (.conj (.ckm 2 0)))) (.inp n!"CTLL_sdcc")))) (.rat 3 1))) (.mul (.rat 8 1) (.conj (.mul (.mul (.div (.mul (.rat 4 1) (.par n!"GF")) (.sqrt (.rat 2 1))) (.mul (.ckm 2 1) (.conj (.ckm 2 0)))) (.inp n!"CTLLt_sdcc"))))))]

def flavio_to_JMS_27 : List (ℕ × Sym) := [
  (n!"S8uuRR_1111", (.div (.inp n!"CS8RR_uuuu") (.div (.div (.sqrt (.rat 2 1)) (.par n!"GF")) (.rat 4 1)))),
  (n!"V1udLL_1233", (.add (.mul (.mul (.div (.mul (.rat 4 1) (.par n!"GF")) (.sqrt (.rat 2 1))) (.mul (.conj (.ckm 1 2)) (.ckm 0 2))) (.inp n!"CVLL_cubb")) (.div (.mul (.mul (.div (.mul (.rat 4 1) (.par n!"GF")) (.sqrt (.rat 2 1))) (.mul (.conj (.ckm 1 2)) (.ckm 0 2))) (.inp n!"CVLLt_cubb")) (.rat 3 1)))),
  (n!"V8duLR_1122", (.div (.inp n!"CV8LR_ddcc") (.div (.div (.sqrt (.rat 2 1)) (.par n!"GF")) (.rat 4 1)))),
  (n!"V8ddLR_2312", (.neg (.mul (.mul (.div (.mul (.rat 4 1) (.par n!"GF")) (.sqrt (.rat 2 1))) (.mul (.ckm 2 2) (.conj (.ckm 2 0)))) (.inp n!"CSLR_bdss")))),
  (n!"V1udduLR_1331", (.div (.inp n!"CV1LR_ubbu") (.div (.div (.sqrt (.rat 2 1)) (.par n!"GF")) (.rat 4 1)))),
  (n!"TedRR_3212", (.add (.div (.rat 0 1) (.div (.div (.div (.sqrt (.rat 2 1)) (.par n!"GF")) (.mul (.ckm 2 1) (.conj (.ckm 2 0)))) (.rat 4 1))) (.div (.rat 0 1) (.div (.div (.div (.sqrt (.rat 2 1)) (.par n!"GF")) (.mul (.ckm 2 1) (.conj (.ckm 2 0)))) (.rat 4 1))))),
  (n!"S1ddRR_1223", (.sub (.neg (.div (.mul (.rat 8 1) (.mul (.mul (.div (.mul (.rat 4 1) (.par n!"GF")) (.sqrt (.rat 2 1))) (.mul (.ckm 2 2) (.conj (.ckm 2 0)))) (.inp n!"CTRR_bdss"))) (.rat 3 1))) (.mul (.rat 8 1) (.mul (.mul (.div (.mul (.rat 4 1) (.par n!"GF")) (.sqrt (.rat 2 1))) (.mul (.ckm 2 2) (.conj (.ckm 2 0)))) (.inp n!"CTRRt_bdss"))))),
  (n!"SeeRR_3333", (.div (.inp n!"CSRR_tautautautau") (.div (.div (.sqrt (.rat 2 1)) (.par n!"GF")) (.rat 4 1)))),
  (n!"SedRL_3123", (.add (.div (.div (.inp n!"CPp_bsetau") (.div (.div (.mul (.rat 16 1) (.mul .pi .pi)) (.mul (.sqrt (.mul (.mul (.rat 4 1) .pi) (.par n!"alpha_e"))) (.sqrt (.mul (.mul (.rat 4 1) .pi) (.par n!"alpha_e"))))) (.par n!"m_b"))) (.div (.div (.div (.sqrt (.rat 2 1)) (.par n!"GF")) (.mul (.ckm 2 2) (.conj (.ckm 2 1)))) (.rat 4 1))) (.div (.div (.inp n!"CSp_bsetau") (.div (.div (.mul (.rat 16 1) (.mul .pi .pi)) (.mul (.sqrt (.mul (.mul (.rat 4 1) .pi) (.par n!"alpha_e"))) (.sqrt (.mul (.mul (.rat 4 1) .pi) (.par n!"alpha_e"))))) (.par n!"m_b"))) (.div (.div (.div (.sqrt (.rat 2 1)) (.par n!"GF")) (.mul (.ckm 2 2) (.conj (.ckm 2 1)))) (.rat 4 1))))),
  (n!"VdeLR_1212", (.add (.div (.div (.inp n!"C10_sdmue") (.div (.mul (.rat 16 1) (.mul .pi .pi)) (.mul (.sqrt (.mul (.mul (.rat 4 1) .pi) (.par n!"alpha_e"))) (.sqrt (.mul (.mul (.rat 4 1) .pi) (.par n!"alpha_e")))))) (.div (.div (.div (.sqrt (.rat 2 1)) (.par n!"GF")) (.mul (.ckm 2 1) (.conj (.ckm 2 0)))) (.rat 4 1))) (.div (.div (.inp n!"C9_sdmue") (.div (.mul (.rat 16 1) (.mul .pi .pi)) (.mul (.sqrt (.mul (.mul (.rat 4 1) .pi) (.par n!"alpha_e"))) (.sqrt (.mul (.mul (.rat 4 1) .pi) (.par n!"alpha_e")))))) (.div (.div (.div (.sqrt (.rat 2 1)) (.par n!"GF")) (.mul (.ckm 2 1) (.conj (.ckm 2 0)))) (.rat 4 1))))),
  (n!"VnueduLL_2122", (.conj (.div (.inp n!"CVL_scenumu") (.div (.div (.div (.neg (.sqrt (.rat 2 1))) (.par n!"GF")) (.ckm 1 1)) (.rat 4 1))))),
  (n!"SedRR_2131", (.add (.neg (.conj (.div (.div (.inp n!"CPp_bdmue") (.div (.div (.mul (.rat 16 1) (.mul .pi .pi)) (.mul (.sqrt (.mul (.mul (.rat 4 1) .pi) (.par n!"alpha_e"))) (.sqrt (.mul (.mul (.rat 4 1) .pi) (.par n!"alpha_e"))))) (.par n!"m_b"))) (.div (.div (.div (.sqrt (.rat 2 1)) (.par n!"GF")) (.mul (.ckm 2 2) (.conj (.ckm 2 0)))) (.rat 4 1))))) (.conj (.div (.div (.inp n!"CSp_bdmue") (.div (.div (.mul (.rat 16 1) (.mul .pi .pi)) (.mul (.sqrt (.mul (.mul (.rat 4 1) .pi) (.par n!"alpha_e"))) (.sqrt (.mul (.mul (.rat 4 1) .pi) (.par n!"alpha_e"))))) (.par n!"m_b"))) (.div (.div (.div (.sqrt (.rat 2 1)) (.par n!"GF")) (.mul (.ckm 2 2) (.conj (.ckm 2 0)))) (.rat 4 1)))))),
  (n!"dG_31", (.conj (.div (.div (.inp n!"C8p_bd") (.div (.div (.mul (.rat 16 1) (.mul .pi .pi)) (.sqrt (.mul (.mul (.rat 4 1) .pi) (.par n!"alpha_s")))) (.par n!"m_b"))) (.div (.div (.div (.sqrt (.rat 2 1)) (.par n!"GF")) (.mul (.ckm 2 2) (.conj (.ckm 2 0)))) (.rat 4 1))))),
  (n!"TnueduRR_2231", (.conj (.div (.inp n!"CT_bumunumu") (.div (.div (.div (.neg (.sqrt (.rat 2 1))) (.par n!"GF")) (.ckm 0 2)) (.rat 4 1))))),
  (n!"VddLL_1223", (.mul (.mul (.div (.mul (.rat 4 1) (.par n!"GF")) (.sqrt (.rat 2 1))) (.mul (.ckm 2 2) (.conj (.ckm 2 0)))) (.inp n!"CVLLt_bdss"))),
  (n!"V8udLL_2233", (.div (.inp n!"CV8LL_ccbb") (.div (.div (.sqrt (.rat 2 1)) (.par n!"GF")) (.rat 4 1)))),
  (n!"SedRR_3213", (.add (.div (.div (.inp n!"CP_bdmutau") (.div (.div (.mul (.rat 16 1) (.mul .pi .pi)) (.mul (.sqrt (.mul (.mul (.rat 4 1) .pi) (.par n!"alpha_e"))) (.sqrt (.mul (.mul (.rat 4 1) .pi) (.par n!"alpha_e"))))) (.par n!"m_b"))) (.div (.div (.div (.sqrt (.rat 2 1)) (.par n!"GF")) (.mul (.ckm 2 2) (.conj (.ckm 2 0)))) (.rat 4 1))) (.div (.div (.inp n!"CS_bdmutau") (.div (.div (.mul (.rat 16 1) (.mul .pi .pi)) (.mul (.sqrt (.mul (.mul (.rat 4 1) .pi) (.par n!"alpha_e"))) (.sqrt (.mul (.mul (.rat 4 1) .pi) (.par n!"alpha_e"))))) (.par n!"m_b"))) (.div (.div (.div (.sqrt (.rat 2 1)) (.par n!"GF")) (.mul (.ckm 2 2) (.conj (.ckm 2 0)))) (.rat 4 1))))),
  (n!"VnueduLR_2212", (.conj (.div (.inp n!"CVR_dcmunumu") (.div (.div (.div (.neg (.sqrt (.rat 2 1))) (.par n!"GF")) (.ckm 1 0)) (.rat 4 1))))),
  (n!"SnueduRR_1111", (.conj (.div (.inp n!"CSL_duenue") (.div (.div (.div (.neg (.sqrt (.rat 2 1))) (.par n!"GF")) (.ckm 0 0)) (.rat 4 1))))),
  (n!"SedRL_1231", (.add (.neg (.conj (.div (.div (.inp n!"CP_bdemu") (.div (.div (.mul (.rat 16 1) (.mul .pi .pi)) (.mul (.sqrt (.mul (.mul (.rat 4 1) .pi) (.par n!"alpha_e"))) (.sqrt (.mul (.mul (.rat 4 1) .pi) (.par n!"alpha_e"))))) (.par n!"m_b"))) (.div (.div (.div (.sqrt (.rat 2 1)) (.par n!"GF")) (.mul (.ckm 2 2) (.conj (.ckm 2 0)))) (.rat 4 1))))) (.conj (.div (.div (.inp n!"CS_bdemu") (.div (.div (.mul (.rat 16 1) (.mul .pi .pi)) (.mul (.sqrt (.mul (.mul (.rat 4 1) .pi) (.par n!"alpha_e"))) (.sqrt (.mul (.mul (.rat 4 1) .pi) (.par n!"alpha_e"))))) (.par n!"m_b"))) (.div (.div (.div (.sqrt (.rat 2 1)) (.par n!"GF")) (.mul (.ckm 2 2) (.conj (.ckm 2 0)))) (.rat 4 1)))))),
  (n!"VedLR_3322", (.div (.inp n!"CVLR_tautauss") (.div (.div (.sqrt (.rat 2 1)) (.par n!"GF")) (.rat 4 1)))),
  (n!"VedLR_1113", (.add (.neg (.div (.div (.inp n!"C10p_bdee") (.div (.mul (.rat 16 1) (.mul .pi .pi)) (.mul (.sqrt (.mul (.mul (.rat 4 1) .pi) (.par n!"alpha_e"))) (.sqrt (.mul (.mul (.rat 4 1) .pi) (.par n!"alpha_e")))))) (.div (.div (.div (.sqrt (.rat 2 1)) (.par n!"GF")) (.mul (.ckm 2 2) (.conj (.ckm 2 0)))) (.rat 4 1)))) (.div (.div (.inp n!"C9p_bdee") (.div (.mul (.rat 16 1) (.mul .pi .pi)) (.mul (.sqrt (.mul (.mul (.rat 4 1) .pi) (.par n!"alpha_e"))) (.sqrt (.mul (.mul (.rat 4 1) .pi) (.par n!"alpha_e")))))) (.div (.div (.div (.sqrt (.rat 2 1)) (.par n!"GF")) (.mul (.ckm 2 2) (.conj (.ckm 2 0)))) (.rat 4 1))))),
  (n!"SnueduRR_1332", (.conj (.div (.inp n!"CSL_bctaunue") (.div (.div (.div (.neg (.sqrt (.rat 2 1))) (.par n!"GF")) (.ckm 1 2)) (.rat 4 1))))),
  (n!"S8ddRR_2223", (.mul (.rat (-16) 1) (.mul (.mul (.div (.mul (.rat 4 1) (.par n!"GF")) (.sqrt (.rat 2 1))) (.mul (.ckm 2 2) (.conj (.ckm 2 1)))) (.inp n!"CTRR_bsss")))),
  (n!"S8udRR_1211", (.sub (.mul (.rat 2 1) (.mul (.mul (.div (.mul (.rat 4 1) (.par n!"GF")) (.sqrt (.rat 2 1))) (.mul (.conj (.ckm 1 2)) (.ckm 0 2))) (.inp n!"CSRRt_cudd"))) (.mul (.rat 8 1) (.mul (.mul (.div (.mul (.rat 4 1) (.par n!"GF")) (.sqrt (.rat 2 1))) (.mul (.conj (.ckm 1 2)) (.ckm 0 2))) (.inp n!"CTRRt_cudd"))))),
  (n!"SedRL_2313", (.add (.div (.div (.inp n!"CPp_bdtaumu") (.div (.div (.mul (.rat 16 1) (.mul .pi .pi)) (.mul (.sqrt (.mul (.mul (.rat 4 1) .pi) (.par n!"alpha_e"))) (.sqrt (.mul (.mul (.rat 4 1) .pi) (.par n!"alpha_e"))))) (.par n!"m_b"))) (.div (.div (.div (.sqrt (.rat 2 1)) (.par n!"GF")) (.mul (.ckm 2 2) (.conj (.ckm 2 0)))) (.rat 4 1))) (.div (.div (.inp n!"CSp_bdtaumu") (.div (.div (.mul (.rat 16 1) (.mul .pi .pi)) (.mul (.sqrt (.mul (.mul (.rat 4 1) .pi) (.par n!"alpha_e"))) (.sqrt (.mul (.mul (.rat 4 1) .pi) (.par n!"alpha_e"))))) (.par n!"m_b"))) (.div (.div (.div (.sqrt (.rat 2 1)) (.par n!"GF")) (.mul (.ckm 2 2) (.conj (.ckm 2 0)))) (.rat 4 1))))),
  (n!"VnueduLL_1312", (.conj (.div (.inp n!"CVL_dctaunue") (.div (.div (.div (.neg (.sqrt (.rat 2 1))) (.par n!"GF")) (.ckm 1 0)) (.rat 4 1))))),
  (n!"SedRR_1321", (.add (.neg (.conj (.div (.div (.inp n!"CPp_sdetau") (.div (.div (.mul (.rat 16 1) (.mul .pi .pi)) (.mul (.sqrt (.mul (.mul (.rat 4 1) .pi) (.par n!"alpha_e"))) (.sqrt (.mul (.mul (.rat 4 1) .pi) (.par n!"alpha_e"))))) (.par n!"m_s"))) (.div (.div (.div (.sqrt (.rat 2 1)) (.par n!"GF")) (.mul (.ckm 2 1) (.conj (.ckm 2 0)))) (.rat 4 1))))) (.conj (.div (.div (.inp n!"CSp_sdetau") (.div (.div (.mul (.rat 16 1) (.mul .pi .pi)) (.mul (.sqrt (.mul (.mul (.rat 4 1) .pi) (.par n!"alpha_e"))) (.sqrt (.mul (.mul (.rat 4 1) .pi) (.par n!"alpha_e"))))) (.par n!"m_s"))) (.div (.div (.div (.sqrt (.rat 2 1)) (.par n!"GF")) (.mul (.ckm 2 1) (.conj (.ckm 2 0)))) (.rat 4 1)))))),
  (n!"S1ddRR_2121", (.add (.conj (.sub (.inp n!"CSLL_sdsd") (.mul (.rat 4 1) (.inp n!"CTLL_sdsd")))) (.div (.conj (.mul (.rat (-8) 1) (.inp n!"CTLL_sdsd"))) (.rat 3 1)))),
  (n!"V8ddLR_1222", (.neg (.mul (.mul (.div (.mul (.rat 4 1) (.par n!"GF")) (.sqrt (.rat 2 1))) (.mul (.ckm 2 1) (.conj (.ckm 2 0)))) (.inp n!"CSRL_sdss")))),
  (n!"VnudLR_3333", (.div (.inp n!"CVLR_nutaunutaubb") (.div (.div (.sqrt (.rat 2 1)) (.par n!"GF")) (.rat 4 1)))),
  (n!"VdeLR_2331", (.add (.div (.div (.inp n!"C10_bsetau") (.div (.mul (.rat 16 1) (.mul .pi .pi)) (.mul (.sqrt (.mul (.mul (.rat 4 1) .pi) (.par n!"alpha_e"))) (.sqrt (.mul (.mul (.rat 4 1) .pi) (.par n!"alpha_e")))))) (.div (.div (.div (.sqrt (.rat 2 1)) (.par n!"GF")) (.mul (.ckm 2 2) (.conj (.ckm 2 1)))) (.rat 4 1))) (.div (.div (.inp n!"C9_bsetau") (.div (.mul (.rat 16 1) (.mul .pi .pi)) (.mul (.sqrt (.mul (.mul (.rat 4 1) .pi) (.par n!"alpha_e"))) (.sqrt (.mul (.mul (.rat 4 1) .pi) (.par n!"alpha_e")))))) (.div (.div (.div (.sqrt (.rat 2 1)) (.par n!"GF")) (.mul (.ckm 2 2) (.conj (.ckm 2 1)))) (.rat 4 1))))),
  (n!"S1uuRR_1222", (.sub (.neg (.div (.mul (.rat 8 1) (.mul (.mul (.div (.mul (.rat 4 1) (.par n!"GF")) (.sqrt (.rat 2 1))) (.mul (.conj (.ckm 1 2)) (.ckm 0 2))) (.inp n!"CTRR_cucc"))) (.rat 3 1))) (.mul (.rat 8 1) (.add (.mul (.div (.rat (-1) 1) (.rat 8 1)) (.mul (.mul (.div (.mul (.rat 4 1) (.par n!"GF")) (.sqrt (.rat 2 1))) (.mul (.conj (.ckm 1 2)) (.ckm 0 2))) (.inp n!"CSRR_cucc"))) (.mul (.div (.rat 1 1) (.rat 2 1)) (.mul (.mul (.div (.mul (.rat 4 1) (.par n!"GF")) (.sqrt (.rat 2 1))) (.mul (.conj (.ckm 1 2)) (.ckm 0 2))) (.inp n!"CTRR_cucc"))))))),
  (n!"VnudLL_2212", (.div (.div (.inp n!"CL_sdnumunumu") (.div (.mul (.rat 8 1) (.mul .pi .pi)) (.mul (.sqrt (.mul (.mul (.rat 4 1) .pi) (.par n!"alpha_e"))) (.sqrt (.mul (.mul (.rat 4 1) .pi) (.par n!"alpha_e")))))) (.div (.div (.div (.sqrt (.rat 2 1)) (.par n!"GF")) (.mul (.ckm 2 1) (.conj (.ckm 2 0)))) (.rat 4 1)))),
  (n!"S8udduRR_1311", (.mul (.rat (-16) 1) (.mul (.mul (.div (.mul (.rat 4 1) (.par n!"GF")) (.sqrt (.rat 2 1))) (.mul (.ckm 2 2) (.conj (.ckm 2 0)))) (.inp n!"CTRR_bduu")))),
  (n!"SnueduRL_3222", (.conj (.div (.inp n!"CSR_scmunutau") (.div (.div (.div (.neg (.sqrt (.rat 2 1))) (.par n!"GF")) (.ckm 1 1)) (.rat 4 1))))),
  (n!"VuuLL_1222", (.mul (.mul (.div (.mul (.rat 4 1) (.par n!"GF")) (.sqrt (.rat 2 1))) (.mul (.conj (.ckm 1 2)) (.ckm 0 2))) (.inp n!"CVLL_cucc"))),
  (n!"VnueduLR_3331", (.conj (.div (.inp n!"CVR_butaunutau") (.div (.div (.div (.neg (.sqrt (.rat 2 1))) (.par n!"GF")) (.ckm 0 2)) (.rat 4 1))))),
  (n!"SedRR_2123", (.add (.div (.div (.inp n!"CP_bsemu") (.div (.div (.mul (.rat 16 1) (.mul .pi .pi)) (.mul (.sqrt (.mul (.mul (.rat 4 1) .pi) (.par n!"alpha_e"))) (.sqrt (.mul (.mul (.rat 4 1) .pi) (.par n!"alpha_e"))))) (.par n!"m_b"))) (.div (.div (.div (.sqrt (.rat 2 1)) (.par n!"GF")) (.mul (.ckm 2 2) (.conj (.ckm 2 1)))) (.rat 4 1))) (.div (.div (.inp n!"CS_bsemu") (.div (.div (.mul (.rat 16 1) (.mul .pi .pi)) (.mul (.sqrt (.mul (.mul (.rat 4 1) .pi) (.par n!"alpha_e"))) (.sqrt (.mul (.mul (.rat 4 1) .pi) (.par n!"alpha_e"))))) (.par n!"m_b"))) (.div (.div (.div (.sqrt (.rat 2 1)) (.par n!"GF")) (.mul (.ckm 2 2) (.conj (.ckm 2 1)))) (.rat 4 1))))),
  (n!"VnueduLR_1122", (.conj (.div (.inp n!"CVR_scenue") (.div (.div (.div (.neg (.sqrt (.rat 2 1))) (.par n!"GF")) (.ckm 1 1)) (.rat 4 1))))),
  (n!"dG_23", (.div (.div (.inp n!"C8_bs") (.div (.div (.mul (.rat 16 1) (.mul .pi .pi)) (.sqrt (.mul (.mul (.rat 4 1) .pi) (.par n!"alpha_s")))) (.par n!"m_b"))) (.div (.div (.div (.sqrt (.rat 2 1)) (.par n!"GF")) (.mul (.ckm 2 2) (.conj (.ckm 2 1)))) (.rat 4 1)))),
  (n!"uG_11", (.div (.mul (.div (.par n!"m_u") (.div (.mul (.rat 16 1) (.mul .pi .pi)) (.sqrt (.mul (.mul (.rat 4 1) .pi) (.par n!"alpha_s"))))) (.inp n!"C8_uu")) (.div (.div (.sqrt (.rat 2 1)) (.par n!"GF")) (.rat 4 1)))),
  (n!"V8udduLR_2132", (.neg (.conj (.mul (.mul (.div (.mul (.rat 4 1) (.par n!"GF")) (.sqrt (.rat 2 1))) (.mul (.ckm 2 2) (.conj (.ckm 2 0)))) (.inp n!"CSRL_bdcc"))))),
  (n!"SnueduRR_3312", (.conj (.div (.inp n!"CSL_dctaunutau") (.div (.div (.div (.neg (.sqrt (.rat 2 1))) (.par n!"GF")) (.ckm 1 0)) (.rat 4 1))))),
  (n!"V8udRR_1113", (.mul (.rat 2 1) (.mul (.mul (.div (.mul (.rat 4 1) (.par n!"GF")) (.sqrt (.rat 2 1))) (.mul (.ckm 2 2) (.conj (.ckm 2 0)))) (.inp n!"CVRRt_bduu")))),
  (n!"TedRR_1312", (.add (.div (.rat 0 1) (.div (.div (.div (.sqrt (.rat 2 1)) (.par n!"GF")) (.mul (.ckm 2 1) (.conj (.ckm 2 0)))) (.rat 4 1))) (.div (.rat 0 1) (.div (.div (.div (.sqrt (.rat 2 1)) (.par n!"GF")) (.mul (.ckm 2 1) (.conj (.ckm 2 0)))) (.rat 4 1))))),
  (n!"V8udLR_1233", (.mul (.rat 2 1) (.mul (.mul (.div (.mul (.rat 4 1) (.par n!"GF")) (.sqrt (.rat 2 1))) (.mul (.conj (.ckm 1 2)) (.ckm 0 2))) (.inp n!"CVLRt_cubb")))),
  (n!"S8ddRR_1133", (.div (.inp n!"CS8RR_ddbb") (.div (.div (.sqrt (.rat 2 1)) (.par n!"GF")) (.rat 4 1)))),
  (n!"SedRL_1223", (.add (.div (.div (.inp n!"CPp_bsmue") (.div (.div (.mul (.rat 16 1) (.mul .pi .pi)) (.mul (.sqrt (.mul (.mul (.rat 4 1) .pi) (.par n!"alpha_e"))) (.sqrt (.mul (.mul (.rat 4 1) .pi) (.par n!"alpha_e"))))) (.par n!"m_b"))) (.div (.div (.div (.sqrt (.rat 2 1)) (.par n!"GF")) (.mul (.ckm 2 2) (.conj (.ckm 2 1)))) (.rat 4 1))) (.div (.div (.inp n!"CSp_bsmue") (.div (.div (.mul (.rat 16 1) (.mul .pi .pi)) (.mul (.sqrt (.mul (.mul (.rat 4 1) .pi) (.par n!"alpha_e"))) (.sqrt (.mul (.mul (.rat 4 1) .pi) (.par n!"alpha_e"))))) (.par n!"m_b"))) (.div (.div (.div (.sqrt (.rat 2 1)) (.par n!"GF")) (.mul (.ckm 2 2) (.conj (.ckm 2 1)))) (.rat 4 1))))),
  (n!"S8uuRR_2222", (.div (.inp n!"CS8RR_cccc") (.div (.div (.sqrt (.rat 2 1)) (.par n!"GF")) (.rat 4 1))))]

def flavio_to_JMS_28 : List (ℕ × Sym) := [
  (n!"VedLL_1111", (.div (.inp n!"CVLL_eedd") (.div (.div (.sqrt (.rat 2 1)) (.par n!"GF")) (.rat 4 1)))),
  (n!"VedLL_1332", (.conj (.add (.neg (.div (.div (.inp n!"C10_bsetau") (.div (.mul (.rat 16 1) (.mul .pi .pi)) (.mul (.sqrt (.mul (.mul (.rat 4 1) .pi) (.par n!"alpha_e"))) (.sqrt (.mul (.mul (.rat 4 1) .pi) (.par n!"alpha_e")))))) (.div (.div (.div (.sqrt (.rat 2 1)) (.par n!"GF")) (.mul (.ckm 2 2) (.conj (.ckm 2 1)))) (.rat 4 1)))) (.div (.div (.inp n!"C9_bsetau") (.div (.mul (.rat 16 1) (.mul .pi .pi)) (.mul (.sqrt (.mul (.mul (.rat 4 1) .pi) (.par n!"alpha_e"))) (.sqrt (.mul (.mul (.rat 4 1) .pi) (.par n!"alpha_e")))))) (.div (.div (.div (.sqrt (.rat 2 1)) (.par n!"GF")) (.mul (.ckm 2 2) (.conj (.ckm 2 1)))) (.rat 4 1)))))),
  (n!"V1udduLR_2221", (.sub (.neg (.div (.conj (.mul (.mul (.div (.mul (.rat 4 1) (.par n!"GF")) (.sqrt (.rat 2 1))) (.mul (.conj (.ckm 1 2)) (.ckm 0 2))) (.inp n!"CSLR_cuss"))) (.mul (.rat 2 1) (.rat 3 1)))) (.div (.conj (.mul (.mul (.div (.mul (.rat 4 1) (.par n!"GF")) (.sqrt (.rat 2 1))) (.mul (.conj (.ckm 1 2)) (.ckm 0 2))) (.inp n!"CSLRt_cuss"))) (.rat 2 1)))),
  (n!"V8uuLR_1221", (.div (.inp n!"CV8LR_uccu") (.div (.div (.sqrt (.rat 2 1)) (.par n!"GF")) (.rat 4 1)))),
  (n!"V1udLR_2213", (.add (.mul (.mul (.div (.mul (.rat 4 1) (.par n!"GF")) (.sqrt (.rat 2 1))) (.mul (.ckm 2 2) (.conj (.ckm 2 0)))) (.inp n!"CVRL_bdcc")) (.div (.mul (.mul (.div (.mul (.rat 4 1) (.par n!"GF")) (.sqrt (.rat 2 1))) (.mul (.ckm 2 2) (.conj (.ckm 2 0)))) (.inp n!"CVRLt_bdcc")) (.rat 3 1)))),
  (n!"VnueLR_1111", (.div (.inp n!"CVLR_nuenueee") (.div (.div (.sqrt (.rat 2 1)) (.par n!"GF")) (.rat 4 1)))),
  (n!"SedRR_1313", (.add (.div (.div (.inp n!"CP_bdtaue") (.div (.div (.mul (.rat 16 1) (.mul .pi .pi)) (.mul (.sqrt (.mul (.mul (.rat 4 1) .pi) (.par n!"alpha_e"))) (.sqrt (.mul (.mul (.rat 4 1) .pi) (.par n!"alpha_e"))))) (.par n!"m_b"))) (.div (.div (.div (.sqrt (.rat 2 1)) (.par n!"GF")) (.mul (.ckm 2 2) (.conj (.ckm 2 0)))) (.rat 4 1))) (.div (.div (.inp n!"CS_bdtaue") (.div (.div (.mul (.rat 16 1) (.mul .pi .pi)) (.mul (.sqrt (.mul (.mul (.rat 4 1) .pi) (.par n!"alpha_e"))) (.sqrt (.mul (.mul (.rat 4 1) .pi) (.par n!"alpha_e"))))) (.par n!"m_b"))) (.div (.div (.div (.sqrt (.rat 2 1)) (.par n!"GF")) (.mul (.ckm 2 2) (.conj (.ckm 2 0)))) (.rat 4 1))))),
  (n!"VnudLL_1122", (.div (.inp n!"CVLL_nuenuess") (.div (.div (.sqrt (.rat 2 1)) (.par n!"GF")) (.rat 4 1)))),
  (n!"V1ddLR_1112", (.add (.mul (.mul (.div (.mul (.rat 4 1) (.par n!"GF")) (.sqrt (.rat 2 1))) (.mul (.ckm 2 1) (.conj (.ckm 2 0)))) (.inp n!"CVRL_sddd")) (.div (.mul (.div (.rat (-1) 1) (.rat 2 1)) (.mul (.mul (.div (.mul (.rat 4 1) (.par n!"GF")) (.sqrt (.rat 2 1))) (.mul (.ckm 2 1) (.conj (.ckm 2 0)))) (.inp n!"CSRL_sddd"))) (.rat 3 1)))),
  (n!"VdeLR_2323", (.add (.div (.div (.inp n!"C10_bstaumu") (.div (.mul (.rat 16 1) (.mul .pi .pi)) (.mul (.sqrt (.mul (.mul (.rat 4 1) .pi) (.par n!"alpha_e"))) (.sqrt (.mul (.mul (.rat 4 1) .pi) (.par n!"alpha_e")))))) (.div (.div (.div (.sqrt (.rat 2 1)) (.par n!"GF")) (.mul (.ckm 2 2) (.conj (.ckm 2 1)))) (.rat 4 1))) (.div (.div (.inp n!"C9_bstaumu") (.div (.mul (.rat 16 1) (.mul .pi .pi)) (.mul (.sqrt (.mul (.mul (.rat 4 1) .pi) (.par n!"alpha_e"))) (.sqrt (.mul (.mul (.rat 4 1) .pi) (.par n!"alpha_e")))))) (.div (.div (.div (.sqrt (.rat 2 1)) (.par n!"GF")) (.mul (.ckm 2 2) (.conj (.ckm 2 1)))) (.rat 4 1))))),
  (n!"TnueduRR_3121", (.conj (.div (.inp n!"CT_suenutau") (.div (.div (.div (.neg (.sqrt (.rat 2 1))) (.par n!"GF")) (.ckm 0 1)) (.rat 4 1)))))]

/-- the items returned by `flavio_to_JMS` (in the order of the search tree of the model) -/
def flavio_to_JMS : List (ℕ × Sym) :=
  flavio_to_JMS_0 ++ (flavio_to_JMS_1 ++ (flavio_to_JMS_2 ++ (flavio_to_JMS_3 ++ (flavio_to_JMS_4 ++ (flavio_to_JMS_5 ++ (flavio_to_JMS_6 ++ (flavio_to_JMS_7 ++ (flavio_to_JMS_8 ++ (flavio_to_JMS_9 ++ (flavio_to_JMS_10 ++ (flavio_to_JMS_11 ++ (flavio_to_JMS_12 ++ (flavio_to_JMS_13 ++ (flavio_to_JMS_14 ++ (flavio_to_JMS_15 ++ (flavio_to_JMS_16 ++ (flavio_to_JMS_17 ++ (flavio_to_JMS_18 ++ (flavio_to_JMS_19 ++ (flavio_to_JMS_20 ++ (flavio_to_JMS_21 ++ (flavio_to_JMS_22 ++ (flavio_to_JMS_23 ++ (flavio_to_JMS_24 ++ (flavio_to_JMS_25 ++ (flavio_to_JMS_26 ++ (flavio_to_JMS_27 ++ (flavio_to_JMS_28))))))))))))))))))))))))))))

end Verif.Gen.WetOut
