import Verif.Model.Py

/-!
# The dictionary returned by `flavio_to_Bern`

GENERATED by tools/gen_wetout.lean; that this is what the translator returns is proved in
`Lemmas/WetRunsFB`.
-/

set_option autoImplicit false
set_option maxRecDepth 20000

namespace Verif.Gen.WetOut
open Verif.Py

def flavio_to_Bern_0 : List (ℕ × Sym) := [
  (n!"4pdbcc", (.mul (.div (.div (.sqrt (.rat 2 1)) (.par n!"GF")) (.rat 4 1)) (.sub (.div (.mul (.mul (.div (.mul (.rat 4 1) (.par n!"GF")) (.sqrt (.rat 2 1))) (.mul (.ckm 2 2) (.conj (.ckm 2 0)))) (.inp n!"CVRRt_bdcc")) (.rat 6 1)) (.div (.mul (.mul (.div (.mul (.rat 4 1) (.par n!"GF")) (.sqrt (.rat 2 1))) (.mul (.ckm 2 2) (.conj (.ckm 2 0)))) (.inp n!"CVRLt_bdcc")) (.rat 6 1))))),
  (n!"7pdbmutau", (.mul (.div (.div (.sqrt (.rat 2 1)) (.par n!"GF")) (.rat 4 1)) (.sub (.add (.div (.mul (.rat (-2) 1) (.div (.div (.inp n!"CPp_bdtaumu") (.div (.div (.mul (.rat 16 1) (.mul .pi .pi)) (.mul (.sqrt (.mul (.mul (.rat 4 1) .pi) (.par n!"alpha_e"))) (.sqrt (.mul (.mul (.rat 4 1) .pi) (.par n!"alpha_e"))))) (.par n!"m_b"))) (.div (.div (.div (.sqrt (.rat 2 1)) (.par n!"GF")) (.mul (.ckm 2 2) (.conj (.ckm 2 0)))) (.rat 4 1)))) (.rat 3 1)) (.div (.rat 0 1) (.div (.div (.div (.sqrt (.rat 2 1)) (.par n!"GF")) (.mul (.ckm 2 2) (.conj (.ckm 2 0)))) (.rat 4 1)))) (.div (.rat 0 1) (.div (.div (.div (.sqrt (.rat 2 1)) (.par n!"GF")) (.mul (.ckm 2 2) (.conj (.ckm 2 0)))) (.rat 4 1)))))),
  (n!"5pcdemu", (.mul (.div (.div (.sqrt (.rat 2 1)) (.par n!"GF")) (.rat 4 1)) (.div (.inp n!"CSL_dcenumu") (.div (.div (.div (.neg (.sqrt (.rat 2 1))) (.par n!"GF")) (.ckm 1 0)) (.rat 4 1))))),
  (n!"7dbee", (.mul (.div (.div (.sqrt (.rat 2 1)) (.par n!"GF")) (.rat 4 1)) (.add (.add (.div (.mul (.rat 2 1) (.div (.div (.inp n!"CP_bdee") (.div (.div (.mul (.rat 16 1) (.mul .pi .pi)) (.mul (.sqrt (.mul (.mul (.rat 4 1) .pi) (.par n!"alpha_e"))) (.sqrt (.mul (.mul (.rat 4 1) .pi) (.par n!"alpha_e"))))) (.par n!"m_b"))) (.div (.div (.div (.sqrt (.rat 2 1)) (.par n!"GF")) (.mul (.ckm 2 2) (.conj (.ckm 2 0)))) (.rat 4 1)))) (.rat 3 1)) (.div (.rat 0 1) (.div (.div (.div (.sqrt (.rat 2 1)) (.par n!"GF")) (.mul (.ckm 2 2) (.conj (.ckm 2 0)))) (.rat 4 1)))) (.div (.rat 0 1) (.div (.div (.div (.sqrt (.rat 2 1)) (.par n!"GF")) (.mul (.ckm 2 2) (.conj (.ckm 2 0)))) (.rat 4 1)))))),
  (n!"nu1dsmue", (.mul (.div (.div (.sqrt (.rat 2 1)) (.par n!"GF")) (.rat 4 1)) (.div (.div (.inp n!"CL_sdnuenumu") (.div (.mul (.rat 8 1) (.mul .pi .pi)) (.mul (.sqrt (.mul (.mul (.rat 4 1) .pi) (.par n!"alpha_e"))) (.sqrt (.mul (.mul (.rat 4 1) .pi) (.par n!"alpha_e")))))) (.div (.div (.div (.sqrt (.rat 2 1)) (.par n!"GF")) (.mul (.ckm 2 1) (.conj (.ckm 2 0)))) (.rat 4 1))))),
  (n!"5dbtaumu", (.mul (.div (.div (.sqrt (.rat 2 1)) (.par n!"GF")) (.rat 4 1)) (.sub (.div (.div (.inp n!"CS_bdmutau") (.div (.div (.mul (.rat 16 1) (.mul .pi .pi)) (.mul (.sqrt (.mul (.mul (.rat 4 1) .pi) (.par n!"alpha_e"))) (.sqrt (.mul (.mul (.rat 4 1) .pi) (.par n!"alpha_e"))))) (.par n!"m_b"))) (.div (.div (.div (.sqrt (.rat 2 1)) (.par n!"GF")) (.mul (.ckm 2 2) (.conj (.ckm 2 0)))) (.rat 4 1))) (.div (.mul (.rat 5 1) (.div (.div (.inp n!"CP_bdmutau") (.div (.div (.mul (.rat 16 1) (.mul .pi .pi)) (.mul (.sqrt (.mul (.mul (.rat 4 1) .pi) (.par n!"alpha_e"))) (.sqrt (.mul (.mul (.rat 4 1) .pi) (.par n!"alpha_e"))))) (.par n!"m_b"))) (.div (.div (.div (.sqrt (.rat 2 1)) (.par n!"GF")) (.mul (.ckm 2 2) (.conj (.ckm 2 0)))) (.rat 4 1)))) (.rat 3 1))))),
  (n!"10sbdd", (.mul (.div (.div (.sqrt (.rat 2 1)) (.par n!"GF")) (.rat 4 1)) (.sub (.div (.mul (.mul (.div (.mul (.rat 4 1) (.par n!"GF")) (.sqrt (.rat 2 1))) (.mul (.ckm 2 2) (.conj (.ckm 2 1)))) (.inp n!"CSRRt_bsdd")) (.rat 24 1)) (.div (.mul (.mul (.div (.mul (.rat 4 1) (.par n!"GF")) (.sqrt (.rat 2 1))) (.mul (.ckm 2 2) (.conj (.ckm 2 1)))) (.inp n!"CSRLt_bsdd")) (.rat 24 1))))),
  (n!"5dbee", (.mul (.div (.div (.sqrt (.rat 2 1)) (.par n!"GF")) (.rat 4 1)) (.sub (.div (.div (.inp n!"CS_bdee") (.div (.div (.mul (.rat 16 1) (.mul .pi .pi)) (.mul (.sqrt (.mul (.mul (.rat 4 1) .pi) (.par n!"alpha_e"))) (.sqrt (.mul (.mul (.rat 4 1) .pi) (.par n!"alpha_e"))))) (.par n!"m_b"))) (.div (.div (.div (.sqrt (.rat 2 1)) (.par n!"GF")) (.mul (.ckm 2 2) (.conj (.ckm 2 0)))) (.rat 4 1))) (.div (.mul (.rat 5 1) (.div (.div (.inp n!"CP_bdee") (.div (.div (.mul (.rat 16 1) (.mul .pi .pi)) (.mul (.sqrt (.mul (.mul (.rat 4 1) .pi) (.par n!"alpha_e"))) (.sqrt (.mul (.mul (.rat 4 1) .pi) (.par n!"alpha_e"))))) (.par n!"m_b"))) (.div (.div (.div (.sqrt (.rat 2 1)) (.par n!"GF")) (.mul (.ckm 2 2) (.conj (.ckm 2 0)))) (.rat 4 1)))) (.rat 3 1))))),
  (n!"8pgds", (.mul (.div (.div (.sqrt (.rat 2 1)) (.par n!"GF")) (.rat 4 1)) (.mul (.div (.sqrt (.mul (.mul (.rat 4 1) .pi) (.par n!"alpha_s"))) (.par n!"m_s")) (.div (.div (.inp n!"C8p_sd") (.div (.div (.mul (.rat 16 1) (.mul .pi .pi)) (.sqrt (.mul (.mul (.rat 4 1) .pi) (.par n!"alpha_s")))) (.par n!"m_s"))) (.div (.div (.div (.sqrt (.rat 2 1)) (.par n!"GF")) (.mul (.ckm 2 1) (.conj (.ckm 2 0)))) (.rat 4 1)))))),
  (n!"1ustaue", (.mul (.div (.div (.sqrt (.rat 2 1)) (.par n!"GF")) (.rat 4 1)) (.div (.inp n!"CVL_sutaunue") (.div (.div (.div (.neg (.sqrt (.rat 2 1))) (.par n!"GF")) (.ckm 0 1)) (.rat 4 1))))),
  (n!"3dbemu", (.mul (.div (.div (.sqrt (.rat 2 1)) (.par n!"GF")) (.rat 4 1)) (.div (.neg (.div (.div (.inp n!"C10_bdmue") (.div (.mul (.rat 16 1) (.mul .pi .pi)) (.mul (.sqrt (.mul (.mul (.rat 4 1) .pi) (.par n!"alpha_e"))) (.sqrt (.mul (.mul (.rat 4 1) .pi) (.par n!"alpha_e")))))) (.div (.div (.div (.sqrt (.rat 2 1)) (.par n!"GF")) (.mul (.ckm 2 2) (.conj (.ckm 2 0)))) (.rat 4 1)))) (.rat 6 1)))),
  (n!"5usmue", (.mul (.div (.div (.sqrt (.rat 2 1)) (.par n!"GF")) (.rat 4 1)) (.div (.inp n!"CSR_sumunue") (.div (.div (.div (.neg (.sqrt (.rat 2 1))) (.par n!"GF")) (.ckm 0 1)) (.rat 4 1))))),
  (n!"1pudemu", (.mul (.div (.div (.sqrt (.rat 2 1)) (.par n!"GF")) (.rat 4 1)) (.div (.inp n!"CVR_duenumu") (.div (.div (.div (.neg (.sqrt (.rat 2 1))) (.par n!"GF")) (.ckm 0 0)) (.rat 4 1))))),
  (n!"3dbee", (.mul (.div (.div (.sqrt (.rat 2 1)) (.par n!"GF")) (.rat 4 1)) (.div (.neg (.div (.div (.inp n!"C10_bdee") (.div (.mul (.rat 16 1) (.mul .pi .pi)) (.mul (.sqrt (.mul (.mul (.rat 4 1) .pi) (.par n!"alpha_e"))) (.sqrt (.mul (.mul (.rat 4 1) .pi) (.par n!"alpha_e")))))) (.div (.div (.div (.sqrt (.rat 2 1)) (.par n!"GF")) (.mul (.ckm 2 2) (.conj (.ckm 2 0)))) (.rat 4 1)))) (.rat 6 1)))),
  (n!"2pdbdb", (.mul (.div (.div (.sqrt (.rat 2 1)) (.par n!"GF")) (.rat 4 1)) (.sub (.inp n!"CSRR_bdbd") (.mul (.rat 4 1) (.inp n!"CTRR_bdbd"))))),
  (n!"7pdbemu", (.mul (.div (.div (.sqrt (.rat 2 1)) (.par n!"GF")) (.rat 4 1)) (.sub (.add (.div (.mul (.rat (-2) 1) (.div (.div (.inp n!"CPp_bdmue") (.div (.div (.mul (.rat 16 1) (.mul .pi .pi)) (.mul (.sqrt (.mul (.mul (.rat 4 1) .pi) (.par n!"alpha_e"))) (.sqrt (.mul (.mul (.rat 4 1) .pi) (.par n!"alpha_e"))))) (.par n!"m_b"))) (.div (.div (.div (.sqrt (.rat 2 1)) (.par n!"GF")) (.mul (.ckm 2 2) (.conj (.ckm 2 0)))) (.rat 4 1)))) (.rat 3 1)) (.div (.rat 0 1) (.div (.div (.div (.sqrt (.rat 2 1)) (.par n!"GF")) (.mul (.ckm 2 2) (.conj (.ckm 2 0)))) (.rat 4 1)))) (.div (.rat 0 1) (.div (.div (.div (.sqrt (.rat 2 1)) (.par n!"GF")) (.mul (.ckm 2 2) (.conj (.ckm 2 0)))) (.rat 4 1)))))),
  (n!"nu1dsetau", (.mul (.div (.div (.sqrt (.rat 2 1)) (.par n!"GF")) (.rat 4 1)) (.div (.div (.inp n!"CL_sdnutaunue") (.div (.mul (.rat 8 1) (.mul .pi .pi)) (.mul (.sqrt (.mul (.mul (.rat 4 1) .pi) (.par n!"alpha_e"))) (.sqrt (.mul (.mul (.rat 4 1) .pi) (.par n!"alpha_e")))))) (.div (.div (.div (.sqrt (.rat 2 1)) (.par n!"GF")) (.mul (.ckm 2 1) (.conj (.ckm 2 0)))) (.rat 4 1))))),
  (n!"1dbee", (.mul (.div (.div (.sqrt (.rat 2 1)) (.par n!"GF")) (.rat 4 1)) (.add (.div (.mul (.rat 5 1) (.div (.div (.inp n!"C10_bdee") (.div (.mul (.rat 16 1) (.mul .pi .pi)) (.mul (.sqrt (.mul (.mul (.rat 4 1) .pi) (.par n!"alpha_e"))) (.sqrt (.mul (.mul (.rat 4 1) .pi) (.par n!"alpha_e")))))) (.div (.div (.div (.sqrt (.rat 2 1)) (.par n!"GF")) (.mul (.ckm 2 2) (.conj (.ckm 2 0)))) (.rat 4 1)))) (.rat 3 1)) (.div (.div (.inp n!"C9_bdee") (.div (.mul (.rat 16 1) (.mul .pi .pi)) (.mul (.sqrt (.mul (.mul (.rat 4 1) .pi) (.par n!"alpha_e"))) (.sqrt (.mul (.mul (.rat 4 1) .pi) (.par n!"alpha_e")))))) (.div (.div (.div (.sqrt (.rat 2 1)) (.par n!"GF")) (.mul (.ckm 2 2) (.conj (.ckm 2 0)))) (.rat 4 1)))))),
  (n!"5pcbtautau", (.mul (.div (.div (.sqrt (.rat 2 1)) (.par n!"GF")) (.rat 4 1)) (.div (.inp n!"CSL_bctaunutau") (.div (.div (.div (.neg (.sqrt (.rat 2 1))) (.par n!"GF")) (.ckm 1 2)) (.rat 4 1))))),
  (n!"1psbuu", (.mul (.div (.div (.sqrt (.rat 2 1)) (.par n!"GF")) (.rat 4 1)) (.add (.sub (.add (.div (.neg (.mul (.mul (.div (.mul (.rat 4 1) (.par n!"GF")) (.sqrt (.rat 2 1))) (.mul (.ckm 2 2) (.conj (.ckm 2 1)))) (.inp n!"CVRR_bsuu"))) (.rat 3 1)) (.div (.mul (.rat 4 1) (.mul (.mul (.div (.mul (.rat 4 1) (.par n!"GF")) (.sqrt (.rat 2 1))) (.mul (.ckm 2 2) (.conj (.ckm 2 1)))) (.inp n!"CVRL_bsuu"))) (.rat 3 1))) (.div (.mul (.mul (.div (.mul (.rat 4 1) (.par n!"GF")) (.sqrt (.rat 2 1))) (.mul (.ckm 2 2) (.conj (.ckm 2 1)))) (.inp n!"CVRRt_bsuu")) (.mul (.rat 3 1) (.rat 3 1)))) (.div (.mul (.rat 4 1) (.mul (.mul (.div (.mul (.rat 4 1) (.par n!"GF")) (.sqrt (.rat 2 1))) (.mul (.ckm 2 2) (.conj (.ckm 2 1)))) (.inp n!"CVRLt_bsuu"))) (.mul (.rat 3 1) (.rat 3 1)))))),
  (n!"1ubtautau", (.mul (.div (.div (.sqrt (.rat 2 1)) (.par n!"GF")) (.rat 4 1)) (.div (.inp n!"CVL_butaunutau") (.div (.div (.div (.neg (.sqrt (.rat 2 1))) (.par n!"GF")) (.ckm 0 2)) (.rat 4 1))))),
  (n!"1pcdee", (.mul (.div (.div (.sqrt (.rat 2 1)) (.par n!"GF")) (.rat 4 1)) (.div (.inp n!"CVR_dcenue") (.div (.div (.div (.neg (.sqrt (.rat 2 1))) (.par n!"GF")) (.ckm 1 0)) (.rat 4 1))))),
  (n!"4pdbuu", (.mul (.div (.div (.sqrt (.rat 2 1)) (.par n!"GF")) (.rat 4 1)) (.sub (.div (.mul (.mul (.div (.mul (.rat 4 1) (.par n!"GF")) (.sqrt (.rat 2 1))) (.mul (.ckm 2 2) (.conj (.ckm 2 0)))) (.inp n!"CVRRt_bduu")) (.rat 6 1)) (.div (.mul (.mul (.div (.mul (.rat 4 1) (.par n!"GF")) (.sqrt (.rat 2 1))) (.mul (.ckm 2 2) (.conj (.ckm 2 0)))) (.inp n!"CVRLt_bduu")) (.rat 6 1))))),
  (n!"7pcdmumu", (.mul (.div (.div (.sqrt (.rat 2 1)) (.par n!"GF")) (.rat 4 1)) (.div (.inp n!"CT_dcmunumu") (.div (.div (.div (.neg (.sqrt (.rat 2 1))) (.par n!"GF")) (.ckm 1 0)) (.rat 4 1))))),
  (n!"7pustautau", (.mul (.div (.div (.sqrt (.rat 2 1)) (.par n!"GF")) (.rat 4 1)) (.div (.inp n!"CT_sutaunutau") (.div (.div (.div (.neg (.sqrt (.rat 2 1))) (.par n!"GF")) (.ckm 0 1)) (.rat 4 1))))),
  (n!"1cdmue", (.mul (.div (.div (.sqrt (.rat 2 1)) (.par n!"GF")) (.rat 4 1)) (.div (.inp n!"CVL_dcmunue") (.div (.div (.div (.neg (.sqrt (.rat 2 1))) (.par n!"GF")) (.ckm 1 0)) (.rat 4 1))))),
  (n!"4dsds", (.mul (.div (.div (.sqrt (.rat 2 1)) (.par n!"GF")) (.rat 4 1)) (.inp n!"CSLR_sdsd"))),
  (n!"7pcbmumu", (.mul (.div (.div (.sqrt (.rat 2 1)) (.par n!"GF")) (.rat 4 1)) (.div (.inp n!"CT_bcmunumu") (.div (.div (.div (.neg (.sqrt (.rat 2 1))) (.par n!"GF")) (.ckm 1 2)) (.rat 4 1))))),
  (n!"9sbdd", (.mul (.div (.div (.sqrt (.rat 2 1)) (.par n!"GF")) (.rat 4 1)) (.sub (.add (.sub (.div (.mul (.mul (.div (.mul (.rat 4 1) (.par n!"GF")) (.sqrt (.rat 2 1))) (.mul (.ckm 2 2) (.conj (.ckm 2 1)))) (.inp n!"CSRR_bsdd")) (.rat 48 1)) (.div (.mul (.mul (.div (.mul (.rat 4 1) (.par n!"GF")) (.sqrt (.rat 2 1))) (.mul (.ckm 2 2) (.conj (.ckm 2 1)))) (.inp n!"CSRL_bsdd")) (.rat 48 1))) (.div (.mul (.mul (.div (.mul (.rat 4 1) (.par n!"GF")) (.sqrt (.rat 2 1))) (.mul (.ckm 2 2) (.conj (.ckm 2 1)))) (.inp n!"CSRRt_bsdd")) (.mul (.rat 48 1) (.rat 3 1)))) (.div (.mul (.mul (.div (.mul (.rat 4 1) (.par n!"GF")) (.sqrt (.rat 2 1))) (.mul (.ckm 2 2) (.conj (.ckm 2 1)))) (.inp n!"CSRLt_bsdd")) (.mul (.rat 48 1) (.rat 3 1)))))),
  (n!"8psbcc", (.mul (.div (.div (.sqrt (.rat 2 1)) (.par n!"GF")) (.rat 4 1)) (.sub (.add (.mul (.rat 2 1) (.mul (.mul (.div (.mul (.rat 4 1) (.par n!"GF")) (.sqrt (.rat 2 1))) (.mul (.ckm 2 2) (.conj (.ckm 2 1)))) (.inp n!"CTLLt_bscc"))) (.div (.mul (.rat 2 1) (.mul (.mul (.div (.mul (.rat 4 1) (.par n!"GF")) (.sqrt (.rat 2 1))) (.mul (.ckm 2 2) (.conj (.ckm 2 1)))) (.inp n!"CSLLt_bscc"))) (.rat 3 1))) (.div (.mul (.rat 2 1) (.mul (.mul (.div (.mul (.rat 4 1) (.par n!"GF")) (.sqrt (.rat 2 1))) (.mul (.ckm 2 2) (.conj (.ckm 2 1)))) (.inp n!"CSLRt_bscc"))) (.rat 3 1))))),
  (n!"1cdetau", (.mul (.div (.div (.sqrt (.rat 2 1)) (.par n!"GF")) (.rat 4 1)) (.div (.inp n!"CVL_dcenutau") (.div (.div (.div (.neg (.sqrt (.rat 2 1))) (.par n!"GF")) (.ckm 1 0)) (.rat 4 1))))),
  (n!"2dsds", (.mul (.div (.div (.sqrt (.rat 2 1)) (.par n!"GF")) (.rat 4 1)) (.sub (.inp n!"CSLL_sdsd") (.mul (.rat 4 1) (.inp n!"CTLL_sdsd"))))),
  (n!"7sbdd", (.mul (.div (.div (.sqrt (.rat 2 1)) (.par n!"GF")) (.rat 4 1)) (.sub (.add (.add (.add (.sub (.div (.mul (.mul (.div (.mul (.rat 4 1) (.par n!"GF")) (.sqrt (.rat 2 1))) (.mul (.ckm 2 2) (.conj (.ckm 2 1)))) (.inp n!"CSRR_bsdd")) (.rat 3 1)) (.div (.mul (.mul (.div (.mul (.rat 4 1) (.par n!"GF")) (.sqrt (.rat 2 1))) (.mul (.ckm 2 2) (.conj (.ckm 2 1)))) (.inp n!"CSRL_bsdd")) (.rat 3 1))) (.mul (.mul (.div (.mul (.rat 4 1) (.par n!"GF")) (.sqrt (.rat 2 1))) (.mul (.ckm 2 2) (.conj (.ckm 2 1)))) (.inp n!"CTRR_bsdd"))) (.div (.mul (.mul (.div (.mul (.rat 4 1) (.par n!"GF")) (.sqrt (.rat 2 1))) (.mul (.ckm 2 2) (.conj (.ckm 2 1)))) (.inp n!"CTRRt_bsdd")) (.rat 3 1))) (.div (.mul (.mul (.div (.mul (.rat 4 1) (.par n!"GF")) (.sqrt (.rat 2 1))) (.mul (.ckm 2 2) (.conj (.ckm 2 1)))) (.inp n!"CSRRt_bsdd")) (.mul (.rat 3 1) (.rat 3 1)))) (.div (.mul (.mul (.div (.mul (.rat 4 1) (.par n!"GF")) (.sqrt (.rat 2 1))) (.mul (.ckm 2 2) (.conj (.ckm 2 1)))) (.inp n!"CSRLt_bsdd")) (.mul (.rat 3 1) (.rat 3 1)))))),
  (n!"7pdbbb", (.mul (.div (.div (.sqrt (.rat 2 1)) (.par n!"GF")) (.rat 4 1)) (.add (.sub (.div (.mul (.mul (.div (.mul (.rat 4 1) (.par n!"GF")) (.sqrt (.rat 2 1))) (.mul (.ckm 2 2) (.conj (.ckm 2 0)))) (.inp n!"CSLL_bdbb")) (.rat 3 1)) (.div (.mul (.mul (.div (.mul (.rat 4 1) (.par n!"GF")) (.sqrt (.rat 2 1))) (.mul (.ckm 2 2) (.conj (.ckm 2 0)))) (.inp n!"CSLR_bdbb")) (.rat 3 1))) (.mul (.mul (.div (.mul (.rat 4 1) (.par n!"GF")) (.sqrt (.rat 2 1))) (.mul (.ckm 2 2) (.conj (.ckm 2 0)))) (.inp n!"CTLL_bdbb"))))),
  (n!"nu1dsmutau", (.mul (.div (.div (.sqrt (.rat 2 1)) (.par n!"GF")) (.rat 4 1)) (.div (.div (.inp n!"CL_sdnutaunumu") (.div (.mul (.rat 8 1) (.mul .pi .pi)) (.mul (.sqrt (.mul (.mul (.rat 4 1) .pi) (.par n!"alpha_e"))) (.sqrt (.mul (.mul (.rat 4 1) .pi) (.par n!"alpha_e")))))) (.div (.div (.div (.sqrt (.rat 2 1)) (.par n!"GF")) (.mul (.ckm 2 1) (.conj (.ckm 2 0)))) (.rat 4 1))))),
  (n!"nu1dbemu", (.mul (.div (.div (.sqrt (.rat 2 1)) (.par n!"GF")) (.rat 4 1)) (.div (.div (.inp n!"CL_bdnumunue") (.div (.mul (.rat 8 1) (.mul .pi .pi)) (.mul (.sqrt (.mul (.mul (.rat 4 1) .pi) (.par n!"alpha_e"))) (.sqrt (.mul (.mul (.rat 4 1) .pi) (.par n!"alpha_e")))))) (.div (.div (.div (.sqrt (.rat 2 1)) (.par n!"GF")) (.mul (.ckm 2 2) (.conj (.ckm 2 0)))) (.rat 4 1))))),
  (n!"1cbetau", (.mul (.div (.div (.sqrt (.rat 2 1)) (.par n!"GF")) (.rat 4 1)) (.div (.inp n!"CVL_bcenutau") (.div (.div (.div (.neg (.sqrt (.rat 2 1))) (.par n!"GF")) (.ckm 1 2)) (.rat 4 1))))),
  (n!"5cdmutau", (.mul (.div (.div (.sqrt (.rat 2 1)) (.par n!"GF")) (.rat 4 1)) (.div (.inp n!"CSR_dcmunutau") (.div (.div (.div (.neg (.sqrt (.rat 2 1))) (.par n!"GF")) (.ckm 1 0)) (.rat 4 1))))),
  (n!"3sbmutau", (.mul (.div (.div (.sqrt (.rat 2 1)) (.par n!"GF")) (.rat 4 1)) (.div (.neg (.div (.div (.inp n!"C10_bstaumu") (.div (.mul (.rat 16 1) (.mul .pi .pi)) (.mul (.sqrt (.mul (.mul (.rat 4 1) .pi) (.par n!"alpha_e"))) (.sqrt (.mul (.mul (.rat 4 1) .pi) (.par n!"alpha_e")))))) (.div (.div (.div (.sqrt (.rat 2 1)) (.par n!"GF")) (.mul (.ckm 2 2) (.conj (.ckm 2 1)))) (.rat 4 1)))) (.rat 6 1)))),
  (n!"5sbdd", (.mul (.div (.div (.sqrt (.rat 2 1)) (.par n!"GF")) (.rat 4 1)) (.add (.sub (.add (.div (.neg (.mul (.mul (.div (.mul (.rat 4 1) (.par n!"GF")) (.sqrt (.rat 2 1))) (.mul (.ckm 2 2) (.conj (.ckm 2 1)))) (.inp n!"CSRR_bsdd"))) (.rat 3 1)) (.div (.mul (.rat 4 1) (.mul (.mul (.div (.mul (.rat 4 1) (.par n!"GF")) (.sqrt (.rat 2 1))) (.mul (.ckm 2 2) (.conj (.ckm 2 1)))) (.inp n!"CSRL_bsdd"))) (.rat 3 1))) (.div (.mul (.mul (.div (.mul (.rat 4 1) (.par n!"GF")) (.sqrt (.rat 2 1))) (.mul (.ckm 2 2) (.conj (.ckm 2 1)))) (.inp n!"CSRRt_bsdd")) (.mul (.rat 3 1) (.rat 3 1)))) (.div (.mul (.rat 4 1) (.mul (.mul (.div (.mul (.rat 4 1) (.par n!"GF")) (.sqrt (.rat 2 1))) (.mul (.ckm 2 2) (.conj (.ckm 2 1)))) (.inp n!"CSRLt_bsdd"))) (.mul (.rat 3 1) (.rat 3 1)))))),
  (n!"5pdsee", (.mul (.div (.div (.sqrt (.rat 2 1)) (.par n!"GF")) (.rat 4 1)) (.add (.div (.mul (.rat 5 1) (.div (.div (.inp n!"CPp_sdee") (.div (.div (.mul (.rat 16 1) (.mul .pi .pi)) (.mul (.sqrt (.mul (.mul (.rat 4 1) .pi) (.par n!"alpha_e"))) (.sqrt (.mul (.mul (.rat 4 1) .pi) (.par n!"alpha_e"))))) (.par n!"m_s"))) (.div (.div (.div (.sqrt (.rat 2 1)) (.par n!"GF")) (.mul (.ckm 2 1) (.conj (.ckm 2 0)))) (.rat 4 1)))) (.rat 3 1)) (.div (.div (.inp n!"CSp_sdee") (.div (.div (.mul (.rat 16 1) (.mul .pi .pi)) (.mul (.sqrt (.mul (.mul (.rat 4 1) .pi) (.par n!"alpha_e"))) (.sqrt (.mul (.mul (.rat 4 1) .pi) (.par n!"alpha_e"))))) (.par n!"m_s"))) (.div (.div (.div (.sqrt (.rat 2 1)) (.par n!"GF")) (.mul (.ckm 2 1) (.conj (.ckm 2 0)))) (.rat 4 1)))))),
  (n!"nu1sbee", (.mul (.div (.div (.sqrt (.rat 2 1)) (.par n!"GF")) (.rat 4 1)) (.div (.div (.inp n!"CL_bsnuenue") (.div (.mul (.rat 8 1) (.mul .pi .pi)) (.mul (.sqrt (.mul (.mul (.rat 4 1) .pi) (.par n!"alpha_e"))) (.sqrt (.mul (.mul (.rat 4 1) .pi) (.par n!"alpha_e")))))) (.div (.div (.div (.sqrt (.rat 2 1)) (.par n!"GF")) (.mul (.ckm 2 2) (.conj (.ckm 2 1)))) (.rat 4 1))))),
  (n!"1pdsdd", (.mul (.div (.div (.sqrt (.rat 2 1)) (.par n!"GF")) (.rat 4 1)) (.add (.div (.neg (.mul (.mul (.div (.mul (.rat 4 1) (.par n!"GF")) (.sqrt (.rat 2 1))) (.mul (.ckm 2 1) (.conj (.ckm 2 0)))) (.inp n!"CVRR_sddd"))) (.rat 3 1)) (.div (.mul (.rat 4 1) (.mul (.mul (.div (.mul (.rat 4 1) (.par n!"GF")) (.sqrt (.rat 2 1))) (.mul (.ckm 2 1) (.conj (.ckm 2 0)))) (.inp n!"CVRL_sddd"))) (.rat 3 1))))),
  (n!"5ubemu", (.mul (.div (.div (.sqrt (.rat 2 1)) (.par n!"GF")) (.rat 4 1)) (.div (.inp n!"CSR_buenumu") (.div (.div (.div (.neg (.sqrt (.rat 2 1))) (.par n!"GF")) (.ckm 0 2)) (.rat 4 1))))),
  (n!"3sbdd", (.mul (.div (.div (.sqrt (.rat 2 1)) (.par n!"GF")) (.rat 4 1)) (.sub (.add (.sub (.div (.mul (.mul (.div (.mul (.rat 4 1) (.par n!"GF")) (.sqrt (.rat 2 1))) (.mul (.ckm 2 2) (.conj (.ckm 2 1)))) (.inp n!"CVLL_bsdd")) (.rat 12 1)) (.div (.mul (.mul (.div (.mul (.rat 4 1) (.par n!"GF")) (.sqrt (.rat 2 1))) (.mul (.ckm 2 2) (.conj (.ckm 2 1)))) (.inp n!"CVLR_bsdd")) (.rat 12 1))) (.div (.mul (.mul (.div (.mul (.rat 4 1) (.par n!"GF")) (.sqrt (.rat 2 1))) (.mul (.ckm 2 2) (.conj (.ckm 2 1)))) (.inp n!"CVLLt_bsdd")) (.mul (.rat 12 1) (.rat 3 1)))) (.div (.mul (.mul (.div (.mul (.rat 4 1) (.par n!"GF")) (.sqrt (.rat 2 1))) (.mul (.ckm 2 2) (.conj (.ckm 2 1)))) (.inp n!"CVLRt_bsdd")) (.mul (.rat 12 1) (.rat 3 1)))))),
  (n!"5pdbemu", (.mul (.div (.div (.sqrt (.rat 2 1)) (.par n!"GF")) (.rat 4 1)) (.add (.div (.mul (.rat 5 1) (.div (.div (.inp n!"CPp_bdmue") (.div (.div (.mul (.rat 16 1) (.mul .pi .pi)) (.mul (.sqrt (.mul (.mul (.rat 4 1) .pi) (.par n!"alpha_e"))) (.sqrt (.mul (.mul (.rat 4 1) .pi) (.par n!"alpha_e"))))) (.par n!"m_b"))) (.div (.div (.div (.sqrt (.rat 2 1)) (.par n!"GF")) (.mul (.ckm 2 2) (.conj (.ckm 2 0)))) (.rat 4 1)))) (.rat 3 1)) (.div (.div (.inp n!"CSp_bdmue") (.div (.div (.mul (.rat 16 1) (.mul .pi .pi)) (.mul (.sqrt (.mul (.mul (.rat 4 1) .pi) (.par n!"alpha_e"))) (.sqrt (.mul (.mul (.rat 4 1) .pi) (.par n!"alpha_e"))))) (.par n!"m_b"))) (.div (.div (.div (.sqrt (.rat 2 1)) (.par n!"GF")) (.mul (.ckm 2 2) (.conj (.ckm 2 0)))) (.rat 4 1)))))),
  (n!"5sbemu", (.mul (.div (.div (.sqrt (.rat 2 1)) (.par n!"GF")) (.rat 4 1)) (.sub (.div (.div (.inp n!"CS_bsmue") (.div (.div (.mul (.rat 16 1) (.mul .pi .pi)) (.mul (.sqrt (.mul (.mul (.rat 4 1) .pi) (.par n!"alpha_e"))) (.sqrt (.mul (.mul (.rat 4 1) .pi) (.par n!"alpha_e"))))) (.par n!"m_b"))) (.div (.div (.div (.sqrt (.rat 2 1)) (.par n!"GF")) (.mul (.ckm 2 2) (.conj (.ckm 2 1)))) (.rat 4 1))) (.div (.mul (.rat 5 1) (.div (.div (.inp n!"CP_bsmue") (.div (.div (.mul (.rat 16 1) (.mul .pi .pi)) (.mul (.sqrt (.mul (.mul (.rat 4 1) .pi) (.par n!"alpha_e"))) (.sqrt (.mul (.mul (.rat 4 1) .pi) (.par n!"alpha_e"))))) (.par n!"m_b"))) (.div (.div (.div (.sqrt (.rat 2 1)) (.par n!"GF")) (.mul (.ckm 2 2) (.conj (.ckm 2 1)))) (.rat 4 1)))) (.rat 3 1))))),
  (n!"1sbdd", (.mul (.div (.div (.sqrt (.rat 2 1)) (.par n!"GF")) (.rat 4 1)) (.add (.sub (.add (.div (.neg (.mul (.mul (.div (.mul (.rat 4 1) (.par n!"GF")) (.sqrt (.rat 2 1))) (.mul (.ckm 2 2) (.conj (.ckm 2 1)))) (.inp n!"CVLL_bsdd"))) (.rat 3 1)) (.div (.mul (.rat 4 1) (.mul (.mul (.div (.mul (.rat 4 1) (.par n!"GF")) (.sqrt (.rat 2 1))) (.mul (.ckm 2 2) (.conj (.ckm 2 1)))) (.inp n!"CVLR_bsdd"))) (.rat 3 1))) (.div (.mul (.mul (.div (.mul (.rat 4 1) (.par n!"GF")) (.sqrt (.rat 2 1))) (.mul (.ckm 2 2) (.conj (.ckm 2 1)))) (.inp n!"CVLLt_bsdd")) (.mul (.rat 3 1) (.rat 3 1)))) (.div (.mul (.rat 4 1) (.mul (.mul (.div (.mul (.rat 4 1) (.par n!"GF")) (.sqrt (.rat 2 1))) (.mul (.ckm 2 2) (.conj (.ckm 2 1)))) (.inp n!"CVLRt_bsdd"))) (.mul (.rat 3 1) (.rat 3 1)))))),
  (n!"10psbcc", (.mul (.div (.div (.sqrt (.rat 2 1)) (.par n!"GF")) (.rat 4 1)) (.sub (.div (.mul (.mul (.div (.mul (.rat 4 1) (.par n!"GF")) (.sqrt (.rat 2 1))) (.mul (.ckm 2 2) (.conj (.ckm 2 1)))) (.inp n!"CSLLt_bscc")) (.rat 24 1)) (.div (.mul (.mul (.div (.mul (.rat 4 1) (.par n!"GF")) (.sqrt (.rat 2 1))) (.mul (.ckm 2 2) (.conj (.ckm 2 1)))) (.inp n!"CSLRt_bscc")) (.rat 24 1))))),
  (n!"8psbuu", (.mul (.div (.div (.sqrt (.rat 2 1)) (.par n!"GF")) (.rat 4 1)) (.sub (.add (.mul (.rat 2 1) (.mul (.mul (.div (.mul (.rat 4 1) (.par n!"GF")) (.sqrt (.rat 2 1))) (.mul (.ckm 2 2) (.conj (.ckm 2 1)))) (.inp n!"CTLLt_bsuu"))) (.div (.mul (.rat 2 1) (.mul (.mul (.div (.mul (.rat 4 1) (.par n!"GF")) (.sqrt (.rat 2 1))) (.mul (.ckm 2 2) (.conj (.ckm 2 1)))) (.inp n!"CSLLt_bsuu"))) (.rat 3 1))) (.div (.mul (.rat 2 1) (.mul (.mul (.div (.mul (.rat 4 1) (.par n!"GF")) (.sqrt (.rat 2 1))) (.mul (.ckm 2 2) (.conj (.ckm 2 1)))) (.inp n!"CSLRt_bsuu"))) (.rat 3 1)))))]

def flavio_to_Bern_1 : List (ℕ × Sym) := [
  (n!"5sbsb", (.mul (.div (.div (.sqrt (.rat 2 1)) (.par n!"GF")) (.rat 4 1)) (.mul (.rat (-2) 1) (.inp n!"CVLR_bsbs")))),
  (n!"1csmutau", (.mul (.div (.div (.sqrt (.rat 2 1)) (.par n!"GF")) (.rat 4 1)) (.div (.inp n!"CVL_scmunutau") (.div (.div (.div (.neg (.sqrt (.rat 2 1))) (.par n!"GF")) (.ckm 1 1)) (.rat 4 1))))),
  (n!"5csmue", (.mul (.div (.div (.sqrt (.rat 2 1)) (.par n!"GF")) (.rat 4 1)) (.div (.inp n!"CSR_scmunue") (.div (.div (.div (.neg (.sqrt (.rat 2 1))) (.par n!"GF")) (.ckm 1 1)) (.rat 4 1))))),
  (n!"1pcdemu", (.mul (.div (.div (.sqrt (.rat 2 1)) (.par n!"GF")) (.rat 4 1)) (.div (.inp n!"CVR_dcenumu") (.div (.div (.div (.neg (.sqrt (.rat 2 1))) (.par n!"GF")) (.ckm 1 0)) (.rat 4 1))))),
  (n!"3sbsb", (.mul (.div (.div (.sqrt (.rat 2 1)) (.par n!"GF")) (.rat 4 1)) (.mul (.rat (-8) 1) (.inp n!"CTLL_bsbs")))),
  (n!"3pdbss", (.mul (.div (.div (.sqrt (.rat 2 1)) (.par n!"GF")) (.rat 4 1)) (.sub (.add (.sub (.div (.mul (.mul (.div (.mul (.rat 4 1) (.par n!"GF")) (.sqrt (.rat 2 1))) (.mul (.ckm 2 2) (.conj (.ckm 2 0)))) (.inp n!"CVRR_bdss")) (.rat 12 1)) (.div (.mul (.mul (.div (.mul (.rat 4 1) (.par n!"GF")) (.sqrt (.rat 2 1))) (.mul (.ckm 2 2) (.conj (.ckm 2 0)))) (.inp n!"CVRL_bdss")) (.rat 12 1))) (.div (.mul (.mul (.div (.mul (.rat 4 1) (.par n!"GF")) (.sqrt (.rat 2 1))) (.mul (.ckm 2 2) (.conj (.ckm 2 0)))) (.inp n!"CVRRt_bdss")) (.mul (.rat 12 1) (.rat 3 1)))) (.div (.mul (.mul (.div (.mul (.rat 4 1) (.par n!"GF")) (.sqrt (.rat 2 1))) (.mul (.ckm 2 2) (.conj (.ckm 2 0)))) (.inp n!"CVRLt_bdss")) (.mul (.rat 12 1) (.rat 3 1)))))),
  (n!"1pudee", (.mul (.div (.div (.sqrt (.rat 2 1)) (.par n!"GF")) (.rat 4 1)) (.div (.inp n!"CVR_duenue") (.div (.div (.div (.neg (.sqrt (.rat 2 1))) (.par n!"GF")) (.ckm 0 0)) (.rat 4 1))))),
  (n!"7pdbtaumu", (.mul (.div (.div (.sqrt (.rat 2 1)) (.par n!"GF")) (.rat 4 1)) (.sub (.add (.div (.mul (.rat (-2) 1) (.div (.div (.inp n!"CPp_bdmutau") (.div (.div (.mul (.rat 16 1) (.mul .pi .pi)) (.mul (.sqrt (.mul (.mul (.rat 4 1) .pi) (.par n!"alpha_e"))) (.sqrt (.mul (.mul (.rat 4 1) .pi) (.par n!"alpha_e"))))) (.par n!"m_b"))) (.div (.div (.div (.sqrt (.rat 2 1)) (.par n!"GF")) (.mul (.ckm 2 2) (.conj (.ckm 2 0)))) (.rat 4 1)))) (.rat 3 1)) (.div (.rat 0 1) (.div (.div (.div (.sqrt (.rat 2 1)) (.par n!"GF")) (.mul (.ckm 2 2) (.conj (.ckm 2 0)))) (.rat 4 1)))) (.div (.rat 0 1) (.div (.div (.div (.sqrt (.rat 2 1)) (.par n!"GF")) (.mul (.ckm 2 2) (.conj (.ckm 2 0)))) (.rat 4 1)))))),
  (n!"5ustautau", (.mul (.div (.div (.sqrt (.rat 2 1)) (.par n!"GF")) (.rat 4 1)) (.div (.inp n!"CSR_sutaunutau") (.div (.div (.div (.neg (.sqrt (.rat 2 1))) (.par n!"GF")) (.ckm 0 1)) (.rat 4 1))))),
  (n!"1sbsb", (.mul (.div (.div (.sqrt (.rat 2 1)) (.par n!"GF")) (.rat 4 1)) (.inp n!"CVLL_bsbs"))),
  (n!"1pcbee", (.mul (.div (.div (.sqrt (.rat 2 1)) (.par n!"GF")) (.rat 4 1)) (.div (.inp n!"CVR_bcenue") (.div (.div (.div (.neg (.sqrt (.rat 2 1))) (.par n!"GF")) (.ckm 1 2)) (.rat 4 1))))),
  (n!"nu1psbtaue", (.mul (.div (.div (.sqrt (.rat 2 1)) (.par n!"GF")) (.rat 4 1)) (.div (.div (.inp n!"CR_bsnuenutau") (.div (.mul (.rat 8 1) (.mul .pi .pi)) (.mul (.sqrt (.mul (.mul (.rat 4 1) .pi) (.par n!"alpha_e"))) (.sqrt (.mul (.mul (.rat 4 1) .pi) (.par n!"alpha_e")))))) (.div (.div (.div (.sqrt (.rat 2 1)) (.par n!"GF")) (.mul (.ckm 2 2) (.conj (.ckm 2 1)))) (.rat 4 1))))),
  (n!"1dbmue", (.mul (.div (.div (.sqrt (.rat 2 1)) (.par n!"GF")) (.rat 4 1)) (.add (.div (.mul (.rat 5 1) (.div (.div (.inp n!"C10_bdemu") (.div (.mul (.rat 16 1) (.mul .pi .pi)) (.mul (.sqrt (.mul (.mul (.rat 4 1) .pi) (.par n!"alpha_e"))) (.sqrt (.mul (.mul (.rat 4 1) .pi) (.par n!"alpha_e")))))) (.div (.div (.div (.sqrt (.rat 2 1)) (.par n!"GF")) (.mul (.ckm 2 2) (.conj (.ckm 2 0)))) (.rat 4 1)))) (.rat 3 1)) (.div (.div (.inp n!"C9_bdemu") (.div (.mul (.rat 16 1) (.mul .pi .pi)) (.mul (.sqrt (.mul (.mul (.rat 4 1) .pi) (.par n!"alpha_e"))) (.sqrt (.mul (.mul (.rat 4 1) .pi) (.par n!"alpha_e")))))) (.div (.div (.div (.sqrt (.rat 2 1)) (.par n!"GF")) (.mul (.ckm 2 2) (.conj (.ckm 2 0)))) (.rat 4 1)))))),
  (n!"8dsbb", (.mul (.div (.div (.sqrt (.rat 2 1)) (.par n!"GF")) (.rat 4 1)) (.sub (.add (.mul (.rat 2 1) (.mul (.mul (.div (.mul (.rat 4 1) (.par n!"GF")) (.sqrt (.rat 2 1))) (.mul (.ckm 2 1) (.conj (.ckm 2 0)))) (.inp n!"CTRRt_sdbb"))) (.div (.mul (.rat 2 1) (.mul (.mul (.div (.mul (.rat 4 1) (.par n!"GF")) (.sqrt (.rat 2 1))) (.mul (.ckm 2 1) (.conj (.ckm 2 0)))) (.inp n!"CSRRt_sdbb"))) (.rat 3 1))) (.div (.mul (.rat 2 1) (.mul (.mul (.div (.mul (.rat 4 1) (.par n!"GF")) (.sqrt (.rat 2 1))) (.mul (.ckm 2 1) (.conj (.ckm 2 0)))) (.inp n!"CSRLt_sdbb"))) (.rat 3 1))))),
  (n!"3pdbemu", (.mul (.div (.div (.sqrt (.rat 2 1)) (.par n!"GF")) (.rat 4 1)) (.div (.div (.div (.inp n!"C10p_bdmue") (.div (.mul (.rat 16 1) (.mul .pi .pi)) (.mul (.sqrt (.mul (.mul (.rat 4 1) .pi) (.par n!"alpha_e"))) (.sqrt (.mul (.mul (.rat 4 1) .pi) (.par n!"alpha_e")))))) (.div (.div (.div (.sqrt (.rat 2 1)) (.par n!"GF")) (.mul (.ckm 2 2) (.conj (.ckm 2 0)))) (.rat 4 1))) (.rat 6 1)))),
  (n!"9dbmumu", (.mul (.div (.div (.sqrt (.rat 2 1)) (.par n!"GF")) (.rat 4 1)) (.div (.div (.div (.inp n!"CP_bdmumu") (.div (.div (.mul (.rat 16 1) (.mul .pi .pi)) (.mul (.sqrt (.mul (.mul (.rat 4 1) .pi) (.par n!"alpha_e"))) (.sqrt (.mul (.mul (.rat 4 1) .pi) (.par n!"alpha_e"))))) (.par n!"m_b"))) (.div (.div (.div (.sqrt (.rat 2 1)) (.par n!"GF")) (.mul (.ckm 2 2) (.conj (.ckm 2 0)))) (.rat 4 1))) (.rat 24 1)))),
  (n!"9dsee", (.mul (.div (.div (.sqrt (.rat 2 1)) (.par n!"GF")) (.rat 4 1)) (.div (.div (.div (.inp n!"CP_sdee") (.div (.div (.mul (.rat 16 1) (.mul .pi .pi)) (.mul (.sqrt (.mul (.mul (.rat 4 1) .pi) (.par n!"alpha_e"))) (.sqrt (.mul (.mul (.rat 4 1) .pi) (.par n!"alpha_e"))))) (.par n!"m_s"))) (.div (.div (.div (.sqrt (.rat 2 1)) (.par n!"GF")) (.mul (.ckm 2 1) (.conj (.ckm 2 0)))) (.rat 4 1))) (.rat 24 1)))),
  (n!"10psbuu", (.mul (.div (.div (.sqrt (.rat 2 1)) (.par n!"GF")) (.rat 4 1)) (.sub (.div (.mul (.mul (.div (.mul (.rat 4 1) (.par n!"GF")) (.sqrt (.rat 2 1))) (.mul (.ckm 2 2) (.conj (.ckm 2 1)))) (.inp n!"CSLLt_bsuu")) (.rat 24 1)) (.div (.mul (.mul (.div (.mul (.rat 4 1) (.par n!"GF")) (.sqrt (.rat 2 1))) (.mul (.ckm 2 2) (.conj (.ckm 2 1)))) (.inp n!"CSLRt_bsuu")) (.rat 24 1))))),
  (n!"4pdscc", (.mul (.div (.div (.sqrt (.rat 2 1)) (.par n!"GF")) (.rat 4 1)) (.sub (.div (.mul (.mul (.div (.mul (.rat 4 1) (.par n!"GF")) (.sqrt (.rat 2 1))) (.mul (.ckm 2 1) (.conj (.ckm 2 0)))) (.inp n!"CVRRt_sdcc")) (.rat 6 1)) (.div (.mul (.mul (.div (.mul (.rat 4 1) (.par n!"GF")) (.sqrt (.rat 2 1))) (.mul (.ckm 2 1) (.conj (.ckm 2 0)))) (.inp n!"CVRLt_sdcc")) (.rat 6 1))))),
  (n!"5udmumu", (.mul (.div (.div (.sqrt (.rat 2 1)) (.par n!"GF")) (.rat 4 1)) (.div (.inp n!"CSR_dumunumu") (.div (.div (.div (.neg (.sqrt (.rat 2 1))) (.par n!"GF")) (.ckm 0 0)) (.rat 4 1))))),
  (n!"1pudtautau", (.mul (.div (.div (.sqrt (.rat 2 1)) (.par n!"GF")) (.rat 4 1)) (.div (.inp n!"CVR_dutaunutau") (.div (.div (.div (.neg (.sqrt (.rat 2 1))) (.par n!"GF")) (.ckm 0 0)) (.rat 4 1))))),
  (n!"6dsbb", (.mul (.div (.div (.sqrt (.rat 2 1)) (.par n!"GF")) (.rat 4 1)) (.add (.div (.mul (.rat (-2) 1) (.mul (.mul (.div (.mul (.rat 4 1) (.par n!"GF")) (.sqrt (.rat 2 1))) (.mul (.ckm 2 1) (.conj (.ckm 2 0)))) (.inp n!"CSRRt_sdbb"))) (.rat 3 1)) (.div (.mul (.rat 8 1) (.mul (.mul (.div (.mul (.rat 4 1) (.par n!"GF")) (.sqrt (.rat 2 1))) (.mul (.ckm 2 1) (.conj (.ckm 2 0)))) (.inp n!"CSRLt_sdbb"))) (.rat 3 1))))),
  (n!"7dsee", (.mul (.div (.div (.sqrt (.rat 2 1)) (.par n!"GF")) (.rat 4 1)) (.add (.add (.div (.mul (.rat 2 1) (.div (.div (.inp n!"CP_sdee") (.div (.div (.mul (.rat 16 1) (.mul .pi .pi)) (.mul (.sqrt (.mul (.mul (.rat 4 1) .pi) (.par n!"alpha_e"))) (.sqrt (.mul (.mul (.rat 4 1) .pi) (.par n!"alpha_e"))))) (.par n!"m_s"))) (.div (.div (.div (.sqrt (.rat 2 1)) (.par n!"GF")) (.mul (.ckm 2 1) (.conj (.ckm 2 0)))) (.rat 4 1)))) (.rat 3 1)) (.div (.rat 0 1) (.div (.div (.div (.sqrt (.rat 2 1)) (.par n!"GF")) (.mul (.ckm 2 1) (.conj (.ckm 2 0)))) (.rat 4 1)))) (.div (.rat 0 1) (.div (.div (.div (.sqrt (.rat 2 1)) (.par n!"GF")) (.mul (.ckm 2 1) (.conj (.ckm 2 0)))) (.rat 4 1)))))),
  (n!"5ubmumu", (.mul (.div (.div (.sqrt (.rat 2 1)) (.par n!"GF")) (.rat 4 1)) (.div (.inp n!"CSR_bumunumu") (.div (.div (.div (.neg (.sqrt (.rat 2 1))) (.par n!"GF")) (.ckm 0 2)) (.rat 4 1))))),
  (n!"4dsbb", (.mul (.div (.div (.sqrt (.rat 2 1)) (.par n!"GF")) (.rat 4 1)) (.sub (.div (.mul (.mul (.div (.mul (.rat 4 1) (.par n!"GF")) (.sqrt (.rat 2 1))) (.mul (.ckm 2 1) (.conj (.ckm 2 0)))) (.inp n!"CVLLt_sdbb")) (.rat 6 1)) (.div (.mul (.mul (.div (.mul (.rat 4 1) (.par n!"GF")) (.sqrt (.rat 2 1))) (.mul (.ckm 2 1) (.conj (.ckm 2 0)))) (.inp n!"CVLRt_sdbb")) (.rat 6 1))))),
  (n!"5pudmumu", (.mul (.div (.div (.sqrt (.rat 2 1)) (.par n!"GF")) (.rat 4 1)) (.div (.inp n!"CSL_dumunumu") (.div (.div (.div (.neg (.sqrt (.rat 2 1))) (.par n!"GF")) (.ckm 0 0)) (.rat 4 1))))),
  (n!"nu1dbmutau", (.mul (.div (.div (.sqrt (.rat 2 1)) (.par n!"GF")) (.rat 4 1)) (.div (.div (.inp n!"CL_bdnutaunumu") (.div (.mul (.rat 8 1) (.mul .pi .pi)) (.mul (.sqrt (.mul (.mul (.rat 4 1) .pi) (.par n!"alpha_e"))) (.sqrt (.mul (.mul (.rat 4 1) .pi) (.par n!"alpha_e")))))) (.div (.div (.div (.sqrt (.rat 2 1)) (.par n!"GF")) (.mul (.ckm 2 2) (.conj (.ckm 2 0)))) (.rat 4 1))))),
  (n!"5dsee", (.mul (.div (.div (.sqrt (.rat 2 1)) (.par n!"GF")) (.rat 4 1)) (.sub (.div (.div (.inp n!"CS_sdee") (.div (.div (.mul (.rat 16 1) (.mul .pi .pi)) (.mul (.sqrt (.mul (.mul (.rat 4 1) .pi) (.par n!"alpha_e"))) (.sqrt (.mul (.mul (.rat 4 1) .pi) (.par n!"alpha_e"))))) (.par n!"m_s"))) (.div (.div (.div (.sqrt (.rat 2 1)) (.par n!"GF")) (.mul (.ckm 2 1) (.conj (.ckm 2 0)))) (.rat 4 1))) (.div (.mul (.rat 5 1) (.div (.div (.inp n!"CP_sdee") (.div (.div (.mul (.rat 16 1) (.mul .pi .pi)) (.mul (.sqrt (.mul (.mul (.rat 4 1) .pi) (.par n!"alpha_e"))) (.sqrt (.mul (.mul (.rat 4 1) .pi) (.par n!"alpha_e"))))) (.par n!"m_s"))) (.div (.div (.div (.sqrt (.rat 2 1)) (.par n!"GF")) (.mul (.ckm 2 1) (.conj (.ckm 2 0)))) (.rat 4 1)))) (.rat 3 1))))),
  (n!"7psbtaue", (.mul (.div (.div (.sqrt (.rat 2 1)) (.par n!"GF")) (.rat 4 1)) (.sub (.add (.div (.mul (.rat (-2) 1) (.div (.div (.inp n!"CPp_bsetau") (.div (.div (.mul (.rat 16 1) (.mul .pi .pi)) (.mul (.sqrt (.mul (.mul (.rat 4 1) .pi) (.par n!"alpha_e"))) (.sqrt (.mul (.mul (.rat 4 1) .pi) (.par n!"alpha_e"))))) (.par n!"m_b"))) (.div (.div (.div (.sqrt (.rat 2 1)) (.par n!"GF")) (.mul (.ckm 2 2) (.conj (.ckm 2 1)))) (.rat 4 1)))) (.rat 3 1)) (.div (.rat 0 1) (.div (.div (.div (.sqrt (.rat 2 1)) (.par n!"GF")) (.mul (.ckm 2 2) (.conj (.ckm 2 1)))) (.rat 4 1)))) (.div (.rat 0 1) (.div (.div (.div (.sqrt (.rat 2 1)) (.par n!"GF")) (.mul (.ckm 2 2) (.conj (.ckm 2 1)))) (.rat 4 1)))))),
  (n!"5cbemu", (.mul (.div (.div (.sqrt (.rat 2 1)) (.par n!"GF")) (.rat 4 1)) (.div (.inp n!"CSR_bcenumu") (.div (.div (.div (.neg (.sqrt (.rat 2 1))) (.par n!"GF")) (.ckm 1 2)) (.rat 4 1))))),
  (n!"9psbmue", (.mul (.div (.div (.sqrt (.rat 2 1)) (.par n!"GF")) (.rat 4 1)) (.div (.neg (.div (.div (.inp n!"CPp_bsemu") (.div (.div (.mul (.rat 16 1) (.mul .pi .pi)) (.mul (.sqrt (.mul (.mul (.rat 4 1) .pi) (.par n!"alpha_e"))) (.sqrt (.mul (.mul (.rat 4 1) .pi) (.par n!"alpha_e"))))) (.par n!"m_b"))) (.div (.div (.div (.sqrt (.rat 2 1)) (.par n!"GF")) (.mul (.ckm 2 2) (.conj (.ckm 2 1)))) (.rat 4 1)))) (.rat 24 1)))),
  (n!"2dsbb", (.mul (.div (.div (.sqrt (.rat 2 1)) (.par n!"GF")) (.rat 4 1)) (.add (.div (.mul (.rat (-2) 1) (.mul (.mul (.div (.mul (.rat 4 1) (.par n!"GF")) (.sqrt (.rat 2 1))) (.mul (.ckm 2 1) (.conj (.ckm 2 0)))) (.inp n!"CVLLt_sdbb"))) (.rat 3 1)) (.div (.mul (.rat 8 1) (.mul (.mul (.div (.mul (.rat 4 1) (.par n!"GF")) (.sqrt (.rat 2 1))) (.mul (.ckm 2 1) (.conj (.ckm 2 0)))) (.inp n!"CVLRt_sdbb"))) (.rat 3 1))))),
  (n!"5pubmumu", (.mul (.div (.div (.sqrt (.rat 2 1)) (.par n!"GF")) (.rat 4 1)) (.div (.inp n!"CSL_bumunumu") (.div (.div (.div (.neg (.sqrt (.rat 2 1))) (.par n!"GF")) (.ckm 0 2)) (.rat 4 1))))),
  (n!"1pcsetau", (.mul (.div (.div (.sqrt (.rat 2 1)) (.par n!"GF")) (.rat 4 1)) (.div (.inp n!"CVR_scenutau") (.div (.div (.div (.neg (.sqrt (.rat 2 1))) (.par n!"GF")) (.ckm 1 1)) (.rat 4 1))))),
  (n!"7psbss", (.mul (.div (.div (.sqrt (.rat 2 1)) (.par n!"GF")) (.rat 4 1)) (.add (.sub (.div (.mul (.mul (.div (.mul (.rat 4 1) (.par n!"GF")) (.sqrt (.rat 2 1))) (.mul (.ckm 2 2) (.conj (.ckm 2 1)))) (.inp n!"CSRR_bsss")) (.rat 3 1)) (.div (.mul (.mul (.div (.mul (.rat 4 1) (.par n!"GF")) (.sqrt (.rat 2 1))) (.mul (.ckm 2 2) (.conj (.ckm 2 1)))) (.inp n!"CSRL_bsss")) (.rat 3 1))) (.mul (.mul (.div (.mul (.rat 4 1) (.par n!"GF")) (.sqrt (.rat 2 1))) (.mul (.ckm 2 2) (.conj (.ckm 2 1)))) (.inp n!"CTRR_bsss"))))),
  (n!"5pdbmutau", (.mul (.div (.div (.sqrt (.rat 2 1)) (.par n!"GF")) (.rat 4 1)) (.add (.div (.mul (.rat 5 1) (.div (.div (.inp n!"CPp_bdtaumu") (.div (.div (.mul (.rat 16 1) (.mul .pi .pi)) (.mul (.sqrt (.mul (.mul (.rat 4 1) .pi) (.par n!"alpha_e"))) (.sqrt (.mul (.mul (.rat 4 1) .pi) (.par n!"alpha_e"))))) (.par n!"m_b"))) (.div (.div (.div (.sqrt (.rat 2 1)) (.par n!"GF")) (.mul (.ckm 2 2) (.conj (.ckm 2 0)))) (.rat 4 1)))) (.rat 3 1)) (.div (.div (.inp n!"CSp_bdtaumu") (.div (.div (.mul (.rat 16 1) (.mul .pi .pi)) (.mul (.sqrt (.mul (.mul (.rat 4 1) .pi) (.par n!"alpha_e"))) (.sqrt (.mul (.mul (.rat 4 1) .pi) (.par n!"alpha_e"))))) (.par n!"m_b"))) (.div (.div (.div (.sqrt (.rat 2 1)) (.par n!"GF")) (.mul (.ckm 2 2) (.conj (.ckm 2 0)))) (.rat 4 1)))))),
  (n!"3dsee", (.mul (.div (.div (.sqrt (.rat 2 1)) (.par n!"GF")) (.rat 4 1)) (.div (.neg (.div (.div (.inp n!"C10_sdee") (.div (.mul (.rat 16 1) (.mul .pi .pi)) (.mul (.sqrt (.mul (.mul (.rat 4 1) .pi) (.par n!"alpha_e"))) (.sqrt (.mul (.mul (.rat 4 1) .pi) (.par n!"alpha_e")))))) (.div (.div (.div (.sqrt (.rat 2 1)) (.par n!"GF")) (.mul (.ckm 2 1) (.conj (.ckm 2 0)))) (.rat 4 1)))) (.rat 6 1)))),
  (n!"7pcdmutau", (.mul (.div (.div (.sqrt (.rat 2 1)) (.par n!"GF")) (.rat 4 1)) (.div (.inp n!"CT_dcmunutau") (.div (.div (.div (.neg (.sqrt (.rat 2 1))) (.par n!"GF")) (.ckm 1 0)) (.rat 4 1))))),
  (n!"nu1dstaumu", (.mul (.div (.div (.sqrt (.rat 2 1)) (.par n!"GF")) (.rat 4 1)) (.div (.div (.inp n!"CL_sdnumunutau") (.div (.mul (.rat 8 1) (.mul .pi .pi)) (.mul (.sqrt (.mul (.mul (.rat 4 1) .pi) (.par n!"alpha_e"))) (.sqrt (.mul (.mul (.rat 4 1) .pi) (.par n!"alpha_e")))))) (.div (.div (.div (.sqrt (.rat 2 1)) (.par n!"GF")) (.mul (.ckm 2 1) (.conj (.ckm 2 0)))) (.rat 4 1))))),
  (n!"1dsee", (.mul (.div (.div (.sqrt (.rat 2 1)) (.par n!"GF")) (.rat 4 1)) (.add (.div (.mul (.rat 5 1) (.div (.div (.inp n!"C10_sdee") (.div (.mul (.rat 16 1) (.mul .pi .pi)) (.mul (.sqrt (.mul (.mul (.rat 4 1) .pi) (.par n!"alpha_e"))) (.sqrt (.mul (.mul (.rat 4 1) .pi) (.par n!"alpha_e")))))) (.div (.div (.div (.sqrt (.rat 2 1)) (.par n!"GF")) (.mul (.ckm 2 1) (.conj (.ckm 2 0)))) (.rat 4 1)))) (.rat 3 1)) (.div (.div (.inp n!"C9_sdee") (.div (.mul (.rat 16 1) (.mul .pi .pi)) (.mul (.sqrt (.mul (.mul (.rat 4 1) .pi) (.par n!"alpha_e"))) (.sqrt (.mul (.mul (.rat 4 1) .pi) (.par n!"alpha_e")))))) (.div (.div (.div (.sqrt (.rat 2 1)) (.par n!"GF")) (.mul (.ckm 2 1) (.conj (.ckm 2 0)))) (.rat 4 1)))))),
  (n!"5cdtaumu", (.mul (.div (.div (.sqrt (.rat 2 1)) (.par n!"GF")) (.rat 4 1)) (.div (.inp n!"CSR_dctaunumu") (.div (.div (.div (.neg (.sqrt (.rat 2 1))) (.par n!"GF")) (.ckm 1 0)) (.rat 4 1))))),
  (n!"3sbtaumu", (.mul (.div (.div (.sqrt (.rat 2 1)) (.par n!"GF")) (.rat 4 1)) (.div (.neg (.div (.div (.inp n!"C10_bsmutau") (.div (.mul (.rat 16 1) (.mul .pi .pi)) (.mul (.sqrt (.mul (.mul (.rat 4 1) .pi) (.par n!"alpha_e"))) (.sqrt (.mul (.mul (.rat 4 1) .pi) (.par n!"alpha_e")))))) (.div (.div (.div (.sqrt (.rat 2 1)) (.par n!"GF")) (.mul (.ckm 2 2) (.conj (.ckm 2 1)))) (.rat 4 1)))) (.rat 6 1)))),
  (n!"3pdbetau", (.mul (.div (.div (.sqrt (.rat 2 1)) (.par n!"GF")) (.rat 4 1)) (.div (.div (.div (.inp n!"C10p_bdtaue") (.div (.mul (.rat 16 1) (.mul .pi .pi)) (.mul (.sqrt (.mul (.mul (.rat 4 1) .pi) (.par n!"alpha_e"))) (.sqrt (.mul (.mul (.rat 4 1) .pi) (.par n!"alpha_e")))))) (.div (.div (.div (.sqrt (.rat 2 1)) (.par n!"GF")) (.mul (.ckm 2 2) (.conj (.ckm 2 0)))) (.rat 4 1))) (.rat 6 1)))),
  (n!"5pdbtautau", (.mul (.div (.div (.sqrt (.rat 2 1)) (.par n!"GF")) (.rat 4 1)) (.add (.div (.mul (.rat 5 1) (.div (.div (.inp n!"CPp_bdtautau") (.div (.div (.mul (.rat 16 1) (.mul .pi .pi)) (.mul (.sqrt (.mul (.mul (.rat 4 1) .pi) (.par n!"alpha_e"))) (.sqrt (.mul (.mul (.rat 4 1) .pi) (.par n!"alpha_e"))))) (.par n!"m_b"))) (.div (.div (.div (.sqrt (.rat 2 1)) (.par n!"GF")) (.mul (.ckm 2 2) (.conj (.ckm 2 0)))) (.rat 4 1)))) (.rat 3 1)) (.div (.div (.inp n!"CSp_bdtautau") (.div (.div (.mul (.rat 16 1) (.mul .pi .pi)) (.mul (.sqrt (.mul (.mul (.rat 4 1) .pi) (.par n!"alpha_e"))) (.sqrt (.mul (.mul (.rat 4 1) .pi) (.par n!"alpha_e"))))) (.par n!"m_b"))) (.div (.div (.div (.sqrt (.rat 2 1)) (.par n!"GF")) (.mul (.ckm 2 2) (.conj (.ckm 2 0)))) (.rat 4 1)))))),
  (n!"4pdsuu", (.mul (.div (.div (.sqrt (.rat 2 1)) (.par n!"GF")) (.rat 4 1)) (.sub (.div (.mul (.mul (.div (.mul (.rat 4 1) (.par n!"GF")) (.sqrt (.rat 2 1))) (.mul (.ckm 2 1) (.conj (.ckm 2 0)))) (.inp n!"CVRRt_sduu")) (.rat 6 1)) (.div (.mul (.mul (.div (.mul (.rat 4 1) (.par n!"GF")) (.sqrt (.rat 2 1))) (.mul (.ckm 2 1) (.conj (.ckm 2 0)))) (.inp n!"CVRLt_sduu")) (.rat 6 1))))),
  (n!"1pdbemu", (.mul (.div (.div (.sqrt (.rat 2 1)) (.par n!"GF")) (.rat 4 1)) (.sub (.div (.div (.inp n!"C9p_bdmue") (.div (.mul (.rat 16 1) (.mul .pi .pi)) (.mul (.sqrt (.mul (.mul (.rat 4 1) .pi) (.par n!"alpha_e"))) (.sqrt (.mul (.mul (.rat 4 1) .pi) (.par n!"alpha_e")))))) (.div (.div (.div (.sqrt (.rat 2 1)) (.par n!"GF")) (.mul (.ckm 2 2) (.conj (.ckm 2 0)))) (.rat 4 1))) (.div (.mul (.rat 5 1) (.div (.div (.inp n!"C10p_bdmue") (.div (.mul (.rat 16 1) (.mul .pi .pi)) (.mul (.sqrt (.mul (.mul (.rat 4 1) .pi) (.par n!"alpha_e"))) (.sqrt (.mul (.mul (.rat 4 1) .pi) (.par n!"alpha_e")))))) (.div (.div (.div (.sqrt (.rat 2 1)) (.par n!"GF")) (.mul (.ckm 2 2) (.conj (.ckm 2 0)))) (.rat 4 1)))) (.rat 3 1))))),
  (n!"7dbmumu", (.mul (.div (.div (.sqrt (.rat 2 1)) (.par n!"GF")) (.rat 4 1)) (.add (.add (.div (.mul (.rat 2 1) (.div (.div (.inp n!"CP_bdmumu") (.div (.div (.mul (.rat 16 1) (.mul .pi .pi)) (.mul (.sqrt (.mul (.mul (.rat 4 1) .pi) (.par n!"alpha_e"))) (.sqrt (.mul (.mul (.rat 4 1) .pi) (.par n!"alpha_e"))))) (.par n!"m_b"))) (.div (.div (.div (.sqrt (.rat 2 1)) (.par n!"GF")) (.mul (.ckm 2 2) (.conj (.ckm 2 0)))) (.rat 4 1)))) (.rat 3 1)) (.div (.rat 0 1) (.div (.div (.div (.sqrt (.rat 2 1)) (.par n!"GF")) (.mul (.ckm 2 2) (.conj (.ckm 2 0)))) (.rat 4 1)))) (.div (.rat 0 1) (.div (.div (.div (.sqrt (.rat 2 1)) (.par n!"GF")) (.mul (.ckm 2 2) (.conj (.ckm 2 0)))) (.rat 4 1)))))),
  (n!"1pudmutau", (.mul (.div (.div (.sqrt (.rat 2 1)) (.par n!"GF")) (.rat 4 1)) (.div (.inp n!"CVR_dumunutau") (.div (.div (.div (.neg (.sqrt (.rat 2 1))) (.par n!"GF")) (.ckm 0 0)) (.rat 4 1))))),
  (n!"7dbmutau", (.mul (.div (.div (.sqrt (.rat 2 1)) (.par n!"GF")) (.rat 4 1)) (.add (.add (.div (.mul (.rat 2 1) (.div (.div (.inp n!"CP_bdtaumu") (.div (.div (.mul (.rat 16 1) (.mul .pi .pi)) (.mul (.sqrt (.mul (.mul (.rat 4 1) .pi) (.par n!"alpha_e"))) (.sqrt (.mul (.mul (.rat 4 1) .pi) (.par n!"alpha_e"))))) (.par n!"m_b"))) (.div (.div (.div (.sqrt (.rat 2 1)) (.par n!"GF")) (.mul (.ckm 2 2) (.conj (.ckm 2 0)))) (.rat 4 1)))) (.rat 3 1)) (.div (.rat 0 1) (.div (.div (.div (.sqrt (.rat 2 1)) (.par n!"GF")) (.mul (.ckm 2 2) (.conj (.ckm 2 0)))) (.rat 4 1)))) (.div (.rat 0 1) (.div (.div (.div (.sqrt (.rat 2 1)) (.par n!"GF")) (.mul (.ckm 2 2) (.conj (.ckm 2 0)))) (.rat 4 1)))))),
  (n!"1pubee", (.mul (.div (.div (.sqrt (.rat 2 1)) (.par n!"GF")) (.rat 4 1)) (.div (.inp n!"CVR_buenue") (.div (.div (.div (.neg (.sqrt (.rat 2 1))) (.par n!"GF")) (.ckm 0 2)) (.rat 4 1)))))]

def flavio_to_Bern_2 : List (ℕ × Sym) := [
  (n!"1cbmutau", (.mul (.div (.div (.sqrt (.rat 2 1)) (.par n!"GF")) (.rat 4 1)) (.div (.inp n!"CVL_bcmunutau") (.div (.div (.div (.neg (.sqrt (.rat 2 1))) (.par n!"GF")) (.ckm 1 2)) (.rat 4 1))))),
  (n!"1pubtautau", (.mul (.div (.div (.sqrt (.rat 2 1)) (.par n!"GF")) (.rat 4 1)) (.div (.inp n!"CVR_butaunutau") (.div (.div (.div (.neg (.sqrt (.rat 2 1))) (.par n!"GF")) (.ckm 0 2)) (.rat 4 1))))),
  (n!"3sbmue", (.mul (.div (.div (.sqrt (.rat 2 1)) (.par n!"GF")) (.rat 4 1)) (.div (.neg (.div (.div (.inp n!"C10_bsemu") (.div (.mul (.rat 16 1) (.mul .pi .pi)) (.mul (.sqrt (.mul (.mul (.rat 4 1) .pi) (.par n!"alpha_e"))) (.sqrt (.mul (.mul (.rat 4 1) .pi) (.par n!"alpha_e")))))) (.div (.div (.div (.sqrt (.rat 2 1)) (.par n!"GF")) (.mul (.ckm 2 2) (.conj (.ckm 2 1)))) (.rat 4 1)))) (.rat 6 1)))),
  (n!"7pdsbb", (.mul (.div (.div (.sqrt (.rat 2 1)) (.par n!"GF")) (.rat 4 1)) (.sub (.add (.add (.add (.sub (.div (.mul (.mul (.div (.mul (.rat 4 1) (.par n!"GF")) (.sqrt (.rat 2 1))) (.mul (.ckm 2 1) (.conj (.ckm 2 0)))) (.inp n!"CSLL_sdbb")) (.rat 3 1)) (.div (.mul (.mul (.div (.mul (.rat 4 1) (.par n!"GF")) (.sqrt (.rat 2 1))) (.mul (.ckm 2 1) (.conj (.ckm 2 0)))) (.inp n!"CSLR_sdbb")) (.rat 3 1))) (.mul (.mul (.div (.mul (.rat 4 1) (.par n!"GF")) (.sqrt (.rat 2 1))) (.mul (.ckm 2 1) (.conj (.ckm 2 0)))) (.inp n!"CTLL_sdbb"))) (.div (.mul (.mul (.div (.mul (.rat 4 1) (.par n!"GF")) (.sqrt (.rat 2 1))) (.mul (.ckm 2 1) (.conj (.ckm 2 0)))) (.inp n!"CTLLt_sdbb")) (.rat 3 1))) (.div (.mul (.mul (.div (.mul (.rat 4 1) (.par n!"GF")) (.sqrt (.rat 2 1))) (.mul (.ckm 2 1) (.conj (.ckm 2 0)))) (.inp n!"CSLLt_sdbb")) (.mul (.rat 3 1) (.rat 3 1)))) (.div (.mul (.mul (.div (.mul (.rat 4 1) (.par n!"GF")) (.sqrt (.rat 2 1))) (.mul (.ckm 2 1) (.conj (.ckm 2 0)))) (.inp n!"CSLRt_sdbb")) (.mul (.rat 3 1) (.rat 3 1)))))),
  (n!"7pubmue", (.mul (.div (.div (.sqrt (.rat 2 1)) (.par n!"GF")) (.rat 4 1)) (.div (.inp n!"CT_bumunue") (.div (.div (.div (.neg (.sqrt (.rat 2 1))) (.par n!"GF")) (.ckm 0 2)) (.rat 4 1))))),
  (n!"2psbdd", (.mul (.div (.div (.sqrt (.rat 2 1)) (.par n!"GF")) (.rat 4 1)) (.add (.div (.mul (.rat (-2) 1) (.mul (.mul (.div (.mul (.rat 4 1) (.par n!"GF")) (.sqrt (.rat 2 1))) (.mul (.ckm 2 2) (.conj (.ckm 2 1)))) (.inp n!"CVRRt_bsdd"))) (.rat 3 1)) (.div (.mul (.rat 8 1) (.mul (.mul (.div (.mul (.rat 4 1) (.par n!"GF")) (.sqrt (.rat 2 1))) (.mul (.ckm 2 2) (.conj (.ckm 2 1)))) (.inp n!"CVRLt_bsdd"))) (.rat 3 1))))),
  (n!"3pdstautau", (.mul (.div (.div (.sqrt (.rat 2 1)) (.par n!"GF")) (.rat 4 1)) (.div (.div (.div (.inp n!"C10p_sdtautau") (.div (.mul (.rat 16 1) (.mul .pi .pi)) (.mul (.sqrt (.mul (.mul (.rat 4 1) .pi) (.par n!"alpha_e"))) (.sqrt (.mul (.mul (.rat 4 1) .pi) (.par n!"alpha_e")))))) (.div (.div (.div (.sqrt (.rat 2 1)) (.par n!"GF")) (.mul (.ckm 2 1) (.conj (.ckm 2 0)))) (.rat 4 1))) (.rat 6 1)))),
  (n!"9pdbee", (.mul (.div (.div (.sqrt (.rat 2 1)) (.par n!"GF")) (.rat 4 1)) (.div (.neg (.div (.div (.inp n!"CPp_bdee") (.div (.div (.mul (.rat 16 1) (.mul .pi .pi)) (.mul (.sqrt (.mul (.mul (.rat 4 1) .pi) (.par n!"alpha_e"))) (.sqrt (.mul (.mul (.rat 4 1) .pi) (.par n!"alpha_e"))))) (.par n!"m_b"))) (.div (.div (.div (.sqrt (.rat 2 1)) (.par n!"GF")) (.mul (.ckm 2 2) (.conj (.ckm 2 0)))) (.rat 4 1)))) (.rat 24 1)))),
  (n!"5pdbdd", (.mul (.div (.div (.sqrt (.rat 2 1)) (.par n!"GF")) (.rat 4 1)) (.add (.div (.neg (.mul (.mul (.div (.mul (.rat 4 1) (.par n!"GF")) (.sqrt (.rat 2 1))) (.mul (.ckm 2 2) (.conj (.ckm 2 0)))) (.inp n!"CSRR_bddd"))) (.rat 3 1)) (.div (.mul (.rat 4 1) (.mul (.mul (.div (.mul (.rat 4 1) (.par n!"GF")) (.sqrt (.rat 2 1))) (.mul (.ckm 2 2) (.conj (.ckm 2 0)))) (.inp n!"CSRL_bddd"))) (.rat 3 1))))),
  (n!"1cstaumu", (.mul (.div (.div (.sqrt (.rat 2 1)) (.par n!"GF")) (.rat 4 1)) (.div (.inp n!"CVL_sctaunumu") (.div (.div (.div (.neg (.sqrt (.rat 2 1))) (.par n!"GF")) (.ckm 1 1)) (.rat 4 1))))),
  (n!"7psbmue", (.mul (.div (.div (.sqrt (.rat 2 1)) (.par n!"GF")) (.rat 4 1)) (.sub (.add (.div (.mul (.rat (-2) 1) (.div (.div (.inp n!"CPp_bsemu") (.div (.div (.mul (.rat 16 1) (.mul .pi .pi)) (.mul (.sqrt (.mul (.mul (.rat 4 1) .pi) (.par n!"alpha_e"))) (.sqrt (.mul (.mul (.rat 4 1) .pi) (.par n!"alpha_e"))))) (.par n!"m_b"))) (.div (.div (.div (.sqrt (.rat 2 1)) (.par n!"GF")) (.mul (.ckm 2 2) (.conj (.ckm 2 1)))) (.rat 4 1)))) (.rat 3 1)) (.div (.rat 0 1) (.div (.div (.div (.sqrt (.rat 2 1)) (.par n!"GF")) (.mul (.ckm 2 2) (.conj (.ckm 2 1)))) (.rat 4 1)))) (.div (.rat 0 1) (.div (.div (.div (.sqrt (.rat 2 1)) (.par n!"GF")) (.mul (.ckm 2 2) (.conj (.ckm 2 1)))) (.rat 4 1)))))),
  (n!"1pdbcc", (.mul (.div (.div (.sqrt (.rat 2 1)) (.par n!"GF")) (.rat 4 1)) (.add (.sub (.add (.div (.neg (.mul (.mul (.div (.mul (.rat 4 1) (.par n!"GF")) (.sqrt (.rat 2 1))) (.mul (.ckm 2 2) (.conj (.ckm 2 0)))) (.inp n!"CVRR_bdcc"))) (.rat 3 1)) (.div (.mul (.rat 4 1) (.mul (.mul (.div (.mul (.rat 4 1) (.par n!"GF")) (.sqrt (.rat 2 1))) (.mul (.ckm 2 2) (.conj (.ckm 2 0)))) (.inp n!"CVRL_bdcc"))) (.rat 3 1))) (.div (.mul (.mul (.div (.mul (.rat 4 1) (.par n!"GF")) (.sqrt (.rat 2 1))) (.mul (.ckm 2 2) (.conj (.ckm 2 0)))) (.inp n!"CVRRt_bdcc")) (.mul (.rat 3 1) (.rat 3 1)))) (.div (.mul (.rat 4 1) (.mul (.mul (.div (.mul (.rat 4 1) (.par n!"GF")) (.sqrt (.rat 2 1))) (.mul (.ckm 2 2) (.conj (.ckm 2 0)))) (.inp n!"CVRLt_bdcc"))) (.mul (.rat 3 1) (.rat 3 1)))))),
  (n!"7pustaue", (.mul (.div (.div (.sqrt (.rat 2 1)) (.par n!"GF")) (.rat 4 1)) (.div (.inp n!"CT_sutaunue") (.div (.div (.div (.neg (.sqrt (.rat 2 1))) (.par n!"GF")) (.ckm 0 1)) (.rat 4 1))))),
  (n!"5usmutau", (.mul (.div (.div (.sqrt (.rat 2 1)) (.par n!"GF")) (.rat 4 1)) (.div (.inp n!"CSR_sumunutau") (.div (.div (.div (.neg (.sqrt (.rat 2 1))) (.par n!"GF")) (.ckm 0 1)) (.rat 4 1))))),
  (n!"2psbsb", (.mul (.div (.div (.sqrt (.rat 2 1)) (.par n!"GF")) (.rat 4 1)) (.sub (.inp n!"CSRR_bsbs") (.mul (.rat 4 1) (.inp n!"CTRR_bsbs"))))),
  (n!"5dbmumu", (.mul (.div (.div (.sqrt (.rat 2 1)) (.par n!"GF")) (.rat 4 1)) (.sub (.div (.div (.inp n!"CS_bdmumu") (.div (.div (.mul (.rat 16 1) (.mul .pi .pi)) (.mul (.sqrt (.mul (.mul (.rat 4 1) .pi) (.par n!"alpha_e"))) (.sqrt (.mul (.mul (.rat 4 1) .pi) (.par n!"alpha_e"))))) (.par n!"m_b"))) (.div (.div (.div (.sqrt (.rat 2 1)) (.par n!"GF")) (.mul (.ckm 2 2) (.conj (.ckm 2 0)))) (.rat 4 1))) (.div (.mul (.rat 5 1) (.div (.div (.inp n!"CP_bdmumu") (.div (.div (.mul (.rat 16 1) (.mul .pi .pi)) (.mul (.sqrt (.mul (.mul (.rat 4 1) .pi) (.par n!"alpha_e"))) (.sqrt (.mul (.mul (.rat 4 1) .pi) (.par n!"alpha_e"))))) (.par n!"m_b"))) (.div (.div (.div (.sqrt (.rat 2 1)) (.par n!"GF")) (.mul (.ckm 2 2) (.conj (.ckm 2 0)))) (.rat 4 1)))) (.rat 3 1))))),
  (n!"3pcucu", (.mul (.div (.div (.sqrt (.rat 2 1)) (.par n!"GF")) (.rat 4 1)) (.mul (.rat (-8) 1) (.inp n!"CTRR_ucuc")))),
  (n!"5udmue", (.mul (.div (.div (.sqrt (.rat 2 1)) (.par n!"GF")) (.rat 4 1)) (.div (.inp n!"CSR_dumunue") (.div (.div (.div (.neg (.sqrt (.rat 2 1))) (.par n!"GF")) (.ckm 0 0)) (.rat 4 1))))),
  (n!"1udmumu", (.mul (.div (.div (.sqrt (.rat 2 1)) (.par n!"GF")) (.rat 4 1)) (.div (.inp n!"CVL_dumunumu") (.div (.div (.div (.neg (.sqrt (.rat 2 1))) (.par n!"GF")) (.ckm 0 0)) (.rat 4 1))))),
  (n!"nu1sbmue", (.mul (.div (.div (.sqrt (.rat 2 1)) (.par n!"GF")) (.rat 4 1)) (.div (.div (.inp n!"CL_bsnuenumu") (.div (.mul (.rat 8 1) (.mul .pi .pi)) (.mul (.sqrt (.mul (.mul (.rat 4 1) .pi) (.par n!"alpha_e"))) (.sqrt (.mul (.mul (.rat 4 1) .pi) (.par n!"alpha_e")))))) (.div (.div (.div (.sqrt (.rat 2 1)) (.par n!"GF")) (.mul (.ckm 2 2) (.conj (.ckm 2 1)))) (.rat 4 1))))),
  (n!"3pdsss", (.mul (.div (.div (.sqrt (.rat 2 1)) (.par n!"GF")) (.rat 4 1)) (.sub (.div (.mul (.mul (.div (.mul (.rat 4 1) (.par n!"GF")) (.sqrt (.rat 2 1))) (.mul (.ckm 2 1) (.conj (.ckm 2 0)))) (.inp n!"CVRR_sdss")) (.rat 12 1)) (.div (.mul (.mul (.div (.mul (.rat 4 1) (.par n!"GF")) (.sqrt (.rat 2 1))) (.mul (.ckm 2 1) (.conj (.ckm 2 0)))) (.inp n!"CVRL_sdss")) (.rat 12 1))))),
  (n!"1ubmumu", (.mul (.div (.div (.sqrt (.rat 2 1)) (.par n!"GF")) (.rat 4 1)) (.div (.inp n!"CVL_bumunumu") (.div (.div (.div (.neg (.sqrt (.rat 2 1))) (.par n!"GF")) (.ckm 0 2)) (.rat 4 1))))),
  (n!"5pdbmumu", (.mul (.div (.div (.sqrt (.rat 2 1)) (.par n!"GF")) (.rat 4 1)) (.add (.div (.mul (.rat 5 1) (.div (.div (.inp n!"CPp_bdmumu") (.div (.div (.mul (.rat 16 1) (.mul .pi .pi)) (.mul (.sqrt (.mul (.mul (.rat 4 1) .pi) (.par n!"alpha_e"))) (.sqrt (.mul (.mul (.rat 4 1) .pi) (.par n!"alpha_e"))))) (.par n!"m_b"))) (.div (.div (.div (.sqrt (.rat 2 1)) (.par n!"GF")) (.mul (.ckm 2 2) (.conj (.ckm 2 0)))) (.rat 4 1)))) (.rat 3 1)) (.div (.div (.inp n!"CSp_bdmumu") (.div (.div (.mul (.rat 16 1) (.mul .pi .pi)) (.mul (.sqrt (.mul (.mul (.rat 4 1) .pi) (.par n!"alpha_e"))) (.sqrt (.mul (.mul (.rat 4 1) .pi) (.par n!"alpha_e"))))) (.par n!"m_b"))) (.div (.div (.div (.sqrt (.rat 2 1)) (.par n!"GF")) (.mul (.ckm 2 2) (.conj (.ckm 2 0)))) (.rat 4 1)))))),
  (n!"5pubmue", (.mul (.div (.div (.sqrt (.rat 2 1)) (.par n!"GF")) (.rat 4 1)) (.div (.inp n!"CSL_bumunue") (.div (.div (.div (.neg (.sqrt (.rat 2 1))) (.par n!"GF")) (.ckm 0 2)) (.rat 4 1))))),
  (n!"1pdbuu", (.mul (.div (.div (.sqrt (.rat 2 1)) (.par n!"GF")) (.rat 4 1)) (.add (.sub (.add (.div (.neg (.mul (.mul (.div (.mul (.rat 4 1) (.par n!"GF")) (.sqrt (.rat 2 1))) (.mul (.ckm 2 2) (.conj (.ckm 2 0)))) (.inp n!"CVRR_bduu"))) (.rat 3 1)) (.div (.mul (.rat 4 1) (.mul (.mul (.div (.mul (.rat 4 1) (.par n!"GF")) (.sqrt (.rat 2 1))) (.mul (.ckm 2 2) (.conj (.ckm 2 0)))) (.inp n!"CVRL_bduu"))) (.rat 3 1))) (.div (.mul (.mul (.div (.mul (.rat 4 1) (.par n!"GF")) (.sqrt (.rat 2 1))) (.mul (.ckm 2 2) (.conj (.ckm 2 0)))) (.inp n!"CVRRt_bduu")) (.mul (.rat 3 1) (.rat 3 1)))) (.div (.mul (.rat 4 1) (.mul (.mul (.div (.mul (.rat 4 1) (.par n!"GF")) (.sqrt (.rat 2 1))) (.mul (.ckm 2 2) (.conj (.ckm 2 0)))) (.inp n!"CVRLt_bduu"))) (.mul (.rat 3 1) (.rat 3 1)))))),
  (n!"7pcdetau", (.mul (.div (.div (.sqrt (.rat 2 1)) (.par n!"GF")) (.rat 4 1)) (.div (.inp n!"CT_dcenutau") (.div (.div (.div (.neg (.sqrt (.rat 2 1))) (.par n!"GF")) (.ckm 1 0)) (.rat 4 1))))),
  (n!"1pcsee", (.mul (.div (.div (.sqrt (.rat 2 1)) (.par n!"GF")) (.rat 4 1)) (.div (.inp n!"CVR_scenue") (.div (.div (.div (.neg (.sqrt (.rat 2 1))) (.par n!"GF")) (.ckm 1 1)) (.rat 4 1))))),
  (n!"1pudtaue", (.mul (.div (.div (.sqrt (.rat 2 1)) (.par n!"GF")) (.rat 4 1)) (.div (.inp n!"CVR_dutaunue") (.div (.div (.div (.neg (.sqrt (.rat 2 1))) (.par n!"GF")) (.ckm 0 0)) (.rat 4 1))))),
  (n!"nu1dbtaumu", (.mul (.div (.div (.sqrt (.rat 2 1)) (.par n!"GF")) (.rat 4 1)) (.div (.div (.inp n!"CL_bdnumunutau") (.div (.mul (.rat 8 1) (.mul .pi .pi)) (.mul (.sqrt (.mul (.mul (.rat 4 1) .pi) (.par n!"alpha_e"))) (.sqrt (.mul (.mul (.rat 4 1) .pi) (.par n!"alpha_e")))))) (.div (.div (.div (.sqrt (.rat 2 1)) (.par n!"GF")) (.mul (.ckm 2 2) (.conj (.ckm 2 0)))) (.rat 4 1))))),
  (n!"5psbmue", (.mul (.div (.div (.sqrt (.rat 2 1)) (.par n!"GF")) (.rat 4 1)) (.add (.div (.mul (.rat 5 1) (.div (.div (.inp n!"CPp_bsemu") (.div (.div (.mul (.rat 16 1) (.mul .pi .pi)) (.mul (.sqrt (.mul (.mul (.rat 4 1) .pi) (.par n!"alpha_e"))) (.sqrt (.mul (.mul (.rat 4 1) .pi) (.par n!"alpha_e"))))) (.par n!"m_b"))) (.div (.div (.div (.sqrt (.rat 2 1)) (.par n!"GF")) (.mul (.ckm 2 2) (.conj (.ckm 2 1)))) (.rat 4 1)))) (.rat 3 1)) (.div (.div (.inp n!"CSp_bsemu") (.div (.div (.mul (.rat 16 1) (.mul .pi .pi)) (.mul (.sqrt (.mul (.mul (.rat 4 1) .pi) (.par n!"alpha_e"))) (.sqrt (.mul (.mul (.rat 4 1) .pi) (.par n!"alpha_e"))))) (.par n!"m_b"))) (.div (.div (.div (.sqrt (.rat 2 1)) (.par n!"GF")) (.mul (.ckm 2 2) (.conj (.ckm 2 1)))) (.rat 4 1)))))),
  (n!"9psbdd", (.mul (.div (.div (.sqrt (.rat 2 1)) (.par n!"GF")) (.rat 4 1)) (.sub (.add (.sub (.div (.mul (.mul (.div (.mul (.rat 4 1) (.par n!"GF")) (.sqrt (.rat 2 1))) (.mul (.ckm 2 2) (.conj (.ckm 2 1)))) (.inp n!"CSLL_bsdd")) (.rat 48 1)) (.div (.mul (.mul (.div (.mul (.rat 4 1) (.par n!"GF")) (.sqrt (.rat 2 1))) (.mul (.ckm 2 2) (.conj (.ckm 2 1)))) (.inp n!"CSLR_bsdd")) (.rat 48 1))) (.div (.mul (.mul (.div (.mul (.rat 4 1) (.par n!"GF")) (.sqrt (.rat 2 1))) (.mul (.ckm 2 2) (.conj (.ckm 2 1)))) (.inp n!"CSLLt_bsdd")) (.mul (.rat 48 1) (.rat 3 1)))) (.div (.mul (.mul (.div (.mul (.rat 4 1) (.par n!"GF")) (.sqrt (.rat 2 1))) (.mul (.ckm 2 2) (.conj (.ckm 2 1)))) (.inp n!"CSLRt_bsdd")) (.mul (.rat 48 1) (.rat 3 1)))))),
  (n!"7pcbetau", (.mul (.div (.div (.sqrt (.rat 2 1)) (.par n!"GF")) (.rat 4 1)) (.div (.inp n!"CT_bcenutau") (.div (.div (.div (.neg (.sqrt (.rat 2 1))) (.par n!"GF")) (.ckm 1 2)) (.rat 4 1))))),
  (n!"5psbcc", (.mul (.div (.div (.sqrt (.rat 2 1)) (.par n!"GF")) (.rat 4 1)) (.add (.sub (.add (.div (.neg (.mul (.mul (.div (.mul (.rat 4 1) (.par n!"GF")) (.sqrt (.rat 2 1))) (.mul (.ckm 2 2) (.conj (.ckm 2 1)))) (.inp n!"CSLL_bscc"))) (.rat 3 1)) (.div (.mul (.rat 4 1) (.mul (.mul (.div (.mul (.rat 4 1) (.par n!"GF")) (.sqrt (.rat 2 1))) (.mul (.ckm 2 2) (.conj (.ckm 2 1)))) (.inp n!"CSLR_bscc"))) (.rat 3 1))) (.div (.mul (.mul (.div (.mul (.rat 4 1) (.par n!"GF")) (.sqrt (.rat 2 1))) (.mul (.ckm 2 2) (.conj (.ckm 2 1)))) (.inp n!"CSLLt_bscc")) (.mul (.rat 3 1) (.rat 3 1)))) (.div (.mul (.rat 4 1) (.mul (.mul (.div (.mul (.rat 4 1) (.par n!"GF")) (.sqrt (.rat 2 1))) (.mul (.ckm 2 2) (.conj (.ckm 2 1)))) (.inp n!"CSLRt_bscc"))) (.mul (.rat 3 1) (.rat 3 1)))))),
  (n!"nu1pdstaue", (.mul (.div (.div (.sqrt (.rat 2 1)) (.par n!"GF")) (.rat 4 1)) (.div (.div (.inp n!"CR_sdnuenutau") (.div (.mul (.rat 8 1) (.mul .pi .pi)) (.mul (.sqrt (.mul (.mul (.rat 4 1) .pi) (.par n!"alpha_e"))) (.sqrt (.mul (.mul (.rat 4 1) .pi) (.par n!"alpha_e")))))) (.div (.div (.div (.sqrt (.rat 2 1)) (.par n!"GF")) (.mul (.ckm 2 1) (.conj (.ckm 2 0)))) (.rat 4 1))))),
  (n!"1psbbb", (.mul (.div (.div (.sqrt (.rat 2 1)) (.par n!"GF")) (.rat 4 1)) (.add (.div (.neg (.mul (.mul (.div (.mul (.rat 4 1) (.par n!"GF")) (.sqrt (.rat 2 1))) (.mul (.ckm 2 2) (.conj (.ckm 2 1)))) (.inp n!"CVRR_bsbb"))) (.rat 3 1)) (.div (.mul (.rat 4 1) (.mul (.mul (.div (.mul (.rat 4 1) (.par n!"GF")) (.sqrt (.rat 2 1))) (.mul (.ckm 2 2) (.conj (.ckm 2 1)))) (.inp n!"CVRL_bsbb"))) (.rat 3 1))))),
  (n!"1pubtaue", (.mul (.div (.div (.sqrt (.rat 2 1)) (.par n!"GF")) (.rat 4 1)) (.div (.inp n!"CVR_butaunue") (.div (.div (.div (.neg (.sqrt (.rat 2 1))) (.par n!"GF")) (.ckm 0 2)) (.rat 4 1))))),
  (n!"5pdbtaumu", (.mul (.div (.div (.sqrt (.rat 2 1)) (.par n!"GF")) (.rat 4 1)) (.add (.div (.mul (.rat 5 1) (.div (.div (.inp n!"CPp_bdmutau") (.div (.div (.mul (.rat 16 1) (.mul .pi .pi)) (.mul (.sqrt (.mul (.mul (.rat 4 1) .pi) (.par n!"alpha_e"))) (.sqrt (.mul (.mul (.rat 4 1) .pi) (.par n!"alpha_e"))))) (.par n!"m_b"))) (.div (.div (.div (.sqrt (.rat 2 1)) (.par n!"GF")) (.mul (.ckm 2 2) (.conj (.ckm 2 0)))) (.rat 4 1)))) (.rat 3 1)) (.div (.div (.inp n!"CSp_bdmutau") (.div (.div (.mul (.rat 16 1) (.mul .pi .pi)) (.mul (.sqrt (.mul (.mul (.rat 4 1) .pi) (.par n!"alpha_e"))) (.sqrt (.mul (.mul (.rat 4 1) .pi) (.par n!"alpha_e"))))) (.par n!"m_b"))) (.div (.div (.div (.sqrt (.rat 2 1)) (.par n!"GF")) (.mul (.ckm 2 2) (.conj (.ckm 2 0)))) (.rat 4 1)))))),
  (n!"7pcdtaumu", (.mul (.div (.div (.sqrt (.rat 2 1)) (.par n!"GF")) (.rat 4 1)) (.div (.inp n!"CT_dctaunumu") (.div (.div (.div (.neg (.sqrt (.rat 2 1))) (.par n!"GF")) (.ckm 1 0)) (.rat 4 1))))),
  (n!"9dbdd", (.mul (.div (.div (.sqrt (.rat 2 1)) (.par n!"GF")) (.rat 4 1)) (.sub (.div (.mul (.mul (.div (.mul (.rat 4 1) (.par n!"GF")) (.sqrt (.rat 2 1))) (.mul (.ckm 2 2) (.conj (.ckm 2 0)))) (.inp n!"CSLL_bddd")) (.rat 48 1)) (.div (.mul (.mul (.div (.mul (.rat 4 1) (.par n!"GF")) (.sqrt (.rat 2 1))) (.mul (.ckm 2 2) (.conj (.ckm 2 0)))) (.inp n!"CSLR_bddd")) (.rat 48 1))))),
  (n!"8pdbcc", (.mul (.div (.div (.sqrt (.rat 2 1)) (.par n!"GF")) (.rat 4 1)) (.sub (.add (.mul (.rat 2 1) (.mul (.mul (.div (.mul (.rat 4 1) (.par n!"GF")) (.sqrt (.rat 2 1))) (.mul (.ckm 2 2) (.conj (.ckm 2 0)))) (.inp n!"CTLLt_bdcc"))) (.div (.mul (.rat 2 1) (.mul (.mul (.div (.mul (.rat 4 1) (.par n!"GF")) (.sqrt (.rat 2 1))) (.mul (.ckm 2 2) (.conj (.ckm 2 0)))) (.inp n!"CSLLt_bdcc"))) (.rat 3 1))) (.div (.mul (.rat 2 1) (.mul (.mul (.div (.mul (.rat 4 1) (.par n!"GF")) (.sqrt (.rat 2 1))) (.mul (.ckm 2 2) (.conj (.ckm 2 0)))) (.inp n!"CSLRt_bdcc"))) (.rat 3 1))))),
  (n!"3psbtautau", (.mul (.div (.div (.sqrt (.rat 2 1)) (.par n!"GF")) (.rat 4 1)) (.div (.div (.div (.inp n!"C10p_bstautau") (.div (.mul (.rat 16 1) (.mul .pi .pi)) (.mul (.sqrt (.mul (.mul (.rat 4 1) .pi) (.par n!"alpha_e"))) (.sqrt (.mul (.mul (.rat 4 1) .pi) (.par n!"alpha_e")))))) (.div (.div (.div (.sqrt (.rat 2 1)) (.par n!"GF")) (.mul (.ckm 2 2) (.conj (.ckm 2 1)))) (.rat 4 1))) (.rat 6 1)))),
  (n!"7dbdd", (.mul (.div (.div (.sqrt (.rat 2 1)) (.par n!"GF")) (.rat 4 1)) (.add (.sub (.div (.mul (.mul (.div (.mul (.rat 4 1) (.par n!"GF")) (.sqrt (.rat 2 1))) (.mul (.ckm 2 2) (.conj (.ckm 2 0)))) (.inp n!"CSLL_bddd")) (.rat 3 1)) (.div (.mul (.mul (.div (.mul (.rat 4 1) (.par n!"GF")) (.sqrt (.rat 2 1))) (.mul (.ckm 2 2) (.conj (.ckm 2 0)))) (.inp n!"CSLR_bddd")) (.rat 3 1))) (.mul (.mul (.div (.mul (.rat 4 1) (.par n!"GF")) (.sqrt (.rat 2 1))) (.mul (.ckm 2 2) (.conj (.ckm 2 0)))) (.inp n!"CTLL_bddd"))))),
  (n!"7pcbmue", (.mul (.div (.div (.sqrt (.rat 2 1)) (.par n!"GF")) (.rat 4 1)) (.div (.inp n!"CT_bcmunue") (.div (.div (.div (.neg (.sqrt (.rat 2 1))) (.par n!"GF")) (.ckm 1 2)) (.rat 4 1))))),
  (n!"1psbmumu", (.mul (.div (.div (.sqrt (.rat 2 1)) (.par n!"GF")) (.rat 4 1)) (.sub (.div (.div (.inp n!"C9p_bsmumu") (.div (.mul (.rat 16 1) (.mul .pi .pi)) (.mul (.sqrt (.mul (.mul (.rat 4 1) .pi) (.par n!"alpha_e"))) (.sqrt (.mul (.mul (.rat 4 1) .pi) (.par n!"alpha_e")))))) (.div (.div (.div (.sqrt (.rat 2 1)) (.par n!"GF")) (.mul (.ckm 2 2) (.conj (.ckm 2 1)))) (.rat 4 1))) (.div (.mul (.rat 5 1) (.div (.div (.inp n!"C10p_bsmumu") (.div (.mul (.rat 16 1) (.mul .pi .pi)) (.mul (.sqrt (.mul (.mul (.rat 4 1) .pi) (.par n!"alpha_e"))) (.sqrt (.mul (.mul (.rat 4 1) .pi) (.par n!"alpha_e")))))) (.div (.div (.div (.sqrt (.rat 2 1)) (.par n!"GF")) (.mul (.ckm 2 2) (.conj (.ckm 2 1)))) (.rat 4 1)))) (.rat 3 1))))),
  (n!"3dbmumu", (.mul (.div (.div (.sqrt (.rat 2 1)) (.par n!"GF")) (.rat 4 1)) (.div (.neg (.div (.div (.inp n!"C10_bdmumu") (.div (.mul (.rat 16 1) (.mul .pi .pi)) (.mul (.sqrt (.mul (.mul (.rat 4 1) .pi) (.par n!"alpha_e"))) (.sqrt (.mul (.mul (.rat 4 1) .pi) (.par n!"alpha_e")))))) (.div (.div (.div (.sqrt (.rat 2 1)) (.par n!"GF")) (.mul (.ckm 2 2) (.conj (.ckm 2 0)))) (.rat 4 1)))) (.rat 6 1)))),
  (n!"10sbcc", (.mul (.div (.div (.sqrt (.rat 2 1)) (.par n!"GF")) (.rat 4 1)) (.sub (.div (.mul (.mul (.div (.mul (.rat 4 1) (.par n!"GF")) (.sqrt (.rat 2 1))) (.mul (.ckm 2 2) (.conj (.ckm 2 1)))) (.inp n!"CSRRt_bscc")) (.rat 24 1)) (.div (.mul (.mul (.div (.mul (.rat 4 1) (.par n!"GF")) (.sqrt (.rat 2 1))) (.mul (.ckm 2 2) (.conj (.ckm 2 1)))) (.inp n!"CSRLt_bscc")) (.rat 24 1))))),
  (n!"5dbdd", (.mul (.div (.div (.sqrt (.rat 2 1)) (.par n!"GF")) (.rat 4 1)) (.add (.div (.neg (.mul (.mul (.div (.mul (.rat 4 1) (.par n!"GF")) (.sqrt (.rat 2 1))) (.mul (.ckm 2 2) (.conj (.ckm 2 0)))) (.inp n!"CSLL_bddd"))) (.rat 3 1)) (.div (.mul (.rat 4 1) (.mul (.mul (.div (.mul (.rat 4 1) (.par n!"GF")) (.sqrt (.rat 2 1))) (.mul (.ckm 2 2) (.conj (.ckm 2 0)))) (.inp n!"CSLR_bddd"))) (.rat 3 1))))),
  (n!"7dbemu", (.mul (.div (.div (.sqrt (.rat 2 1)) (.par n!"GF")) (.rat 4 1)) (.add (.add (.div (.mul (.rat 2 1) (.div (.div (.inp n!"CP_bdmue") (.div (.div (.mul (.rat 16 1) (.mul .pi .pi)) (.mul (.sqrt (.mul (.mul (.rat 4 1) .pi) (.par n!"alpha_e"))) (.sqrt (.mul (.mul (.rat 4 1) .pi) (.par n!"alpha_e"))))) (.par n!"m_b"))) (.div (.div (.div (.sqrt (.rat 2 1)) (.par n!"GF")) (.mul (.ckm 2 2) (.conj (.ckm 2 0)))) (.rat 4 1)))) (.rat 3 1)) (.div (.rat 0 1) (.div (.div (.div (.sqrt (.rat 2 1)) (.par n!"GF")) (.mul (.ckm 2 2) (.conj (.ckm 2 0)))) (.rat 4 1)))) (.div (.rat 0 1) (.div (.div (.div (.sqrt (.rat 2 1)) (.par n!"GF")) (.mul (.ckm 2 2) (.conj (.ckm 2 0)))) (.rat 4 1)))))),
  (n!"nu1dbee", (.mul (.div (.div (.sqrt (.rat 2 1)) (.par n!"GF")) (.rat 4 1)) (.div (.div (.inp n!"CL_bdnuenue") (.div (.mul (.rat 8 1) (.mul .pi .pi)) (.mul (.sqrt (.mul (.mul (.rat 4 1) .pi) (.par n!"alpha_e"))) (.sqrt (.mul (.mul (.rat 4 1) .pi) (.par n!"alpha_e")))))) (.div (.div (.div (.sqrt (.rat 2 1)) (.par n!"GF")) (.mul (.ckm 2 2) (.conj (.ckm 2 0)))) (.rat 4 1))))),
  (n!"9psbmutau", (.mul (.div (.div (.sqrt (.rat 2 1)) (.par n!"GF")) (.rat 4 1)) (.div (.neg (.div (.div (.inp n!"CPp_bstaumu") (.div (.div (.mul (.rat 16 1) (.mul .pi .pi)) (.mul (.sqrt (.mul (.mul (.rat 4 1) .pi) (.par n!"alpha_e"))) (.sqrt (.mul (.mul (.rat 4 1) .pi) (.par n!"alpha_e"))))) (.par n!"m_b"))) (.div (.div (.div (.sqrt (.rat 2 1)) (.par n!"GF")) (.mul (.ckm 2 2) (.conj (.ckm 2 1)))) (.rat 4 1)))) (.rat 24 1))))]

def flavio_to_Bern_3 : List (ℕ × Sym) := [
  (n!"9dbtautau", (.mul (.div (.div (.sqrt (.rat 2 1)) (.par n!"GF")) (.rat 4 1)) (.div (.div (.div (.inp n!"CP_bdtautau") (.div (.div (.mul (.rat 16 1) (.mul .pi .pi)) (.mul (.sqrt (.mul (.mul (.rat 4 1) .pi) (.par n!"alpha_e"))) (.sqrt (.mul (.mul (.rat 4 1) .pi) (.par n!"alpha_e"))))) (.par n!"m_b"))) (.div (.div (.div (.sqrt (.rat 2 1)) (.par n!"GF")) (.mul (.ckm 2 2) (.conj (.ckm 2 0)))) (.rat 4 1))) (.rat 24 1)))),
  (n!"1pudtaumu", (.mul (.div (.div (.sqrt (.rat 2 1)) (.par n!"GF")) (.rat 4 1)) (.div (.inp n!"CVR_dutaunumu") (.div (.div (.div (.neg (.sqrt (.rat 2 1))) (.par n!"GF")) (.ckm 0 0)) (.rat 4 1))))),
  (n!"7dbtaumu", (.mul (.div (.div (.sqrt (.rat 2 1)) (.par n!"GF")) (.rat 4 1)) (.add (.add (.div (.mul (.rat 2 1) (.div (.div (.inp n!"CP_bdmutau") (.div (.div (.mul (.rat 16 1) (.mul .pi .pi)) (.mul (.sqrt (.mul (.mul (.rat 4 1) .pi) (.par n!"alpha_e"))) (.sqrt (.mul (.mul (.rat 4 1) .pi) (.par n!"alpha_e"))))) (.par n!"m_b"))) (.div (.div (.div (.sqrt (.rat 2 1)) (.par n!"GF")) (.mul (.ckm 2 2) (.conj (.ckm 2 0)))) (.rat 4 1)))) (.rat 3 1)) (.div (.rat 0 1) (.div (.div (.div (.sqrt (.rat 2 1)) (.par n!"GF")) (.mul (.ckm 2 2) (.conj (.ckm 2 0)))) (.rat 4 1)))) (.div (.rat 0 1) (.div (.div (.div (.sqrt (.rat 2 1)) (.par n!"GF")) (.mul (.ckm 2 2) (.conj (.ckm 2 0)))) (.rat 4 1)))))),
  (n!"1cbtaumu", (.mul (.div (.div (.sqrt (.rat 2 1)) (.par n!"GF")) (.rat 4 1)) (.div (.inp n!"CVL_bctaunumu") (.div (.div (.div (.neg (.sqrt (.rat 2 1))) (.par n!"GF")) (.ckm 1 2)) (.rat 4 1))))),
  (n!"3dbdd", (.mul (.div (.div (.sqrt (.rat 2 1)) (.par n!"GF")) (.rat 4 1)) (.sub (.div (.mul (.mul (.div (.mul (.rat 4 1) (.par n!"GF")) (.sqrt (.rat 2 1))) (.mul (.ckm 2 2) (.conj (.ckm 2 0)))) (.inp n!"CVLL_bddd")) (.rat 12 1)) (.div (.mul (.mul (.div (.mul (.rat 4 1) (.par n!"GF")) (.sqrt (.rat 2 1))) (.mul (.ckm 2 2) (.conj (.ckm 2 0)))) (.inp n!"CVLR_bddd")) (.rat 12 1))))),
  (n!"5ubmutau", (.mul (.div (.div (.sqrt (.rat 2 1)) (.par n!"GF")) (.rat 4 1)) (.div (.inp n!"CSR_bumunutau") (.div (.div (.div (.neg (.sqrt (.rat 2 1))) (.par n!"GF")) (.ckm 0 2)) (.rat 4 1))))),
  (n!"5psbuu", (.mul (.div (.div (.sqrt (.rat 2 1)) (.par n!"GF")) (.rat 4 1)) (.add (.sub (.add (.div (.neg (.mul (.mul (.div (.mul (.rat 4 1) (.par n!"GF")) (.sqrt (.rat 2 1))) (.mul (.ckm 2 2) (.conj (.ckm 2 1)))) (.inp n!"CSLL_bsuu"))) (.rat 3 1)) (.div (.mul (.rat 4 1) (.mul (.mul (.div (.mul (.rat 4 1) (.par n!"GF")) (.sqrt (.rat 2 1))) (.mul (.ckm 2 2) (.conj (.ckm 2 1)))) (.inp n!"CSLR_bsuu"))) (.rat 3 1))) (.div (.mul (.mul (.div (.mul (.rat 4 1) (.par n!"GF")) (.sqrt (.rat 2 1))) (.mul (.ckm 2 2) (.conj (.ckm 2 1)))) (.inp n!"CSLLt_bsuu")) (.mul (.rat 3 1) (.rat 3 1)))) (.div (.mul (.rat 4 1) (.mul (.mul (.div (.mul (.rat 4 1) (.par n!"GF")) (.sqrt (.rat 2 1))) (.mul (.ckm 2 2) (.conj (.ckm 2 1)))) (.inp n!"CSLRt_bsuu"))) (.mul (.rat 3 1) (.rat 3 1)))))),
  (n!"1dbdd", (.mul (.div (.div (.sqrt (.rat 2 1)) (.par n!"GF")) (.rat 4 1)) (.add (.div (.neg (.mul (.mul (.div (.mul (.rat 4 1) (.par n!"GF")) (.sqrt (.rat 2 1))) (.mul (.ckm 2 2) (.conj (.ckm 2 0)))) (.inp n!"CVLL_bddd"))) (.rat 3 1)) (.div (.mul (.rat 4 1) (.mul (.mul (.div (.mul (.rat 4 1) (.par n!"GF")) (.sqrt (.rat 2 1))) (.mul (.ckm 2 2) (.conj (.ckm 2 0)))) (.inp n!"CVLR_bddd"))) (.rat 3 1))))),
  (n!"5pcdee", (.mul (.div (.div (.sqrt (.rat 2 1)) (.par n!"GF")) (.rat 4 1)) (.div (.inp n!"CSL_dcenue") (.div (.div (.div (.neg (.sqrt (.rat 2 1))) (.par n!"GF")) (.ckm 1 0)) (.rat 4 1))))),
  (n!"8dbss", (.mul (.div (.div (.sqrt (.rat 2 1)) (.par n!"GF")) (.rat 4 1)) (.sub (.add (.mul (.rat 2 1) (.mul (.mul (.div (.mul (.rat 4 1) (.par n!"GF")) (.sqrt (.rat 2 1))) (.mul (.ckm 2 2) (.conj (.ckm 2 0)))) (.inp n!"CTRRt_bdss"))) (.div (.mul (.rat 2 1) (.mul (.mul (.div (.mul (.rat 4 1) (.par n!"GF")) (.sqrt (.rat 2 1))) (.mul (.ckm 2 2) (.conj (.ckm 2 0)))) (.inp n!"CSRRt_bdss"))) (.rat 3 1))) (.div (.mul (.rat 2 1) (.mul (.mul (.div (.mul (.rat 4 1) (.par n!"GF")) (.sqrt (.rat 2 1))) (.mul (.ckm 2 2) (.conj (.ckm 2 0)))) (.inp n!"CSRLt_bdss"))) (.rat 3 1))))),
  (n!"7pusmutau", (.mul (.div (.div (.sqrt (.rat 2 1)) (.par n!"GF")) (.rat 4 1)) (.div (.inp n!"CT_sumunutau") (.div (.div (.div (.neg (.sqrt (.rat 2 1))) (.par n!"GF")) (.ckm 0 1)) (.rat 4 1))))),
  (n!"10pdbcc", (.mul (.div (.div (.sqrt (.rat 2 1)) (.par n!"GF")) (.rat 4 1)) (.sub (.div (.mul (.mul (.div (.mul (.rat 4 1) (.par n!"GF")) (.sqrt (.rat 2 1))) (.mul (.ckm 2 2) (.conj (.ckm 2 0)))) (.inp n!"CSLLt_bdcc")) (.rat 24 1)) (.div (.mul (.mul (.div (.mul (.rat 4 1) (.par n!"GF")) (.sqrt (.rat 2 1))) (.mul (.ckm 2 2) (.conj (.ckm 2 0)))) (.inp n!"CSLRt_bdcc")) (.rat 24 1))))),
  (n!"3psbmue", (.mul (.div (.div (.sqrt (.rat 2 1)) (.par n!"GF")) (.rat 4 1)) (.div (.div (.div (.inp n!"C10p_bsemu") (.div (.mul (.rat 16 1) (.mul .pi .pi)) (.mul (.sqrt (.mul (.mul (.rat 4 1) .pi) (.par n!"alpha_e"))) (.sqrt (.mul (.mul (.rat 4 1) .pi) (.par n!"alpha_e")))))) (.div (.div (.div (.sqrt (.rat 2 1)) (.par n!"GF")) (.mul (.ckm 2 2) (.conj (.ckm 2 1)))) (.rat 4 1))) (.rat 6 1)))),
  (n!"8pdbuu", (.mul (.div (.div (.sqrt (.rat 2 1)) (.par n!"GF")) (.rat 4 1)) (.sub (.add (.mul (.rat 2 1) (.mul (.mul (.div (.mul (.rat 4 1) (.par n!"GF")) (.sqrt (.rat 2 1))) (.mul (.ckm 2 2) (.conj (.ckm 2 0)))) (.inp n!"CTLLt_bduu"))) (.div (.mul (.rat 2 1) (.mul (.mul (.div (.mul (.rat 4 1) (.par n!"GF")) (.sqrt (.rat 2 1))) (.mul (.ckm 2 2) (.conj (.ckm 2 0)))) (.inp n!"CSLLt_bduu"))) (.rat 3 1))) (.div (.mul (.rat 2 1) (.mul (.mul (.div (.mul (.rat 4 1) (.par n!"GF")) (.sqrt (.rat 2 1))) (.mul (.ckm 2 2) (.conj (.ckm 2 0)))) (.inp n!"CSLRt_bduu"))) (.rat 3 1))))),
  (n!"6dbss", (.mul (.div (.div (.sqrt (.rat 2 1)) (.par n!"GF")) (.rat 4 1)) (.add (.div (.mul (.rat (-2) 1) (.mul (.mul (.div (.mul (.rat 4 1) (.par n!"GF")) (.sqrt (.rat 2 1))) (.mul (.ckm 2 2) (.conj (.ckm 2 0)))) (.inp n!"CSRRt_bdss"))) (.rat 3 1)) (.div (.mul (.rat 8 1) (.mul (.mul (.div (.mul (.rat 4 1) (.par n!"GF")) (.sqrt (.rat 2 1))) (.mul (.ckm 2 2) (.conj (.ckm 2 0)))) (.inp n!"CSRLt_bdss"))) (.rat 3 1))))),
  (n!"5ustaumu", (.mul (.div (.div (.sqrt (.rat 2 1)) (.par n!"GF")) (.rat 4 1)) (.div (.inp n!"CSR_sutaunumu") (.div (.div (.div (.neg (.sqrt (.rat 2 1))) (.par n!"GF")) (.ckm 0 1)) (.rat 4 1))))),
  (n!"5cdmue", (.mul (.div (.div (.sqrt (.rat 2 1)) (.par n!"GF")) (.rat 4 1)) (.div (.inp n!"CSR_dcmunue") (.div (.div (.div (.neg (.sqrt (.rat 2 1))) (.par n!"GF")) (.ckm 1 0)) (.rat 4 1))))),
  (n!"3pdbmutau", (.mul (.div (.div (.sqrt (.rat 2 1)) (.par n!"GF")) (.rat 4 1)) (.div (.div (.div (.inp n!"C10p_bdtaumu") (.div (.mul (.rat 16 1) (.mul .pi .pi)) (.mul (.sqrt (.mul (.mul (.rat 4 1) .pi) (.par n!"alpha_e"))) (.sqrt (.mul (.mul (.rat 4 1) .pi) (.par n!"alpha_e")))))) (.div (.div (.div (.sqrt (.rat 2 1)) (.par n!"GF")) (.mul (.ckm 2 2) (.conj (.ckm 2 0)))) (.rat 4 1))) (.rat 6 1)))),
  (n!"5pcdmutau", (.mul (.div (.div (.sqrt (.rat 2 1)) (.par n!"GF")) (.rat 4 1)) (.div (.inp n!"CSL_dcmunutau") (.div (.div (.div (.neg (.sqrt (.rat 2 1))) (.par n!"GF")) (.ckm 1 0)) (.rat 4 1))))),
  (n!"9sbcc", (.mul (.div (.div (.sqrt (.rat 2 1)) (.par n!"GF")) (.rat 4 1)) (.sub (.add (.sub (.div (.mul (.mul (.div (.mul (.rat 4 1) (.par n!"GF")) (.sqrt (.rat 2 1))) (.mul (.ckm 2 2) (.conj (.ckm 2 1)))) (.inp n!"CSRR_bscc")) (.rat 48 1)) (.div (.mul (.mul (.div (.mul (.rat 4 1) (.par n!"GF")) (.sqrt (.rat 2 1))) (.mul (.ckm 2 2) (.conj (.ckm 2 1)))) (.inp n!"CSRL_bscc")) (.rat 48 1))) (.div (.mul (.mul (.div (.mul (.rat 4 1) (.par n!"GF")) (.sqrt (.rat 2 1))) (.mul (.ckm 2 2) (.conj (.ckm 2 1)))) (.inp n!"CSRRt_bscc")) (.mul (.rat 48 1) (.rat 3 1)))) (.div (.mul (.mul (.div (.mul (.rat 4 1) (.par n!"GF")) (.sqrt (.rat 2 1))) (.mul (.ckm 2 2) (.conj (.ckm 2 1)))) (.inp n!"CSRLt_bscc")) (.mul (.rat 48 1) (.rat 3 1)))))),
  (n!"1pusee", (.mul (.div (.div (.sqrt (.rat 2 1)) (.par n!"GF")) (.rat 4 1)) (.div (.inp n!"CVR_suenue") (.div (.div (.div (.neg (.sqrt (.rat 2 1))) (.par n!"GF")) (.ckm 0 1)) (.rat 4 1))))),
  (n!"4dbss", (.mul (.div (.div (.sqrt (.rat 2 1)) (.par n!"GF")) (.rat 4 1)) (.sub (.div (.mul (.mul (.div (.mul (.rat 4 1) (.par n!"GF")) (.sqrt (.rat 2 1))) (.mul (.ckm 2 2) (.conj (.ckm 2 0)))) (.inp n!"CVLLt_bdss")) (.rat 6 1)) (.div (.mul (.mul (.div (.mul (.rat 4 1) (.par n!"GF")) (.sqrt (.rat 2 1))) (.mul (.ckm 2 2) (.conj (.ckm 2 0)))) (.inp n!"CVLRt_bdss")) (.rat 6 1))))),
  (n!"10sbuu", (.mul (.div (.div (.sqrt (.rat 2 1)) (.par n!"GF")) (.rat 4 1)) (.sub (.div (.mul (.mul (.div (.mul (.rat 4 1) (.par n!"GF")) (.sqrt (.rat 2 1))) (.mul (.ckm 2 2) (.conj (.ckm 2 1)))) (.inp n!"CSRRt_bsuu")) (.rat 24 1)) (.div (.mul (.mul (.div (.mul (.rat 4 1) (.par n!"GF")) (.sqrt (.rat 2 1))) (.mul (.ckm 2 2) (.conj (.ckm 2 1)))) (.inp n!"CSRLt_bsuu")) (.rat 24 1))))),
  (n!"1usemu", (.mul (.div (.div (.sqrt (.rat 2 1)) (.par n!"GF")) (.rat 4 1)) (.div (.inp n!"CVL_suenumu") (.div (.div (.div (.neg (.sqrt (.rat 2 1))) (.par n!"GF")) (.ckm 0 1)) (.rat 4 1))))),
  (n!"5pcbmue", (.mul (.div (.div (.sqrt (.rat 2 1)) (.par n!"GF")) (.rat 4 1)) (.div (.inp n!"CSL_bcmunue") (.div (.div (.div (.neg (.sqrt (.rat 2 1))) (.par n!"GF")) (.ckm 1 2)) (.rat 4 1))))),
  (n!"7sbcc", (.mul (.div (.div (.sqrt (.rat 2 1)) (.par n!"GF")) (.rat 4 1)) (.sub (.add (.add (.add (.sub (.div (.mul (.mul (.div (.mul (.rat 4 1) (.par n!"GF")) (.sqrt (.rat 2 1))) (.mul (.ckm 2 2) (.conj (.ckm 2 1)))) (.inp n!"CSRR_bscc")) (.rat 3 1)) (.div (.mul (.mul (.div (.mul (.rat 4 1) (.par n!"GF")) (.sqrt (.rat 2 1))) (.mul (.ckm 2 2) (.conj (.ckm 2 1)))) (.inp n!"CSRL_bscc")) (.rat 3 1))) (.mul (.mul (.div (.mul (.rat 4 1) (.par n!"GF")) (.sqrt (.rat 2 1))) (.mul (.ckm 2 2) (.conj (.ckm 2 1)))) (.inp n!"CTRR_bscc"))) (.div (.mul (.mul (.div (.mul (.rat 4 1) (.par n!"GF")) (.sqrt (.rat 2 1))) (.mul (.ckm 2 2) (.conj (.ckm 2 1)))) (.inp n!"CTRRt_bscc")) (.rat 3 1))) (.div (.mul (.mul (.div (.mul (.rat 4 1) (.par n!"GF")) (.sqrt (.rat 2 1))) (.mul (.ckm 2 2) (.conj (.ckm 2 1)))) (.inp n!"CSRRt_bscc")) (.mul (.rat 3 1) (.rat 3 1)))) (.div (.mul (.mul (.div (.mul (.rat 4 1) (.par n!"GF")) (.sqrt (.rat 2 1))) (.mul (.ckm 2 2) (.conj (.ckm 2 1)))) (.inp n!"CSRLt_bscc")) (.mul (.rat 3 1) (.rat 3 1)))))),
  (n!"1dbmumu", (.mul (.div (.div (.sqrt (.rat 2 1)) (.par n!"GF")) (.rat 4 1)) (.add (.div (.mul (.rat 5 1) (.div (.div (.inp n!"C10_bdmumu") (.div (.mul (.rat 16 1) (.mul .pi .pi)) (.mul (.sqrt (.mul (.mul (.rat 4 1) .pi) (.par n!"alpha_e"))) (.sqrt (.mul (.mul (.rat 4 1) .pi) (.par n!"alpha_e")))))) (.div (.div (.div (.sqrt (.rat 2 1)) (.par n!"GF")) (.mul (.ckm 2 2) (.conj (.ckm 2 0)))) (.rat 4 1)))) (.rat 3 1)) (.div (.div (.inp n!"C9_bdmumu") (.div (.mul (.rat 16 1) (.mul .pi .pi)) (.mul (.sqrt (.mul (.mul (.rat 4 1) .pi) (.par n!"alpha_e"))) (.sqrt (.mul (.mul (.rat 4 1) .pi) (.par n!"alpha_e")))))) (.div (.div (.div (.sqrt (.rat 2 1)) (.par n!"GF")) (.mul (.ckm 2 2) (.conj (.ckm 2 0)))) (.rat 4 1)))))),
  (n!"2dbss", (.mul (.div (.div (.sqrt (.rat 2 1)) (.par n!"GF")) (.rat 4 1)) (.add (.div (.mul (.rat (-2) 1) (.mul (.mul (.div (.mul (.rat 4 1) (.par n!"GF")) (.sqrt (.rat 2 1))) (.mul (.ckm 2 2) (.conj (.ckm 2 0)))) (.inp n!"CVLLt_bdss"))) (.rat 3 1)) (.div (.mul (.rat 8 1) (.mul (.mul (.div (.mul (.rat 4 1) (.par n!"GF")) (.sqrt (.rat 2 1))) (.mul (.ckm 2 2) (.conj (.ckm 2 0)))) (.inp n!"CVLRt_bdss"))) (.rat 3 1))))),
  (n!"1pusmumu", (.mul (.div (.div (.sqrt (.rat 2 1)) (.par n!"GF")) (.rat 4 1)) (.div (.inp n!"CVR_sumunumu") (.div (.div (.div (.neg (.sqrt (.rat 2 1))) (.par n!"GF")) (.ckm 0 1)) (.rat 4 1))))),
  (n!"9pdsee", (.mul (.div (.div (.sqrt (.rat 2 1)) (.par n!"GF")) (.rat 4 1)) (.div (.neg (.div (.div (.inp n!"CPp_sdee") (.div (.div (.mul (.rat 16 1) (.mul .pi .pi)) (.mul (.sqrt (.mul (.mul (.rat 4 1) .pi) (.par n!"alpha_e"))) (.sqrt (.mul (.mul (.rat 4 1) .pi) (.par n!"alpha_e"))))) (.par n!"m_s"))) (.div (.div (.div (.sqrt (.rat 2 1)) (.par n!"GF")) (.mul (.ckm 2 1) (.conj (.ckm 2 0)))) (.rat 4 1)))) (.rat 24 1)))),
  (n!"9dbetau", (.mul (.div (.div (.sqrt (.rat 2 1)) (.par n!"GF")) (.rat 4 1)) (.div (.div (.div (.inp n!"CP_bdtaue") (.div (.div (.mul (.rat 16 1) (.mul .pi .pi)) (.mul (.sqrt (.mul (.mul (.rat 4 1) .pi) (.par n!"alpha_e"))) (.sqrt (.mul (.mul (.rat 4 1) .pi) (.par n!"alpha_e"))))) (.par n!"m_b"))) (.div (.div (.div (.sqrt (.rat 2 1)) (.par n!"GF")) (.mul (.ckm 2 2) (.conj (.ckm 2 0)))) (.rat 4 1))) (.rat 24 1)))),
  (n!"5sbcc", (.mul (.div (.div (.sqrt (.rat 2 1)) (.par n!"GF")) (.rat 4 1)) (.add (.sub (.add (.div (.neg (.mul (.mul (.div (.mul (.rat 4 1) (.par n!"GF")) (.sqrt (.rat 2 1))) (.mul (.ckm 2 2) (.conj (.ckm 2 1)))) (.inp n!"CSRR_bscc"))) (.rat 3 1)) (.div (.mul (.rat 4 1) (.mul (.mul (.div (.mul (.rat 4 1) (.par n!"GF")) (.sqrt (.rat 2 1))) (.mul (.ckm 2 2) (.conj (.ckm 2 1)))) (.inp n!"CSRL_bscc"))) (.rat 3 1))) (.div (.mul (.mul (.div (.mul (.rat 4 1) (.par n!"GF")) (.sqrt (.rat 2 1))) (.mul (.ckm 2 2) (.conj (.ckm 2 1)))) (.inp n!"CSRRt_bscc")) (.mul (.rat 3 1) (.rat 3 1)))) (.div (.mul (.rat 4 1) (.mul (.mul (.div (.mul (.rat 4 1) (.par n!"GF")) (.sqrt (.rat 2 1))) (.mul (.ckm 2 2) (.conj (.ckm 2 1)))) (.inp n!"CSRLt_bscc"))) (.mul (.rat 3 1) (.rat 3 1)))))),
  (n!"5pdsdd", (.mul (.div (.div (.sqrt (.rat 2 1)) (.par n!"GF")) (.rat 4 1)) (.add (.div (.neg (.mul (.mul (.div (.mul (.rat 4 1) (.par n!"GF")) (.sqrt (.rat 2 1))) (.mul (.ckm 2 1) (.conj (.ckm 2 0)))) (.inp n!"CSRR_sddd"))) (.rat 3 1)) (.div (.mul (.rat 4 1) (.mul (.mul (.div (.mul (.rat 4 1) (.par n!"GF")) (.sqrt (.rat 2 1))) (.mul (.ckm 2 1) (.conj (.ckm 2 0)))) (.inp n!"CSRL_sddd"))) (.rat 3 1))))),
  (n!"1pdscc", (.mul (.div (.div (.sqrt (.rat 2 1)) (.par n!"GF")) (.rat 4 1)) (.add (.sub (.add (.div (.neg (.mul (.mul (.div (.mul (.rat 4 1) (.par n!"GF")) (.sqrt (.rat 2 1))) (.mul (.ckm 2 1) (.conj (.ckm 2 0)))) (.inp n!"CVRR_sdcc"))) (.rat 3 1)) (.div (.mul (.rat 4 1) (.mul (.mul (.div (.mul (.rat 4 1) (.par n!"GF")) (.sqrt (.rat 2 1))) (.mul (.ckm 2 1) (.conj (.ckm 2 0)))) (.inp n!"CVRL_sdcc"))) (.rat 3 1))) (.div (.mul (.mul (.div (.mul (.rat 4 1) (.par n!"GF")) (.sqrt (.rat 2 1))) (.mul (.ckm 2 1) (.conj (.ckm 2 0)))) (.inp n!"CVRRt_sdcc")) (.mul (.rat 3 1) (.rat 3 1)))) (.div (.mul (.rat 4 1) (.mul (.mul (.div (.mul (.rat 4 1) (.par n!"GF")) (.sqrt (.rat 2 1))) (.mul (.ckm 2 1) (.conj (.ckm 2 0)))) (.inp n!"CVRLt_sdcc"))) (.mul (.rat 3 1) (.rat 3 1)))))),
  (n!"5udetau", (.mul (.div (.div (.sqrt (.rat 2 1)) (.par n!"GF")) (.rat 4 1)) (.div (.inp n!"CSR_duenutau") (.div (.div (.div (.neg (.sqrt (.rat 2 1))) (.par n!"GF")) (.ckm 0 0)) (.rat 4 1))))),
  (n!"nu1sbtaue", (.mul (.div (.div (.sqrt (.rat 2 1)) (.par n!"GF")) (.rat 4 1)) (.div (.div (.inp n!"CL_bsnuenutau") (.div (.mul (.rat 8 1) (.mul .pi .pi)) (.mul (.sqrt (.mul (.mul (.rat 4 1) .pi) (.par n!"alpha_e"))) (.sqrt (.mul (.mul (.rat 4 1) .pi) (.par n!"alpha_e")))))) (.div (.div (.div (.sqrt (.rat 2 1)) (.par n!"GF")) (.mul (.ckm 2 2) (.conj (.ckm 2 1)))) (.rat 4 1))))),
  (n!"1pubmue", (.mul (.div (.div (.sqrt (.rat 2 1)) (.par n!"GF")) (.rat 4 1)) (.div (.inp n!"CVR_bumunue") (.div (.div (.div (.neg (.sqrt (.rat 2 1))) (.par n!"GF")) (.ckm 0 2)) (.rat 4 1))))),
  (n!"10pdbuu", (.mul (.div (.div (.sqrt (.rat 2 1)) (.par n!"GF")) (.rat 4 1)) (.sub (.div (.mul (.mul (.div (.mul (.rat 4 1) (.par n!"GF")) (.sqrt (.rat 2 1))) (.mul (.ckm 2 2) (.conj (.ckm 2 0)))) (.inp n!"CSLLt_bduu")) (.rat 24 1)) (.div (.mul (.mul (.div (.mul (.rat 4 1) (.par n!"GF")) (.sqrt (.rat 2 1))) (.mul (.ckm 2 2) (.conj (.ckm 2 0)))) (.inp n!"CSLRt_bduu")) (.rat 24 1))))),
  (n!"5sbmutau", (.mul (.div (.div (.sqrt (.rat 2 1)) (.par n!"GF")) (.rat 4 1)) (.sub (.div (.div (.inp n!"CS_bstaumu") (.div (.div (.mul (.rat 16 1) (.mul .pi .pi)) (.mul (.sqrt (.mul (.mul (.rat 4 1) .pi) (.par n!"alpha_e"))) (.sqrt (.mul (.mul (.rat 4 1) .pi) (.par n!"alpha_e"))))) (.par n!"m_b"))) (.div (.div (.div (.sqrt (.rat 2 1)) (.par n!"GF")) (.mul (.ckm 2 2) (.conj (.ckm 2 1)))) (.rat 4 1))) (.div (.mul (.rat 5 1) (.div (.div (.inp n!"CP_bstaumu") (.div (.div (.mul (.rat 16 1) (.mul .pi .pi)) (.mul (.sqrt (.mul (.mul (.rat 4 1) .pi) (.par n!"alpha_e"))) (.sqrt (.mul (.mul (.rat 4 1) .pi) (.par n!"alpha_e"))))) (.par n!"m_b"))) (.div (.div (.div (.sqrt (.rat 2 1)) (.par n!"GF")) (.mul (.ckm 2 2) (.conj (.ckm 2 1)))) (.rat 4 1)))) (.rat 3 1))))),
  (n!"3sbcc", (.mul (.div (.div (.sqrt (.rat 2 1)) (.par n!"GF")) (.rat 4 1)) (.sub (.add (.sub (.div (.mul (.mul (.div (.mul (.rat 4 1) (.par n!"GF")) (.sqrt (.rat 2 1))) (.mul (.ckm 2 2) (.conj (.ckm 2 1)))) (.inp n!"CVLL_bscc")) (.rat 12 1)) (.div (.mul (.mul (.div (.mul (.rat 4 1) (.par n!"GF")) (.sqrt (.rat 2 1))) (.mul (.ckm 2 2) (.conj (.ckm 2 1)))) (.inp n!"CVLR_bscc")) (.rat 12 1))) (.div (.mul (.mul (.div (.mul (.rat 4 1) (.par n!"GF")) (.sqrt (.rat 2 1))) (.mul (.ckm 2 2) (.conj (.ckm 2 1)))) (.inp n!"CVLLt_bscc")) (.mul (.rat 12 1) (.rat 3 1)))) (.div (.mul (.mul (.div (.mul (.rat 4 1) (.par n!"GF")) (.sqrt (.rat 2 1))) (.mul (.ckm 2 2) (.conj (.ckm 2 1)))) (.inp n!"CVLRt_bscc")) (.mul (.rat 12 1) (.rat 3 1)))))),
  (n!"7pcdtautau", (.mul (.div (.div (.sqrt (.rat 2 1)) (.par n!"GF")) (.rat 4 1)) (.div (.inp n!"CT_dctaunutau") (.div (.div (.div (.neg (.sqrt (.rat 2 1))) (.par n!"GF")) (.ckm 1 0)) (.rat 4 1))))),
  (n!"9sbemu", (.mul (.div (.div (.sqrt (.rat 2 1)) (.par n!"GF")) (.rat 4 1)) (.div (.div (.div (.inp n!"CP_bsmue") (.div (.div (.mul (.rat 16 1) (.mul .pi .pi)) (.mul (.sqrt (.mul (.mul (.rat 4 1) .pi) (.par n!"alpha_e"))) (.sqrt (.mul (.mul (.rat 4 1) .pi) (.par n!"alpha_e"))))) (.par n!"m_b"))) (.div (.div (.div (.sqrt (.rat 2 1)) (.par n!"GF")) (.mul (.ckm 2 2) (.conj (.ckm 2 1)))) (.rat 4 1))) (.rat 24 1)))),
  (n!"1pdbtaue", (.mul (.div (.div (.sqrt (.rat 2 1)) (.par n!"GF")) (.rat 4 1)) (.sub (.div (.div (.inp n!"C9p_bdetau") (.div (.mul (.rat 16 1) (.mul .pi .pi)) (.mul (.sqrt (.mul (.mul (.rat 4 1) .pi) (.par n!"alpha_e"))) (.sqrt (.mul (.mul (.rat 4 1) .pi) (.par n!"alpha_e")))))) (.div (.div (.div (.sqrt (.rat 2 1)) (.par n!"GF")) (.mul (.ckm 2 2) (.conj (.ckm 2 0)))) (.rat 4 1))) (.div (.mul (.rat 5 1) (.div (.div (.inp n!"C10p_bdetau") (.div (.mul (.rat 16 1) (.mul .pi .pi)) (.mul (.sqrt (.mul (.mul (.rat 4 1) .pi) (.par n!"alpha_e"))) (.sqrt (.mul (.mul (.rat 4 1) .pi) (.par n!"alpha_e")))))) (.div (.div (.div (.sqrt (.rat 2 1)) (.par n!"GF")) (.mul (.ckm 2 2) (.conj (.ckm 2 0)))) (.rat 4 1)))) (.rat 3 1))))),
  (n!"5ubetau", (.mul (.div (.div (.sqrt (.rat 2 1)) (.par n!"GF")) (.rat 4 1)) (.div (.inp n!"CSR_buenutau") (.div (.div (.div (.neg (.sqrt (.rat 2 1))) (.par n!"GF")) (.ckm 0 2)) (.rat 4 1))))),
  (n!"1psbmue", (.mul (.div (.div (.sqrt (.rat 2 1)) (.par n!"GF")) (.rat 4 1)) (.sub (.div (.div (.inp n!"C9p_bsemu") (.div (.mul (.rat 16 1) (.mul .pi .pi)) (.mul (.sqrt (.mul (.mul (.rat 4 1) .pi) (.par n!"alpha_e"))) (.sqrt (.mul (.mul (.rat 4 1) .pi) (.par n!"alpha_e")))))) (.div (.div (.div (.sqrt (.rat 2 1)) (.par n!"GF")) (.mul (.ckm 2 2) (.conj (.ckm 2 1)))) (.rat 4 1))) (.div (.mul (.rat 5 1) (.div (.div (.inp n!"C10p_bsemu") (.div (.mul (.rat 16 1) (.mul .pi .pi)) (.mul (.sqrt (.mul (.mul (.rat 4 1) .pi) (.par n!"alpha_e"))) (.sqrt (.mul (.mul (.rat 4 1) .pi) (.par n!"alpha_e")))))) (.div (.div (.div (.sqrt (.rat 2 1)) (.par n!"GF")) (.mul (.ckm 2 2) (.conj (.ckm 2 1)))) (.rat 4 1)))) (.rat 3 1))))),
  (n!"5pudetau", (.mul (.div (.div (.sqrt (.rat 2 1)) (.par n!"GF")) (.rat 4 1)) (.div (.inp n!"CSL_duenutau") (.div (.div (.div (.neg (.sqrt (.rat 2 1))) (.par n!"GF")) (.ckm 0 0)) (.rat 4 1))))),
  (n!"1sbcc", (.mul (.div (.div (.sqrt (.rat 2 1)) (.par n!"GF")) (.rat 4 1)) (.add (.sub (.add (.div (.neg (.mul (.mul (.div (.mul (.rat 4 1) (.par n!"GF")) (.sqrt (.rat 2 1))) (.mul (.ckm 2 2) (.conj (.ckm 2 1)))) (.inp n!"CVLL_bscc"))) (.rat 3 1)) (.div (.mul (.rat 4 1) (.mul (.mul (.div (.mul (.rat 4 1) (.par n!"GF")) (.sqrt (.rat 2 1))) (.mul (.ckm 2 2) (.conj (.ckm 2 1)))) (.inp n!"CVLR_bscc"))) (.rat 3 1))) (.div (.mul (.mul (.div (.mul (.rat 4 1) (.par n!"GF")) (.sqrt (.rat 2 1))) (.mul (.ckm 2 2) (.conj (.ckm 2 1)))) (.inp n!"CVLLt_bscc")) (.mul (.rat 3 1) (.rat 3 1)))) (.div (.mul (.rat 4 1) (.mul (.mul (.div (.mul (.rat 4 1) (.par n!"GF")) (.sqrt (.rat 2 1))) (.mul (.ckm 2 2) (.conj (.ckm 2 1)))) (.inp n!"CVLRt_bscc"))) (.mul (.rat 3 1) (.rat 3 1)))))),
  (n!"9sbuu", (.mul (.div (.div (.sqrt (.rat 2 1)) (.par n!"GF")) (.rat 4 1)) (.sub (.add (.sub (.div (.mul (.mul (.div (.mul (.rat 4 1) (.par n!"GF")) (.sqrt (.rat 2 1))) (.mul (.ckm 2 2) (.conj (.ckm 2 1)))) (.inp n!"CSRR_bsuu")) (.rat 48 1)) (.div (.mul (.mul (.div (.mul (.rat 4 1) (.par n!"GF")) (.sqrt (.rat 2 1))) (.mul (.ckm 2 2) (.conj (.ckm 2 1)))) (.inp n!"CSRL_bsuu")) (.rat 48 1))) (.div (.mul (.mul (.div (.mul (.rat 4 1) (.par n!"GF")) (.sqrt (.rat 2 1))) (.mul (.ckm 2 2) (.conj (.ckm 2 1)))) (.inp n!"CSRRt_bsuu")) (.mul (.rat 48 1) (.rat 3 1)))) (.div (.mul (.mul (.div (.mul (.rat 4 1) (.par n!"GF")) (.sqrt (.rat 2 1))) (.mul (.ckm 2 2) (.conj (.ckm 2 1)))) (.inp n!"CSRLt_bsuu")) (.mul (.rat 48 1) (.rat 3 1)))))),
  (n!"5pubetau", (.mul (.div (.div (.sqrt (.rat 2 1)) (.par n!"GF")) (.rat 4 1)) (.div (.inp n!"CSL_buenutau") (.div (.div (.div (.neg (.sqrt (.rat 2 1))) (.par n!"GF")) (.ckm 0 2)) (.rat 4 1))))),
  (n!"7sbuu", (.mul (.div (.div (.sqrt (.rat 2 1)) (.par n!"GF")) (.rat 4 1)) (.sub (.add (.add (.add (.sub (.div (.mul (.mul (.div (.mul (.rat 4 1) (.par n!"GF")) (.sqrt (.rat 2 1))) (.mul (.ckm 2 2) (.conj (.ckm 2 1)))) (.inp n!"CSRR_bsuu")) (.rat 3 1)) (.div (.mul (.mul (.div (.mul (.rat 4 1) (.par n!"GF")) (.sqrt (.rat 2 1))) (.mul (.ckm 2 2) (.conj (.ckm 2 1)))) (.inp n!"CSRL_bsuu")) (.rat 3 1))) (.mul (.mul (.div (.mul (.rat 4 1) (.par n!"GF")) (.sqrt (.rat 2 1))) (.mul (.ckm 2 2) (.conj (.ckm 2 1)))) (.inp n!"CTRR_bsuu"))) (.div (.mul (.mul (.div (.mul (.rat 4 1) (.par n!"GF")) (.sqrt (.rat 2 1))) (.mul (.ckm 2 2) (.conj (.ckm 2 1)))) (.inp n!"CTRRt_bsuu")) (.rat 3 1))) (.div (.mul (.mul (.div (.mul (.rat 4 1) (.par n!"GF")) (.sqrt (.rat 2 1))) (.mul (.ckm 2 2) (.conj (.ckm 2 1)))) (.inp n!"CSRRt_bsuu")) (.mul (.rat 3 1) (.rat 3 1)))) (.div (.mul (.mul (.div (.mul (.rat 4 1) (.par n!"GF")) (.sqrt (.rat 2 1))) (.mul (.ckm 2 2) (.conj (.ckm 2 1)))) (.inp n!"CSRLt_bsuu")) (.mul (.rat 3 1) (.rat 3 1))))))]

def flavio_to_Bern_4 : List (ℕ × Sym) := [
  (n!"7pdbss", (.mul (.div (.div (.sqrt (.rat 2 1)) (.par n!"GF")) (.rat 4 1)) (.sub (.add (.add (.add (.sub (.div (.mul (.mul (.div (.mul (.rat 4 1) (.par n!"GF")) (.sqrt (.rat 2 1))) (.mul (.ckm 2 2) (.conj (.ckm 2 0)))) (.inp n!"CSLL_bdss")) (.rat 3 1)) (.div (.mul (.mul (.div (.mul (.rat 4 1) (.par n!"GF")) (.sqrt (.rat 2 1))) (.mul (.ckm 2 2) (.conj (.ckm 2 0)))) (.inp n!"CSLR_bdss")) (.rat 3 1))) (.mul (.mul (.div (.mul (.rat 4 1) (.par n!"GF")) (.sqrt (.rat 2 1))) (.mul (.ckm 2 2) (.conj (.ckm 2 0)))) (.inp n!"CTLL_bdss"))) (.div (.mul (.mul (.div (.mul (.rat 4 1) (.par n!"GF")) (.sqrt (.rat 2 1))) (.mul (.ckm 2 2) (.conj (.ckm 2 0)))) (.inp n!"CTLLt_bdss")) (.rat 3 1))) (.div (.mul (.mul (.div (.mul (.rat 4 1) (.par n!"GF")) (.sqrt (.rat 2 1))) (.mul (.ckm 2 2) (.conj (.ckm 2 0)))) (.inp n!"CSLLt_bdss")) (.mul (.rat 3 1) (.rat 3 1)))) (.div (.mul (.mul (.div (.mul (.rat 4 1) (.par n!"GF")) (.sqrt (.rat 2 1))) (.mul (.ckm 2 2) (.conj (.ckm 2 0)))) (.inp n!"CSLRt_bdss")) (.mul (.rat 3 1) (.rat 3 1)))))),
  (n!"5pudee", (.mul (.div (.div (.sqrt (.rat 2 1)) (.par n!"GF")) (.rat 4 1)) (.div (.inp n!"CSL_duenue") (.div (.div (.div (.neg (.sqrt (.rat 2 1))) (.par n!"GF")) (.ckm 0 0)) (.rat 4 1))))),
  (n!"5sbuu", (.mul (.div (.div (.sqrt (.rat 2 1)) (.par n!"GF")) (.rat 4 1)) (.add (.sub (.add (.div (.neg (.mul (.mul (.div (.mul (.rat 4 1) (.par n!"GF")) (.sqrt (.rat 2 1))) (.mul (.ckm 2 2) (.conj (.ckm 2 1)))) (.inp n!"CSRR_bsuu"))) (.rat 3 1)) (.div (.mul (.rat 4 1) (.mul (.mul (.div (.mul (.rat 4 1) (.par n!"GF")) (.sqrt (.rat 2 1))) (.mul (.ckm 2 2) (.conj (.ckm 2 1)))) (.inp n!"CSRL_bsuu"))) (.rat 3 1))) (.div (.mul (.mul (.div (.mul (.rat 4 1) (.par n!"GF")) (.sqrt (.rat 2 1))) (.mul (.ckm 2 2) (.conj (.ckm 2 1)))) (.inp n!"CSRRt_bsuu")) (.mul (.rat 3 1) (.rat 3 1)))) (.div (.mul (.rat 4 1) (.mul (.mul (.div (.mul (.rat 4 1) (.par n!"GF")) (.sqrt (.rat 2 1))) (.mul (.ckm 2 2) (.conj (.ckm 2 1)))) (.inp n!"CSRLt_bsuu"))) (.mul (.rat 3 1) (.rat 3 1)))))),
  (n!"1pdsuu", (.mul (.div (.div (.sqrt (.rat 2 1)) (.par n!"GF")) (.rat 4 1)) (.add (.sub (.add (.div (.neg (.mul (.mul (.div (.mul (.rat 4 1) (.par n!"GF")) (.sqrt (.rat 2 1))) (.mul (.ckm 2 1) (.conj (.ckm 2 0)))) (.inp n!"CVRR_sduu"))) (.rat 3 1)) (.div (.mul (.rat 4 1) (.mul (.mul (.div (.mul (.rat 4 1) (.par n!"GF")) (.sqrt (.rat 2 1))) (.mul (.ckm 2 1) (.conj (.ckm 2 0)))) (.inp n!"CVRL_sduu"))) (.rat 3 1))) (.div (.mul (.mul (.div (.mul (.rat 4 1) (.par n!"GF")) (.sqrt (.rat 2 1))) (.mul (.ckm 2 1) (.conj (.ckm 2 0)))) (.inp n!"CVRRt_sduu")) (.mul (.rat 3 1) (.rat 3 1)))) (.div (.mul (.rat 4 1) (.mul (.mul (.div (.mul (.rat 4 1) (.par n!"GF")) (.sqrt (.rat 2 1))) (.mul (.ckm 2 1) (.conj (.ckm 2 0)))) (.inp n!"CVRLt_sduu"))) (.mul (.rat 3 1) (.rat 3 1)))))),
  (n!"5cdee", (.mul (.div (.div (.sqrt (.rat 2 1)) (.par n!"GF")) (.rat 4 1)) (.div (.inp n!"CSR_dcenue") (.div (.div (.div (.neg (.sqrt (.rat 2 1))) (.par n!"GF")) (.ckm 1 0)) (.rat 4 1))))),
  (n!"5pcbee", (.mul (.div (.div (.sqrt (.rat 2 1)) (.par n!"GF")) (.rat 4 1)) (.div (.inp n!"CSL_bcenue") (.div (.div (.div (.neg (.sqrt (.rat 2 1))) (.par n!"GF")) (.ckm 1 2)) (.rat 4 1))))),
  (n!"7dbetau", (.mul (.div (.div (.sqrt (.rat 2 1)) (.par n!"GF")) (.rat 4 1)) (.add (.add (.div (.mul (.rat 2 1) (.div (.div (.inp n!"CP_bdtaue") (.div (.div (.mul (.rat 16 1) (.mul .pi .pi)) (.mul (.sqrt (.mul (.mul (.rat 4 1) .pi) (.par n!"alpha_e"))) (.sqrt (.mul (.mul (.rat 4 1) .pi) (.par n!"alpha_e"))))) (.par n!"m_b"))) (.div (.div (.div (.sqrt (.rat 2 1)) (.par n!"GF")) (.mul (.ckm 2 2) (.conj (.ckm 2 0)))) (.rat 4 1)))) (.rat 3 1)) (.div (.rat 0 1) (.div (.div (.div (.sqrt (.rat 2 1)) (.par n!"GF")) (.mul (.ckm 2 2) (.conj (.ckm 2 0)))) (.rat 4 1)))) (.div (.rat 0 1) (.div (.div (.div (.sqrt (.rat 2 1)) (.par n!"GF")) (.mul (.ckm 2 2) (.conj (.ckm 2 0)))) (.rat 4 1)))))),
  (n!"3sbuu", (.mul (.div (.div (.sqrt (.rat 2 1)) (.par n!"GF")) (.rat 4 1)) (.sub (.add (.sub (.div (.mul (.mul (.div (.mul (.rat 4 1) (.par n!"GF")) (.sqrt (.rat 2 1))) (.mul (.ckm 2 2) (.conj (.ckm 2 1)))) (.inp n!"CVLL_bsuu")) (.rat 12 1)) (.div (.mul (.mul (.div (.mul (.rat 4 1) (.par n!"GF")) (.sqrt (.rat 2 1))) (.mul (.ckm 2 2) (.conj (.ckm 2 1)))) (.inp n!"CVLR_bsuu")) (.rat 12 1))) (.div (.mul (.mul (.div (.mul (.rat 4 1) (.par n!"GF")) (.sqrt (.rat 2 1))) (.mul (.ckm 2 2) (.conj (.ckm 2 1)))) (.inp n!"CVLLt_bsuu")) (.mul (.rat 12 1) (.rat 3 1)))) (.div (.mul (.mul (.div (.mul (.rat 4 1) (.par n!"GF")) (.sqrt (.rat 2 1))) (.mul (.ckm 2 2) (.conj (.ckm 2 1)))) (.inp n!"CVLRt_bsuu")) (.mul (.rat 12 1) (.rat 3 1)))))),
  (n!"9psbtaumu", (.mul (.div (.div (.sqrt (.rat 2 1)) (.par n!"GF")) (.rat 4 1)) (.div (.neg (.div (.div (.inp n!"CPp_bsmutau") (.div (.div (.mul (.rat 16 1) (.mul .pi .pi)) (.mul (.sqrt (.mul (.mul (.rat 4 1) .pi) (.par n!"alpha_e"))) (.sqrt (.mul (.mul (.rat 4 1) .pi) (.par n!"alpha_e"))))) (.par n!"m_b"))) (.div (.div (.div (.sqrt (.rat 2 1)) (.par n!"GF")) (.mul (.ckm 2 2) (.conj (.ckm 2 1)))) (.rat 4 1)))) (.rat 24 1)))),
  (n!"7pgammadb", (.mul (.div (.div (.sqrt (.rat 2 1)) (.par n!"GF")) (.rat 4 1)) (.mul (.div (.div (.mul (.sqrt (.mul (.mul (.rat 4 1) .pi) (.par n!"alpha_s"))) (.sqrt (.mul (.mul (.rat 4 1) .pi) (.par n!"alpha_s")))) (.sqrt (.mul (.mul (.rat 4 1) .pi) (.par n!"alpha_e")))) (.par n!"m_b")) (.div (.div (.inp n!"C7p_bd") (.div (.div (.mul (.rat 16 1) (.mul .pi .pi)) (.sqrt (.mul (.mul (.rat 4 1) .pi) (.par n!"alpha_e")))) (.par n!"m_b"))) (.div (.div (.div (.sqrt (.rat 2 1)) (.par n!"GF")) (.mul (.ckm 2 2) (.conj (.ckm 2 0)))) (.rat 4 1)))))),
  (n!"7pubmutau", (.mul (.div (.div (.sqrt (.rat 2 1)) (.par n!"GF")) (.rat 4 1)) (.div (.inp n!"CT_bumunutau") (.div (.div (.div (.neg (.sqrt (.rat 2 1))) (.par n!"GF")) (.ckm 0 2)) (.rat 4 1))))),
  (n!"5dbmue", (.mul (.div (.div (.sqrt (.rat 2 1)) (.par n!"GF")) (.rat 4 1)) (.sub (.div (.div (.inp n!"CS_bdemu") (.div (.div (.mul (.rat 16 1) (.mul .pi .pi)) (.mul (.sqrt (.mul (.mul (.rat 4 1) .pi) (.par n!"alpha_e"))) (.sqrt (.mul (.mul (.rat 4 1) .pi) (.par n!"alpha_e"))))) (.par n!"m_b"))) (.div (.div (.div (.sqrt (.rat 2 1)) (.par n!"GF")) (.mul (.ckm 2 2) (.conj (.ckm 2 0)))) (.rat 4 1))) (.div (.mul (.rat 5 1) (.div (.div (.inp n!"CP_bdemu") (.div (.div (.mul (.rat 16 1) (.mul .pi .pi)) (.mul (.sqrt (.mul (.mul (.rat 4 1) .pi) (.par n!"alpha_e"))) (.sqrt (.mul (.mul (.rat 4 1) .pi) (.par n!"alpha_e"))))) (.par n!"m_b"))) (.div (.div (.div (.sqrt (.rat 2 1)) (.par n!"GF")) (.mul (.ckm 2 2) (.conj (.ckm 2 0)))) (.rat 4 1)))) (.rat 3 1))))),
  (n!"1sbuu", (.mul (.div (.div (.sqrt (.rat 2 1)) (.par n!"GF")) (.rat 4 1)) (.add (.sub (.add (.div (.neg (.mul (.mul (.div (.mul (.rat 4 1) (.par n!"GF")) (.sqrt (.rat 2 1))) (.mul (.ckm 2 2) (.conj (.ckm 2 1)))) (.inp n!"CVLL_bsuu"))) (.rat 3 1)) (.div (.mul (.rat 4 1) (.mul (.mul (.div (.mul (.rat 4 1) (.par n!"GF")) (.sqrt (.rat 2 1))) (.mul (.ckm 2 2) (.conj (.ckm 2 1)))) (.inp n!"CVLR_bsuu"))) (.rat 3 1))) (.div (.mul (.mul (.div (.mul (.rat 4 1) (.par n!"GF")) (.sqrt (.rat 2 1))) (.mul (.ckm 2 2) (.conj (.ckm 2 1)))) (.inp n!"CVLLt_bsuu")) (.mul (.rat 3 1) (.rat 3 1)))) (.div (.mul (.rat 4 1) (.mul (.mul (.div (.mul (.rat 4 1) (.par n!"GF")) (.sqrt (.rat 2 1))) (.mul (.ckm 2 2) (.conj (.ckm 2 1)))) (.inp n!"CVLRt_bsuu"))) (.mul (.rat 3 1) (.rat 3 1)))))),
  (n!"7pcbtautau", (.mul (.div (.div (.sqrt (.rat 2 1)) (.par n!"GF")) (.rat 4 1)) (.div (.inp n!"CT_bctaunutau") (.div (.div (.div (.neg (.sqrt (.rat 2 1))) (.par n!"GF")) (.ckm 1 2)) (.rat 4 1))))),
  (n!"1cdee", (.mul (.div (.div (.sqrt (.rat 2 1)) (.par n!"GF")) (.rat 4 1)) (.div (.inp n!"CVL_dcenue") (.div (.div (.div (.neg (.sqrt (.rat 2 1))) (.par n!"GF")) (.ckm 1 0)) (.rat 4 1))))),
  (n!"9dsdd", (.mul (.div (.div (.sqrt (.rat 2 1)) (.par n!"GF")) (.rat 4 1)) (.sub (.div (.mul (.mul (.div (.mul (.rat 4 1) (.par n!"GF")) (.sqrt (.rat 2 1))) (.mul (.ckm 2 1) (.conj (.ckm 2 0)))) (.inp n!"CSLL_sddd")) (.rat 48 1)) (.div (.mul (.mul (.div (.mul (.rat 4 1) (.par n!"GF")) (.sqrt (.rat 2 1))) (.mul (.ckm 2 1) (.conj (.ckm 2 0)))) (.inp n!"CSLR_sddd")) (.rat 48 1))))),
  (n!"8pdscc", (.mul (.div (.div (.sqrt (.rat 2 1)) (.par n!"GF")) (.rat 4 1)) (.sub (.add (.mul (.rat 2 1) (.mul (.mul (.div (.mul (.rat 4 1) (.par n!"GF")) (.sqrt (.rat 2 1))) (.mul (.ckm 2 1) (.conj (.ckm 2 0)))) (.inp n!"CTLLt_sdcc"))) (.div (.mul (.rat 2 1) (.mul (.mul (.div (.mul (.rat 4 1) (.par n!"GF")) (.sqrt (.rat 2 1))) (.mul (.ckm 2 1) (.conj (.ckm 2 0)))) (.inp n!"CSLLt_sdcc"))) (.rat 3 1))) (.div (.mul (.rat 2 1) (.mul (.mul (.div (.mul (.rat 4 1) (.par n!"GF")) (.sqrt (.rat 2 1))) (.mul (.ckm 2 1) (.conj (.ckm 2 0)))) (.inp n!"CSLRt_sdcc"))) (.rat 3 1))))),
  (n!"3psbee", (.mul (.div (.div (.sqrt (.rat 2 1)) (.par n!"GF")) (.rat 4 1)) (.div (.div (.div (.inp n!"C10p_bsee") (.div (.mul (.rat 16 1) (.mul .pi .pi)) (.mul (.sqrt (.mul (.mul (.rat 4 1) .pi) (.par n!"alpha_e"))) (.sqrt (.mul (.mul (.rat 4 1) .pi) (.par n!"alpha_e")))))) (.div (.div (.div (.sqrt (.rat 2 1)) (.par n!"GF")) (.mul (.ckm 2 2) (.conj (.ckm 2 1)))) (.rat 4 1))) (.rat 6 1)))),
  (n!"5ubtaumu", (.mul (.div (.div (.sqrt (.rat 2 1)) (.par n!"GF")) (.rat 4 1)) (.div (.inp n!"CSR_butaunumu") (.div (.div (.div (.neg (.sqrt (.rat 2 1))) (.par n!"GF")) (.ckm 0 2)) (.rat 4 1))))),
  (n!"4pdsbb", (.mul (.div (.div (.sqrt (.rat 2 1)) (.par n!"GF")) (.rat 4 1)) (.sub (.div (.mul (.mul (.div (.mul (.rat 4 1) (.par n!"GF")) (.sqrt (.rat 2 1))) (.mul (.ckm 2 1) (.conj (.ckm 2 0)))) (.inp n!"CVRRt_sdbb")) (.rat 6 1)) (.div (.mul (.mul (.div (.mul (.rat 4 1) (.par n!"GF")) (.sqrt (.rat 2 1))) (.mul (.ckm 2 1) (.conj (.ckm 2 0)))) (.inp n!"CVRLt_sdbb")) (.rat 6 1))))),
  (n!"1csemu", (.mul (.div (.div (.sqrt (.rat 2 1)) (.par n!"GF")) (.rat 4 1)) (.div (.inp n!"CVL_scenumu") (.div (.div (.div (.neg (.sqrt (.rat 2 1))) (.par n!"GF")) (.ckm 1 1)) (.rat 4 1))))),
  (n!"7pustaumu", (.mul (.div (.div (.sqrt (.rat 2 1)) (.par n!"GF")) (.rat 4 1)) (.div (.inp n!"CT_sutaunumu") (.div (.div (.div (.neg (.sqrt (.rat 2 1))) (.par n!"GF")) (.ckm 0 1)) (.rat 4 1))))),
  (n!"7dsdd", (.mul (.div (.div (.sqrt (.rat 2 1)) (.par n!"GF")) (.rat 4 1)) (.add (.sub (.div (.mul (.mul (.div (.mul (.rat 4 1) (.par n!"GF")) (.sqrt (.rat 2 1))) (.mul (.ckm 2 1) (.conj (.ckm 2 0)))) (.inp n!"CSLL_sddd")) (.rat 3 1)) (.div (.mul (.mul (.div (.mul (.rat 4 1) (.par n!"GF")) (.sqrt (.rat 2 1))) (.mul (.ckm 2 1) (.conj (.ckm 2 0)))) (.inp n!"CSLR_sddd")) (.rat 3 1))) (.mul (.mul (.div (.mul (.rat 4 1) (.par n!"GF")) (.sqrt (.rat 2 1))) (.mul (.ckm 2 1) (.conj (.ckm 2 0)))) (.inp n!"CTLL_sddd"))))),
  (n!"5cdtaue", (.mul (.div (.div (.sqrt (.rat 2 1)) (.par n!"GF")) (.rat 4 1)) (.div (.inp n!"CSR_dctaunue") (.div (.div (.div (.neg (.sqrt (.rat 2 1))) (.par n!"GF")) (.ckm 1 0)) (.rat 4 1))))),
  (n!"5cdtautau", (.mul (.div (.div (.sqrt (.rat 2 1)) (.par n!"GF")) (.rat 4 1)) (.div (.inp n!"CSR_dctaunutau") (.div (.div (.div (.neg (.sqrt (.rat 2 1))) (.par n!"GF")) (.ckm 1 0)) (.rat 4 1))))),
  (n!"5dsdd", (.mul (.div (.div (.sqrt (.rat 2 1)) (.par n!"GF")) (.rat 4 1)) (.add (.div (.neg (.mul (.mul (.div (.mul (.rat 4 1) (.par n!"GF")) (.sqrt (.rat 2 1))) (.mul (.ckm 2 1) (.conj (.ckm 2 0)))) (.inp n!"CSLL_sddd"))) (.rat 3 1)) (.div (.mul (.rat 4 1) (.mul (.mul (.div (.mul (.rat 4 1) (.par n!"GF")) (.sqrt (.rat 2 1))) (.mul (.ckm 2 1) (.conj (.ckm 2 0)))) (.inp n!"CSLR_sddd"))) (.rat 3 1))))),
  (n!"nu1dsee", (.mul (.div (.div (.sqrt (.rat 2 1)) (.par n!"GF")) (.rat 4 1)) (.div (.div (.inp n!"CL_sdnuenue") (.div (.mul (.rat 8 1) (.mul .pi .pi)) (.mul (.sqrt (.mul (.mul (.rat 4 1) .pi) (.par n!"alpha_e"))) (.sqrt (.mul (.mul (.rat 4 1) .pi) (.par n!"alpha_e")))))) (.div (.div (.div (.sqrt (.rat 2 1)) (.par n!"GF")) (.mul (.ckm 2 1) (.conj (.ckm 2 0)))) (.rat 4 1))))),
  (n!"5cbtaue", (.mul (.div (.div (.sqrt (.rat 2 1)) (.par n!"GF")) (.rat 4 1)) (.div (.inp n!"CSR_bctaunue") (.div (.div (.div (.neg (.sqrt (.rat 2 1))) (.par n!"GF")) (.ckm 1 2)) (.rat 4 1))))),
  (n!"3pdbtaumu", (.mul (.div (.div (.sqrt (.rat 2 1)) (.par n!"GF")) (.rat 4 1)) (.div (.div (.div (.inp n!"C10p_bdmutau") (.div (.mul (.rat 16 1) (.mul .pi .pi)) (.mul (.sqrt (.mul (.mul (.rat 4 1) .pi) (.par n!"alpha_e"))) (.sqrt (.mul (.mul (.rat 4 1) .pi) (.par n!"alpha_e")))))) (.div (.div (.div (.sqrt (.rat 2 1)) (.par n!"GF")) (.mul (.ckm 2 2) (.conj (.ckm 2 0)))) (.rat 4 1))) (.rat 6 1)))),
  (n!"5pcdtaumu", (.mul (.div (.div (.sqrt (.rat 2 1)) (.par n!"GF")) (.rat 4 1)) (.div (.inp n!"CSL_dctaunumu") (.div (.div (.div (.neg (.sqrt (.rat 2 1))) (.par n!"GF")) (.ckm 1 0)) (.rat 4 1))))),
  (n!"1pdsmumu", (.mul (.div (.div (.sqrt (.rat 2 1)) (.par n!"GF")) (.rat 4 1)) (.sub (.div (.div (.inp n!"C9p_sdmumu") (.div (.mul (.rat 16 1) (.mul .pi .pi)) (.mul (.sqrt (.mul (.mul (.rat 4 1) .pi) (.par n!"alpha_e"))) (.sqrt (.mul (.mul (.rat 4 1) .pi) (.par n!"alpha_e")))))) (.div (.div (.div (.sqrt (.rat 2 1)) (.par n!"GF")) (.mul (.ckm 2 1) (.conj (.ckm 2 0)))) (.rat 4 1))) (.div (.mul (.rat 5 1) (.div (.div (.inp n!"C10p_sdmumu") (.div (.mul (.rat 16 1) (.mul .pi .pi)) (.mul (.sqrt (.mul (.mul (.rat 4 1) .pi) (.par n!"alpha_e"))) (.sqrt (.mul (.mul (.rat 4 1) .pi) (.par n!"alpha_e")))))) (.div (.div (.div (.sqrt (.rat 2 1)) (.par n!"GF")) (.mul (.ckm 2 1) (.conj (.ckm 2 0)))) (.rat 4 1)))) (.rat 3 1))))),
  (n!"5pcstautau", (.mul (.div (.div (.sqrt (.rat 2 1)) (.par n!"GF")) (.rat 4 1)) (.div (.inp n!"CSL_sctaunutau") (.div (.div (.div (.neg (.sqrt (.rat 2 1))) (.par n!"GF")) (.ckm 1 1)) (.rat 4 1))))),
  (n!"1ustautau", (.mul (.div (.div (.sqrt (.rat 2 1)) (.par n!"GF")) (.rat 4 1)) (.div (.inp n!"CVL_sutaunutau") (.div (.div (.div (.neg (.sqrt (.rat 2 1))) (.par n!"GF")) (.ckm 0 1)) (.rat 4 1))))),
  (n!"5pcdtaue", (.mul (.div (.div (.sqrt (.rat 2 1)) (.par n!"GF")) (.rat 4 1)) (.div (.inp n!"CSL_dctaunue") (.div (.div (.div (.neg (.sqrt (.rat 2 1))) (.par n!"GF")) (.ckm 1 0)) (.rat 4 1))))),
  (n!"1pcbmue", (.mul (.div (.div (.sqrt (.rat 2 1)) (.par n!"GF")) (.rat 4 1)) (.div (.inp n!"CVR_bcmunue") (.div (.div (.div (.neg (.sqrt (.rat 2 1))) (.par n!"GF")) (.ckm 1 2)) (.rat 4 1))))),
  (n!"7pudmumu", (.mul (.div (.div (.sqrt (.rat 2 1)) (.par n!"GF")) (.rat 4 1)) (.div (.inp n!"CT_dumunumu") (.div (.div (.div (.neg (.sqrt (.rat 2 1))) (.par n!"GF")) (.ckm 0 0)) (.rat 4 1))))),
  (n!"3dsdd", (.mul (.div (.div (.sqrt (.rat 2 1)) (.par n!"GF")) (.rat 4 1)) (.sub (.div (.mul (.mul (.div (.mul (.rat 4 1) (.par n!"GF")) (.sqrt (.rat 2 1))) (.mul (.ckm 2 1) (.conj (.ckm 2 0)))) (.inp n!"CVLL_sddd")) (.rat 12 1)) (.div (.mul (.mul (.div (.mul (.rat 4 1) (.par n!"GF")) (.sqrt (.rat 2 1))) (.mul (.ckm 2 1) (.conj (.ckm 2 0)))) (.inp n!"CVLR_sddd")) (.rat 12 1))))),
  (n!"9psbtaue", (.mul (.div (.div (.sqrt (.rat 2 1)) (.par n!"GF")) (.rat 4 1)) (.div (.neg (.div (.div (.inp n!"CPp_bsetau") (.div (.div (.mul (.rat 16 1) (.mul .pi .pi)) (.mul (.sqrt (.mul (.mul (.rat 4 1) .pi) (.par n!"alpha_e"))) (.sqrt (.mul (.mul (.rat 4 1) .pi) (.par n!"alpha_e"))))) (.par n!"m_b"))) (.div (.div (.div (.sqrt (.rat 2 1)) (.par n!"GF")) (.mul (.ckm 2 2) (.conj (.ckm 2 1)))) (.rat 4 1)))) (.rat 24 1)))),
  (n!"5pcbtaue", (.mul (.div (.div (.sqrt (.rat 2 1)) (.par n!"GF")) (.rat 4 1)) (.div (.inp n!"CSL_bctaunue") (.div (.div (.div (.neg (.sqrt (.rat 2 1))) (.par n!"GF")) (.ckm 1 2)) (.rat 4 1))))),
  (n!"7pubmumu", (.mul (.div (.div (.sqrt (.rat 2 1)) (.par n!"GF")) (.rat 4 1)) (.div (.inp n!"CT_bumunumu") (.div (.div (.div (.neg (.sqrt (.rat 2 1))) (.par n!"GF")) (.ckm 0 2)) (.rat 4 1))))),
  (n!"1dsdd", (.mul (.div (.div (.sqrt (.rat 2 1)) (.par n!"GF")) (.rat 4 1)) (.add (.div (.neg (.mul (.mul (.div (.mul (.rat 4 1) (.par n!"GF")) (.sqrt (.rat 2 1))) (.mul (.ckm 2 1) (.conj (.ckm 2 0)))) (.inp n!"CVLL_sddd"))) (.rat 3 1)) (.div (.mul (.rat 4 1) (.mul (.mul (.div (.mul (.rat 4 1) (.par n!"GF")) (.sqrt (.rat 2 1))) (.mul (.ckm 2 1) (.conj (.ckm 2 0)))) (.inp n!"CVLR_sddd"))) (.rat 3 1))))),
  (n!"5dbetau", (.mul (.div (.div (.sqrt (.rat 2 1)) (.par n!"GF")) (.rat 4 1)) (.sub (.div (.div (.inp n!"CS_bdtaue") (.div (.div (.mul (.rat 16 1) (.mul .pi .pi)) (.mul (.sqrt (.mul (.mul (.rat 4 1) .pi) (.par n!"alpha_e"))) (.sqrt (.mul (.mul (.rat 4 1) .pi) (.par n!"alpha_e"))))) (.par n!"m_b"))) (.div (.div (.div (.sqrt (.rat 2 1)) (.par n!"GF")) (.mul (.ckm 2 2) (.conj (.ckm 2 0)))) (.rat 4 1))) (.div (.mul (.rat 5 1) (.div (.div (.inp n!"CP_bdtaue") (.div (.div (.mul (.rat 16 1) (.mul .pi .pi)) (.mul (.sqrt (.mul (.mul (.rat 4 1) .pi) (.par n!"alpha_e"))) (.sqrt (.mul (.mul (.rat 4 1) .pi) (.par n!"alpha_e"))))) (.par n!"m_b"))) (.div (.div (.div (.sqrt (.rat 2 1)) (.par n!"GF")) (.mul (.ckm 2 2) (.conj (.ckm 2 0)))) (.rat 4 1)))) (.rat 3 1))))),
  (n!"10pdscc", (.mul (.div (.div (.sqrt (.rat 2 1)) (.par n!"GF")) (.rat 4 1)) (.sub (.div (.mul (.mul (.div (.mul (.rat 4 1) (.par n!"GF")) (.sqrt (.rat 2 1))) (.mul (.ckm 2 1) (.conj (.ckm 2 0)))) (.inp n!"CSLLt_sdcc")) (.rat 24 1)) (.div (.mul (.mul (.div (.mul (.rat 4 1) (.par n!"GF")) (.sqrt (.rat 2 1))) (.mul (.ckm 2 1) (.conj (.ckm 2 0)))) (.inp n!"CSLRt_sdcc")) (.rat 24 1))))),
  (n!"1udetau", (.mul (.div (.div (.sqrt (.rat 2 1)) (.par n!"GF")) (.rat 4 1)) (.div (.inp n!"CVL_duenutau") (.div (.div (.div (.neg (.sqrt (.rat 2 1))) (.par n!"GF")) (.ckm 0 0)) (.rat 4 1))))),
  (n!"7psbmutau", (.mul (.div (.div (.sqrt (.rat 2 1)) (.par n!"GF")) (.rat 4 1)) (.sub (.add (.div (.mul (.rat (-2) 1) (.div (.div (.inp n!"CPp_bstaumu") (.div (.div (.mul (.rat 16 1) (.mul .pi .pi)) (.mul (.sqrt (.mul (.mul (.rat 4 1) .pi) (.par n!"alpha_e"))) (.sqrt (.mul (.mul (.rat 4 1) .pi) (.par n!"alpha_e"))))) (.par n!"m_b"))) (.div (.div (.div (.sqrt (.rat 2 1)) (.par n!"GF")) (.mul (.ckm 2 2) (.conj (.ckm 2 1)))) (.rat 4 1)))) (.rat 3 1)) (.div (.rat 0 1) (.div (.div (.div (.sqrt (.rat 2 1)) (.par n!"GF")) (.mul (.ckm 2 2) (.conj (.ckm 2 1)))) (.rat 4 1)))) (.div (.rat 0 1) (.div (.div (.div (.sqrt (.rat 2 1)) (.par n!"GF")) (.mul (.ckm 2 2) (.conj (.ckm 2 1)))) (.rat 4 1)))))),
  (n!"8pdsuu", (.mul (.div (.div (.sqrt (.rat 2 1)) (.par n!"GF")) (.rat 4 1)) (.sub (.add (.mul (.rat 2 1) (.mul (.mul (.div (.mul (.rat 4 1) (.par n!"GF")) (.sqrt (.rat 2 1))) (.mul (.ckm 2 1) (.conj (.ckm 2 0)))) (.inp n!"CTLLt_sduu"))) (.div (.mul (.rat 2 1) (.mul (.mul (.div (.mul (.rat 4 1) (.par n!"GF")) (.sqrt (.rat 2 1))) (.mul (.ckm 2 1) (.conj (.ckm 2 0)))) (.inp n!"CSLLt_sduu"))) (.rat 3 1))) (.div (.mul (.rat 2 1) (.mul (.mul (.div (.mul (.rat 4 1) (.par n!"GF")) (.sqrt (.rat 2 1))) (.mul (.ckm 2 1) (.conj (.ckm 2 0)))) (.inp n!"CSLRt_sduu"))) (.rat 3 1))))),
  (n!"7dbtautau", (.mul (.div (.div (.sqrt (.rat 2 1)) (.par n!"GF")) (.rat 4 1)) (.add (.add (.div (.mul (.rat 2 1) (.div (.div (.inp n!"CP_bdtautau") (.div (.div (.mul (.rat 16 1) (.mul .pi .pi)) (.mul (.sqrt (.mul (.mul (.rat 4 1) .pi) (.par n!"alpha_e"))) (.sqrt (.mul (.mul (.rat 4 1) .pi) (.par n!"alpha_e"))))) (.par n!"m_b"))) (.div (.div (.div (.sqrt (.rat 2 1)) (.par n!"GF")) (.mul (.ckm 2 2) (.conj (.ckm 2 0)))) (.rat 4 1)))) (.rat 3 1)) (.div (.rat 0 1) (.div (.div (.div (.sqrt (.rat 2 1)) (.par n!"GF")) (.mul (.ckm 2 2) (.conj (.ckm 2 0)))) (.rat 4 1)))) (.div (.rat 0 1) (.div (.div (.div (.sqrt (.rat 2 1)) (.par n!"GF")) (.mul (.ckm 2 2) (.conj (.ckm 2 0)))) (.rat 4 1)))))),
  (n!"nu1psbee", (.mul (.div (.div (.sqrt (.rat 2 1)) (.par n!"GF")) (.rat 4 1)) (.div (.div (.inp n!"CR_bsnuenue") (.div (.mul (.rat 8 1) (.mul .pi .pi)) (.mul (.sqrt (.mul (.mul (.rat 4 1) .pi) (.par n!"alpha_e"))) (.sqrt (.mul (.mul (.rat 4 1) .pi) (.par n!"alpha_e")))))) (.div (.div (.div (.sqrt (.rat 2 1)) (.par n!"GF")) (.mul (.ckm 2 2) (.conj (.ckm 2 1)))) (.rat 4 1))))),
  (n!"4cucu", (.mul (.div (.div (.sqrt (.rat 2 1)) (.par n!"GF")) (.rat 4 1)) (.inp n!"CSLR_ucuc"))),
  (n!"1ubetau", (.mul (.div (.div (.sqrt (.rat 2 1)) (.par n!"GF")) (.rat 4 1)) (.div (.inp n!"CVL_buenutau") (.div (.div (.div (.neg (.sqrt (.rat 2 1))) (.par n!"GF")) (.ckm 0 2)) (.rat 4 1)))))]

def flavio_to_Bern_5 : List (ℕ × Sym) := [
  (n!"5sbtaumu", (.mul (.div (.div (.sqrt (.rat 2 1)) (.par n!"GF")) (.rat 4 1)) (.sub (.div (.div (.inp n!"CS_bsmutau") (.div (.div (.mul (.rat 16 1) (.mul .pi .pi)) (.mul (.sqrt (.mul (.mul (.rat 4 1) .pi) (.par n!"alpha_e"))) (.sqrt (.mul (.mul (.rat 4 1) .pi) (.par n!"alpha_e"))))) (.par n!"m_b"))) (.div (.div (.div (.sqrt (.rat 2 1)) (.par n!"GF")) (.mul (.ckm 2 2) (.conj (.ckm 2 1)))) (.rat 4 1))) (.div (.mul (.rat 5 1) (.div (.div (.inp n!"CP_bsmutau") (.div (.div (.mul (.rat 16 1) (.mul .pi .pi)) (.mul (.sqrt (.mul (.mul (.rat 4 1) .pi) (.par n!"alpha_e"))) (.sqrt (.mul (.mul (.rat 4 1) .pi) (.par n!"alpha_e"))))) (.par n!"m_b"))) (.div (.div (.div (.sqrt (.rat 2 1)) (.par n!"GF")) (.mul (.ckm 2 2) (.conj (.ckm 2 1)))) (.rat 4 1)))) (.rat 3 1))))),
  (n!"5pdbetau", (.mul (.div (.div (.sqrt (.rat 2 1)) (.par n!"GF")) (.rat 4 1)) (.add (.div (.mul (.rat 5 1) (.div (.div (.inp n!"CPp_bdtaue") (.div (.div (.mul (.rat 16 1) (.mul .pi .pi)) (.mul (.sqrt (.mul (.mul (.rat 4 1) .pi) (.par n!"alpha_e"))) (.sqrt (.mul (.mul (.rat 4 1) .pi) (.par n!"alpha_e"))))) (.par n!"m_b"))) (.div (.div (.div (.sqrt (.rat 2 1)) (.par n!"GF")) (.mul (.ckm 2 2) (.conj (.ckm 2 0)))) (.rat 4 1)))) (.rat 3 1)) (.div (.div (.inp n!"CSp_bdtaue") (.div (.div (.mul (.rat 16 1) (.mul .pi .pi)) (.mul (.sqrt (.mul (.mul (.rat 4 1) .pi) (.par n!"alpha_e"))) (.sqrt (.mul (.mul (.rat 4 1) .pi) (.par n!"alpha_e"))))) (.par n!"m_b"))) (.div (.div (.div (.sqrt (.rat 2 1)) (.par n!"GF")) (.mul (.ckm 2 2) (.conj (.ckm 2 0)))) (.rat 4 1)))))),
  (n!"5udee", (.mul (.div (.div (.sqrt (.rat 2 1)) (.par n!"GF")) (.rat 4 1)) (.div (.inp n!"CSR_duenue") (.div (.div (.div (.neg (.sqrt (.rat 2 1))) (.par n!"GF")) (.ckm 0 0)) (.rat 4 1))))),
  (n!"5pubee", (.mul (.div (.div (.sqrt (.rat 2 1)) (.par n!"GF")) (.rat 4 1)) (.div (.inp n!"CSL_buenue") (.div (.div (.div (.neg (.sqrt (.rat 2 1))) (.par n!"GF")) (.ckm 0 2)) (.rat 4 1))))),
  (n!"7sbmue", (.mul (.div (.div (.sqrt (.rat 2 1)) (.par n!"GF")) (.rat 4 1)) (.add (.add (.div (.mul (.rat 2 1) (.div (.div (.inp n!"CP_bsemu") (.div (.div (.mul (.rat 16 1) (.mul .pi .pi)) (.mul (.sqrt (.mul (.mul (.rat 4 1) .pi) (.par n!"alpha_e"))) (.sqrt (.mul (.mul (.rat 4 1) .pi) (.par n!"alpha_e"))))) (.par n!"m_b"))) (.div (.div (.div (.sqrt (.rat 2 1)) (.par n!"GF")) (.mul (.ckm 2 2) (.conj (.ckm 2 1)))) (.rat 4 1)))) (.rat 3 1)) (.div (.rat 0 1) (.div (.div (.div (.sqrt (.rat 2 1)) (.par n!"GF")) (.mul (.ckm 2 2) (.conj (.ckm 2 1)))) (.rat 4 1)))) (.div (.rat 0 1) (.div (.div (.div (.sqrt (.rat 2 1)) (.par n!"GF")) (.mul (.ckm 2 2) (.conj (.ckm 2 1)))) (.rat 4 1)))))),
  (n!"2cucu", (.mul (.div (.div (.sqrt (.rat 2 1)) (.par n!"GF")) (.rat 4 1)) (.sub (.inp n!"CSLL_ucuc") (.mul (.rat 4 1) (.inp n!"CTLL_ucuc"))))),
  (n!"5cbtautau", (.mul (.div (.div (.sqrt (.rat 2 1)) (.par n!"GF")) (.rat 4 1)) (.div (.inp n!"CSR_bctaunutau") (.div (.div (.div (.neg (.sqrt (.rat 2 1))) (.par n!"GF")) (.ckm 1 2)) (.rat 4 1))))),
  (n!"5pusmutau", (.mul (.div (.div (.sqrt (.rat 2 1)) (.par n!"GF")) (.rat 4 1)) (.div (.inp n!"CSL_sumunutau") (.div (.div (.div (.neg (.sqrt (.rat 2 1))) (.par n!"GF")) (.ckm 0 1)) (.rat 4 1))))),
  (n!"5cbee", (.mul (.div (.div (.sqrt (.rat 2 1)) (.par n!"GF")) (.rat 4 1)) (.div (.inp n!"CSR_bcenue") (.div (.div (.div (.neg (.sqrt (.rat 2 1))) (.par n!"GF")) (.ckm 1 2)) (.rat 4 1))))),
  (n!"6psbdd", (.mul (.div (.div (.sqrt (.rat 2 1)) (.par n!"GF")) (.rat 4 1)) (.add (.div (.mul (.rat (-2) 1) (.mul (.mul (.div (.mul (.rat 4 1) (.par n!"GF")) (.sqrt (.rat 2 1))) (.mul (.ckm 2 2) (.conj (.ckm 2 1)))) (.inp n!"CSLLt_bsdd"))) (.rat 3 1)) (.div (.mul (.rat 8 1) (.mul (.mul (.div (.mul (.rat 4 1) (.par n!"GF")) (.sqrt (.rat 2 1))) (.mul (.ckm 2 2) (.conj (.ckm 2 1)))) (.inp n!"CSLRt_bsdd"))) (.rat 3 1))))),
  (n!"9dbmutau", (.mul (.div (.div (.sqrt (.rat 2 1)) (.par n!"GF")) (.rat 4 1)) (.div (.div (.div (.inp n!"CP_bdtaumu") (.div (.div (.mul (.rat 16 1) (.mul .pi .pi)) (.mul (.sqrt (.mul (.mul (.rat 4 1) .pi) (.par n!"alpha_e"))) (.sqrt (.mul (.mul (.rat 4 1) .pi) (.par n!"alpha_e"))))) (.par n!"m_b"))) (.div (.div (.div (.sqrt (.rat 2 1)) (.par n!"GF")) (.mul (.ckm 2 2) (.conj (.ckm 2 0)))) (.rat 4 1))) (.rat 24 1)))),
  (n!"8gdb", (.mul (.div (.div (.sqrt (.rat 2 1)) (.par n!"GF")) (.rat 4 1)) (.mul (.div (.sqrt (.mul (.mul (.rat 4 1) .pi) (.par n!"alpha_s"))) (.par n!"m_b")) (.div (.div (.inp n!"C8_bd") (.div (.div (.mul (.rat 16 1) (.mul .pi .pi)) (.sqrt (.mul (.mul (.rat 4 1) .pi) (.par n!"alpha_s")))) (.par n!"m_b"))) (.div (.div (.div (.sqrt (.rat 2 1)) (.par n!"GF")) (.mul (.ckm 2 2) (.conj (.ckm 2 0)))) (.rat 4 1)))))),
  (n!"2psbcc", (.mul (.div (.div (.sqrt (.rat 2 1)) (.par n!"GF")) (.rat 4 1)) (.add (.div (.mul (.rat (-2) 1) (.mul (.mul (.div (.mul (.rat 4 1) (.par n!"GF")) (.sqrt (.rat 2 1))) (.mul (.ckm 2 2) (.conj (.ckm 2 1)))) (.inp n!"CVRRt_bscc"))) (.rat 3 1)) (.div (.mul (.rat 8 1) (.mul (.mul (.div (.mul (.rat 4 1) (.par n!"GF")) (.sqrt (.rat 2 1))) (.mul (.ckm 2 2) (.conj (.ckm 2 1)))) (.inp n!"CVRLt_bscc"))) (.rat 3 1))))),
  (n!"9pdbdd", (.mul (.div (.div (.sqrt (.rat 2 1)) (.par n!"GF")) (.rat 4 1)) (.sub (.div (.mul (.mul (.div (.mul (.rat 4 1) (.par n!"GF")) (.sqrt (.rat 2 1))) (.mul (.ckm 2 2) (.conj (.ckm 2 0)))) (.inp n!"CSRR_bddd")) (.rat 48 1)) (.div (.mul (.mul (.div (.mul (.rat 4 1) (.par n!"GF")) (.sqrt (.rat 2 1))) (.mul (.ckm 2 2) (.conj (.ckm 2 0)))) (.inp n!"CSRL_bddd")) (.rat 48 1))))),
  (n!"1udee", (.mul (.div (.div (.sqrt (.rat 2 1)) (.par n!"GF")) (.rat 4 1)) (.div (.inp n!"CVL_duenue") (.div (.div (.div (.neg (.sqrt (.rat 2 1))) (.par n!"GF")) (.ckm 0 0)) (.rat 4 1))))),
  (n!"5pdbcc", (.mul (.div (.div (.sqrt (.rat 2 1)) (.par n!"GF")) (.rat 4 1)) (.add (.sub (.add (.div (.neg (.mul (.mul (.div (.mul (.rat 4 1) (.par n!"GF")) (.sqrt (.rat 2 1))) (.mul (.ckm 2 2) (.conj (.ckm 2 0)))) (.inp n!"CSLL_bdcc"))) (.rat 3 1)) (.div (.mul (.rat 4 1) (.mul (.mul (.div (.mul (.rat 4 1) (.par n!"GF")) (.sqrt (.rat 2 1))) (.mul (.ckm 2 2) (.conj (.ckm 2 0)))) (.inp n!"CSLR_bdcc"))) (.rat 3 1))) (.div (.mul (.mul (.div (.mul (.rat 4 1) (.par n!"GF")) (.sqrt (.rat 2 1))) (.mul (.ckm 2 2) (.conj (.ckm 2 0)))) (.inp n!"CSLLt_bdcc")) (.mul (.rat 3 1) (.rat 3 1)))) (.div (.mul (.rat 4 1) (.mul (.mul (.div (.mul (.rat 4 1) (.par n!"GF")) (.sqrt (.rat 2 1))) (.mul (.ckm 2 2) (.conj (.ckm 2 0)))) (.inp n!"CSLRt_bdcc"))) (.mul (.rat 3 1) (.rat 3 1)))))),
  (n!"1pdbmutau", (.mul (.div (.div (.sqrt (.rat 2 1)) (.par n!"GF")) (.rat 4 1)) (.sub (.div (.div (.inp n!"C9p_bdtaumu") (.div (.mul (.rat 16 1) (.mul .pi .pi)) (.mul (.sqrt (.mul (.mul (.rat 4 1) .pi) (.par n!"alpha_e"))) (.sqrt (.mul (.mul (.rat 4 1) .pi) (.par n!"alpha_e")))))) (.div (.div (.div (.sqrt (.rat 2 1)) (.par n!"GF")) (.mul (.ckm 2 2) (.conj (.ckm 2 0)))) (.rat 4 1))) (.div (.mul (.rat 5 1) (.div (.div (.inp n!"C10p_bdtaumu") (.div (.mul (.rat 16 1) (.mul .pi .pi)) (.mul (.sqrt (.mul (.mul (.rat 4 1) .pi) (.par n!"alpha_e"))) (.sqrt (.mul (.mul (.rat 4 1) .pi) (.par n!"alpha_e")))))) (.div (.div (.div (.sqrt (.rat 2 1)) (.par n!"GF")) (.mul (.ckm 2 2) (.conj (.ckm 2 0)))) (.rat 4 1)))) (.rat 3 1))))),
  (n!"1pdbbb", (.mul (.div (.div (.sqrt (.rat 2 1)) (.par n!"GF")) (.rat 4 1)) (.add (.div (.neg (.mul (.mul (.div (.mul (.rat 4 1) (.par n!"GF")) (.sqrt (.rat 2 1))) (.mul (.ckm 2 2) (.conj (.ckm 2 0)))) (.inp n!"CVRR_bdbb"))) (.rat 3 1)) (.div (.mul (.rat 4 1) (.mul (.mul (.div (.mul (.rat 4 1) (.par n!"GF")) (.sqrt (.rat 2 1))) (.mul (.ckm 2 2) (.conj (.ckm 2 0)))) (.inp n!"CVRL_bdbb"))) (.rat 3 1))))),
  (n!"1cbee", (.mul (.div (.div (.sqrt (.rat 2 1)) (.par n!"GF")) (.rat 4 1)) (.div (.inp n!"CVL_bcenue") (.div (.div (.div (.neg (.sqrt (.rat 2 1))) (.par n!"GF")) (.ckm 1 2)) (.rat 4 1))))),
  (n!"10pdsuu", (.mul (.div (.div (.sqrt (.rat 2 1)) (.par n!"GF")) (.rat 4 1)) (.sub (.div (.mul (.mul (.div (.mul (.rat 4 1) (.par n!"GF")) (.sqrt (.rat 2 1))) (.mul (.ckm 2 1) (.conj (.ckm 2 0)))) (.inp n!"CSLLt_sduu")) (.rat 24 1)) (.div (.mul (.mul (.div (.mul (.rat 4 1) (.par n!"GF")) (.sqrt (.rat 2 1))) (.mul (.ckm 2 1) (.conj (.ckm 2 0)))) (.inp n!"CSLRt_sduu")) (.rat 24 1))))),
  (n!"1psbetau", (.mul (.div (.div (.sqrt (.rat 2 1)) (.par n!"GF")) (.rat 4 1)) (.sub (.div (.div (.inp n!"C9p_bstaue") (.div (.mul (.rat 16 1) (.mul .pi .pi)) (.mul (.sqrt (.mul (.mul (.rat 4 1) .pi) (.par n!"alpha_e"))) (.sqrt (.mul (.mul (.rat 4 1) .pi) (.par n!"alpha_e")))))) (.div (.div (.div (.sqrt (.rat 2 1)) (.par n!"GF")) (.mul (.ckm 2 2) (.conj (.ckm 2 1)))) (.rat 4 1))) (.div (.mul (.rat 5 1) (.div (.div (.inp n!"C10p_bstaue") (.div (.mul (.rat 16 1) (.mul .pi .pi)) (.mul (.sqrt (.mul (.mul (.rat 4 1) .pi) (.par n!"alpha_e"))) (.sqrt (.mul (.mul (.rat 4 1) .pi) (.par n!"alpha_e")))))) (.div (.div (.div (.sqrt (.rat 2 1)) (.par n!"GF")) (.mul (.ckm 2 2) (.conj (.ckm 2 1)))) (.rat 4 1)))) (.rat 3 1))))),
  (n!"nu1pdbmumu", (.mul (.div (.div (.sqrt (.rat 2 1)) (.par n!"GF")) (.rat 4 1)) (.div (.div (.inp n!"CR_bdnumunumu") (.div (.mul (.rat 8 1) (.mul .pi .pi)) (.mul (.sqrt (.mul (.mul (.rat 4 1) .pi) (.par n!"alpha_e"))) (.sqrt (.mul (.mul (.rat 4 1) .pi) (.par n!"alpha_e")))))) (.div (.div (.div (.sqrt (.rat 2 1)) (.par n!"GF")) (.mul (.ckm 2 2) (.conj (.ckm 2 0)))) (.rat 4 1))))),
  (n!"3dbetau", (.mul (.div (.div (.sqrt (.rat 2 1)) (.par n!"GF")) (.rat 4 1)) (.div (.neg (.div (.div (.inp n!"C10_bdtaue") (.div (.mul (.rat 16 1) (.mul .pi .pi)) (.mul (.sqrt (.mul (.mul (.rat 4 1) .pi) (.par n!"alpha_e"))) (.sqrt (.mul (.mul (.rat 4 1) .pi) (.par n!"alpha_e")))))) (.div (.div (.div (.sqrt (.rat 2 1)) (.par n!"GF")) (.mul (.ckm 2 2) (.conj (.ckm 2 0)))) (.rat 4 1)))) (.rat 6 1)))),
  (n!"nu1dstaue", (.mul (.div (.div (.sqrt (.rat 2 1)) (.par n!"GF")) (.rat 4 1)) (.div (.div (.inp n!"CL_sdnuenutau") (.div (.mul (.rat 8 1) (.mul .pi .pi)) (.mul (.sqrt (.mul (.mul (.rat 4 1) .pi) (.par n!"alpha_e"))) (.sqrt (.mul (.mul (.rat 4 1) .pi) (.par n!"alpha_e")))))) (.div (.div (.div (.sqrt (.rat 2 1)) (.par n!"GF")) (.mul (.ckm 2 1) (.conj (.ckm 2 0)))) (.rat 4 1))))),
  (n!"nu1pdsmutau", (.mul (.div (.div (.sqrt (.rat 2 1)) (.par n!"GF")) (.rat 4 1)) (.div (.div (.inp n!"CR_sdnutaunumu") (.div (.mul (.rat 8 1) (.mul .pi .pi)) (.mul (.sqrt (.mul (.mul (.rat 4 1) .pi) (.par n!"alpha_e"))) (.sqrt (.mul (.mul (.rat 4 1) .pi) (.par n!"alpha_e")))))) (.div (.div (.div (.sqrt (.rat 2 1)) (.par n!"GF")) (.mul (.ckm 2 1) (.conj (.ckm 2 0)))) (.rat 4 1))))),
  (n!"10dbcc", (.mul (.div (.div (.sqrt (.rat 2 1)) (.par n!"GF")) (.rat 4 1)) (.sub (.div (.mul (.mul (.div (.mul (.rat 4 1) (.par n!"GF")) (.sqrt (.rat 2 1))) (.mul (.ckm 2 2) (.conj (.ckm 2 0)))) (.inp n!"CSRRt_bdcc")) (.rat 24 1)) (.div (.mul (.mul (.div (.mul (.rat 4 1) (.par n!"GF")) (.sqrt (.rat 2 1))) (.mul (.ckm 2 2) (.conj (.ckm 2 0)))) (.inp n!"CSRLt_bdcc")) (.rat 24 1))))),
  (n!"5csmumu", (.mul (.div (.div (.sqrt (.rat 2 1)) (.par n!"GF")) (.rat 4 1)) (.div (.inp n!"CSR_scmunumu") (.div (.div (.div (.neg (.sqrt (.rat 2 1))) (.par n!"GF")) (.ckm 1 1)) (.rat 4 1))))),
  (n!"7pubtaumu", (.mul (.div (.div (.sqrt (.rat 2 1)) (.par n!"GF")) (.rat 4 1)) (.div (.inp n!"CT_butaunumu") (.div (.div (.div (.neg (.sqrt (.rat 2 1))) (.par n!"GF")) (.ckm 0 2)) (.rat 4 1))))),
  (n!"3pdbdb", (.mul (.div (.div (.sqrt (.rat 2 1)) (.par n!"GF")) (.rat 4 1)) (.mul (.rat (-8) 1) (.inp n!"CTRR_bdbd")))),
  (n!"7pdsss", (.mul (.div (.div (.sqrt (.rat 2 1)) (.par n!"GF")) (.rat 4 1)) (.add (.sub (.div (.mul (.mul (.div (.mul (.rat 4 1) (.par n!"GF")) (.sqrt (.rat 2 1))) (.mul (.ckm 2 1) (.conj (.ckm 2 0)))) (.inp n!"CSLL_sdss")) (.rat 3 1)) (.div (.mul (.mul (.div (.mul (.rat 4 1) (.par n!"GF")) (.sqrt (.rat 2 1))) (.mul (.ckm 2 1) (.conj (.ckm 2 0)))) (.inp n!"CSLR_sdss")) (.rat 3 1))) (.mul (.mul (.div (.mul (.rat 4 1) (.par n!"GF")) (.sqrt (.rat 2 1))) (.mul (.ckm 2 1) (.conj (.ckm 2 0)))) (.inp n!"CTLL_sdss"))))),
  (n!"2psbuu", (.mul (.div (.div (.sqrt (.rat 2 1)) (.par n!"GF")) (.rat 4 1)) (.add (.div (.mul (.rat (-2) 1) (.mul (.mul (.div (.mul (.rat 4 1) (.par n!"GF")) (.sqrt (.rat 2 1))) (.mul (.ckm 2 2) (.conj (.ckm 2 1)))) (.inp n!"CVRRt_bsuu"))) (.rat 3 1)) (.div (.mul (.rat 8 1) (.mul (.mul (.div (.mul (.rat 4 1) (.par n!"GF")) (.sqrt (.rat 2 1))) (.mul (.ckm 2 2) (.conj (.ckm 2 1)))) (.inp n!"CVRLt_bsuu"))) (.rat 3 1))))),
  (n!"5pcsmumu", (.mul (.div (.div (.sqrt (.rat 2 1)) (.par n!"GF")) (.rat 4 1)) (.div (.inp n!"CSL_scmunumu") (.div (.div (.div (.neg (.sqrt (.rat 2 1))) (.par n!"GF")) (.ckm 1 1)) (.rat 4 1))))),
  (n!"nu1pdsmue", (.mul (.div (.div (.sqrt (.rat 2 1)) (.par n!"GF")) (.rat 4 1)) (.div (.div (.inp n!"CR_sdnuenumu") (.div (.mul (.rat 8 1) (.mul .pi .pi)) (.mul (.sqrt (.mul (.mul (.rat 4 1) .pi) (.par n!"alpha_e"))) (.sqrt (.mul (.mul (.rat 4 1) .pi) (.par n!"alpha_e")))))) (.div (.div (.div (.sqrt (.rat 2 1)) (.par n!"GF")) (.mul (.ckm 2 1) (.conj (.ckm 2 0)))) (.rat 4 1))))),
  (n!"1cdtaue", (.mul (.div (.div (.sqrt (.rat 2 1)) (.par n!"GF")) (.rat 4 1)) (.div (.inp n!"CVL_dctaunue") (.div (.div (.div (.neg (.sqrt (.rat 2 1))) (.par n!"GF")) (.ckm 1 0)) (.rat 4 1))))),
  (n!"1pdsds", (.mul (.div (.div (.sqrt (.rat 2 1)) (.par n!"GF")) (.rat 4 1)) (.inp n!"CVRR_sdsd"))),
  (n!"5pdbuu", (.mul (.div (.div (.sqrt (.rat 2 1)) (.par n!"GF")) (.rat 4 1)) (.add (.sub (.add (.div (.neg (.mul (.mul (.div (.mul (.rat 4 1) (.par n!"GF")) (.sqrt (.rat 2 1))) (.mul (.ckm 2 2) (.conj (.ckm 2 0)))) (.inp n!"CSLL_bduu"))) (.rat 3 1)) (.div (.mul (.rat 4 1) (.mul (.mul (.div (.mul (.rat 4 1) (.par n!"GF")) (.sqrt (.rat 2 1))) (.mul (.ckm 2 2) (.conj (.ckm 2 0)))) (.inp n!"CSLR_bduu"))) (.rat 3 1))) (.div (.mul (.mul (.div (.mul (.rat 4 1) (.par n!"GF")) (.sqrt (.rat 2 1))) (.mul (.ckm 2 2) (.conj (.ckm 2 0)))) (.inp n!"CSLLt_bduu")) (.mul (.rat 3 1) (.rat 3 1)))) (.div (.mul (.rat 4 1) (.mul (.mul (.div (.mul (.rat 4 1) (.par n!"GF")) (.sqrt (.rat 2 1))) (.mul (.ckm 2 2) (.conj (.ckm 2 0)))) (.inp n!"CSLRt_bduu"))) (.mul (.rat 3 1) (.rat 3 1)))))),
  (n!"5pcsee", (.mul (.div (.div (.sqrt (.rat 2 1)) (.par n!"GF")) (.rat 4 1)) (.div (.inp n!"CSL_scenue") (.div (.div (.div (.neg (.sqrt (.rat 2 1))) (.par n!"GF")) (.ckm 1 1)) (.rat 4 1))))),
  (n!"1cbtaue", (.mul (.div (.div (.sqrt (.rat 2 1)) (.par n!"GF")) (.rat 4 1)) (.div (.inp n!"CVL_bctaunue") (.div (.div (.div (.neg (.sqrt (.rat 2 1))) (.par n!"GF")) (.ckm 1 2)) (.rat 4 1))))),
  (n!"7pdbmumu", (.mul (.div (.div (.sqrt (.rat 2 1)) (.par n!"GF")) (.rat 4 1)) (.sub (.add (.div (.mul (.rat (-2) 1) (.div (.div (.inp n!"CPp_bdmumu") (.div (.div (.mul (.rat 16 1) (.mul .pi .pi)) (.mul (.sqrt (.mul (.mul (.rat 4 1) .pi) (.par n!"alpha_e"))) (.sqrt (.mul (.mul (.rat 4 1) .pi) (.par n!"alpha_e"))))) (.par n!"m_b"))) (.div (.div (.div (.sqrt (.rat 2 1)) (.par n!"GF")) (.mul (.ckm 2 2) (.conj (.ckm 2 0)))) (.rat 4 1)))) (.rat 3 1)) (.div (.rat 0 1) (.div (.div (.div (.sqrt (.rat 2 1)) (.par n!"GF")) (.mul (.ckm 2 2) (.conj (.ckm 2 0)))) (.rat 4 1)))) (.div (.rat 0 1) (.div (.div (.div (.sqrt (.rat 2 1)) (.par n!"GF")) (.mul (.ckm 2 2) (.conj (.ckm 2 0)))) (.rat 4 1)))))),
  (n!"9psbcc", (.mul (.div (.div (.sqrt (.rat 2 1)) (.par n!"GF")) (.rat 4 1)) (.sub (.add (.sub (.div (.mul (.mul (.div (.mul (.rat 4 1) (.par n!"GF")) (.sqrt (.rat 2 1))) (.mul (.ckm 2 2) (.conj (.ckm 2 1)))) (.inp n!"CSLL_bscc")) (.rat 48 1)) (.div (.mul (.mul (.div (.mul (.rat 4 1) (.par n!"GF")) (.sqrt (.rat 2 1))) (.mul (.ckm 2 2) (.conj (.ckm 2 1)))) (.inp n!"CSLR_bscc")) (.rat 48 1))) (.div (.mul (.mul (.div (.mul (.rat 4 1) (.par n!"GF")) (.sqrt (.rat 2 1))) (.mul (.ckm 2 2) (.conj (.ckm 2 1)))) (.inp n!"CSLLt_bscc")) (.mul (.rat 48 1) (.rat 3 1)))) (.div (.mul (.mul (.div (.mul (.rat 4 1) (.par n!"GF")) (.sqrt (.rat 2 1))) (.mul (.ckm 2 2) (.conj (.ckm 2 1)))) (.inp n!"CSLRt_bscc")) (.mul (.rat 48 1) (.rat 3 1)))))),
  (n!"5psbbb", (.mul (.div (.div (.sqrt (.rat 2 1)) (.par n!"GF")) (.rat 4 1)) (.add (.div (.neg (.mul (.mul (.div (.mul (.rat 4 1) (.par n!"GF")) (.sqrt (.rat 2 1))) (.mul (.ckm 2 2) (.conj (.ckm 2 1)))) (.inp n!"CSLL_bsbb"))) (.rat 3 1)) (.div (.mul (.rat 4 1) (.mul (.mul (.div (.mul (.rat 4 1) (.par n!"GF")) (.sqrt (.rat 2 1))) (.mul (.ckm 2 2) (.conj (.ckm 2 1)))) (.inp n!"CSLR_bsbb"))) (.rat 3 1))))),
  (n!"5ubee", (.mul (.div (.div (.sqrt (.rat 2 1)) (.par n!"GF")) (.rat 4 1)) (.div (.inp n!"CSR_buenue") (.div (.div (.div (.neg (.sqrt (.rat 2 1))) (.par n!"GF")) (.ckm 0 2)) (.rat 4 1))))),
  (n!"9dbcc", (.mul (.div (.div (.sqrt (.rat 2 1)) (.par n!"GF")) (.rat 4 1)) (.sub (.add (.sub (.div (.mul (.mul (.div (.mul (.rat 4 1) (.par n!"GF")) (.sqrt (.rat 2 1))) (.mul (.ckm 2 2) (.conj (.ckm 2 0)))) (.inp n!"CSRR_bdcc")) (.rat 48 1)) (.div (.mul (.mul (.div (.mul (.rat 4 1) (.par n!"GF")) (.sqrt (.rat 2 1))) (.mul (.ckm 2 2) (.conj (.ckm 2 0)))) (.inp n!"CSRL_bdcc")) (.rat 48 1))) (.div (.mul (.mul (.div (.mul (.rat 4 1) (.par n!"GF")) (.sqrt (.rat 2 1))) (.mul (.ckm 2 2) (.conj (.ckm 2 0)))) (.inp n!"CSRRt_bdcc")) (.mul (.rat 48 1) (.rat 3 1)))) (.div (.mul (.mul (.div (.mul (.rat 4 1) (.par n!"GF")) (.sqrt (.rat 2 1))) (.mul (.ckm 2 2) (.conj (.ckm 2 0)))) (.inp n!"CSRLt_bdcc")) (.mul (.rat 48 1) (.rat 3 1)))))),
  (n!"10dbuu", (.mul (.div (.div (.sqrt (.rat 2 1)) (.par n!"GF")) (.rat 4 1)) (.sub (.div (.mul (.mul (.div (.mul (.rat 4 1) (.par n!"GF")) (.sqrt (.rat 2 1))) (.mul (.ckm 2 2) (.conj (.ckm 2 0)))) (.inp n!"CSRRt_bduu")) (.rat 24 1)) (.div (.mul (.mul (.div (.mul (.rat 4 1) (.par n!"GF")) (.sqrt (.rat 2 1))) (.mul (.ckm 2 2) (.conj (.ckm 2 0)))) (.inp n!"CSRLt_bduu")) (.rat 24 1))))),
  (n!"1dbetau", (.mul (.div (.div (.sqrt (.rat 2 1)) (.par n!"GF")) (.rat 4 1)) (.add (.div (.mul (.rat 5 1) (.div (.div (.inp n!"C10_bdtaue") (.div (.mul (.rat 16 1) (.mul .pi .pi)) (.mul (.sqrt (.mul (.mul (.rat 4 1) .pi) (.par n!"alpha_e"))) (.sqrt (.mul (.mul (.rat 4 1) .pi) (.par n!"alpha_e")))))) (.div (.div (.div (.sqrt (.rat 2 1)) (.par n!"GF")) (.mul (.ckm 2 2) (.conj (.ckm 2 0)))) (.rat 4 1)))) (.rat 3 1)) (.div (.div (.inp n!"C9_bdtaue") (.div (.mul (.rat 16 1) (.mul .pi .pi)) (.mul (.sqrt (.mul (.mul (.rat 4 1) .pi) (.par n!"alpha_e"))) (.sqrt (.mul (.mul (.rat 4 1) .pi) (.par n!"alpha_e")))))) (.div (.div (.div (.sqrt (.rat 2 1)) (.par n!"GF")) (.mul (.ckm 2 2) (.conj (.ckm 2 0)))) (.rat 4 1)))))),
  (n!"1udemu", (.mul (.div (.div (.sqrt (.rat 2 1)) (.par n!"GF")) (.rat 4 1)) (.div (.inp n!"CVL_duenumu") (.div (.div (.div (.neg (.sqrt (.rat 2 1))) (.par n!"GF")) (.ckm 0 0)) (.rat 4 1))))),
  (n!"7pdbtautau", (.mul (.div (.div (.sqrt (.rat 2 1)) (.par n!"GF")) (.rat 4 1)) (.sub (.add (.div (.mul (.rat (-2) 1) (.div (.div (.inp n!"CPp_bdtautau") (.div (.div (.mul (.rat 16 1) (.mul .pi .pi)) (.mul (.sqrt (.mul (.mul (.rat 4 1) .pi) (.par n!"alpha_e"))) (.sqrt (.mul (.mul (.rat 4 1) .pi) (.par n!"alpha_e"))))) (.par n!"m_b"))) (.div (.div (.div (.sqrt (.rat 2 1)) (.par n!"GF")) (.mul (.ckm 2 2) (.conj (.ckm 2 0)))) (.rat 4 1)))) (.rat 3 1)) (.div (.rat 0 1) (.div (.div (.div (.sqrt (.rat 2 1)) (.par n!"GF")) (.mul (.ckm 2 2) (.conj (.ckm 2 0)))) (.rat 4 1)))) (.div (.rat 0 1) (.div (.div (.div (.sqrt (.rat 2 1)) (.par n!"GF")) (.mul (.ckm 2 2) (.conj (.ckm 2 0)))) (.rat 4 1)))))),
  (n!"7dbcc", (.mul (.div (.div (.sqrt (.rat 2 1)) (.par n!"GF")) (.rat 4 1)) (.sub (.add (.add (.add (.sub (.div (.mul (.mul (.div (.mul (.rat 4 1) (.par n!"GF")) (.sqrt (.rat 2 1))) (.mul (.ckm 2 2) (.conj (.ckm 2 0)))) (.inp n!"CSRR_bdcc")) (.rat 3 1)) (.div (.mul (.mul (.div (.mul (.rat 4 1) (.par n!"GF")) (.sqrt (.rat 2 1))) (.mul (.ckm 2 2) (.conj (.ckm 2 0)))) (.inp n!"CSRL_bdcc")) (.rat 3 1))) (.mul (.mul (.div (.mul (.rat 4 1) (.par n!"GF")) (.sqrt (.rat 2 1))) (.mul (.ckm 2 2) (.conj (.ckm 2 0)))) (.inp n!"CTRR_bdcc"))) (.div (.mul (.mul (.div (.mul (.rat 4 1) (.par n!"GF")) (.sqrt (.rat 2 1))) (.mul (.ckm 2 2) (.conj (.ckm 2 0)))) (.inp n!"CTRRt_bdcc")) (.rat 3 1))) (.div (.mul (.mul (.div (.mul (.rat 4 1) (.par n!"GF")) (.sqrt (.rat 2 1))) (.mul (.ckm 2 2) (.conj (.ckm 2 0)))) (.inp n!"CSRRt_bdcc")) (.mul (.rat 3 1) (.rat 3 1)))) (.div (.mul (.mul (.div (.mul (.rat 4 1) (.par n!"GF")) (.sqrt (.rat 2 1))) (.mul (.ckm 2 2) (.conj (.ckm 2 0)))) (.inp n!"CSRLt_bdcc")) (.mul (.rat 3 1) (.rat 3 1)))))),
  (n!"1pusetau", (.mul (.div (.div (.sqrt (.rat 2 1)) (.par n!"GF")) (.rat 4 1)) (.div (.inp n!"CVR_suenutau") (.div (.div (.div (.neg (.sqrt (.rat 2 1))) (.par n!"GF")) (.ckm 0 1)) (.rat 4 1))))),
  (n!"7psbtaumu", (.mul (.div (.div (.sqrt (.rat 2 1)) (.par n!"GF")) (.rat 4 1)) (.sub (.add (.div (.mul (.rat (-2) 1) (.div (.div (.inp n!"CPp_bsmutau") (.div (.div (.mul (.rat 16 1) (.mul .pi .pi)) (.mul (.sqrt (.mul (.mul (.rat 4 1) .pi) (.par n!"alpha_e"))) (.sqrt (.mul (.mul (.rat 4 1) .pi) (.par n!"alpha_e"))))) (.par n!"m_b"))) (.div (.div (.div (.sqrt (.rat 2 1)) (.par n!"GF")) (.mul (.ckm 2 2) (.conj (.ckm 2 1)))) (.rat 4 1)))) (.rat 3 1)) (.div (.rat 0 1) (.div (.div (.div (.sqrt (.rat 2 1)) (.par n!"GF")) (.mul (.ckm 2 2) (.conj (.ckm 2 1)))) (.rat 4 1)))) (.div (.rat 0 1) (.div (.div (.div (.sqrt (.rat 2 1)) (.par n!"GF")) (.mul (.ckm 2 2) (.conj (.ckm 2 1)))) (.rat 4 1))))))]

def flavio_to_Bern_6 : List (ℕ × Sym) := [
  (n!"5pubmutau", (.mul (.div (.div (.sqrt (.rat 2 1)) (.par n!"GF")) (.rat 4 1)) (.div (.inp n!"CSL_bumunutau") (.div (.div (.div (.neg (.sqrt (.rat 2 1))) (.par n!"GF")) (.ckm 0 2)) (.rat 4 1))))),
  (n!"1ubee", (.mul (.div (.div (.sqrt (.rat 2 1)) (.par n!"GF")) (.rat 4 1)) (.div (.inp n!"CVL_buenue") (.div (.div (.div (.neg (.sqrt (.rat 2 1))) (.par n!"GF")) (.ckm 0 2)) (.rat 4 1))))),
  (n!"5dbcc", (.mul (.div (.div (.sqrt (.rat 2 1)) (.par n!"GF")) (.rat 4 1)) (.add (.sub (.add (.div (.neg (.mul (.mul (.div (.mul (.rat 4 1) (.par n!"GF")) (.sqrt (.rat 2 1))) (.mul (.ckm 2 2) (.conj (.ckm 2 0)))) (.inp n!"CSRR_bdcc"))) (.rat 3 1)) (.div (.mul (.rat 4 1) (.mul (.mul (.div (.mul (.rat 4 1) (.par n!"GF")) (.sqrt (.rat 2 1))) (.mul (.ckm 2 2) (.conj (.ckm 2 0)))) (.inp n!"CSRL_bdcc"))) (.rat 3 1))) (.div (.mul (.mul (.div (.mul (.rat 4 1) (.par n!"GF")) (.sqrt (.rat 2 1))) (.mul (.ckm 2 2) (.conj (.ckm 2 0)))) (.inp n!"CSRRt_bdcc")) (.mul (.rat 3 1) (.rat 3 1)))) (.div (.mul (.rat 4 1) (.mul (.mul (.div (.mul (.rat 4 1) (.par n!"GF")) (.sqrt (.rat 2 1))) (.mul (.ckm 2 2) (.conj (.ckm 2 0)))) (.inp n!"CSRLt_bdcc"))) (.mul (.rat 3 1) (.rat 3 1)))))),
  (n!"3psbmumu", (.mul (.div (.div (.sqrt (.rat 2 1)) (.par n!"GF")) (.rat 4 1)) (.div (.div (.div (.inp n!"C10p_bsmumu") (.div (.mul (.rat 16 1) (.mul .pi .pi)) (.mul (.sqrt (.mul (.mul (.rat 4 1) .pi) (.par n!"alpha_e"))) (.sqrt (.mul (.mul (.rat 4 1) .pi) (.par n!"alpha_e")))))) (.div (.div (.div (.sqrt (.rat 2 1)) (.par n!"GF")) (.mul (.ckm 2 2) (.conj (.ckm 2 1)))) (.rat 4 1))) (.rat 6 1)))),
  (n!"3dbcc", (.mul (.div (.div (.sqrt (.rat 2 1)) (.par n!"GF")) (.rat 4 1)) (.sub (.add (.sub (.div (.mul (.mul (.div (.mul (.rat 4 1) (.par n!"GF")) (.sqrt (.rat 2 1))) (.mul (.ckm 2 2) (.conj (.ckm 2 0)))) (.inp n!"CVLL_bdcc")) (.rat 12 1)) (.div (.mul (.mul (.div (.mul (.rat 4 1) (.par n!"GF")) (.sqrt (.rat 2 1))) (.mul (.ckm 2 2) (.conj (.ckm 2 0)))) (.inp n!"CVLR_bdcc")) (.rat 12 1))) (.div (.mul (.mul (.div (.mul (.rat 4 1) (.par n!"GF")) (.sqrt (.rat 2 1))) (.mul (.ckm 2 2) (.conj (.ckm 2 0)))) (.inp n!"CVLLt_bdcc")) (.mul (.rat 12 1) (.rat 3 1)))) (.div (.mul (.mul (.div (.mul (.rat 4 1) (.par n!"GF")) (.sqrt (.rat 2 1))) (.mul (.ckm 2 2) (.conj (.ckm 2 0)))) (.inp n!"CVLRt_bdcc")) (.mul (.rat 12 1) (.rat 3 1)))))),
  (n!"5pdstautau", (.mul (.div (.div (.sqrt (.rat 2 1)) (.par n!"GF")) (.rat 4 1)) (.add (.div (.mul (.rat 5 1) (.div (.div (.inp n!"CPp_sdtautau") (.div (.div (.mul (.rat 16 1) (.mul .pi .pi)) (.mul (.sqrt (.mul (.mul (.rat 4 1) .pi) (.par n!"alpha_e"))) (.sqrt (.mul (.mul (.rat 4 1) .pi) (.par n!"alpha_e"))))) (.par n!"m_s"))) (.div (.div (.div (.sqrt (.rat 2 1)) (.par n!"GF")) (.mul (.ckm 2 1) (.conj (.ckm 2 0)))) (.rat 4 1)))) (.rat 3 1)) (.div (.div (.inp n!"CSp_sdtautau") (.div (.div (.mul (.rat 16 1) (.mul .pi .pi)) (.mul (.sqrt (.mul (.mul (.rat 4 1) .pi) (.par n!"alpha_e"))) (.sqrt (.mul (.mul (.rat 4 1) .pi) (.par n!"alpha_e"))))) (.par n!"m_s"))) (.div (.div (.div (.sqrt (.rat 2 1)) (.par n!"GF")) (.mul (.ckm 2 1) (.conj (.ckm 2 0)))) (.rat 4 1)))))),
  (n!"nu1pdbemu", (.mul (.div (.div (.sqrt (.rat 2 1)) (.par n!"GF")) (.rat 4 1)) (.div (.div (.inp n!"CR_bdnumunue") (.div (.mul (.rat 8 1) (.mul .pi .pi)) (.mul (.sqrt (.mul (.mul (.rat 4 1) .pi) (.par n!"alpha_e"))) (.sqrt (.mul (.mul (.rat 4 1) .pi) (.par n!"alpha_e")))))) (.div (.div (.div (.sqrt (.rat 2 1)) (.par n!"GF")) (.mul (.ckm 2 2) (.conj (.ckm 2 0)))) (.rat 4 1))))),
  (n!"9psbuu", (.mul (.div (.div (.sqrt (.rat 2 1)) (.par n!"GF")) (.rat 4 1)) (.sub (.add (.sub (.div (.mul (.mul (.div (.mul (.rat 4 1) (.par n!"GF")) (.sqrt (.rat 2 1))) (.mul (.ckm 2 2) (.conj (.ckm 2 1)))) (.inp n!"CSLL_bsuu")) (.rat 48 1)) (.div (.mul (.mul (.div (.mul (.rat 4 1) (.par n!"GF")) (.sqrt (.rat 2 1))) (.mul (.ckm 2 2) (.conj (.ckm 2 1)))) (.inp n!"CSLR_bsuu")) (.rat 48 1))) (.div (.mul (.mul (.div (.mul (.rat 4 1) (.par n!"GF")) (.sqrt (.rat 2 1))) (.mul (.ckm 2 2) (.conj (.ckm 2 1)))) (.inp n!"CSLLt_bsuu")) (.mul (.rat 48 1) (.rat 3 1)))) (.div (.mul (.mul (.div (.mul (.rat 4 1) (.par n!"GF")) (.sqrt (.rat 2 1))) (.mul (.ckm 2 2) (.conj (.ckm 2 1)))) (.inp n!"CSLRt_bsuu")) (.mul (.rat 48 1) (.rat 3 1)))))),
  (n!"5pustaumu", (.mul (.div (.div (.sqrt (.rat 2 1)) (.par n!"GF")) (.rat 4 1)) (.div (.inp n!"CSL_sutaunumu") (.div (.div (.div (.neg (.sqrt (.rat 2 1))) (.par n!"GF")) (.ckm 0 1)) (.rat 4 1))))),
  (n!"9dbtaumu", (.mul (.div (.div (.sqrt (.rat 2 1)) (.par n!"GF")) (.rat 4 1)) (.div (.div (.div (.inp n!"CP_bdmutau") (.div (.div (.mul (.rat 16 1) (.mul .pi .pi)) (.mul (.sqrt (.mul (.mul (.rat 4 1) .pi) (.par n!"alpha_e"))) (.sqrt (.mul (.mul (.rat 4 1) .pi) (.par n!"alpha_e"))))) (.par n!"m_b"))) (.div (.div (.div (.sqrt (.rat 2 1)) (.par n!"GF")) (.mul (.ckm 2 2) (.conj (.ckm 2 0)))) (.rat 4 1))) (.rat 24 1)))),
  (n!"1dbcc", (.mul (.div (.div (.sqrt (.rat 2 1)) (.par n!"GF")) (.rat 4 1)) (.add (.sub (.add (.div (.neg (.mul (.mul (.div (.mul (.rat 4 1) (.par n!"GF")) (.sqrt (.rat 2 1))) (.mul (.ckm 2 2) (.conj (.ckm 2 0)))) (.inp n!"CVLL_bdcc"))) (.rat 3 1)) (.div (.mul (.rat 4 1) (.mul (.mul (.div (.mul (.rat 4 1) (.par n!"GF")) (.sqrt (.rat 2 1))) (.mul (.ckm 2 2) (.conj (.ckm 2 0)))) (.inp n!"CVLR_bdcc"))) (.rat 3 1))) (.div (.mul (.mul (.div (.mul (.rat 4 1) (.par n!"GF")) (.sqrt (.rat 2 1))) (.mul (.ckm 2 2) (.conj (.ckm 2 0)))) (.inp n!"CVLLt_bdcc")) (.mul (.rat 3 1) (.rat 3 1)))) (.div (.mul (.rat 4 1) (.mul (.mul (.div (.mul (.rat 4 1) (.par n!"GF")) (.sqrt (.rat 2 1))) (.mul (.ckm 2 2) (.conj (.ckm 2 0)))) (.inp n!"CVLRt_bdcc"))) (.mul (.rat 3 1) (.rat 3 1)))))),
  (n!"1psbss", (.mul (.div (.div (.sqrt (.rat 2 1)) (.par n!"GF")) (.rat 4 1)) (.add (.div (.neg (.mul (.mul (.div (.mul (.rat 4 1) (.par n!"GF")) (.sqrt (.rat 2 1))) (.mul (.ckm 2 2) (.conj (.ckm 2 1)))) (.inp n!"CVRR_bsss"))) (.rat 3 1)) (.div (.mul (.rat 4 1) (.mul (.mul (.div (.mul (.rat 4 1) (.par n!"GF")) (.sqrt (.rat 2 1))) (.mul (.ckm 2 2) (.conj (.ckm 2 1)))) (.inp n!"CVRL_bsss"))) (.rat 3 1))))),
  (n!"7gammadb", (.mul (.div (.div (.sqrt (.rat 2 1)) (.par n!"GF")) (.rat 4 1)) (.mul (.div (.div (.mul (.sqrt (.mul (.mul (.rat 4 1) .pi) (.par n!"alpha_s"))) (.sqrt (.mul (.mul (.rat 4 1) .pi) (.par n!"alpha_s")))) (.sqrt (.mul (.mul (.rat 4 1) .pi) (.par n!"alpha_e")))) (.par n!"m_b")) (.div (.div (.inp n!"C7_bd") (.div (.div (.mul (.rat 16 1) (.mul .pi .pi)) (.sqrt (.mul (.mul (.rat 4 1) .pi) (.par n!"alpha_e")))) (.par n!"m_b"))) (.div (.div (.div (.sqrt (.rat 2 1)) (.par n!"GF")) (.mul (.ckm 2 2) (.conj (.ckm 2 0)))) (.rat 4 1)))))),
  (n!"9dbuu", (.mul (.div (.div (.sqrt (.rat 2 1)) (.par n!"GF")) (.rat 4 1)) (.sub (.add (.sub (.div (.mul (.mul (.div (.mul (.rat 4 1) (.par n!"GF")) (.sqrt (.rat 2 1))) (.mul (.ckm 2 2) (.conj (.ckm 2 0)))) (.inp n!"CSRR_bduu")) (.rat 48 1)) (.div (.mul (.mul (.div (.mul (.rat 4 1) (.par n!"GF")) (.sqrt (.rat 2 1))) (.mul (.ckm 2 2) (.conj (.ckm 2 0)))) (.inp n!"CSRL_bduu")) (.rat 48 1))) (.div (.mul (.mul (.div (.mul (.rat 4 1) (.par n!"GF")) (.sqrt (.rat 2 1))) (.mul (.ckm 2 2) (.conj (.ckm 2 0)))) (.inp n!"CSRRt_bduu")) (.mul (.rat 48 1) (.rat 3 1)))) (.div (.mul (.mul (.div (.mul (.rat 4 1) (.par n!"GF")) (.sqrt (.rat 2 1))) (.mul (.ckm 2 2) (.conj (.ckm 2 0)))) (.inp n!"CSRLt_bduu")) (.mul (.rat 48 1) (.rat 3 1)))))),
  (n!"1pustautau", (.mul (.div (.div (.sqrt (.rat 2 1)) (.par n!"GF")) (.rat 4 1)) (.div (.inp n!"CVR_sutaunutau") (.div (.div (.div (.neg (.sqrt (.rat 2 1))) (.par n!"GF")) (.ckm 0 1)) (.rat 4 1))))),
  (n!"4pdbss", (.mul (.div (.div (.sqrt (.rat 2 1)) (.par n!"GF")) (.rat 4 1)) (.sub (.div (.mul (.mul (.div (.mul (.rat 4 1) (.par n!"GF")) (.sqrt (.rat 2 1))) (.mul (.ckm 2 2) (.conj (.ckm 2 0)))) (.inp n!"CVRRt_bdss")) (.rat 6 1)) (.div (.mul (.mul (.div (.mul (.rat 4 1) (.par n!"GF")) (.sqrt (.rat 2 1))) (.mul (.ckm 2 2) (.conj (.ckm 2 0)))) (.inp n!"CVRLt_bdss")) (.rat 6 1))))),
  (n!"1pdbtaumu", (.mul (.div (.div (.sqrt (.rat 2 1)) (.par n!"GF")) (.rat 4 1)) (.sub (.div (.div (.inp n!"C9p_bdmutau") (.div (.mul (.rat 16 1) (.mul .pi .pi)) (.mul (.sqrt (.mul (.mul (.rat 4 1) .pi) (.par n!"alpha_e"))) (.sqrt (.mul (.mul (.rat 4 1) .pi) (.par n!"alpha_e")))))) (.div (.div (.div (.sqrt (.rat 2 1)) (.par n!"GF")) (.mul (.ckm 2 2) (.conj (.ckm 2 0)))) (.rat 4 1))) (.div (.mul (.rat 5 1) (.div (.div (.inp n!"C10p_bdmutau") (.div (.mul (.rat 16 1) (.mul .pi .pi)) (.mul (.sqrt (.mul (.mul (.rat 4 1) .pi) (.par n!"alpha_e"))) (.sqrt (.mul (.mul (.rat 4 1) .pi) (.par n!"alpha_e")))))) (.div (.div (.div (.sqrt (.rat 2 1)) (.par n!"GF")) (.mul (.ckm 2 2) (.conj (.ckm 2 0)))) (.rat 4 1)))) (.rat 3 1))))),
  (n!"nu1dsemu", (.mul (.div (.div (.sqrt (.rat 2 1)) (.par n!"GF")) (.rat 4 1)) (.div (.div (.inp n!"CL_sdnumunue") (.div (.mul (.rat 8 1) (.mul .pi .pi)) (.mul (.sqrt (.mul (.mul (.rat 4 1) .pi) (.par n!"alpha_e"))) (.sqrt (.mul (.mul (.rat 4 1) .pi) (.par n!"alpha_e")))))) (.div (.div (.div (.sqrt (.rat 2 1)) (.par n!"GF")) (.mul (.ckm 2 1) (.conj (.ckm 2 0)))) (.rat 4 1))))),
  (n!"nu1pdbmutau", (.mul (.div (.div (.sqrt (.rat 2 1)) (.par n!"GF")) (.rat 4 1)) (.div (.div (.inp n!"CR_bdnutaunumu") (.div (.mul (.rat 8 1) (.mul .pi .pi)) (.mul (.sqrt (.mul (.mul (.rat 4 1) .pi) (.par n!"alpha_e"))) (.sqrt (.mul (.mul (.rat 4 1) .pi) (.par n!"alpha_e")))))) (.div (.div (.div (.sqrt (.rat 2 1)) (.par n!"GF")) (.mul (.ckm 2 2) (.conj (.ckm 2 0)))) (.rat 4 1))))),
  (n!"7dbuu", (.mul (.div (.div (.sqrt (.rat 2 1)) (.par n!"GF")) (.rat 4 1)) (.sub (.add (.add (.add (.sub (.div (.mul (.mul (.div (.mul (.rat 4 1) (.par n!"GF")) (.sqrt (.rat 2 1))) (.mul (.ckm 2 2) (.conj (.ckm 2 0)))) (.inp n!"CSRR_bduu")) (.rat 3 1)) (.div (.mul (.mul (.div (.mul (.rat 4 1) (.par n!"GF")) (.sqrt (.rat 2 1))) (.mul (.ckm 2 2) (.conj (.ckm 2 0)))) (.inp n!"CSRL_bduu")) (.rat 3 1))) (.mul (.mul (.div (.mul (.rat 4 1) (.par n!"GF")) (.sqrt (.rat 2 1))) (.mul (.ckm 2 2) (.conj (.ckm 2 0)))) (.inp n!"CTRR_bduu"))) (.div (.mul (.mul (.div (.mul (.rat 4 1) (.par n!"GF")) (.sqrt (.rat 2 1))) (.mul (.ckm 2 2) (.conj (.ckm 2 0)))) (.inp n!"CTRRt_bduu")) (.rat 3 1))) (.div (.mul (.mul (.div (.mul (.rat 4 1) (.par n!"GF")) (.sqrt (.rat 2 1))) (.mul (.ckm 2 2) (.conj (.ckm 2 0)))) (.inp n!"CSRRt_bduu")) (.mul (.rat 3 1) (.rat 3 1)))) (.div (.mul (.mul (.div (.mul (.rat 4 1) (.par n!"GF")) (.sqrt (.rat 2 1))) (.mul (.ckm 2 2) (.conj (.ckm 2 0)))) (.inp n!"CSRLt_bduu")) (.mul (.rat 3 1) (.rat 3 1)))))),
  (n!"5pusee", (.mul (.div (.div (.sqrt (.rat 2 1)) (.par n!"GF")) (.rat 4 1)) (.div (.inp n!"CSL_suenue") (.div (.div (.div (.neg (.sqrt (.rat 2 1))) (.par n!"GF")) (.ckm 0 1)) (.rat 4 1))))),
  (n!"nu1sbmutau", (.mul (.div (.div (.sqrt (.rat 2 1)) (.par n!"GF")) (.rat 4 1)) (.div (.div (.inp n!"CL_bsnutaunumu") (.div (.mul (.rat 8 1) (.mul .pi .pi)) (.mul (.sqrt (.mul (.mul (.rat 4 1) .pi) (.par n!"alpha_e"))) (.sqrt (.mul (.mul (.rat 4 1) .pi) (.par n!"alpha_e")))))) (.div (.div (.div (.sqrt (.rat 2 1)) (.par n!"GF")) (.mul (.ckm 2 2) (.conj (.ckm 2 1)))) (.rat 4 1))))),
  (n!"9sbbb", (.mul (.div (.div (.sqrt (.rat 2 1)) (.par n!"GF")) (.rat 4 1)) (.sub (.div (.mul (.mul (.div (.mul (.rat 4 1) (.par n!"GF")) (.sqrt (.rat 2 1))) (.mul (.ckm 2 2) (.conj (.ckm 2 1)))) (.inp n!"CSRR_bsbb")) (.rat 48 1)) (.div (.mul (.mul (.div (.mul (.rat 4 1) (.par n!"GF")) (.sqrt (.rat 2 1))) (.mul (.ckm 2 2) (.conj (.ckm 2 1)))) (.inp n!"CSRL_bsbb")) (.rat 48 1))))),
  (n!"5usemu", (.mul (.div (.div (.sqrt (.rat 2 1)) (.par n!"GF")) (.rat 4 1)) (.div (.inp n!"CSR_suenumu") (.div (.div (.div (.neg (.sqrt (.rat 2 1))) (.par n!"GF")) (.ckm 0 1)) (.rat 4 1))))),
  (n!"5dbuu", (.mul (.div (.div (.sqrt (.rat 2 1)) (.par n!"GF")) (.rat 4 1)) (.add (.sub (.add (.div (.neg (.mul (.mul (.div (.mul (.rat 4 1) (.par n!"GF")) (.sqrt (.rat 2 1))) (.mul (.ckm 2 2) (.conj (.ckm 2 0)))) (.inp n!"CSRR_bduu"))) (.rat 3 1)) (.div (.mul (.rat 4 1) (.mul (.mul (.div (.mul (.rat 4 1) (.par n!"GF")) (.sqrt (.rat 2 1))) (.mul (.ckm 2 2) (.conj (.ckm 2 0)))) (.inp n!"CSRL_bduu"))) (.rat 3 1))) (.div (.mul (.mul (.div (.mul (.rat 4 1) (.par n!"GF")) (.sqrt (.rat 2 1))) (.mul (.ckm 2 2) (.conj (.ckm 2 0)))) (.inp n!"CSRRt_bduu")) (.mul (.rat 3 1) (.rat 3 1)))) (.div (.mul (.rat 4 1) (.mul (.mul (.div (.mul (.rat 4 1) (.par n!"GF")) (.sqrt (.rat 2 1))) (.mul (.ckm 2 2) (.conj (.ckm 2 0)))) (.inp n!"CSRLt_bduu"))) (.mul (.rat 3 1) (.rat 3 1)))))),
  (n!"1csmumu", (.mul (.div (.div (.sqrt (.rat 2 1)) (.par n!"GF")) (.rat 4 1)) (.div (.inp n!"CVL_scmunumu") (.div (.div (.div (.neg (.sqrt (.rat 2 1))) (.par n!"GF")) (.ckm 1 1)) (.rat 4 1))))),
  (n!"5csee", (.mul (.div (.div (.sqrt (.rat 2 1)) (.par n!"GF")) (.rat 4 1)) (.div (.inp n!"CSR_scenue") (.div (.div (.div (.neg (.sqrt (.rat 2 1))) (.par n!"GF")) (.ckm 1 1)) (.rat 4 1))))),
  (n!"7sbbb", (.mul (.div (.div (.sqrt (.rat 2 1)) (.par n!"GF")) (.rat 4 1)) (.add (.sub (.div (.mul (.mul (.div (.mul (.rat 4 1) (.par n!"GF")) (.sqrt (.rat 2 1))) (.mul (.ckm 2 2) (.conj (.ckm 2 1)))) (.inp n!"CSRR_bsbb")) (.rat 3 1)) (.div (.mul (.mul (.div (.mul (.rat 4 1) (.par n!"GF")) (.sqrt (.rat 2 1))) (.mul (.ckm 2 2) (.conj (.ckm 2 1)))) (.inp n!"CSRL_bsbb")) (.rat 3 1))) (.mul (.mul (.div (.mul (.rat 4 1) (.par n!"GF")) (.sqrt (.rat 2 1))) (.mul (.ckm 2 2) (.conj (.ckm 2 1)))) (.inp n!"CTRR_bsbb"))))),
  (n!"nu1pdstaumu", (.mul (.div (.div (.sqrt (.rat 2 1)) (.par n!"GF")) (.rat 4 1)) (.div (.div (.inp n!"CR_sdnumunutau") (.div (.mul (.rat 8 1) (.mul .pi .pi)) (.mul (.sqrt (.mul (.mul (.rat 4 1) .pi) (.par n!"alpha_e"))) (.sqrt (.mul (.mul (.rat 4 1) .pi) (.par n!"alpha_e")))))) (.div (.div (.div (.sqrt (.rat 2 1)) (.par n!"GF")) (.mul (.ckm 2 1) (.conj (.ckm 2 0)))) (.rat 4 1))))),
  (n!"5psbmutau", (.mul (.div (.div (.sqrt (.rat 2 1)) (.par n!"GF")) (.rat 4 1)) (.add (.div (.mul (.rat 5 1) (.div (.div (.inp n!"CPp_bstaumu") (.div (.div (.mul (.rat 16 1) (.mul .pi .pi)) (.mul (.sqrt (.mul (.mul (.rat 4 1) .pi) (.par n!"alpha_e"))) (.sqrt (.mul (.mul (.rat 4 1) .pi) (.par n!"alpha_e"))))) (.par n!"m_b"))) (.div (.div (.div (.sqrt (.rat 2 1)) (.par n!"GF")) (.mul (.ckm 2 2) (.conj (.ckm 2 1)))) (.rat 4 1)))) (.rat 3 1)) (.div (.div (.inp n!"CSp_bstaumu") (.div (.div (.mul (.rat 16 1) (.mul .pi .pi)) (.mul (.sqrt (.mul (.mul (.rat 4 1) .pi) (.par n!"alpha_e"))) (.sqrt (.mul (.mul (.rat 4 1) .pi) (.par n!"alpha_e"))))) (.par n!"m_b"))) (.div (.div (.div (.sqrt (.rat 2 1)) (.par n!"GF")) (.mul (.ckm 2 2) (.conj (.ckm 2 1)))) (.rat 4 1)))))),
  (n!"5dbtautau", (.mul (.div (.div (.sqrt (.rat 2 1)) (.par n!"GF")) (.rat 4 1)) (.sub (.div (.div (.inp n!"CS_bdtautau") (.div (.div (.mul (.rat 16 1) (.mul .pi .pi)) (.mul (.sqrt (.mul (.mul (.rat 4 1) .pi) (.par n!"alpha_e"))) (.sqrt (.mul (.mul (.rat 4 1) .pi) (.par n!"alpha_e"))))) (.par n!"m_b"))) (.div (.div (.div (.sqrt (.rat 2 1)) (.par n!"GF")) (.mul (.ckm 2 2) (.conj (.ckm 2 0)))) (.rat 4 1))) (.div (.mul (.rat 5 1) (.div (.div (.inp n!"CP_bdtautau") (.div (.div (.mul (.rat 16 1) (.mul .pi .pi)) (.mul (.sqrt (.mul (.mul (.rat 4 1) .pi) (.par n!"alpha_e"))) (.sqrt (.mul (.mul (.rat 4 1) .pi) (.par n!"alpha_e"))))) (.par n!"m_b"))) (.div (.div (.div (.sqrt (.rat 2 1)) (.par n!"GF")) (.mul (.ckm 2 2) (.conj (.ckm 2 0)))) (.rat 4 1)))) (.rat 3 1))))),
  (n!"3dbuu", (.mul (.div (.div (.sqrt (.rat 2 1)) (.par n!"GF")) (.rat 4 1)) (.sub (.add (.sub (.div (.mul (.mul (.div (.mul (.rat 4 1) (.par n!"GF")) (.sqrt (.rat 2 1))) (.mul (.ckm 2 2) (.conj (.ckm 2 0)))) (.inp n!"CVLL_bduu")) (.rat 12 1)) (.div (.mul (.mul (.div (.mul (.rat 4 1) (.par n!"GF")) (.sqrt (.rat 2 1))) (.mul (.ckm 2 2) (.conj (.ckm 2 0)))) (.inp n!"CVLR_bduu")) (.rat 12 1))) (.div (.mul (.mul (.div (.mul (.rat 4 1) (.par n!"GF")) (.sqrt (.rat 2 1))) (.mul (.ckm 2 2) (.conj (.ckm 2 0)))) (.inp n!"CVLLt_bduu")) (.mul (.rat 12 1) (.rat 3 1)))) (.div (.mul (.mul (.div (.mul (.rat 4 1) (.par n!"GF")) (.sqrt (.rat 2 1))) (.mul (.ckm 2 2) (.conj (.ckm 2 0)))) (.inp n!"CVLRt_bduu")) (.mul (.rat 12 1) (.rat 3 1)))))),
  (n!"9pdsdd", (.mul (.div (.div (.sqrt (.rat 2 1)) (.par n!"GF")) (.rat 4 1)) (.sub (.div (.mul (.mul (.div (.mul (.rat 4 1) (.par n!"GF")) (.sqrt (.rat 2 1))) (.mul (.ckm 2 1) (.conj (.ckm 2 0)))) (.inp n!"CSRR_sddd")) (.rat 48 1)) (.div (.mul (.mul (.div (.mul (.rat 4 1) (.par n!"GF")) (.sqrt (.rat 2 1))) (.mul (.ckm 2 1) (.conj (.ckm 2 0)))) (.inp n!"CSRL_sddd")) (.rat 48 1))))),
  (n!"5sbbb", (.mul (.div (.div (.sqrt (.rat 2 1)) (.par n!"GF")) (.rat 4 1)) (.add (.div (.neg (.mul (.mul (.div (.mul (.rat 4 1) (.par n!"GF")) (.sqrt (.rat 2 1))) (.mul (.ckm 2 2) (.conj (.ckm 2 1)))) (.inp n!"CSRR_bsbb"))) (.rat 3 1)) (.div (.mul (.rat 4 1) (.mul (.mul (.div (.mul (.rat 4 1) (.par n!"GF")) (.sqrt (.rat 2 1))) (.mul (.ckm 2 2) (.conj (.ckm 2 1)))) (.inp n!"CSRL_bsbb"))) (.rat 3 1))))),
  (n!"5pdscc", (.mul (.div (.div (.sqrt (.rat 2 1)) (.par n!"GF")) (.rat 4 1)) (.add (.sub (.add (.div (.neg (.mul (.mul (.div (.mul (.rat 4 1) (.par n!"GF")) (.sqrt (.rat 2 1))) (.mul (.ckm 2 1) (.conj (.ckm 2 0)))) (.inp n!"CSLL_sdcc"))) (.rat 3 1)) (.div (.mul (.rat 4 1) (.mul (.mul (.div (.mul (.rat 4 1) (.par n!"GF")) (.sqrt (.rat 2 1))) (.mul (.ckm 2 1) (.conj (.ckm 2 0)))) (.inp n!"CSLR_sdcc"))) (.rat 3 1))) (.div (.mul (.mul (.div (.mul (.rat 4 1) (.par n!"GF")) (.sqrt (.rat 2 1))) (.mul (.ckm 2 1) (.conj (.ckm 2 0)))) (.inp n!"CSLLt_sdcc")) (.mul (.rat 3 1) (.rat 3 1)))) (.div (.mul (.rat 4 1) (.mul (.mul (.div (.mul (.rat 4 1) (.par n!"GF")) (.sqrt (.rat 2 1))) (.mul (.ckm 2 1) (.conj (.ckm 2 0)))) (.inp n!"CSLRt_sdcc"))) (.mul (.rat 3 1) (.rat 3 1)))))),
  (n!"1pdsbb", (.mul (.div (.div (.sqrt (.rat 2 1)) (.par n!"GF")) (.rat 4 1)) (.add (.sub (.add (.div (.neg (.mul (.mul (.div (.mul (.rat 4 1) (.par n!"GF")) (.sqrt (.rat 2 1))) (.mul (.ckm 2 1) (.conj (.ckm 2 0)))) (.inp n!"CVRR_sdbb"))) (.rat 3 1)) (.div (.mul (.rat 4 1) (.mul (.mul (.div (.mul (.rat 4 1) (.par n!"GF")) (.sqrt (.rat 2 1))) (.mul (.ckm 2 1) (.conj (.ckm 2 0)))) (.inp n!"CVRL_sdbb"))) (.rat 3 1))) (.div (.mul (.mul (.div (.mul (.rat 4 1) (.par n!"GF")) (.sqrt (.rat 2 1))) (.mul (.ckm 2 1) (.conj (.ckm 2 0)))) (.inp n!"CVRRt_sdbb")) (.mul (.rat 3 1) (.rat 3 1)))) (.div (.mul (.rat 4 1) (.mul (.mul (.div (.mul (.rat 4 1) (.par n!"GF")) (.sqrt (.rat 2 1))) (.mul (.ckm 2 1) (.conj (.ckm 2 0)))) (.inp n!"CVRLt_sdbb"))) (.mul (.rat 3 1) (.rat 3 1)))))),
  (n!"1dbuu", (.mul (.div (.div (.sqrt (.rat 2 1)) (.par n!"GF")) (.rat 4 1)) (.add (.sub (.add (.div (.neg (.mul (.mul (.div (.mul (.rat 4 1) (.par n!"GF")) (.sqrt (.rat 2 1))) (.mul (.ckm 2 2) (.conj (.ckm 2 0)))) (.inp n!"CVLL_bduu"))) (.rat 3 1)) (.div (.mul (.rat 4 1) (.mul (.mul (.div (.mul (.rat 4 1) (.par n!"GF")) (.sqrt (.rat 2 1))) (.mul (.ckm 2 2) (.conj (.ckm 2 0)))) (.inp n!"CVLR_bduu"))) (.rat 3 1))) (.div (.mul (.mul (.div (.mul (.rat 4 1) (.par n!"GF")) (.sqrt (.rat 2 1))) (.mul (.ckm 2 2) (.conj (.ckm 2 0)))) (.inp n!"CVLLt_bduu")) (.mul (.rat 3 1) (.rat 3 1)))) (.div (.mul (.rat 4 1) (.mul (.mul (.div (.mul (.rat 4 1) (.par n!"GF")) (.sqrt (.rat 2 1))) (.mul (.ckm 2 2) (.conj (.ckm 2 0)))) (.inp n!"CVLRt_bduu"))) (.mul (.rat 3 1) (.rat 3 1)))))),
  (n!"1pcstaue", (.mul (.div (.div (.sqrt (.rat 2 1)) (.par n!"GF")) (.rat 4 1)) (.div (.inp n!"CVR_sctaunue") (.div (.div (.div (.neg (.sqrt (.rat 2 1))) (.par n!"GF")) (.ckm 1 1)) (.rat 4 1))))),
  (n!"3pdbee", (.mul (.div (.div (.sqrt (.rat 2 1)) (.par n!"GF")) (.rat 4 1)) (.div (.div (.div (.inp n!"C10p_bdee") (.div (.mul (.rat 16 1) (.mul .pi .pi)) (.mul (.sqrt (.mul (.mul (.rat 4 1) .pi) (.par n!"alpha_e"))) (.sqrt (.mul (.mul (.rat 4 1) .pi) (.par n!"alpha_e")))))) (.div (.div (.div (.sqrt (.rat 2 1)) (.par n!"GF")) (.mul (.ckm 2 2) (.conj (.ckm 2 0)))) (.rat 4 1))) (.rat 6 1)))),
  (n!"1csee", (.mul (.div (.div (.sqrt (.rat 2 1)) (.par n!"GF")) (.rat 4 1)) (.div (.inp n!"CVL_scenue") (.div (.div (.div (.neg (.sqrt (.rat 2 1))) (.par n!"GF")) (.ckm 1 1)) (.rat 4 1))))),
  (n!"3sbbb", (.mul (.div (.div (.sqrt (.rat 2 1)) (.par n!"GF")) (.rat 4 1)) (.sub (.div (.mul (.mul (.div (.mul (.rat 4 1) (.par n!"GF")) (.sqrt (.rat 2 1))) (.mul (.ckm 2 2) (.conj (.ckm 2 1)))) (.inp n!"CVLL_bsbb")) (.rat 12 1)) (.div (.mul (.mul (.div (.mul (.rat 4 1) (.par n!"GF")) (.sqrt (.rat 2 1))) (.mul (.ckm 2 2) (.conj (.ckm 2 1)))) (.inp n!"CVLR_bsbb")) (.rat 12 1))))),
  (n!"1cdemu", (.mul (.div (.div (.sqrt (.rat 2 1)) (.par n!"GF")) (.rat 4 1)) (.div (.inp n!"CVL_dcenumu") (.div (.div (.div (.neg (.sqrt (.rat 2 1))) (.par n!"GF")) (.ckm 1 0)) (.rat 4 1))))),
  (n!"7sbmutau", (.mul (.div (.div (.sqrt (.rat 2 1)) (.par n!"GF")) (.rat 4 1)) (.add (.add (.div (.mul (.rat 2 1) (.div (.div (.inp n!"CP_bstaumu") (.div (.div (.mul (.rat 16 1) (.mul .pi .pi)) (.mul (.sqrt (.mul (.mul (.rat 4 1) .pi) (.par n!"alpha_e"))) (.sqrt (.mul (.mul (.rat 4 1) .pi) (.par n!"alpha_e"))))) (.par n!"m_b"))) (.div (.div (.div (.sqrt (.rat 2 1)) (.par n!"GF")) (.mul (.ckm 2 2) (.conj (.ckm 2 1)))) (.rat 4 1)))) (.rat 3 1)) (.div (.rat 0 1) (.div (.div (.div (.sqrt (.rat 2 1)) (.par n!"GF")) (.mul (.ckm 2 2) (.conj (.ckm 2 1)))) (.rat 4 1)))) (.div (.rat 0 1) (.div (.div (.div (.sqrt (.rat 2 1)) (.par n!"GF")) (.mul (.ckm 2 2) (.conj (.ckm 2 1)))) (.rat 4 1)))))),
  (n!"1sbbb", (.mul (.div (.div (.sqrt (.rat 2 1)) (.par n!"GF")) (.rat 4 1)) (.add (.div (.neg (.mul (.mul (.div (.mul (.rat 4 1) (.par n!"GF")) (.sqrt (.rat 2 1))) (.mul (.ckm 2 2) (.conj (.ckm 2 1)))) (.inp n!"CVLL_bsbb"))) (.rat 3 1)) (.div (.mul (.rat 4 1) (.mul (.mul (.div (.mul (.rat 4 1) (.par n!"GF")) (.sqrt (.rat 2 1))) (.mul (.ckm 2 2) (.conj (.ckm 2 1)))) (.inp n!"CVLR_bsbb"))) (.rat 3 1))))),
  (n!"3pdbtaue", (.mul (.div (.div (.sqrt (.rat 2 1)) (.par n!"GF")) (.rat 4 1)) (.div (.div (.div (.inp n!"C10p_bdetau") (.div (.mul (.rat 16 1) (.mul .pi .pi)) (.mul (.sqrt (.mul (.mul (.rat 4 1) .pi) (.par n!"alpha_e"))) (.sqrt (.mul (.mul (.rat 4 1) .pi) (.par n!"alpha_e")))))) (.div (.div (.div (.sqrt (.rat 2 1)) (.par n!"GF")) (.mul (.ckm 2 2) (.conj (.ckm 2 0)))) (.rat 4 1))) (.rat 6 1)))),
  (n!"10dscc", (.mul (.div (.div (.sqrt (.rat 2 1)) (.par n!"GF")) (.rat 4 1)) (.sub (.div (.mul (.mul (.div (.mul (.rat 4 1) (.par n!"GF")) (.sqrt (.rat 2 1))) (.mul (.ckm 2 1) (.conj (.ckm 2 0)))) (.inp n!"CSRRt_sdcc")) (.rat 24 1)) (.div (.mul (.mul (.div (.mul (.rat 4 1) (.par n!"GF")) (.sqrt (.rat 2 1))) (.mul (.ckm 2 1) (.conj (.ckm 2 0)))) (.inp n!"CSRLt_sdcc")) (.rat 24 1))))),
  (n!"1pcdmutau", (.mul (.div (.div (.sqrt (.rat 2 1)) (.par n!"GF")) (.rat 4 1)) (.div (.inp n!"CVR_dcmunutau") (.div (.div (.div (.neg (.sqrt (.rat 2 1))) (.par n!"GF")) (.ckm 1 0)) (.rat 4 1))))),
  (n!"7pudetau", (.mul (.div (.div (.sqrt (.rat 2 1)) (.par n!"GF")) (.rat 4 1)) (.div (.inp n!"CT_duenutau") (.div (.div (.div (.neg (.sqrt (.rat 2 1))) (.par n!"GF")) (.ckm 0 0)) (.rat 4 1))))),
  (n!"5psbtautau", (.mul (.div (.div (.sqrt (.rat 2 1)) (.par n!"GF")) (.rat 4 1)) (.add (.div (.mul (.rat 5 1) (.div (.div (.inp n!"CPp_bstautau") (.div (.div (.mul (.rat 16 1) (.mul .pi .pi)) (.mul (.sqrt (.mul (.mul (.rat 4 1) .pi) (.par n!"alpha_e"))) (.sqrt (.mul (.mul (.rat 4 1) .pi) (.par n!"alpha_e"))))) (.par n!"m_b"))) (.div (.div (.div (.sqrt (.rat 2 1)) (.par n!"GF")) (.mul (.ckm 2 2) (.conj (.ckm 2 1)))) (.rat 4 1)))) (.rat 3 1)) (.div (.div (.inp n!"CSp_bstautau") (.div (.div (.mul (.rat 16 1) (.mul .pi .pi)) (.mul (.sqrt (.mul (.mul (.rat 4 1) .pi) (.par n!"alpha_e"))) (.sqrt (.mul (.mul (.rat 4 1) .pi) (.par n!"alpha_e"))))) (.par n!"m_b"))) (.div (.div (.div (.sqrt (.rat 2 1)) (.par n!"GF")) (.mul (.ckm 2 2) (.conj (.ckm 2 1)))) (.rat 4 1)))))),
  (n!"7pubetau", (.mul (.div (.div (.sqrt (.rat 2 1)) (.par n!"GF")) (.rat 4 1)) (.div (.inp n!"CT_buenutau") (.div (.div (.div (.neg (.sqrt (.rat 2 1))) (.par n!"GF")) (.ckm 0 2)) (.rat 4 1)))))]

def flavio_to_Bern_7 : List (ℕ × Sym) := [
  (n!"5pdsuu", (.mul (.div (.div (.sqrt (.rat 2 1)) (.par n!"GF")) (.rat 4 1)) (.add (.sub (.add (.div (.neg (.mul (.mul (.div (.mul (.rat 4 1) (.par n!"GF")) (.sqrt (.rat 2 1))) (.mul (.ckm 2 1) (.conj (.ckm 2 0)))) (.inp n!"CSLL_sduu"))) (.rat 3 1)) (.div (.mul (.rat 4 1) (.mul (.mul (.div (.mul (.rat 4 1) (.par n!"GF")) (.sqrt (.rat 2 1))) (.mul (.ckm 2 1) (.conj (.ckm 2 0)))) (.inp n!"CSLR_sduu"))) (.rat 3 1))) (.div (.mul (.mul (.div (.mul (.rat 4 1) (.par n!"GF")) (.sqrt (.rat 2 1))) (.mul (.ckm 2 1) (.conj (.ckm 2 0)))) (.inp n!"CSLLt_sduu")) (.mul (.rat 3 1) (.rat 3 1)))) (.div (.mul (.rat 4 1) (.mul (.mul (.div (.mul (.rat 4 1) (.par n!"GF")) (.sqrt (.rat 2 1))) (.mul (.ckm 2 1) (.conj (.ckm 2 0)))) (.inp n!"CSLRt_sduu"))) (.mul (.rat 3 1) (.rat 3 1)))))),
  (n!"5pubtaumu", (.mul (.div (.div (.sqrt (.rat 2 1)) (.par n!"GF")) (.rat 4 1)) (.div (.inp n!"CSL_butaunumu") (.div (.div (.div (.neg (.sqrt (.rat 2 1))) (.par n!"GF")) (.ckm 0 2)) (.rat 4 1))))),
  (n!"5csmutau", (.mul (.div (.div (.sqrt (.rat 2 1)) (.par n!"GF")) (.rat 4 1)) (.div (.inp n!"CSR_scmunutau") (.div (.div (.div (.neg (.sqrt (.rat 2 1))) (.par n!"GF")) (.ckm 1 1)) (.rat 4 1))))),
  (n!"9dbmue", (.mul (.div (.div (.sqrt (.rat 2 1)) (.par n!"GF")) (.rat 4 1)) (.div (.div (.div (.inp n!"CP_bdemu") (.div (.div (.mul (.rat 16 1) (.mul .pi .pi)) (.mul (.sqrt (.mul (.mul (.rat 4 1) .pi) (.par n!"alpha_e"))) (.sqrt (.mul (.mul (.rat 4 1) .pi) (.par n!"alpha_e"))))) (.par n!"m_b"))) (.div (.div (.div (.sqrt (.rat 2 1)) (.par n!"GF")) (.mul (.ckm 2 2) (.conj (.ckm 2 0)))) (.rat 4 1))) (.rat 24 1)))),
  (n!"nu1pdbee", (.mul (.div (.div (.sqrt (.rat 2 1)) (.par n!"GF")) (.rat 4 1)) (.div (.div (.inp n!"CR_bdnuenue") (.div (.mul (.rat 8 1) (.mul .pi .pi)) (.mul (.sqrt (.mul (.mul (.rat 4 1) .pi) (.par n!"alpha_e"))) (.sqrt (.mul (.mul (.rat 4 1) .pi) (.par n!"alpha_e")))))) (.div (.div (.div (.sqrt (.rat 2 1)) (.par n!"GF")) (.mul (.ckm 2 2) (.conj (.ckm 2 0)))) (.rat 4 1))))),
  (n!"5usee", (.mul (.div (.div (.sqrt (.rat 2 1)) (.par n!"GF")) (.rat 4 1)) (.div (.inp n!"CSR_suenue") (.div (.div (.div (.neg (.sqrt (.rat 2 1))) (.par n!"GF")) (.ckm 0 1)) (.rat 4 1))))),
  (n!"7psbee", (.mul (.div (.div (.sqrt (.rat 2 1)) (.par n!"GF")) (.rat 4 1)) (.sub (.add (.div (.mul (.rat (-2) 1) (.div (.div (.inp n!"CPp_bsee") (.div (.div (.mul (.rat 16 1) (.mul .pi .pi)) (.mul (.sqrt (.mul (.mul (.rat 4 1) .pi) (.par n!"alpha_e"))) (.sqrt (.mul (.mul (.rat 4 1) .pi) (.par n!"alpha_e"))))) (.par n!"m_b"))) (.div (.div (.div (.sqrt (.rat 2 1)) (.par n!"GF")) (.mul (.ckm 2 2) (.conj (.ckm 2 1)))) (.rat 4 1)))) (.rat 3 1)) (.div (.rat 0 1) (.div (.div (.div (.sqrt (.rat 2 1)) (.par n!"GF")) (.mul (.ckm 2 2) (.conj (.ckm 2 1)))) (.rat 4 1)))) (.div (.rat 0 1) (.div (.div (.div (.sqrt (.rat 2 1)) (.par n!"GF")) (.mul (.ckm 2 2) (.conj (.ckm 2 1)))) (.rat 4 1)))))),
  (n!"9dscc", (.mul (.div (.div (.sqrt (.rat 2 1)) (.par n!"GF")) (.rat 4 1)) (.sub (.add (.sub (.div (.mul (.mul (.div (.mul (.rat 4 1) (.par n!"GF")) (.sqrt (.rat 2 1))) (.mul (.ckm 2 1) (.conj (.ckm 2 0)))) (.inp n!"CSRR_sdcc")) (.rat 48 1)) (.div (.mul (.mul (.div (.mul (.rat 4 1) (.par n!"GF")) (.sqrt (.rat 2 1))) (.mul (.ckm 2 1) (.conj (.ckm 2 0)))) (.inp n!"CSRL_sdcc")) (.rat 48 1))) (.div (.mul (.mul (.div (.mul (.rat 4 1) (.par n!"GF")) (.sqrt (.rat 2 1))) (.mul (.ckm 2 1) (.conj (.ckm 2 0)))) (.inp n!"CSRRt_sdcc")) (.mul (.rat 48 1) (.rat 3 1)))) (.div (.mul (.mul (.div (.mul (.rat 4 1) (.par n!"GF")) (.sqrt (.rat 2 1))) (.mul (.ckm 2 1) (.conj (.ckm 2 0)))) (.inp n!"CSRLt_sdcc")) (.mul (.rat 48 1) (.rat 3 1)))))),
  (n!"8pdsbb", (.mul (.div (.div (.sqrt (.rat 2 1)) (.par n!"GF")) (.rat 4 1)) (.sub (.add (.mul (.rat 2 1) (.mul (.mul (.div (.mul (.rat 4 1) (.par n!"GF")) (.sqrt (.rat 2 1))) (.mul (.ckm 2 1) (.conj (.ckm 2 0)))) (.inp n!"CTLLt_sdbb"))) (.div (.mul (.rat 2 1) (.mul (.mul (.div (.mul (.rat 4 1) (.par n!"GF")) (.sqrt (.rat 2 1))) (.mul (.ckm 2 1) (.conj (.ckm 2 0)))) (.inp n!"CSLLt_sdbb"))) (.rat 3 1))) (.div (.mul (.rat 2 1) (.mul (.mul (.div (.mul (.rat 4 1) (.par n!"GF")) (.sqrt (.rat 2 1))) (.mul (.ckm 2 1) (.conj (.ckm 2 0)))) (.inp n!"CSLRt_sdbb"))) (.rat 3 1))))),
  (n!"3psbdd", (.mul (.div (.div (.sqrt (.rat 2 1)) (.par n!"GF")) (.rat 4 1)) (.sub (.add (.sub (.div (.mul (.mul (.div (.mul (.rat 4 1) (.par n!"GF")) (.sqrt (.rat 2 1))) (.mul (.ckm 2 2) (.conj (.ckm 2 1)))) (.inp n!"CVRR_bsdd")) (.rat 12 1)) (.div (.mul (.mul (.div (.mul (.rat 4 1) (.par n!"GF")) (.sqrt (.rat 2 1))) (.mul (.ckm 2 2) (.conj (.ckm 2 1)))) (.inp n!"CVRL_bsdd")) (.rat 12 1))) (.div (.mul (.mul (.div (.mul (.rat 4 1) (.par n!"GF")) (.sqrt (.rat 2 1))) (.mul (.ckm 2 2) (.conj (.ckm 2 1)))) (.inp n!"CVRRt_bsdd")) (.mul (.rat 12 1) (.rat 3 1)))) (.div (.mul (.mul (.div (.mul (.rat 4 1) (.par n!"GF")) (.sqrt (.rat 2 1))) (.mul (.ckm 2 2) (.conj (.ckm 2 1)))) (.inp n!"CVRLt_bsdd")) (.mul (.rat 12 1) (.rat 3 1)))))),
  (n!"10dsuu", (.mul (.div (.div (.sqrt (.rat 2 1)) (.par n!"GF")) (.rat 4 1)) (.sub (.div (.mul (.mul (.div (.mul (.rat 4 1) (.par n!"GF")) (.sqrt (.rat 2 1))) (.mul (.ckm 2 1) (.conj (.ckm 2 0)))) (.inp n!"CSRRt_sduu")) (.rat 24 1)) (.div (.mul (.mul (.div (.mul (.rat 4 1) (.par n!"GF")) (.sqrt (.rat 2 1))) (.mul (.ckm 2 1) (.conj (.ckm 2 0)))) (.inp n!"CSRLt_sduu")) (.rat 24 1))))),
  (n!"5csemu", (.mul (.div (.div (.sqrt (.rat 2 1)) (.par n!"GF")) (.rat 4 1)) (.div (.inp n!"CSR_scenumu") (.div (.div (.div (.neg (.sqrt (.rat 2 1))) (.par n!"GF")) (.ckm 1 1)) (.rat 4 1))))),
  (n!"9dstautau", (.mul (.div (.div (.sqrt (.rat 2 1)) (.par n!"GF")) (.rat 4 1)) (.div (.div (.div (.inp n!"CP_sdtautau") (.div (.div (.mul (.rat 16 1) (.mul .pi .pi)) (.mul (.sqrt (.mul (.mul (.rat 4 1) .pi) (.par n!"alpha_e"))) (.sqrt (.mul (.mul (.rat 4 1) .pi) (.par n!"alpha_e"))))) (.par n!"m_s"))) (.div (.div (.div (.sqrt (.rat 2 1)) (.par n!"GF")) (.mul (.ckm 2 1) (.conj (.ckm 2 0)))) (.rat 4 1))) (.rat 24 1)))),
  (n!"7dscc", (.mul (.div (.div (.sqrt (.rat 2 1)) (.par n!"GF")) (.rat 4 1)) (.sub (.add (.add (.add (.sub (.div (.mul (.mul (.div (.mul (.rat 4 1) (.par n!"GF")) (.sqrt (.rat 2 1))) (.mul (.ckm 2 1) (.conj (.ckm 2 0)))) (.inp n!"CSRR_sdcc")) (.rat 3 1)) (.div (.mul (.mul (.div (.mul (.rat 4 1) (.par n!"GF")) (.sqrt (.rat 2 1))) (.mul (.ckm 2 1) (.conj (.ckm 2 0)))) (.inp n!"CSRL_sdcc")) (.rat 3 1))) (.mul (.mul (.div (.mul (.rat 4 1) (.par n!"GF")) (.sqrt (.rat 2 1))) (.mul (.ckm 2 1) (.conj (.ckm 2 0)))) (.inp n!"CTRR_sdcc"))) (.div (.mul (.mul (.div (.mul (.rat 4 1) (.par n!"GF")) (.sqrt (.rat 2 1))) (.mul (.ckm 2 1) (.conj (.ckm 2 0)))) (.inp n!"CTRRt_sdcc")) (.rat 3 1))) (.div (.mul (.mul (.div (.mul (.rat 4 1) (.par n!"GF")) (.sqrt (.rat 2 1))) (.mul (.ckm 2 1) (.conj (.ckm 2 0)))) (.inp n!"CSRRt_sdcc")) (.mul (.rat 3 1) (.rat 3 1)))) (.div (.mul (.mul (.div (.mul (.rat 4 1) (.par n!"GF")) (.sqrt (.rat 2 1))) (.mul (.ckm 2 1) (.conj (.ckm 2 0)))) (.inp n!"CSRLt_sdcc")) (.mul (.rat 3 1) (.rat 3 1)))))),
  (n!"2pdbcc", (.mul (.div (.div (.sqrt (.rat 2 1)) (.par n!"GF")) (.rat 4 1)) (.add (.div (.mul (.rat (-2) 1) (.mul (.mul (.div (.mul (.rat 4 1) (.par n!"GF")) (.sqrt (.rat 2 1))) (.mul (.ckm 2 2) (.conj (.ckm 2 0)))) (.inp n!"CVRRt_bdcc"))) (.rat 3 1)) (.div (.mul (.rat 8 1) (.mul (.mul (.div (.mul (.rat 4 1) (.par n!"GF")) (.sqrt (.rat 2 1))) (.mul (.ckm 2 2) (.conj (.ckm 2 0)))) (.inp n!"CVRLt_bdcc"))) (.rat 3 1))))),
  (n!"1usee", (.mul (.div (.div (.sqrt (.rat 2 1)) (.par n!"GF")) (.rat 4 1)) (.div (.inp n!"CVL_suenue") (.div (.div (.div (.neg (.sqrt (.rat 2 1))) (.par n!"GF")) (.ckm 0 1)) (.rat 4 1))))),
  (n!"1udmutau", (.mul (.div (.div (.sqrt (.rat 2 1)) (.par n!"GF")) (.rat 4 1)) (.div (.inp n!"CVL_dumunutau") (.div (.div (.div (.neg (.sqrt (.rat 2 1))) (.par n!"GF")) (.ckm 0 0)) (.rat 4 1))))),
  (n!"nu1pdbtaumu", (.mul (.div (.div (.sqrt (.rat 2 1)) (.par n!"GF")) (.rat 4 1)) (.div (.div (.inp n!"CR_bdnumunutau") (.div (.mul (.rat 8 1) (.mul .pi .pi)) (.mul (.sqrt (.mul (.mul (.rat 4 1) .pi) (.par n!"alpha_e"))) (.sqrt (.mul (.mul (.rat 4 1) .pi) (.par n!"alpha_e")))))) (.div (.div (.div (.sqrt (.rat 2 1)) (.par n!"GF")) (.mul (.ckm 2 2) (.conj (.ckm 2 0)))) (.rat 4 1))))),
  (n!"5dscc", (.mul (.div (.div (.sqrt (.rat 2 1)) (.par n!"GF")) (.rat 4 1)) (.add (.sub (.add (.div (.neg (.mul (.mul (.div (.mul (.rat 4 1) (.par n!"GF")) (.sqrt (.rat 2 1))) (.mul (.ckm 2 1) (.conj (.ckm 2 0)))) (.inp n!"CSRR_sdcc"))) (.rat 3 1)) (.div (.mul (.rat 4 1) (.mul (.mul (.div (.mul (.rat 4 1) (.par n!"GF")) (.sqrt (.rat 2 1))) (.mul (.ckm 2 1) (.conj (.ckm 2 0)))) (.inp n!"CSRL_sdcc"))) (.rat 3 1))) (.div (.mul (.mul (.div (.mul (.rat 4 1) (.par n!"GF")) (.sqrt (.rat 2 1))) (.mul (.ckm 2 1) (.conj (.ckm 2 0)))) (.inp n!"CSRRt_sdcc")) (.mul (.rat 3 1) (.rat 3 1)))) (.div (.mul (.rat 4 1) (.mul (.mul (.div (.mul (.rat 4 1) (.par n!"GF")) (.sqrt (.rat 2 1))) (.mul (.ckm 2 1) (.conj (.ckm 2 0)))) (.inp n!"CSRLt_sdcc"))) (.mul (.rat 3 1) (.rat 3 1)))))),
  (n!"3psbsb", (.mul (.div (.div (.sqrt (.rat 2 1)) (.par n!"GF")) (.rat 4 1)) (.mul (.rat (-8) 1) (.inp n!"CTRR_bsbs")))),
  (n!"nu1sbtaumu", (.mul (.div (.div (.sqrt (.rat 2 1)) (.par n!"GF")) (.rat 4 1)) (.div (.div (.inp n!"CL_bsnumunutau") (.div (.mul (.rat 8 1) (.mul .pi .pi)) (.mul (.sqrt (.mul (.mul (.rat 4 1) .pi) (.par n!"alpha_e"))) (.sqrt (.mul (.mul (.rat 4 1) .pi) (.par n!"alpha_e")))))) (.div (.div (.div (.sqrt (.rat 2 1)) (.par n!"GF")) (.mul (.ckm 2 2) (.conj (.ckm 2 1)))) (.rat 4 1))))),
  (n!"nu1pdbetau", (.mul (.div (.div (.sqrt (.rat 2 1)) (.par n!"GF")) (.rat 4 1)) (.div (.div (.inp n!"CR_bdnutaunue") (.div (.mul (.rat 8 1) (.mul .pi .pi)) (.mul (.sqrt (.mul (.mul (.rat 4 1) .pi) (.par n!"alpha_e"))) (.sqrt (.mul (.mul (.rat 4 1) .pi) (.par n!"alpha_e")))))) (.div (.div (.div (.sqrt (.rat 2 1)) (.par n!"GF")) (.mul (.ckm 2 2) (.conj (.ckm 2 0)))) (.rat 4 1))))),
  (n!"3dscc", (.mul (.div (.div (.sqrt (.rat 2 1)) (.par n!"GF")) (.rat 4 1)) (.sub (.add (.sub (.div (.mul (.mul (.div (.mul (.rat 4 1) (.par n!"GF")) (.sqrt (.rat 2 1))) (.mul (.ckm 2 1) (.conj (.ckm 2 0)))) (.inp n!"CVLL_sdcc")) (.rat 12 1)) (.div (.mul (.mul (.div (.mul (.rat 4 1) (.par n!"GF")) (.sqrt (.rat 2 1))) (.mul (.ckm 2 1) (.conj (.ckm 2 0)))) (.inp n!"CVLR_sdcc")) (.rat 12 1))) (.div (.mul (.mul (.div (.mul (.rat 4 1) (.par n!"GF")) (.sqrt (.rat 2 1))) (.mul (.ckm 2 1) (.conj (.ckm 2 0)))) (.inp n!"CVLLt_sdcc")) (.mul (.rat 12 1) (.rat 3 1)))) (.div (.mul (.mul (.div (.mul (.rat 4 1) (.par n!"GF")) (.sqrt (.rat 2 1))) (.mul (.ckm 2 1) (.conj (.ckm 2 0)))) (.inp n!"CVLRt_sdcc")) (.mul (.rat 12 1) (.rat 3 1)))))),
  (n!"1dbemu", (.mul (.div (.div (.sqrt (.rat 2 1)) (.par n!"GF")) (.rat 4 1)) (.add (.div (.mul (.rat 5 1) (.div (.div (.inp n!"C10_bdmue") (.div (.mul (.rat 16 1) (.mul .pi .pi)) (.mul (.sqrt (.mul (.mul (.rat 4 1) .pi) (.par n!"alpha_e"))) (.sqrt (.mul (.mul (.rat 4 1) .pi) (.par n!"alpha_e")))))) (.div (.div (.div (.sqrt (.rat 2 1)) (.par n!"GF")) (.mul (.ckm 2 2) (.conj (.ckm 2 0)))) (.rat 4 1)))) (.rat 3 1)) (.div (.div (.inp n!"C9_bdmue") (.div (.mul (.rat 16 1) (.mul .pi .pi)) (.mul (.sqrt (.mul (.mul (.rat 4 1) .pi) (.par n!"alpha_e"))) (.sqrt (.mul (.mul (.rat 4 1) .pi) (.par n!"alpha_e")))))) (.div (.div (.div (.sqrt (.rat 2 1)) (.par n!"GF")) (.mul (.ckm 2 2) (.conj (.ckm 2 0)))) (.rat 4 1)))))),
  (n!"5csetau", (.mul (.div (.div (.sqrt (.rat 2 1)) (.par n!"GF")) (.rat 4 1)) (.div (.inp n!"CSR_scenutau") (.div (.div (.div (.neg (.sqrt (.rat 2 1))) (.par n!"GF")) (.ckm 1 1)) (.rat 4 1))))),
  (n!"3pdsmumu", (.mul (.div (.div (.sqrt (.rat 2 1)) (.par n!"GF")) (.rat 4 1)) (.div (.div (.div (.inp n!"C10p_sdmumu") (.div (.mul (.rat 16 1) (.mul .pi .pi)) (.mul (.sqrt (.mul (.mul (.rat 4 1) .pi) (.par n!"alpha_e"))) (.sqrt (.mul (.mul (.rat 4 1) .pi) (.par n!"alpha_e")))))) (.div (.div (.div (.sqrt (.rat 2 1)) (.par n!"GF")) (.mul (.ckm 2 1) (.conj (.ckm 2 0)))) (.rat 4 1))) (.rat 6 1)))),
  (n!"5psbtaumu", (.mul (.div (.div (.sqrt (.rat 2 1)) (.par n!"GF")) (.rat 4 1)) (.add (.div (.mul (.rat 5 1) (.div (.div (.inp n!"CPp_bsmutau") (.div (.div (.mul (.rat 16 1) (.mul .pi .pi)) (.mul (.sqrt (.mul (.mul (.rat 4 1) .pi) (.par n!"alpha_e"))) (.sqrt (.mul (.mul (.rat 4 1) .pi) (.par n!"alpha_e"))))) (.par n!"m_b"))) (.div (.div (.div (.sqrt (.rat 2 1)) (.par n!"GF")) (.mul (.ckm 2 2) (.conj (.ckm 2 1)))) (.rat 4 1)))) (.rat 3 1)) (.div (.div (.inp n!"CSp_bsmutau") (.div (.div (.mul (.rat 16 1) (.mul .pi .pi)) (.mul (.sqrt (.mul (.mul (.rat 4 1) .pi) (.par n!"alpha_e"))) (.sqrt (.mul (.mul (.rat 4 1) .pi) (.par n!"alpha_e"))))) (.par n!"m_b"))) (.div (.div (.div (.sqrt (.rat 2 1)) (.par n!"GF")) (.mul (.ckm 2 2) (.conj (.ckm 2 1)))) (.rat 4 1)))))),
  (n!"7pcdtaue", (.mul (.div (.div (.sqrt (.rat 2 1)) (.par n!"GF")) (.rat 4 1)) (.div (.inp n!"CT_dctaunue") (.div (.div (.div (.neg (.sqrt (.rat 2 1))) (.par n!"GF")) (.ckm 1 0)) (.rat 4 1))))),
  (n!"1dscc", (.mul (.div (.div (.sqrt (.rat 2 1)) (.par n!"GF")) (.rat 4 1)) (.add (.sub (.add (.div (.neg (.mul (.mul (.div (.mul (.rat 4 1) (.par n!"GF")) (.sqrt (.rat 2 1))) (.mul (.ckm 2 1) (.conj (.ckm 2 0)))) (.inp n!"CVLL_sdcc"))) (.rat 3 1)) (.div (.mul (.rat 4 1) (.mul (.mul (.div (.mul (.rat 4 1) (.par n!"GF")) (.sqrt (.rat 2 1))) (.mul (.ckm 2 1) (.conj (.ckm 2 0)))) (.inp n!"CVLR_sdcc"))) (.rat 3 1))) (.div (.mul (.mul (.div (.mul (.rat 4 1) (.par n!"GF")) (.sqrt (.rat 2 1))) (.mul (.ckm 2 1) (.conj (.ckm 2 0)))) (.inp n!"CVLLt_sdcc")) (.mul (.rat 3 1) (.rat 3 1)))) (.div (.mul (.rat 4 1) (.mul (.mul (.div (.mul (.rat 4 1) (.par n!"GF")) (.sqrt (.rat 2 1))) (.mul (.ckm 2 1) (.conj (.ckm 2 0)))) (.inp n!"CVLRt_sdcc"))) (.mul (.rat 3 1) (.rat 3 1)))))),
  (n!"10pdsbb", (.mul (.div (.div (.sqrt (.rat 2 1)) (.par n!"GF")) (.rat 4 1)) (.sub (.div (.mul (.mul (.div (.mul (.rat 4 1) (.par n!"GF")) (.sqrt (.rat 2 1))) (.mul (.ckm 2 1) (.conj (.ckm 2 0)))) (.inp n!"CSLLt_sdbb")) (.rat 24 1)) (.div (.mul (.mul (.div (.mul (.rat 4 1) (.par n!"GF")) (.sqrt (.rat 2 1))) (.mul (.ckm 2 1) (.conj (.ckm 2 0)))) (.inp n!"CSLRt_sdbb")) (.rat 24 1))))),
  (n!"9dsuu", (.mul (.div (.div (.sqrt (.rat 2 1)) (.par n!"GF")) (.rat 4 1)) (.sub (.add (.sub (.div (.mul (.mul (.div (.mul (.rat 4 1) (.par n!"GF")) (.sqrt (.rat 2 1))) (.mul (.ckm 2 1) (.conj (.ckm 2 0)))) (.inp n!"CSRR_sduu")) (.rat 48 1)) (.div (.mul (.mul (.div (.mul (.rat 4 1) (.par n!"GF")) (.sqrt (.rat 2 1))) (.mul (.ckm 2 1) (.conj (.ckm 2 0)))) (.inp n!"CSRL_sduu")) (.rat 48 1))) (.div (.mul (.mul (.div (.mul (.rat 4 1) (.par n!"GF")) (.sqrt (.rat 2 1))) (.mul (.ckm 2 1) (.conj (.ckm 2 0)))) (.inp n!"CSRRt_sduu")) (.mul (.rat 48 1) (.rat 3 1)))) (.div (.mul (.mul (.div (.mul (.rat 4 1) (.par n!"GF")) (.sqrt (.rat 2 1))) (.mul (.ckm 2 1) (.conj (.ckm 2 0)))) (.inp n!"CSRLt_sduu")) (.mul (.rat 48 1) (.rat 3 1)))))),
  (n!"7pcbtaue", (.mul (.div (.div (.sqrt (.rat 2 1)) (.par n!"GF")) (.rat 4 1)) (.div (.inp n!"CT_bctaunue") (.div (.div (.div (.neg (.sqrt (.rat 2 1))) (.par n!"GF")) (.ckm 1 2)) (.rat 4 1))))),
  (n!"7pusmue", (.mul (.div (.div (.sqrt (.rat 2 1)) (.par n!"GF")) (.rat 4 1)) (.div (.inp n!"CT_sumunue") (.div (.div (.div (.neg (.sqrt (.rat 2 1))) (.par n!"GF")) (.ckm 0 1)) (.rat 4 1))))),
  (n!"nu1dbmumu", (.mul (.div (.div (.sqrt (.rat 2 1)) (.par n!"GF")) (.rat 4 1)) (.div (.div (.inp n!"CL_bdnumunumu") (.div (.mul (.rat 8 1) (.mul .pi .pi)) (.mul (.sqrt (.mul (.mul (.rat 4 1) .pi) (.par n!"alpha_e"))) (.sqrt (.mul (.mul (.rat 4 1) .pi) (.par n!"alpha_e")))))) (.div (.div (.div (.sqrt (.rat 2 1)) (.par n!"GF")) (.mul (.ckm 2 2) (.conj (.ckm 2 0)))) (.rat 4 1))))),
  (n!"5pcsetau", (.mul (.div (.div (.sqrt (.rat 2 1)) (.par n!"GF")) (.rat 4 1)) (.div (.inp n!"CSL_scenutau") (.div (.div (.div (.neg (.sqrt (.rat 2 1))) (.par n!"GF")) (.ckm 1 1)) (.rat 4 1))))),
  (n!"4dbdb", (.mul (.div (.div (.sqrt (.rat 2 1)) (.par n!"GF")) (.rat 4 1)) (.inp n!"CSLR_bdbd"))),
  (n!"7dsuu", (.mul (.div (.div (.sqrt (.rat 2 1)) (.par n!"GF")) (.rat 4 1)) (.sub (.add (.add (.add (.sub (.div (.mul (.mul (.div (.mul (.rat 4 1) (.par n!"GF")) (.sqrt (.rat 2 1))) (.mul (.ckm 2 1) (.conj (.ckm 2 0)))) (.inp n!"CSRR_sduu")) (.rat 3 1)) (.div (.mul (.mul (.div (.mul (.rat 4 1) (.par n!"GF")) (.sqrt (.rat 2 1))) (.mul (.ckm 2 1) (.conj (.ckm 2 0)))) (.inp n!"CSRL_sduu")) (.rat 3 1))) (.mul (.mul (.div (.mul (.rat 4 1) (.par n!"GF")) (.sqrt (.rat 2 1))) (.mul (.ckm 2 1) (.conj (.ckm 2 0)))) (.inp n!"CTRR_sduu"))) (.div (.mul (.mul (.div (.mul (.rat 4 1) (.par n!"GF")) (.sqrt (.rat 2 1))) (.mul (.ckm 2 1) (.conj (.ckm 2 0)))) (.inp n!"CTRRt_sduu")) (.rat 3 1))) (.div (.mul (.mul (.div (.mul (.rat 4 1) (.par n!"GF")) (.sqrt (.rat 2 1))) (.mul (.ckm 2 1) (.conj (.ckm 2 0)))) (.inp n!"CSRRt_sduu")) (.mul (.rat 3 1) (.rat 3 1)))) (.div (.mul (.mul (.div (.mul (.rat 4 1) (.par n!"GF")) (.sqrt (.rat 2 1))) (.mul (.ckm 2 1) (.conj (.ckm 2 0)))) (.inp n!"CSRLt_sduu")) (.mul (.rat 3 1) (.rat 3 1)))))),
  (n!"2pdbuu", (.mul (.div (.div (.sqrt (.rat 2 1)) (.par n!"GF")) (.rat 4 1)) (.add (.div (.mul (.rat (-2) 1) (.mul (.mul (.div (.mul (.rat 4 1) (.par n!"GF")) (.sqrt (.rat 2 1))) (.mul (.ckm 2 2) (.conj (.ckm 2 0)))) (.inp n!"CVRRt_bduu"))) (.rat 3 1)) (.div (.mul (.rat 8 1) (.mul (.mul (.div (.mul (.rat 4 1) (.par n!"GF")) (.sqrt (.rat 2 1))) (.mul (.ckm 2 2) (.conj (.ckm 2 0)))) (.inp n!"CVRLt_bduu"))) (.rat 3 1))))),
  (n!"9sbmumu", (.mul (.div (.div (.sqrt (.rat 2 1)) (.par n!"GF")) (.rat 4 1)) (.div (.div (.div (.inp n!"CP_bsmumu") (.div (.div (.mul (.rat 16 1) (.mul .pi .pi)) (.mul (.sqrt (.mul (.mul (.rat 4 1) .pi) (.par n!"alpha_e"))) (.sqrt (.mul (.mul (.rat 4 1) .pi) (.par n!"alpha_e"))))) (.par n!"m_b"))) (.div (.div (.div (.sqrt (.rat 2 1)) (.par n!"GF")) (.mul (.ckm 2 2) (.conj (.ckm 2 1)))) (.rat 4 1))) (.rat 24 1)))),
  (n!"2dbdb", (.mul (.div (.div (.sqrt (.rat 2 1)) (.par n!"GF")) (.rat 4 1)) (.sub (.inp n!"CSLL_bdbd") (.mul (.rat 4 1) (.inp n!"CTLL_bdbd"))))),
  (n!"9psbemu", (.mul (.div (.div (.sqrt (.rat 2 1)) (.par n!"GF")) (.rat 4 1)) (.div (.neg (.div (.div (.inp n!"CPp_bsmue") (.div (.div (.mul (.rat 16 1) (.mul .pi .pi)) (.mul (.sqrt (.mul (.mul (.rat 4 1) .pi) (.par n!"alpha_e"))) (.sqrt (.mul (.mul (.rat 4 1) .pi) (.par n!"alpha_e"))))) (.par n!"m_b"))) (.div (.div (.div (.sqrt (.rat 2 1)) (.par n!"GF")) (.mul (.ckm 2 2) (.conj (.ckm 2 1)))) (.rat 4 1)))) (.rat 24 1)))),
  (n!"1cdtautau", (.mul (.div (.div (.sqrt (.rat 2 1)) (.par n!"GF")) (.rat 4 1)) (.div (.inp n!"CVL_dctaunutau") (.div (.div (.div (.neg (.sqrt (.rat 2 1))) (.par n!"GF")) (.ckm 1 0)) (.rat 4 1))))),
  (n!"5dsuu", (.mul (.div (.div (.sqrt (.rat 2 1)) (.par n!"GF")) (.rat 4 1)) (.add (.sub (.add (.div (.neg (.mul (.mul (.div (.mul (.rat 4 1) (.par n!"GF")) (.sqrt (.rat 2 1))) (.mul (.ckm 2 1) (.conj (.ckm 2 0)))) (.inp n!"CSRR_sduu"))) (.rat 3 1)) (.div (.mul (.rat 4 1) (.mul (.mul (.div (.mul (.rat 4 1) (.par n!"GF")) (.sqrt (.rat 2 1))) (.mul (.ckm 2 1) (.conj (.ckm 2 0)))) (.inp n!"CSRL_sduu"))) (.rat 3 1))) (.div (.mul (.mul (.div (.mul (.rat 4 1) (.par n!"GF")) (.sqrt (.rat 2 1))) (.mul (.ckm 2 1) (.conj (.ckm 2 0)))) (.inp n!"CSRRt_sduu")) (.mul (.rat 3 1) (.rat 3 1)))) (.div (.mul (.rat 4 1) (.mul (.mul (.div (.mul (.rat 4 1) (.par n!"GF")) (.sqrt (.rat 2 1))) (.mul (.ckm 2 1) (.conj (.ckm 2 0)))) (.inp n!"CSRLt_sduu"))) (.mul (.rat 3 1) (.rat 3 1)))))),
  (n!"7sbtaumu", (.mul (.div (.div (.sqrt (.rat 2 1)) (.par n!"GF")) (.rat 4 1)) (.add (.add (.div (.mul (.rat 2 1) (.div (.div (.inp n!"CP_bsmutau") (.div (.div (.mul (.rat 16 1) (.mul .pi .pi)) (.mul (.sqrt (.mul (.mul (.rat 4 1) .pi) (.par n!"alpha_e"))) (.sqrt (.mul (.mul (.rat 4 1) .pi) (.par n!"alpha_e"))))) (.par n!"m_b"))) (.div (.div (.div (.sqrt (.rat 2 1)) (.par n!"GF")) (.mul (.ckm 2 2) (.conj (.ckm 2 1)))) (.rat 4 1)))) (.rat 3 1)) (.div (.rat 0 1) (.div (.div (.div (.sqrt (.rat 2 1)) (.par n!"GF")) (.mul (.ckm 2 2) (.conj (.ckm 2 1)))) (.rat 4 1)))) (.div (.rat 0 1) (.div (.div (.div (.sqrt (.rat 2 1)) (.par n!"GF")) (.mul (.ckm 2 2) (.conj (.ckm 2 1)))) (.rat 4 1)))))),
  (n!"7pdbetau", (.mul (.div (.div (.sqrt (.rat 2 1)) (.par n!"GF")) (.rat 4 1)) (.sub (.add (.div (.mul (.rat (-2) 1) (.div (.div (.inp n!"CPp_bdtaue") (.div (.div (.mul (.rat 16 1) (.mul .pi .pi)) (.mul (.sqrt (.mul (.mul (.rat 4 1) .pi) (.par n!"alpha_e"))) (.sqrt (.mul (.mul (.rat 4 1) .pi) (.par n!"alpha_e"))))) (.par n!"m_b"))) (.div (.div (.div (.sqrt (.rat 2 1)) (.par n!"GF")) (.mul (.ckm 2 2) (.conj (.ckm 2 0)))) (.rat 4 1)))) (.rat 3 1)) (.div (.rat 0 1) (.div (.div (.div (.sqrt (.rat 2 1)) (.par n!"GF")) (.mul (.ckm 2 2) (.conj (.ckm 2 0)))) (.rat 4 1)))) (.div (.rat 0 1) (.div (.div (.div (.sqrt (.rat 2 1)) (.par n!"GF")) (.mul (.ckm 2 2) (.conj (.ckm 2 0)))) (.rat 4 1)))))),
  (n!"6psbcc", (.mul (.div (.div (.sqrt (.rat 2 1)) (.par n!"GF")) (.rat 4 1)) (.add (.div (.mul (.rat (-2) 1) (.mul (.mul (.div (.mul (.rat 4 1) (.par n!"GF")) (.sqrt (.rat 2 1))) (.mul (.ckm 2 2) (.conj (.ckm 2 1)))) (.inp n!"CSLLt_bscc"))) (.rat 3 1)) (.div (.mul (.rat 8 1) (.mul (.mul (.div (.mul (.rat 4 1) (.par n!"GF")) (.sqrt (.rat 2 1))) (.mul (.ckm 2 2) (.conj (.ckm 2 1)))) (.inp n!"CSLRt_bscc"))) (.rat 3 1))))),
  (n!"1pcdtaumu", (.mul (.div (.div (.sqrt (.rat 2 1)) (.par n!"GF")) (.rat 4 1)) (.div (.inp n!"CVR_dctaunumu") (.div (.div (.div (.neg (.sqrt (.rat 2 1))) (.par n!"GF")) (.ckm 1 0)) (.rat 4 1))))),
  (n!"3dsuu", (.mul (.div (.div (.sqrt (.rat 2 1)) (.par n!"GF")) (.rat 4 1)) (.sub (.add (.sub (.div (.mul (.mul (.div (.mul (.rat 4 1) (.par n!"GF")) (.sqrt (.rat 2 1))) (.mul (.ckm 2 1) (.conj (.ckm 2 0)))) (.inp n!"CVLL_sduu")) (.rat 12 1)) (.div (.mul (.mul (.div (.mul (.rat 4 1) (.par n!"GF")) (.sqrt (.rat 2 1))) (.mul (.ckm 2 1) (.conj (.ckm 2 0)))) (.inp n!"CVLR_sduu")) (.rat 12 1))) (.div (.mul (.mul (.div (.mul (.rat 4 1) (.par n!"GF")) (.sqrt (.rat 2 1))) (.mul (.ckm 2 1) (.conj (.ckm 2 0)))) (.inp n!"CVLLt_sduu")) (.mul (.rat 12 1) (.rat 3 1)))) (.div (.mul (.mul (.div (.mul (.rat 4 1) (.par n!"GF")) (.sqrt (.rat 2 1))) (.mul (.ckm 2 1) (.conj (.ckm 2 0)))) (.inp n!"CVLRt_sduu")) (.mul (.rat 12 1) (.rat 3 1)))))),
  (n!"9pdbcc", (.mul (.div (.div (.sqrt (.rat 2 1)) (.par n!"GF")) (.rat 4 1)) (.sub (.add (.sub (.div (.mul (.mul (.div (.mul (.rat 4 1) (.par n!"GF")) (.sqrt (.rat 2 1))) (.mul (.ckm 2 2) (.conj (.ckm 2 0)))) (.inp n!"CSLL_bdcc")) (.rat 48 1)) (.div (.mul (.mul (.div (.mul (.rat 4 1) (.par n!"GF")) (.sqrt (.rat 2 1))) (.mul (.ckm 2 2) (.conj (.ckm 2 0)))) (.inp n!"CSLR_bdcc")) (.rat 48 1))) (.div (.mul (.mul (.div (.mul (.rat 4 1) (.par n!"GF")) (.sqrt (.rat 2 1))) (.mul (.ckm 2 2) (.conj (.ckm 2 0)))) (.inp n!"CSLLt_bdcc")) (.mul (.rat 48 1) (.rat 3 1)))) (.div (.mul (.mul (.div (.mul (.rat 4 1) (.par n!"GF")) (.sqrt (.rat 2 1))) (.mul (.ckm 2 2) (.conj (.ckm 2 0)))) (.inp n!"CSLRt_bdcc")) (.mul (.rat 48 1) (.rat 3 1)))))),
  (n!"nu1psbmue", (.mul (.div (.div (.sqrt (.rat 2 1)) (.par n!"GF")) (.rat 4 1)) (.div (.div (.inp n!"CR_bsnuenumu") (.div (.mul (.rat 8 1) (.mul .pi .pi)) (.mul (.sqrt (.mul (.mul (.rat 4 1) .pi) (.par n!"alpha_e"))) (.sqrt (.mul (.mul (.rat 4 1) .pi) (.par n!"alpha_e")))))) (.div (.div (.div (.sqrt (.rat 2 1)) (.par n!"GF")) (.mul (.ckm 2 2) (.conj (.ckm 2 1)))) (.rat 4 1)))))]

def flavio_to_Bern_8 : List (ℕ × Sym) := [
  (n!"5pdbbb", (.mul (.div (.div (.sqrt (.rat 2 1)) (.par n!"GF")) (.rat 4 1)) (.add (.div (.neg (.mul (.mul (.div (.mul (.rat 4 1) (.par n!"GF")) (.sqrt (.rat 2 1))) (.mul (.ckm 2 2) (.conj (.ckm 2 0)))) (.inp n!"CSLL_bdbb"))) (.rat 3 1)) (.div (.mul (.rat 4 1) (.mul (.mul (.div (.mul (.rat 4 1) (.par n!"GF")) (.sqrt (.rat 2 1))) (.mul (.ckm 2 2) (.conj (.ckm 2 0)))) (.inp n!"CSLR_bdbb"))) (.rat 3 1))))),
  (n!"5cbmutau", (.mul (.div (.div (.sqrt (.rat 2 1)) (.par n!"GF")) (.rat 4 1)) (.div (.inp n!"CSR_bcmunutau") (.div (.div (.div (.neg (.sqrt (.rat 2 1))) (.par n!"GF")) (.ckm 1 2)) (.rat 4 1))))),
  (n!"1dsuu", (.mul (.div (.div (.sqrt (.rat 2 1)) (.par n!"GF")) (.rat 4 1)) (.add (.sub (.add (.div (.neg (.mul (.mul (.div (.mul (.rat 4 1) (.par n!"GF")) (.sqrt (.rat 2 1))) (.mul (.ckm 2 1) (.conj (.ckm 2 0)))) (.inp n!"CVLL_sduu"))) (.rat 3 1)) (.div (.mul (.rat 4 1) (.mul (.mul (.div (.mul (.rat 4 1) (.par n!"GF")) (.sqrt (.rat 2 1))) (.mul (.ckm 2 1) (.conj (.ckm 2 0)))) (.inp n!"CVLR_sduu"))) (.rat 3 1))) (.div (.mul (.mul (.div (.mul (.rat 4 1) (.par n!"GF")) (.sqrt (.rat 2 1))) (.mul (.ckm 2 1) (.conj (.ckm 2 0)))) (.inp n!"CVLLt_sduu")) (.mul (.rat 3 1) (.rat 3 1)))) (.div (.mul (.rat 4 1) (.mul (.mul (.div (.mul (.rat 4 1) (.par n!"GF")) (.sqrt (.rat 2 1))) (.mul (.ckm 2 1) (.conj (.ckm 2 0)))) (.inp n!"CVLRt_sduu"))) (.mul (.rat 3 1) (.rat 3 1)))))),
  (n!"3pdsee", (.mul (.div (.div (.sqrt (.rat 2 1)) (.par n!"GF")) (.rat 4 1)) (.div (.div (.div (.inp n!"C10p_sdee") (.div (.mul (.rat 16 1) (.mul .pi .pi)) (.mul (.sqrt (.mul (.mul (.rat 4 1) .pi) (.par n!"alpha_e"))) (.sqrt (.mul (.mul (.rat 4 1) .pi) (.par n!"alpha_e")))))) (.div (.div (.div (.sqrt (.rat 2 1)) (.par n!"GF")) (.mul (.ckm 2 1) (.conj (.ckm 2 0)))) (.rat 4 1))) (.rat 6 1)))),
  (n!"9sbtautau", (.mul (.div (.div (.sqrt (.rat 2 1)) (.par n!"GF")) (.rat 4 1)) (.div (.div (.div (.inp n!"CP_bstautau") (.div (.div (.mul (.rat 16 1) (.mul .pi .pi)) (.mul (.sqrt (.mul (.mul (.rat 4 1) .pi) (.par n!"alpha_e"))) (.sqrt (.mul (.mul (.rat 4 1) .pi) (.par n!"alpha_e"))))) (.par n!"m_b"))) (.div (.div (.div (.sqrt (.rat 2 1)) (.par n!"GF")) (.mul (.ckm 2 2) (.conj (.ckm 2 1)))) (.rat 4 1))) (.rat 24 1)))),
  (n!"7pcsmutau", (.mul (.div (.div (.sqrt (.rat 2 1)) (.par n!"GF")) (.rat 4 1)) (.div (.inp n!"CT_scmunutau") (.div (.div (.div (.neg (.sqrt (.rat 2 1))) (.par n!"GF")) (.ckm 1 1)) (.rat 4 1))))),
  (n!"3psbmutau", (.mul (.div (.div (.sqrt (.rat 2 1)) (.par n!"GF")) (.rat 4 1)) (.div (.div (.div (.inp n!"C10p_bstaumu") (.div (.mul (.rat 16 1) (.mul .pi .pi)) (.mul (.sqrt (.mul (.mul (.rat 4 1) .pi) (.par n!"alpha_e"))) (.sqrt (.mul (.mul (.rat 4 1) .pi) (.par n!"alpha_e")))))) (.div (.div (.div (.sqrt (.rat 2 1)) (.par n!"GF")) (.mul (.ckm 2 2) (.conj (.ckm 2 1)))) (.rat 4 1))) (.rat 6 1)))),
  (n!"3dbtautau", (.mul (.div (.div (.sqrt (.rat 2 1)) (.par n!"GF")) (.rat 4 1)) (.div (.neg (.div (.div (.inp n!"C10_bdtautau") (.div (.mul (.rat 16 1) (.mul .pi .pi)) (.mul (.sqrt (.mul (.mul (.rat 4 1) .pi) (.par n!"alpha_e"))) (.sqrt (.mul (.mul (.rat 4 1) .pi) (.par n!"alpha_e")))))) (.div (.div (.div (.sqrt (.rat 2 1)) (.par n!"GF")) (.mul (.ckm 2 2) (.conj (.ckm 2 0)))) (.rat 4 1)))) (.rat 6 1)))),
  (n!"5cstaumu", (.mul (.div (.div (.sqrt (.rat 2 1)) (.par n!"GF")) (.rat 4 1)) (.div (.inp n!"CSR_sctaunumu") (.div (.div (.div (.neg (.sqrt (.rat 2 1))) (.par n!"GF")) (.ckm 1 1)) (.rat 4 1))))),
  (n!"3sbemu", (.mul (.div (.div (.sqrt (.rat 2 1)) (.par n!"GF")) (.rat 4 1)) (.div (.neg (.div (.div (.inp n!"C10_bsmue") (.div (.mul (.rat 16 1) (.mul .pi .pi)) (.mul (.sqrt (.mul (.mul (.rat 4 1) .pi) (.par n!"alpha_e"))) (.sqrt (.mul (.mul (.rat 4 1) .pi) (.par n!"alpha_e")))))) (.div (.div (.div (.sqrt (.rat 2 1)) (.par n!"GF")) (.mul (.ckm 2 2) (.conj (.ckm 2 1)))) (.rat 4 1)))) (.rat 6 1)))),
  (n!"5pusmue", (.mul (.div (.div (.sqrt (.rat 2 1)) (.par n!"GF")) (.rat 4 1)) (.div (.inp n!"CSL_sumunue") (.div (.div (.div (.neg (.sqrt (.rat 2 1))) (.par n!"GF")) (.ckm 0 1)) (.rat 4 1))))),
  (n!"3psbetau", (.mul (.div (.div (.sqrt (.rat 2 1)) (.par n!"GF")) (.rat 4 1)) (.div (.div (.div (.inp n!"C10p_bstaue") (.div (.mul (.rat 16 1) (.mul .pi .pi)) (.mul (.sqrt (.mul (.mul (.rat 4 1) .pi) (.par n!"alpha_e"))) (.sqrt (.mul (.mul (.rat 4 1) .pi) (.par n!"alpha_e")))))) (.div (.div (.div (.sqrt (.rat 2 1)) (.par n!"GF")) (.mul (.ckm 2 2) (.conj (.ckm 2 1)))) (.rat 4 1))) (.rat 6 1)))),
  (n!"7pubemu", (.mul (.div (.div (.sqrt (.rat 2 1)) (.par n!"GF")) (.rat 4 1)) (.div (.inp n!"CT_buenumu") (.div (.div (.div (.neg (.sqrt (.rat 2 1))) (.par n!"GF")) (.ckm 0 2)) (.rat 4 1))))),
  (n!"6psbuu", (.mul (.div (.div (.sqrt (.rat 2 1)) (.par n!"GF")) (.rat 4 1)) (.add (.div (.mul (.rat (-2) 1) (.mul (.mul (.div (.mul (.rat 4 1) (.par n!"GF")) (.sqrt (.rat 2 1))) (.mul (.ckm 2 2) (.conj (.ckm 2 1)))) (.inp n!"CSLLt_bsuu"))) (.rat 3 1)) (.div (.mul (.rat 8 1) (.mul (.mul (.div (.mul (.rat 4 1) (.par n!"GF")) (.sqrt (.rat 2 1))) (.mul (.ckm 2 2) (.conj (.ckm 2 1)))) (.inp n!"CSLRt_bsuu"))) (.rat 3 1))))),
  (n!"7sbmumu", (.mul (.div (.div (.sqrt (.rat 2 1)) (.par n!"GF")) (.rat 4 1)) (.add (.add (.div (.mul (.rat 2 1) (.div (.div (.inp n!"CP_bsmumu") (.div (.div (.mul (.rat 16 1) (.mul .pi .pi)) (.mul (.sqrt (.mul (.mul (.rat 4 1) .pi) (.par n!"alpha_e"))) (.sqrt (.mul (.mul (.rat 4 1) .pi) (.par n!"alpha_e"))))) (.par n!"m_b"))) (.div (.div (.div (.sqrt (.rat 2 1)) (.par n!"GF")) (.mul (.ckm 2 2) (.conj (.ckm 2 1)))) (.rat 4 1)))) (.rat 3 1)) (.div (.rat 0 1) (.div (.div (.div (.sqrt (.rat 2 1)) (.par n!"GF")) (.mul (.ckm 2 2) (.conj (.ckm 2 1)))) (.rat 4 1)))) (.div (.rat 0 1) (.div (.div (.div (.sqrt (.rat 2 1)) (.par n!"GF")) (.mul (.ckm 2 2) (.conj (.ckm 2 1)))) (.rat 4 1)))))),
  (n!"7psbemu", (.mul (.div (.div (.sqrt (.rat 2 1)) (.par n!"GF")) (.rat 4 1)) (.sub (.add (.div (.mul (.rat (-2) 1) (.div (.div (.inp n!"CPp_bsmue") (.div (.div (.mul (.rat 16 1) (.mul .pi .pi)) (.mul (.sqrt (.mul (.mul (.rat 4 1) .pi) (.par n!"alpha_e"))) (.sqrt (.mul (.mul (.rat 4 1) .pi) (.par n!"alpha_e"))))) (.par n!"m_b"))) (.div (.div (.div (.sqrt (.rat 2 1)) (.par n!"GF")) (.mul (.ckm 2 2) (.conj (.ckm 2 1)))) (.rat 4 1)))) (.rat 3 1)) (.div (.rat 0 1) (.div (.div (.div (.sqrt (.rat 2 1)) (.par n!"GF")) (.mul (.ckm 2 2) (.conj (.ckm 2 1)))) (.rat 4 1)))) (.div (.rat 0 1) (.div (.div (.div (.sqrt (.rat 2 1)) (.par n!"GF")) (.mul (.ckm 2 2) (.conj (.ckm 2 1)))) (.rat 4 1)))))),
  (n!"1cbtautau", (.mul (.div (.div (.sqrt (.rat 2 1)) (.par n!"GF")) (.rat 4 1)) (.div (.inp n!"CVL_bctaunutau") (.div (.div (.div (.neg (.sqrt (.rat 2 1))) (.par n!"GF")) (.ckm 1 2)) (.rat 4 1))))),
  (n!"1pusmutau", (.mul (.div (.div (.sqrt (.rat 2 1)) (.par n!"GF")) (.rat 4 1)) (.div (.inp n!"CVR_sumunutau") (.div (.div (.div (.neg (.sqrt (.rat 2 1))) (.par n!"GF")) (.ckm 0 1)) (.rat 4 1))))),
  (n!"9pdbuu", (.mul (.div (.div (.sqrt (.rat 2 1)) (.par n!"GF")) (.rat 4 1)) (.sub (.add (.sub (.div (.mul (.mul (.div (.mul (.rat 4 1) (.par n!"GF")) (.sqrt (.rat 2 1))) (.mul (.ckm 2 2) (.conj (.ckm 2 0)))) (.inp n!"CSLL_bduu")) (.rat 48 1)) (.div (.mul (.mul (.div (.mul (.rat 4 1) (.par n!"GF")) (.sqrt (.rat 2 1))) (.mul (.ckm 2 2) (.conj (.ckm 2 0)))) (.inp n!"CSLR_bduu")) (.rat 48 1))) (.div (.mul (.mul (.div (.mul (.rat 4 1) (.par n!"GF")) (.sqrt (.rat 2 1))) (.mul (.ckm 2 2) (.conj (.ckm 2 0)))) (.inp n!"CSLLt_bduu")) (.mul (.rat 48 1) (.rat 3 1)))) (.div (.mul (.mul (.div (.mul (.rat 4 1) (.par n!"GF")) (.sqrt (.rat 2 1))) (.mul (.ckm 2 2) (.conj (.ckm 2 0)))) (.inp n!"CSLRt_bduu")) (.mul (.rat 48 1) (.rat 3 1)))))),
  (n!"1pdbss", (.mul (.div (.div (.sqrt (.rat 2 1)) (.par n!"GF")) (.rat 4 1)) (.add (.sub (.add (.div (.neg (.mul (.mul (.div (.mul (.rat 4 1) (.par n!"GF")) (.sqrt (.rat 2 1))) (.mul (.ckm 2 2) (.conj (.ckm 2 0)))) (.inp n!"CVRR_bdss"))) (.rat 3 1)) (.div (.mul (.rat 4 1) (.mul (.mul (.div (.mul (.rat 4 1) (.par n!"GF")) (.sqrt (.rat 2 1))) (.mul (.ckm 2 2) (.conj (.ckm 2 0)))) (.inp n!"CVRL_bdss"))) (.rat 3 1))) (.div (.mul (.mul (.div (.mul (.rat 4 1) (.par n!"GF")) (.sqrt (.rat 2 1))) (.mul (.ckm 2 2) (.conj (.ckm 2 0)))) (.inp n!"CVRRt_bdss")) (.mul (.rat 3 1) (.rat 3 1)))) (.div (.mul (.rat 4 1) (.mul (.mul (.div (.mul (.rat 4 1) (.par n!"GF")) (.sqrt (.rat 2 1))) (.mul (.ckm 2 2) (.conj (.ckm 2 0)))) (.inp n!"CVRLt_bdss"))) (.mul (.rat 3 1) (.rat 3 1)))))),
  (n!"7pcsmumu", (.mul (.div (.div (.sqrt (.rat 2 1)) (.par n!"GF")) (.rat 4 1)) (.div (.inp n!"CT_scmunumu") (.div (.div (.div (.neg (.sqrt (.rat 2 1))) (.par n!"GF")) (.ckm 1 1)) (.rat 4 1))))),
  (n!"7pcstautau", (.mul (.div (.div (.sqrt (.rat 2 1)) (.par n!"GF")) (.rat 4 1)) (.div (.inp n!"CT_sctaunutau") (.div (.div (.div (.neg (.sqrt (.rat 2 1))) (.par n!"GF")) (.ckm 1 1)) (.rat 4 1))))),
  (n!"1udtaumu", (.mul (.div (.div (.sqrt (.rat 2 1)) (.par n!"GF")) (.rat 4 1)) (.div (.inp n!"CVL_dutaunumu") (.div (.div (.div (.neg (.sqrt (.rat 2 1))) (.par n!"GF")) (.ckm 0 0)) (.rat 4 1))))),
  (n!"9dbtaue", (.mul (.div (.div (.sqrt (.rat 2 1)) (.par n!"GF")) (.rat 4 1)) (.div (.div (.div (.inp n!"CP_bdetau") (.div (.div (.mul (.rat 16 1) (.mul .pi .pi)) (.mul (.sqrt (.mul (.mul (.rat 4 1) .pi) (.par n!"alpha_e"))) (.sqrt (.mul (.mul (.rat 4 1) .pi) (.par n!"alpha_e"))))) (.par n!"m_b"))) (.div (.div (.div (.sqrt (.rat 2 1)) (.par n!"GF")) (.mul (.ckm 2 2) (.conj (.ckm 2 0)))) (.rat 4 1))) (.rat 24 1)))),
  (n!"9psbbb", (.mul (.div (.div (.sqrt (.rat 2 1)) (.par n!"GF")) (.rat 4 1)) (.sub (.div (.mul (.mul (.div (.mul (.rat 4 1) (.par n!"GF")) (.sqrt (.rat 2 1))) (.mul (.ckm 2 2) (.conj (.ckm 2 1)))) (.inp n!"CSLL_bsbb")) (.rat 48 1)) (.div (.mul (.mul (.div (.mul (.rat 4 1) (.par n!"GF")) (.sqrt (.rat 2 1))) (.mul (.ckm 2 2) (.conj (.ckm 2 1)))) (.inp n!"CSLR_bsbb")) (.rat 48 1))))),
  (n!"7pcsmue", (.mul (.div (.div (.sqrt (.rat 2 1)) (.par n!"GF")) (.rat 4 1)) (.div (.inp n!"CT_scmunue") (.div (.div (.div (.neg (.sqrt (.rat 2 1))) (.par n!"GF")) (.ckm 1 1)) (.rat 4 1))))),
  (n!"nu1pdsee", (.mul (.div (.div (.sqrt (.rat 2 1)) (.par n!"GF")) (.rat 4 1)) (.div (.div (.inp n!"CR_sdnuenue") (.div (.mul (.rat 8 1) (.mul .pi .pi)) (.mul (.sqrt (.mul (.mul (.rat 4 1) .pi) (.par n!"alpha_e"))) (.sqrt (.mul (.mul (.rat 4 1) .pi) (.par n!"alpha_e")))))) (.div (.div (.div (.sqrt (.rat 2 1)) (.par n!"GF")) (.mul (.ckm 2 1) (.conj (.ckm 2 0)))) (.rat 4 1))))),
  (n!"5udtaue", (.mul (.div (.div (.sqrt (.rat 2 1)) (.par n!"GF")) (.rat 4 1)) (.div (.inp n!"CSR_dutaunue") (.div (.div (.div (.neg (.sqrt (.rat 2 1))) (.par n!"GF")) (.ckm 0 0)) (.rat 4 1))))),
  (n!"7pgammasb", (.mul (.div (.div (.sqrt (.rat 2 1)) (.par n!"GF")) (.rat 4 1)) (.mul (.div (.div (.mul (.sqrt (.mul (.mul (.rat 4 1) .pi) (.par n!"alpha_s"))) (.sqrt (.mul (.mul (.rat 4 1) .pi) (.par n!"alpha_s")))) (.sqrt (.mul (.mul (.rat 4 1) .pi) (.par n!"alpha_e")))) (.par n!"m_b")) (.div (.div (.inp n!"C7p_bs") (.div (.div (.mul (.rat 16 1) (.mul .pi .pi)) (.sqrt (.mul (.mul (.rat 4 1) .pi) (.par n!"alpha_e")))) (.par n!"m_b"))) (.div (.div (.div (.sqrt (.rat 2 1)) (.par n!"GF")) (.mul (.ckm 2 2) (.conj (.ckm 2 1)))) (.rat 4 1)))))),
  (n!"1csetau", (.mul (.div (.div (.sqrt (.rat 2 1)) (.par n!"GF")) (.rat 4 1)) (.div (.inp n!"CVL_scenutau") (.div (.div (.div (.neg (.sqrt (.rat 2 1))) (.par n!"GF")) (.ckm 1 1)) (.rat 4 1))))),
  (n!"9pdbmumu", (.mul (.div (.div (.sqrt (.rat 2 1)) (.par n!"GF")) (.rat 4 1)) (.div (.neg (.div (.div (.inp n!"CPp_bdmumu") (.div (.div (.mul (.rat 16 1) (.mul .pi .pi)) (.mul (.sqrt (.mul (.mul (.rat 4 1) .pi) (.par n!"alpha_e"))) (.sqrt (.mul (.mul (.rat 4 1) .pi) (.par n!"alpha_e"))))) (.par n!"m_b"))) (.div (.div (.div (.sqrt (.rat 2 1)) (.par n!"GF")) (.mul (.ckm 2 2) (.conj (.ckm 2 0)))) (.rat 4 1)))) (.rat 24 1)))),
  (n!"9dbbb", (.mul (.div (.div (.sqrt (.rat 2 1)) (.par n!"GF")) (.rat 4 1)) (.sub (.div (.mul (.mul (.div (.mul (.rat 4 1) (.par n!"GF")) (.sqrt (.rat 2 1))) (.mul (.ckm 2 2) (.conj (.ckm 2 0)))) (.inp n!"CSRR_bdbb")) (.rat 48 1)) (.div (.mul (.mul (.div (.mul (.rat 4 1) (.par n!"GF")) (.sqrt (.rat 2 1))) (.mul (.ckm 2 2) (.conj (.ckm 2 0)))) (.inp n!"CSRL_bdbb")) (.rat 48 1))))),
  (n!"5udemu", (.mul (.div (.div (.sqrt (.rat 2 1)) (.par n!"GF")) (.rat 4 1)) (.div (.inp n!"CSR_duenumu") (.div (.div (.div (.neg (.sqrt (.rat 2 1))) (.par n!"GF")) (.ckm 0 0)) (.rat 4 1))))),
  (n!"5ubtaue", (.mul (.div (.div (.sqrt (.rat 2 1)) (.par n!"GF")) (.rat 4 1)) (.div (.inp n!"CSR_butaunue") (.div (.div (.div (.neg (.sqrt (.rat 2 1))) (.par n!"GF")) (.ckm 0 2)) (.rat 4 1))))),
  (n!"nu1sbemu", (.mul (.div (.div (.sqrt (.rat 2 1)) (.par n!"GF")) (.rat 4 1)) (.div (.div (.inp n!"CL_bsnumunue") (.div (.mul (.rat 8 1) (.mul .pi .pi)) (.mul (.sqrt (.mul (.mul (.rat 4 1) .pi) (.par n!"alpha_e"))) (.sqrt (.mul (.mul (.rat 4 1) .pi) (.par n!"alpha_e")))))) (.div (.div (.div (.sqrt (.rat 2 1)) (.par n!"GF")) (.mul (.ckm 2 2) (.conj (.ckm 2 1)))) (.rat 4 1))))),
  (n!"5pudtaue", (.mul (.div (.div (.sqrt (.rat 2 1)) (.par n!"GF")) (.rat 4 1)) (.div (.inp n!"CSL_dutaunue") (.div (.div (.div (.neg (.sqrt (.rat 2 1))) (.par n!"GF")) (.ckm 0 0)) (.rat 4 1))))),
  (n!"7dbbb", (.mul (.div (.div (.sqrt (.rat 2 1)) (.par n!"GF")) (.rat 4 1)) (.add (.sub (.div (.mul (.mul (.div (.mul (.rat 4 1) (.par n!"GF")) (.sqrt (.rat 2 1))) (.mul (.ckm 2 2) (.conj (.ckm 2 0)))) (.inp n!"CSRR_bdbb")) (.rat 3 1)) (.div (.mul (.mul (.div (.mul (.rat 4 1) (.par n!"GF")) (.sqrt (.rat 2 1))) (.mul (.ckm 2 2) (.conj (.ckm 2 0)))) (.inp n!"CSRL_bdbb")) (.rat 3 1))) (.mul (.mul (.div (.mul (.rat 4 1) (.par n!"GF")) (.sqrt (.rat 2 1))) (.mul (.ckm 2 2) (.conj (.ckm 2 0)))) (.inp n!"CTRR_bdbb"))))),
  (n!"2pdscc", (.mul (.div (.div (.sqrt (.rat 2 1)) (.par n!"GF")) (.rat 4 1)) (.add (.div (.mul (.rat (-2) 1) (.mul (.mul (.div (.mul (.rat 4 1) (.par n!"GF")) (.sqrt (.rat 2 1))) (.mul (.ckm 2 1) (.conj (.ckm 2 0)))) (.inp n!"CVRRt_sdcc"))) (.rat 3 1)) (.div (.mul (.rat 8 1) (.mul (.mul (.div (.mul (.rat 4 1) (.par n!"GF")) (.sqrt (.rat 2 1))) (.mul (.ckm 2 1) (.conj (.ckm 2 0)))) (.inp n!"CVRLt_sdcc"))) (.rat 3 1))))),
  (n!"8pgdb", (.mul (.div (.div (.sqrt (.rat 2 1)) (.par n!"GF")) (.rat 4 1)) (.mul (.div (.sqrt (.mul (.mul (.rat 4 1) .pi) (.par n!"alpha_s"))) (.par n!"m_b")) (.div (.div (.inp n!"C8p_bd") (.div (.div (.mul (.rat 16 1) (.mul .pi .pi)) (.sqrt (.mul (.mul (.rat 4 1) .pi) (.par n!"alpha_s")))) (.par n!"m_b"))) (.div (.div (.div (.sqrt (.rat 2 1)) (.par n!"GF")) (.mul (.ckm 2 2) (.conj (.ckm 2 0)))) (.rat 4 1)))))),
  (n!"5pubemu", (.mul (.div (.div (.sqrt (.rat 2 1)) (.par n!"GF")) (.rat 4 1)) (.div (.inp n!"CSL_buenumu") (.div (.div (.div (.neg (.sqrt (.rat 2 1))) (.par n!"GF")) (.ckm 0 2)) (.rat 4 1))))),
  (n!"5pubtaue", (.mul (.div (.div (.sqrt (.rat 2 1)) (.par n!"GF")) (.rat 4 1)) (.div (.inp n!"CSL_butaunue") (.div (.div (.div (.neg (.sqrt (.rat 2 1))) (.par n!"GF")) (.ckm 0 2)) (.rat 4 1))))),
  (n!"5dbbb", (.mul (.div (.div (.sqrt (.rat 2 1)) (.par n!"GF")) (.rat 4 1)) (.add (.div (.neg (.mul (.mul (.div (.mul (.rat 4 1) (.par n!"GF")) (.sqrt (.rat 2 1))) (.mul (.ckm 2 2) (.conj (.ckm 2 0)))) (.inp n!"CSRR_bdbb"))) (.rat 3 1)) (.div (.mul (.rat 4 1) (.mul (.mul (.div (.mul (.rat 4 1) (.par n!"GF")) (.sqrt (.rat 2 1))) (.mul (.ckm 2 2) (.conj (.ckm 2 0)))) (.inp n!"CSRL_bdbb"))) (.rat 3 1))))),
  (n!"5sbmumu", (.mul (.div (.div (.sqrt (.rat 2 1)) (.par n!"GF")) (.rat 4 1)) (.sub (.div (.div (.inp n!"CS_bsmumu") (.div (.div (.mul (.rat 16 1) (.mul .pi .pi)) (.mul (.sqrt (.mul (.mul (.rat 4 1) .pi) (.par n!"alpha_e"))) (.sqrt (.mul (.mul (.rat 4 1) .pi) (.par n!"alpha_e"))))) (.par n!"m_b"))) (.div (.div (.div (.sqrt (.rat 2 1)) (.par n!"GF")) (.mul (.ckm 2 2) (.conj (.ckm 2 1)))) (.rat 4 1))) (.div (.mul (.rat 5 1) (.div (.div (.inp n!"CP_bsmumu") (.div (.div (.mul (.rat 16 1) (.mul .pi .pi)) (.mul (.sqrt (.mul (.mul (.rat 4 1) .pi) (.par n!"alpha_e"))) (.sqrt (.mul (.mul (.rat 4 1) .pi) (.par n!"alpha_e"))))) (.par n!"m_b"))) (.div (.div (.div (.sqrt (.rat 2 1)) (.par n!"GF")) (.mul (.ckm 2 2) (.conj (.ckm 2 1)))) (.rat 4 1)))) (.rat 3 1))))),
  (n!"5psbemu", (.mul (.div (.div (.sqrt (.rat 2 1)) (.par n!"GF")) (.rat 4 1)) (.add (.div (.mul (.rat 5 1) (.div (.div (.inp n!"CPp_bsmue") (.div (.div (.mul (.rat 16 1) (.mul .pi .pi)) (.mul (.sqrt (.mul (.mul (.rat 4 1) .pi) (.par n!"alpha_e"))) (.sqrt (.mul (.mul (.rat 4 1) .pi) (.par n!"alpha_e"))))) (.par n!"m_b"))) (.div (.div (.div (.sqrt (.rat 2 1)) (.par n!"GF")) (.mul (.ckm 2 2) (.conj (.ckm 2 1)))) (.rat 4 1)))) (.rat 3 1)) (.div (.div (.inp n!"CSp_bsmue") (.div (.div (.mul (.rat 16 1) (.mul .pi .pi)) (.mul (.sqrt (.mul (.mul (.rat 4 1) .pi) (.par n!"alpha_e"))) (.sqrt (.mul (.mul (.rat 4 1) .pi) (.par n!"alpha_e"))))) (.par n!"m_b"))) (.div (.div (.div (.sqrt (.rat 2 1)) (.par n!"GF")) (.mul (.ckm 2 2) (.conj (.ckm 2 1)))) (.rat 4 1)))))),
  (n!"3dbbb", (.mul (.div (.div (.sqrt (.rat 2 1)) (.par n!"GF")) (.rat 4 1)) (.sub (.div (.mul (.mul (.div (.mul (.rat 4 1) (.par n!"GF")) (.sqrt (.rat 2 1))) (.mul (.ckm 2 2) (.conj (.ckm 2 0)))) (.inp n!"CVLL_bdbb")) (.rat 12 1)) (.div (.mul (.mul (.div (.mul (.rat 4 1) (.par n!"GF")) (.sqrt (.rat 2 1))) (.mul (.ckm 2 2) (.conj (.ckm 2 0)))) (.inp n!"CVLR_bdbb")) (.rat 12 1))))),
  (n!"1pcdmumu", (.mul (.div (.div (.sqrt (.rat 2 1)) (.par n!"GF")) (.rat 4 1)) (.div (.inp n!"CVR_dcmunumu") (.div (.div (.div (.neg (.sqrt (.rat 2 1))) (.par n!"GF")) (.ckm 1 0)) (.rat 4 1))))),
  (n!"7dstautau", (.mul (.div (.div (.sqrt (.rat 2 1)) (.par n!"GF")) (.rat 4 1)) (.add (.add (.div (.mul (.rat 2 1) (.div (.div (.inp n!"CP_sdtautau") (.div (.div (.mul (.rat 16 1) (.mul .pi .pi)) (.mul (.sqrt (.mul (.mul (.rat 4 1) .pi) (.par n!"alpha_e"))) (.sqrt (.mul (.mul (.rat 4 1) .pi) (.par n!"alpha_e"))))) (.par n!"m_s"))) (.div (.div (.div (.sqrt (.rat 2 1)) (.par n!"GF")) (.mul (.ckm 2 1) (.conj (.ckm 2 0)))) (.rat 4 1)))) (.rat 3 1)) (.div (.rat 0 1) (.div (.div (.div (.sqrt (.rat 2 1)) (.par n!"GF")) (.mul (.ckm 2 1) (.conj (.ckm 2 0)))) (.rat 4 1)))) (.div (.rat 0 1) (.div (.div (.div (.sqrt (.rat 2 1)) (.par n!"GF")) (.mul (.ckm 2 1) (.conj (.ckm 2 0)))) (.rat 4 1)))))),
  (n!"5psbmumu", (.mul (.div (.div (.sqrt (.rat 2 1)) (.par n!"GF")) (.rat 4 1)) (.add (.div (.mul (.rat 5 1) (.div (.div (.inp n!"CPp_bsmumu") (.div (.div (.mul (.rat 16 1) (.mul .pi .pi)) (.mul (.sqrt (.mul (.mul (.rat 4 1) .pi) (.par n!"alpha_e"))) (.sqrt (.mul (.mul (.rat 4 1) .pi) (.par n!"alpha_e"))))) (.par n!"m_b"))) (.div (.div (.div (.sqrt (.rat 2 1)) (.par n!"GF")) (.mul (.ckm 2 2) (.conj (.ckm 2 1)))) (.rat 4 1)))) (.rat 3 1)) (.div (.div (.inp n!"CSp_bsmumu") (.div (.div (.mul (.rat 16 1) (.mul .pi .pi)) (.mul (.sqrt (.mul (.mul (.rat 4 1) .pi) (.par n!"alpha_e"))) (.sqrt (.mul (.mul (.rat 4 1) .pi) (.par n!"alpha_e"))))) (.par n!"m_b"))) (.div (.div (.div (.sqrt (.rat 2 1)) (.par n!"GF")) (.mul (.ckm 2 2) (.conj (.ckm 2 1)))) (.rat 4 1)))))),
  (n!"5psbss", (.mul (.div (.div (.sqrt (.rat 2 1)) (.par n!"GF")) (.rat 4 1)) (.add (.div (.neg (.mul (.mul (.div (.mul (.rat 4 1) (.par n!"GF")) (.sqrt (.rat 2 1))) (.mul (.ckm 2 2) (.conj (.ckm 2 1)))) (.inp n!"CSRR_bsss"))) (.rat 3 1)) (.div (.mul (.rat 4 1) (.mul (.mul (.div (.mul (.rat 4 1) (.par n!"GF")) (.sqrt (.rat 2 1))) (.mul (.ckm 2 2) (.conj (.ckm 2 1)))) (.inp n!"CSRL_bsss"))) (.rat 3 1))))),
  (n!"1dbbb", (.mul (.div (.div (.sqrt (.rat 2 1)) (.par n!"GF")) (.rat 4 1)) (.add (.div (.neg (.mul (.mul (.div (.mul (.rat 4 1) (.par n!"GF")) (.sqrt (.rat 2 1))) (.mul (.ckm 2 2) (.conj (.ckm 2 0)))) (.inp n!"CVLL_bdbb"))) (.rat 3 1)) (.div (.mul (.rat 4 1) (.mul (.mul (.div (.mul (.rat 4 1) (.par n!"GF")) (.sqrt (.rat 2 1))) (.mul (.ckm 2 2) (.conj (.ckm 2 0)))) (.inp n!"CVLR_bdbb"))) (.rat 3 1)))))]

def flavio_to_Bern_9 : List (ℕ × Sym) := [
  (n!"7pcbmutau", (.mul (.div (.div (.sqrt (.rat 2 1)) (.par n!"GF")) (.rat 4 1)) (.div (.inp n!"CT_bcmunutau") (.div (.div (.div (.neg (.sqrt (.rat 2 1))) (.par n!"GF")) (.ckm 1 2)) (.rat 4 1))))),
  (n!"1pcbmumu", (.mul (.div (.div (.sqrt (.rat 2 1)) (.par n!"GF")) (.rat 4 1)) (.div (.inp n!"CVR_bcmunumu") (.div (.div (.div (.neg (.sqrt (.rat 2 1))) (.par n!"GF")) (.ckm 1 2)) (.rat 4 1))))),
  (n!"7dbtaue", (.mul (.div (.div (.sqrt (.rat 2 1)) (.par n!"GF")) (.rat 4 1)) (.add (.add (.div (.mul (.rat 2 1) (.div (.div (.inp n!"CP_bdetau") (.div (.div (.mul (.rat 16 1) (.mul .pi .pi)) (.mul (.sqrt (.mul (.mul (.rat 4 1) .pi) (.par n!"alpha_e"))) (.sqrt (.mul (.mul (.rat 4 1) .pi) (.par n!"alpha_e"))))) (.par n!"m_b"))) (.div (.div (.div (.sqrt (.rat 2 1)) (.par n!"GF")) (.mul (.ckm 2 2) (.conj (.ckm 2 0)))) (.rat 4 1)))) (.rat 3 1)) (.div (.rat 0 1) (.div (.div (.div (.sqrt (.rat 2 1)) (.par n!"GF")) (.mul (.ckm 2 2) (.conj (.ckm 2 0)))) (.rat 4 1)))) (.div (.rat 0 1) (.div (.div (.div (.sqrt (.rat 2 1)) (.par n!"GF")) (.mul (.ckm 2 2) (.conj (.ckm 2 0)))) (.rat 4 1)))))),
  (n!"8pdbss", (.mul (.div (.div (.sqrt (.rat 2 1)) (.par n!"GF")) (.rat 4 1)) (.sub (.add (.mul (.rat 2 1) (.mul (.mul (.div (.mul (.rat 4 1) (.par n!"GF")) (.sqrt (.rat 2 1))) (.mul (.ckm 2 2) (.conj (.ckm 2 0)))) (.inp n!"CTLLt_bdss"))) (.div (.mul (.rat 2 1) (.mul (.mul (.div (.mul (.rat 4 1) (.par n!"GF")) (.sqrt (.rat 2 1))) (.mul (.ckm 2 2) (.conj (.ckm 2 0)))) (.inp n!"CSLLt_bdss"))) (.rat 3 1))) (.div (.mul (.rat 2 1) (.mul (.mul (.div (.mul (.rat 4 1) (.par n!"GF")) (.sqrt (.rat 2 1))) (.mul (.ckm 2 2) (.conj (.ckm 2 0)))) (.inp n!"CSLRt_bdss"))) (.rat 3 1))))),
  (n!"5pcsmue", (.mul (.div (.div (.sqrt (.rat 2 1)) (.par n!"GF")) (.rat 4 1)) (.div (.inp n!"CSL_scmunue") (.div (.div (.div (.neg (.sqrt (.rat 2 1))) (.par n!"GF")) (.ckm 1 1)) (.rat 4 1))))),
  (n!"7pcbemu", (.mul (.div (.div (.sqrt (.rat 2 1)) (.par n!"GF")) (.rat 4 1)) (.div (.inp n!"CT_bcenumu") (.div (.div (.div (.neg (.sqrt (.rat 2 1))) (.par n!"GF")) (.ckm 1 2)) (.rat 4 1))))),
  (n!"5cbtaumu", (.mul (.div (.div (.sqrt (.rat 2 1)) (.par n!"GF")) (.rat 4 1)) (.div (.inp n!"CSR_bctaunumu") (.div (.div (.div (.neg (.sqrt (.rat 2 1))) (.par n!"GF")) (.ckm 1 2)) (.rat 4 1))))),
  (n!"5cstautau", (.mul (.div (.div (.sqrt (.rat 2 1)) (.par n!"GF")) (.rat 4 1)) (.div (.inp n!"CSR_sctaunutau") (.div (.div (.div (.neg (.sqrt (.rat 2 1))) (.par n!"GF")) (.ckm 1 1)) (.rat 4 1))))),
  (n!"2pdsuu", (.mul (.div (.div (.sqrt (.rat 2 1)) (.par n!"GF")) (.rat 4 1)) (.add (.div (.mul (.rat (-2) 1) (.mul (.mul (.div (.mul (.rat 4 1) (.par n!"GF")) (.sqrt (.rat 2 1))) (.mul (.ckm 2 1) (.conj (.ckm 2 0)))) (.inp n!"CVRRt_sduu"))) (.rat 3 1)) (.div (.mul (.rat 8 1) (.mul (.mul (.div (.mul (.rat 4 1) (.par n!"GF")) (.sqrt (.rat 2 1))) (.mul (.ckm 2 1) (.conj (.ckm 2 0)))) (.inp n!"CVRLt_sduu"))) (.rat 3 1))))),
  (n!"7pcstaumu", (.mul (.div (.div (.sqrt (.rat 2 1)) (.par n!"GF")) (.rat 4 1)) (.div (.inp n!"CT_sctaunumu") (.div (.div (.div (.neg (.sqrt (.rat 2 1))) (.par n!"GF")) (.ckm 1 1)) (.rat 4 1))))),
  (n!"5dsds", (.mul (.div (.div (.sqrt (.rat 2 1)) (.par n!"GF")) (.rat 4 1)) (.mul (.rat (-2) 1) (.inp n!"CVLR_sdsd")))),
  (n!"3psbtaumu", (.mul (.div (.div (.sqrt (.rat 2 1)) (.par n!"GF")) (.rat 4 1)) (.div (.div (.div (.inp n!"C10p_bsmutau") (.div (.mul (.rat 16 1) (.mul .pi .pi)) (.mul (.sqrt (.mul (.mul (.rat 4 1) .pi) (.par n!"alpha_e"))) (.sqrt (.mul (.mul (.rat 4 1) .pi) (.par n!"alpha_e")))))) (.div (.div (.div (.sqrt (.rat 2 1)) (.par n!"GF")) (.mul (.ckm 2 2) (.conj (.ckm 2 1)))) (.rat 4 1))) (.rat 6 1)))),
  (n!"1ubmue", (.mul (.div (.div (.sqrt (.rat 2 1)) (.par n!"GF")) (.rat 4 1)) (.div (.inp n!"CVL_bumunue") (.div (.div (.div (.neg (.sqrt (.rat 2 1))) (.par n!"GF")) (.ckm 0 2)) (.rat 4 1))))),
  (n!"1pusmue", (.mul (.div (.div (.sqrt (.rat 2 1)) (.par n!"GF")) (.rat 4 1)) (.div (.inp n!"CVR_sumunue") (.div (.div (.div (.neg (.sqrt (.rat 2 1))) (.par n!"GF")) (.ckm 0 1)) (.rat 4 1))))),
  (n!"1pubmutau", (.mul (.div (.div (.sqrt (.rat 2 1)) (.par n!"GF")) (.rat 4 1)) (.div (.inp n!"CVR_bumunutau") (.div (.div (.div (.neg (.sqrt (.rat 2 1))) (.par n!"GF")) (.ckm 0 2)) (.rat 4 1))))),
  (n!"3dsds", (.mul (.div (.div (.sqrt (.rat 2 1)) (.par n!"GF")) (.rat 4 1)) (.mul (.rat (-8) 1) (.inp n!"CTLL_sdsd")))),
  (n!"5pudtautau", (.mul (.div (.div (.sqrt (.rat 2 1)) (.par n!"GF")) (.rat 4 1)) (.div (.inp n!"CSL_dutaunutau") (.div (.div (.div (.neg (.sqrt (.rat 2 1))) (.par n!"GF")) (.ckm 0 0)) (.rat 4 1))))),
  (n!"9dsmumu", (.mul (.div (.div (.sqrt (.rat 2 1)) (.par n!"GF")) (.rat 4 1)) (.div (.div (.div (.inp n!"CP_sdmumu") (.div (.div (.mul (.rat 16 1) (.mul .pi .pi)) (.mul (.sqrt (.mul (.mul (.rat 4 1) .pi) (.par n!"alpha_e"))) (.sqrt (.mul (.mul (.rat 4 1) .pi) (.par n!"alpha_e"))))) (.par n!"m_s"))) (.div (.div (.div (.sqrt (.rat 2 1)) (.par n!"GF")) (.mul (.ckm 2 1) (.conj (.ckm 2 0)))) (.rat 4 1))) (.rat 24 1)))),
  (n!"8sbdd", (.mul (.div (.div (.sqrt (.rat 2 1)) (.par n!"GF")) (.rat 4 1)) (.sub (.add (.mul (.rat 2 1) (.mul (.mul (.div (.mul (.rat 4 1) (.par n!"GF")) (.sqrt (.rat 2 1))) (.mul (.ckm 2 2) (.conj (.ckm 2 1)))) (.inp n!"CTRRt_bsdd"))) (.div (.mul (.rat 2 1) (.mul (.mul (.div (.mul (.rat 4 1) (.par n!"GF")) (.sqrt (.rat 2 1))) (.mul (.ckm 2 2) (.conj (.ckm 2 1)))) (.inp n!"CSRRt_bsdd"))) (.rat 3 1))) (.div (.mul (.rat 2 1) (.mul (.mul (.div (.mul (.rat 4 1) (.par n!"GF")) (.sqrt (.rat 2 1))) (.mul (.ckm 2 2) (.conj (.ckm 2 1)))) (.inp n!"CSRLt_bsdd"))) (.rat 3 1))))),
  (n!"1sbmue", (.mul (.div (.div (.sqrt (.rat 2 1)) (.par n!"GF")) (.rat 4 1)) (.add (.div (.mul (.rat 5 1) (.div (.div (.inp n!"C10_bsemu") (.div (.mul (.rat 16 1) (.mul .pi .pi)) (.mul (.sqrt (.mul (.mul (.rat 4 1) .pi) (.par n!"alpha_e"))) (.sqrt (.mul (.mul (.rat 4 1) .pi) (.par n!"alpha_e")))))) (.div (.div (.div (.sqrt (.rat 2 1)) (.par n!"GF")) (.mul (.ckm 2 2) (.conj (.ckm 2 1)))) (.rat 4 1)))) (.rat 3 1)) (.div (.div (.inp n!"C9_bsemu") (.div (.mul (.rat 16 1) (.mul .pi .pi)) (.mul (.sqrt (.mul (.mul (.rat 4 1) .pi) (.par n!"alpha_e"))) (.sqrt (.mul (.mul (.rat 4 1) .pi) (.par n!"alpha_e")))))) (.div (.div (.div (.sqrt (.rat 2 1)) (.par n!"GF")) (.mul (.ckm 2 2) (.conj (.ckm 2 1)))) (.rat 4 1)))))),
  (n!"8gsb", (.mul (.div (.div (.sqrt (.rat 2 1)) (.par n!"GF")) (.rat 4 1)) (.mul (.div (.sqrt (.mul (.mul (.rat 4 1) .pi) (.par n!"alpha_s"))) (.par n!"m_b")) (.div (.div (.inp n!"C8_bs") (.div (.div (.mul (.rat 16 1) (.mul .pi .pi)) (.sqrt (.mul (.mul (.rat 4 1) .pi) (.par n!"alpha_s")))) (.par n!"m_b"))) (.div (.div (.div (.sqrt (.rat 2 1)) (.par n!"GF")) (.mul (.ckm 2 2) (.conj (.ckm 2 1)))) (.rat 4 1)))))),
  (n!"3sbmumu", (.mul (.div (.div (.sqrt (.rat 2 1)) (.par n!"GF")) (.rat 4 1)) (.div (.neg (.div (.div (.inp n!"C10_bsmumu") (.div (.mul (.rat 16 1) (.mul .pi .pi)) (.mul (.sqrt (.mul (.mul (.rat 4 1) .pi) (.par n!"alpha_e"))) (.sqrt (.mul (.mul (.rat 4 1) .pi) (.par n!"alpha_e")))))) (.div (.div (.div (.sqrt (.rat 2 1)) (.par n!"GF")) (.mul (.ckm 2 2) (.conj (.ckm 2 1)))) (.rat 4 1)))) (.rat 6 1)))),
  (n!"9pdscc", (.mul (.div (.div (.sqrt (.rat 2 1)) (.par n!"GF")) (.rat 4 1)) (.sub (.add (.sub (.div (.mul (.mul (.div (.mul (.rat 4 1) (.par n!"GF")) (.sqrt (.rat 2 1))) (.mul (.ckm 2 1) (.conj (.ckm 2 0)))) (.inp n!"CSLL_sdcc")) (.rat 48 1)) (.div (.mul (.mul (.div (.mul (.rat 4 1) (.par n!"GF")) (.sqrt (.rat 2 1))) (.mul (.ckm 2 1) (.conj (.ckm 2 0)))) (.inp n!"CSLR_sdcc")) (.rat 48 1))) (.div (.mul (.mul (.div (.mul (.rat 4 1) (.par n!"GF")) (.sqrt (.rat 2 1))) (.mul (.ckm 2 1) (.conj (.ckm 2 0)))) (.inp n!"CSLLt_sdcc")) (.mul (.rat 48 1) (.rat 3 1)))) (.div (.mul (.mul (.div (.mul (.rat 4 1) (.par n!"GF")) (.sqrt (.rat 2 1))) (.mul (.ckm 2 1) (.conj (.ckm 2 0)))) (.inp n!"CSLRt_sdcc")) (.mul (.rat 48 1) (.rat 3 1)))))),
  (n!"3psbemu", (.mul (.div (.div (.sqrt (.rat 2 1)) (.par n!"GF")) (.rat 4 1)) (.div (.div (.div (.inp n!"C10p_bsmue") (.div (.mul (.rat 16 1) (.mul .pi .pi)) (.mul (.sqrt (.mul (.mul (.rat 4 1) .pi) (.par n!"alpha_e"))) (.sqrt (.mul (.mul (.rat 4 1) .pi) (.par n!"alpha_e")))))) (.div (.div (.div (.sqrt (.rat 2 1)) (.par n!"GF")) (.mul (.ckm 2 2) (.conj (.ckm 2 1)))) (.rat 4 1))) (.rat 6 1)))),
  (n!"5pdsbb", (.mul (.div (.div (.sqrt (.rat 2 1)) (.par n!"GF")) (.rat 4 1)) (.add (.sub (.add (.div (.neg (.mul (.mul (.div (.mul (.rat 4 1) (.par n!"GF")) (.sqrt (.rat 2 1))) (.mul (.ckm 2 1) (.conj (.ckm 2 0)))) (.inp n!"CSLL_sdbb"))) (.rat 3 1)) (.div (.mul (.rat 4 1) (.mul (.mul (.div (.mul (.rat 4 1) (.par n!"GF")) (.sqrt (.rat 2 1))) (.mul (.ckm 2 1) (.conj (.ckm 2 0)))) (.inp n!"CSLR_sdbb"))) (.rat 3 1))) (.div (.mul (.mul (.div (.mul (.rat 4 1) (.par n!"GF")) (.sqrt (.rat 2 1))) (.mul (.ckm 2 1) (.conj (.ckm 2 0)))) (.inp n!"CSLLt_sdbb")) (.mul (.rat 3 1) (.rat 3 1)))) (.div (.mul (.rat 4 1) (.mul (.mul (.div (.mul (.rat 4 1) (.par n!"GF")) (.sqrt (.rat 2 1))) (.mul (.ckm 2 1) (.conj (.ckm 2 0)))) (.inp n!"CSLRt_sdbb"))) (.mul (.rat 3 1) (.rat 3 1)))))),
  (n!"1dsds", (.mul (.div (.div (.sqrt (.rat 2 1)) (.par n!"GF")) (.rat 4 1)) (.inp n!"CVLL_sdsd"))),
  (n!"6sbdd", (.mul (.div (.div (.sqrt (.rat 2 1)) (.par n!"GF")) (.rat 4 1)) (.add (.div (.mul (.rat (-2) 1) (.mul (.mul (.div (.mul (.rat 4 1) (.par n!"GF")) (.sqrt (.rat 2 1))) (.mul (.ckm 2 2) (.conj (.ckm 2 1)))) (.inp n!"CSRRt_bsdd"))) (.rat 3 1)) (.div (.mul (.rat 8 1) (.mul (.mul (.div (.mul (.rat 4 1) (.par n!"GF")) (.sqrt (.rat 2 1))) (.mul (.ckm 2 2) (.conj (.ckm 2 1)))) (.inp n!"CSRLt_bsdd"))) (.rat 3 1))))),
  (n!"1pcdtautau", (.mul (.div (.div (.sqrt (.rat 2 1)) (.par n!"GF")) (.rat 4 1)) (.div (.inp n!"CVR_dctaunutau") (.div (.div (.div (.neg (.sqrt (.rat 2 1))) (.par n!"GF")) (.ckm 1 0)) (.rat 4 1))))),
  (n!"5usmumu", (.mul (.div (.div (.sqrt (.rat 2 1)) (.par n!"GF")) (.rat 4 1)) (.div (.inp n!"CSR_sumunumu") (.div (.div (.div (.neg (.sqrt (.rat 2 1))) (.par n!"GF")) (.ckm 0 1)) (.rat 4 1))))),
  (n!"7pdbee", (.mul (.div (.div (.sqrt (.rat 2 1)) (.par n!"GF")) (.rat 4 1)) (.sub (.add (.div (.mul (.rat (-2) 1) (.div (.div (.inp n!"CPp_bdee") (.div (.div (.mul (.rat 16 1) (.mul .pi .pi)) (.mul (.sqrt (.mul (.mul (.rat 4 1) .pi) (.par n!"alpha_e"))) (.sqrt (.mul (.mul (.rat 4 1) .pi) (.par n!"alpha_e"))))) (.par n!"m_b"))) (.div (.div (.div (.sqrt (.rat 2 1)) (.par n!"GF")) (.mul (.ckm 2 2) (.conj (.ckm 2 0)))) (.rat 4 1)))) (.rat 3 1)) (.div (.rat 0 1) (.div (.div (.div (.sqrt (.rat 2 1)) (.par n!"GF")) (.mul (.ckm 2 2) (.conj (.ckm 2 0)))) (.rat 4 1)))) (.div (.rat 0 1) (.div (.div (.div (.sqrt (.rat 2 1)) (.par n!"GF")) (.mul (.ckm 2 2) (.conj (.ckm 2 0)))) (.rat 4 1)))))),
  (n!"1pustaumu", (.mul (.div (.div (.sqrt (.rat 2 1)) (.par n!"GF")) (.rat 4 1)) (.div (.inp n!"CVR_sutaunumu") (.div (.div (.div (.neg (.sqrt (.rat 2 1))) (.par n!"GF")) (.ckm 0 1)) (.rat 4 1))))),
  (n!"10pdbss", (.mul (.div (.div (.sqrt (.rat 2 1)) (.par n!"GF")) (.rat 4 1)) (.sub (.div (.mul (.mul (.div (.mul (.rat 4 1) (.par n!"GF")) (.sqrt (.rat 2 1))) (.mul (.ckm 2 2) (.conj (.ckm 2 0)))) (.inp n!"CSLLt_bdss")) (.rat 24 1)) (.div (.mul (.mul (.div (.mul (.rat 4 1) (.par n!"GF")) (.sqrt (.rat 2 1))) (.mul (.ckm 2 2) (.conj (.ckm 2 0)))) (.inp n!"CSLRt_bdss")) (.rat 24 1))))),
  (n!"3pdbdd", (.mul (.div (.div (.sqrt (.rat 2 1)) (.par n!"GF")) (.rat 4 1)) (.sub (.div (.mul (.mul (.div (.mul (.rat 4 1) (.par n!"GF")) (.sqrt (.rat 2 1))) (.mul (.ckm 2 2) (.conj (.ckm 2 0)))) (.inp n!"CVRR_bddd")) (.rat 12 1)) (.div (.mul (.mul (.div (.mul (.rat 4 1) (.par n!"GF")) (.sqrt (.rat 2 1))) (.mul (.ckm 2 2) (.conj (.ckm 2 0)))) (.inp n!"CVRL_bddd")) (.rat 12 1))))),
  (n!"5cdemu", (.mul (.div (.div (.sqrt (.rat 2 1)) (.par n!"GF")) (.rat 4 1)) (.div (.inp n!"CSR_dcenumu") (.div (.div (.div (.neg (.sqrt (.rat 2 1))) (.par n!"GF")) (.ckm 1 0)) (.rat 4 1))))),
  (n!"4sbdd", (.mul (.div (.div (.sqrt (.rat 2 1)) (.par n!"GF")) (.rat 4 1)) (.sub (.div (.mul (.mul (.div (.mul (.rat 4 1) (.par n!"GF")) (.sqrt (.rat 2 1))) (.mul (.ckm 2 2) (.conj (.ckm 2 1)))) (.inp n!"CVLLt_bsdd")) (.rat 6 1)) (.div (.mul (.mul (.div (.mul (.rat 4 1) (.par n!"GF")) (.sqrt (.rat 2 1))) (.mul (.ckm 2 2) (.conj (.ckm 2 1)))) (.inp n!"CVLRt_bsdd")) (.rat 6 1))))),
  (n!"5dbtaue", (.mul (.div (.div (.sqrt (.rat 2 1)) (.par n!"GF")) (.rat 4 1)) (.sub (.div (.div (.inp n!"CS_bdetau") (.div (.div (.mul (.rat 16 1) (.mul .pi .pi)) (.mul (.sqrt (.mul (.mul (.rat 4 1) .pi) (.par n!"alpha_e"))) (.sqrt (.mul (.mul (.rat 4 1) .pi) (.par n!"alpha_e"))))) (.par n!"m_b"))) (.div (.div (.div (.sqrt (.rat 2 1)) (.par n!"GF")) (.mul (.ckm 2 2) (.conj (.ckm 2 0)))) (.rat 4 1))) (.div (.mul (.rat 5 1) (.div (.div (.inp n!"CP_bdetau") (.div (.div (.mul (.rat 16 1) (.mul .pi .pi)) (.mul (.sqrt (.mul (.mul (.rat 4 1) .pi) (.par n!"alpha_e"))) (.sqrt (.mul (.mul (.rat 4 1) .pi) (.par n!"alpha_e"))))) (.par n!"m_b"))) (.div (.div (.div (.sqrt (.rat 2 1)) (.par n!"GF")) (.mul (.ckm 2 2) (.conj (.ckm 2 0)))) (.rat 4 1)))) (.rat 3 1))))),
  (n!"5pusmumu", (.mul (.div (.div (.sqrt (.rat 2 1)) (.par n!"GF")) (.rat 4 1)) (.div (.inp n!"CSL_sumunumu") (.div (.div (.div (.neg (.sqrt (.rat 2 1))) (.par n!"GF")) (.ckm 0 1)) (.rat 4 1))))),
  (n!"2sbdd", (.mul (.div (.div (.sqrt (.rat 2 1)) (.par n!"GF")) (.rat 4 1)) (.add (.div (.mul (.rat (-2) 1) (.mul (.mul (.div (.mul (.rat 4 1) (.par n!"GF")) (.sqrt (.rat 2 1))) (.mul (.ckm 2 2) (.conj (.ckm 2 1)))) (.inp n!"CVLLt_bsdd"))) (.rat 3 1)) (.div (.mul (.rat 8 1) (.mul (.mul (.div (.mul (.rat 4 1) (.par n!"GF")) (.sqrt (.rat 2 1))) (.mul (.ckm 2 2) (.conj (.ckm 2 1)))) (.inp n!"CVLRt_bsdd"))) (.rat 3 1))))),
  (n!"1udtaue", (.mul (.div (.div (.sqrt (.rat 2 1)) (.par n!"GF")) (.rat 4 1)) (.div (.inp n!"CVL_dutaunue") (.div (.div (.div (.neg (.sqrt (.rat 2 1))) (.par n!"GF")) (.ckm 0 0)) (.rat 4 1))))),
  (n!"5pcbemu", (.mul (.div (.div (.sqrt (.rat 2 1)) (.par n!"GF")) (.rat 4 1)) (.div (.inp n!"CSL_bcenumu") (.div (.div (.div (.neg (.sqrt (.rat 2 1))) (.par n!"GF")) (.ckm 1 2)) (.rat 4 1))))),
  (n!"10dsbb", (.mul (.div (.div (.sqrt (.rat 2 1)) (.par n!"GF")) (.rat 4 1)) (.sub (.div (.mul (.mul (.div (.mul (.rat 4 1) (.par n!"GF")) (.sqrt (.rat 2 1))) (.mul (.ckm 2 1) (.conj (.ckm 2 0)))) (.inp n!"CSRRt_sdbb")) (.rat 24 1)) (.div (.mul (.mul (.div (.mul (.rat 4 1) (.par n!"GF")) (.sqrt (.rat 2 1))) (.mul (.ckm 2 1) (.conj (.ckm 2 0)))) (.inp n!"CSRLt_sdbb")) (.rat 24 1))))),
  (n!"9sbss", (.mul (.div (.div (.sqrt (.rat 2 1)) (.par n!"GF")) (.rat 4 1)) (.sub (.div (.mul (.mul (.div (.mul (.rat 4 1) (.par n!"GF")) (.sqrt (.rat 2 1))) (.mul (.ckm 2 2) (.conj (.ckm 2 1)))) (.inp n!"CSLL_bsss")) (.rat 48 1)) (.div (.mul (.mul (.div (.mul (.rat 4 1) (.par n!"GF")) (.sqrt (.rat 2 1))) (.mul (.ckm 2 2) (.conj (.ckm 2 1)))) (.inp n!"CSLR_bsss")) (.rat 48 1))))),
  (n!"9pdbtautau", (.mul (.div (.div (.sqrt (.rat 2 1)) (.par n!"GF")) (.rat 4 1)) (.div (.neg (.div (.div (.inp n!"CPp_bdtautau") (.div (.div (.mul (.rat 16 1) (.mul .pi .pi)) (.mul (.sqrt (.mul (.mul (.rat 4 1) .pi) (.par n!"alpha_e"))) (.sqrt (.mul (.mul (.rat 4 1) .pi) (.par n!"alpha_e"))))) (.par n!"m_b"))) (.div (.div (.div (.sqrt (.rat 2 1)) (.par n!"GF")) (.mul (.ckm 2 2) (.conj (.ckm 2 0)))) (.rat 4 1)))) (.rat 24 1)))),
  (n!"9sbmutau", (.mul (.div (.div (.sqrt (.rat 2 1)) (.par n!"GF")) (.rat 4 1)) (.div (.div (.div (.inp n!"CP_bstaumu") (.div (.div (.mul (.rat 16 1) (.mul .pi .pi)) (.mul (.sqrt (.mul (.mul (.rat 4 1) .pi) (.par n!"alpha_e"))) (.sqrt (.mul (.mul (.rat 4 1) .pi) (.par n!"alpha_e"))))) (.par n!"m_b"))) (.div (.div (.div (.sqrt (.rat 2 1)) (.par n!"GF")) (.mul (.ckm 2 2) (.conj (.ckm 2 1)))) (.rat 4 1))) (.rat 24 1)))),
  (n!"1ubtaue", (.mul (.div (.div (.sqrt (.rat 2 1)) (.par n!"GF")) (.rat 4 1)) (.div (.inp n!"CVL_butaunue") (.div (.div (.div (.neg (.sqrt (.rat 2 1))) (.par n!"GF")) (.ckm 0 2)) (.rat 4 1))))),
  (n!"5pdbtaue", (.mul (.div (.div (.sqrt (.rat 2 1)) (.par n!"GF")) (.rat 4 1)) (.add (.div (.mul (.rat 5 1) (.div (.div (.inp n!"CPp_bdetau") (.div (.div (.mul (.rat 16 1) (.mul .pi .pi)) (.mul (.sqrt (.mul (.mul (.rat 4 1) .pi) (.par n!"alpha_e"))) (.sqrt (.mul (.mul (.rat 4 1) .pi) (.par n!"alpha_e"))))) (.par n!"m_b"))) (.div (.div (.div (.sqrt (.rat 2 1)) (.par n!"GF")) (.mul (.ckm 2 2) (.conj (.ckm 2 0)))) (.rat 4 1)))) (.rat 3 1)) (.div (.div (.inp n!"CSp_bdetau") (.div (.div (.mul (.rat 16 1) (.mul .pi .pi)) (.mul (.sqrt (.mul (.mul (.rat 4 1) .pi) (.par n!"alpha_e"))) (.sqrt (.mul (.mul (.rat 4 1) .pi) (.par n!"alpha_e"))))) (.par n!"m_b"))) (.div (.div (.div (.sqrt (.rat 2 1)) (.par n!"GF")) (.mul (.ckm 2 2) (.conj (.ckm 2 0)))) (.rat 4 1)))))),
  (n!"7sbss", (.mul (.div (.div (.sqrt (.rat 2 1)) (.par n!"GF")) (.rat 4 1)) (.add (.sub (.div (.mul (.mul (.div (.mul (.rat 4 1) (.par n!"GF")) (.sqrt (.rat 2 1))) (.mul (.ckm 2 2) (.conj (.ckm 2 1)))) (.inp n!"CSLL_bsss")) (.rat 3 1)) (.div (.mul (.mul (.div (.mul (.rat 4 1) (.par n!"GF")) (.sqrt (.rat 2 1))) (.mul (.ckm 2 2) (.conj (.ckm 2 1)))) (.inp n!"CSLR_bsss")) (.rat 3 1))) (.mul (.mul (.div (.mul (.rat 4 1) (.par n!"GF")) (.sqrt (.rat 2 1))) (.mul (.ckm 2 2) (.conj (.ckm 2 1)))) (.inp n!"CTLL_bsss"))))),
  (n!"7sbtautau", (.mul (.div (.div (.sqrt (.rat 2 1)) (.par n!"GF")) (.rat 4 1)) (.add (.add (.div (.mul (.rat 2 1) (.div (.div (.inp n!"CP_bstautau") (.div (.div (.mul (.rat 16 1) (.mul .pi .pi)) (.mul (.sqrt (.mul (.mul (.rat 4 1) .pi) (.par n!"alpha_e"))) (.sqrt (.mul (.mul (.rat 4 1) .pi) (.par n!"alpha_e"))))) (.par n!"m_b"))) (.div (.div (.div (.sqrt (.rat 2 1)) (.par n!"GF")) (.mul (.ckm 2 2) (.conj (.ckm 2 1)))) (.rat 4 1)))) (.rat 3 1)) (.div (.rat 0 1) (.div (.div (.div (.sqrt (.rat 2 1)) (.par n!"GF")) (.mul (.ckm 2 2) (.conj (.ckm 2 1)))) (.rat 4 1)))) (.div (.rat 0 1) (.div (.div (.div (.sqrt (.rat 2 1)) (.par n!"GF")) (.mul (.ckm 2 2) (.conj (.ckm 2 1)))) (.rat 4 1)))))),
  (n!"5pcsmutau", (.mul (.div (.div (.sqrt (.rat 2 1)) (.par n!"GF")) (.rat 4 1)) (.div (.inp n!"CSL_scmunutau") (.div (.div (.div (.neg (.sqrt (.rat 2 1))) (.par n!"GF")) (.ckm 1 1)) (.rat 4 1))))),
  (n!"4sbsb", (.mul (.div (.div (.sqrt (.rat 2 1)) (.par n!"GF")) (.rat 4 1)) (.inp n!"CSLR_bsbs")))]

def flavio_to_Bern_10 : List (ℕ × Sym) := [
  (n!"1pcucu", (.mul (.div (.div (.sqrt (.rat 2 1)) (.par n!"GF")) (.rat 4 1)) (.inp n!"CVRR_ucuc"))),
  (n!"1psbmutau", (.mul (.div (.div (.sqrt (.rat 2 1)) (.par n!"GF")) (.rat 4 1)) (.sub (.div (.div (.inp n!"C9p_bstaumu") (.div (.mul (.rat 16 1) (.mul .pi .pi)) (.mul (.sqrt (.mul (.mul (.rat 4 1) .pi) (.par n!"alpha_e"))) (.sqrt (.mul (.mul (.rat 4 1) .pi) (.par n!"alpha_e")))))) (.div (.div (.div (.sqrt (.rat 2 1)) (.par n!"GF")) (.mul (.ckm 2 2) (.conj (.ckm 2 1)))) (.rat 4 1))) (.div (.mul (.rat 5 1) (.div (.div (.inp n!"C10p_bstaumu") (.div (.mul (.rat 16 1) (.mul .pi .pi)) (.mul (.sqrt (.mul (.mul (.rat 4 1) .pi) (.par n!"alpha_e"))) (.sqrt (.mul (.mul (.rat 4 1) .pi) (.par n!"alpha_e")))))) (.div (.div (.div (.sqrt (.rat 2 1)) (.par n!"GF")) (.mul (.ckm 2 2) (.conj (.ckm 2 1)))) (.rat 4 1)))) (.rat 3 1))))),
  (n!"9pdsuu", (.mul (.div (.div (.sqrt (.rat 2 1)) (.par n!"GF")) (.rat 4 1)) (.sub (.add (.sub (.div (.mul (.mul (.div (.mul (.rat 4 1) (.par n!"GF")) (.sqrt (.rat 2 1))) (.mul (.ckm 2 1) (.conj (.ckm 2 0)))) (.inp n!"CSLL_sduu")) (.rat 48 1)) (.div (.mul (.mul (.div (.mul (.rat 4 1) (.par n!"GF")) (.sqrt (.rat 2 1))) (.mul (.ckm 2 1) (.conj (.ckm 2 0)))) (.inp n!"CSLR_sduu")) (.rat 48 1))) (.div (.mul (.mul (.div (.mul (.rat 4 1) (.par n!"GF")) (.sqrt (.rat 2 1))) (.mul (.ckm 2 1) (.conj (.ckm 2 0)))) (.inp n!"CSLLt_sduu")) (.mul (.rat 48 1) (.rat 3 1)))) (.div (.mul (.mul (.div (.mul (.rat 4 1) (.par n!"GF")) (.sqrt (.rat 2 1))) (.mul (.ckm 2 1) (.conj (.ckm 2 0)))) (.inp n!"CSLRt_sduu")) (.mul (.rat 48 1) (.rat 3 1)))))),
  (n!"1dbtautau", (.mul (.div (.div (.sqrt (.rat 2 1)) (.par n!"GF")) (.rat 4 1)) (.add (.div (.mul (.rat 5 1) (.div (.div (.inp n!"C10_bdtautau") (.div (.mul (.rat 16 1) (.mul .pi .pi)) (.mul (.sqrt (.mul (.mul (.rat 4 1) .pi) (.par n!"alpha_e"))) (.sqrt (.mul (.mul (.rat 4 1) .pi) (.par n!"alpha_e")))))) (.div (.div (.div (.sqrt (.rat 2 1)) (.par n!"GF")) (.mul (.ckm 2 2) (.conj (.ckm 2 0)))) (.rat 4 1)))) (.rat 3 1)) (.div (.div (.inp n!"C9_bdtautau") (.div (.mul (.rat 16 1) (.mul .pi .pi)) (.mul (.sqrt (.mul (.mul (.rat 4 1) .pi) (.par n!"alpha_e"))) (.sqrt (.mul (.mul (.rat 4 1) .pi) (.par n!"alpha_e")))))) (.div (.div (.div (.sqrt (.rat 2 1)) (.par n!"GF")) (.mul (.ckm 2 2) (.conj (.ckm 2 0)))) (.rat 4 1)))))),
  (n!"1pubemu", (.mul (.div (.div (.sqrt (.rat 2 1)) (.par n!"GF")) (.rat 4 1)) (.div (.inp n!"CVR_buenumu") (.div (.div (.div (.neg (.sqrt (.rat 2 1))) (.par n!"GF")) (.ckm 0 2)) (.rat 4 1))))),
  (n!"5pubtautau", (.mul (.div (.div (.sqrt (.rat 2 1)) (.par n!"GF")) (.rat 4 1)) (.div (.inp n!"CSL_butaunutau") (.div (.div (.div (.neg (.sqrt (.rat 2 1))) (.par n!"GF")) (.ckm 0 2)) (.rat 4 1))))),
  (n!"5sbss", (.mul (.div (.div (.sqrt (.rat 2 1)) (.par n!"GF")) (.rat 4 1)) (.add (.div (.neg (.mul (.mul (.div (.mul (.rat 4 1) (.par n!"GF")) (.sqrt (.rat 2 1))) (.mul (.ckm 2 2) (.conj (.ckm 2 1)))) (.inp n!"CSLL_bsss"))) (.rat 3 1)) (.div (.mul (.rat 4 1) (.mul (.mul (.div (.mul (.rat 4 1) (.par n!"GF")) (.sqrt (.rat 2 1))) (.mul (.ckm 2 2) (.conj (.ckm 2 1)))) (.inp n!"CSLR_bsss"))) (.rat 3 1))))),
  (n!"7dsmumu", (.mul (.div (.div (.sqrt (.rat 2 1)) (.par n!"GF")) (.rat 4 1)) (.add (.add (.div (.mul (.rat 2 1) (.div (.div (.inp n!"CP_sdmumu") (.div (.div (.mul (.rat 16 1) (.mul .pi .pi)) (.mul (.sqrt (.mul (.mul (.rat 4 1) .pi) (.par n!"alpha_e"))) (.sqrt (.mul (.mul (.rat 4 1) .pi) (.par n!"alpha_e"))))) (.par n!"m_s"))) (.div (.div (.div (.sqrt (.rat 2 1)) (.par n!"GF")) (.mul (.ckm 2 1) (.conj (.ckm 2 0)))) (.rat 4 1)))) (.rat 3 1)) (.div (.rat 0 1) (.div (.div (.div (.sqrt (.rat 2 1)) (.par n!"GF")) (.mul (.ckm 2 1) (.conj (.ckm 2 0)))) (.rat 4 1)))) (.div (.rat 0 1) (.div (.div (.div (.sqrt (.rat 2 1)) (.par n!"GF")) (.mul (.ckm 2 1) (.conj (.ckm 2 0)))) (.rat 4 1)))))),
  (n!"1pdsss", (.mul (.div (.div (.sqrt (.rat 2 1)) (.par n!"GF")) (.rat 4 1)) (.add (.div (.neg (.mul (.mul (.div (.mul (.rat 4 1) (.par n!"GF")) (.sqrt (.rat 2 1))) (.mul (.ckm 2 1) (.conj (.ckm 2 0)))) (.inp n!"CVRR_sdss"))) (.rat 3 1)) (.div (.mul (.rat 4 1) (.mul (.mul (.div (.mul (.rat 4 1) (.par n!"GF")) (.sqrt (.rat 2 1))) (.mul (.ckm 2 1) (.conj (.ckm 2 0)))) (.inp n!"CVRL_sdss"))) (.rat 3 1))))),
  (n!"2sbsb", (.mul (.div (.div (.sqrt (.rat 2 1)) (.par n!"GF")) (.rat 4 1)) (.sub (.inp n!"CSLL_bsbs") (.mul (.rat 4 1) (.inp n!"CTLL_bsbs"))))),
  (n!"nu1dbetau", (.mul (.div (.div (.sqrt (.rat 2 1)) (.par n!"GF")) (.rat 4 1)) (.div (.div (.inp n!"CL_bdnutaunue") (.div (.mul (.rat 8 1) (.mul .pi .pi)) (.mul (.sqrt (.mul (.mul (.rat 4 1) .pi) (.par n!"alpha_e"))) (.sqrt (.mul (.mul (.rat 4 1) .pi) (.par n!"alpha_e")))))) (.div (.div (.div (.sqrt (.rat 2 1)) (.par n!"GF")) (.mul (.ckm 2 2) (.conj (.ckm 2 0)))) (.rat 4 1))))),
  (n!"1sbmumu", (.mul (.div (.div (.sqrt (.rat 2 1)) (.par n!"GF")) (.rat 4 1)) (.add (.div (.mul (.rat 5 1) (.div (.div (.inp n!"C10_bsmumu") (.div (.mul (.rat 16 1) (.mul .pi .pi)) (.mul (.sqrt (.mul (.mul (.rat 4 1) .pi) (.par n!"alpha_e"))) (.sqrt (.mul (.mul (.rat 4 1) .pi) (.par n!"alpha_e")))))) (.div (.div (.div (.sqrt (.rat 2 1)) (.par n!"GF")) (.mul (.ckm 2 2) (.conj (.ckm 2 1)))) (.rat 4 1)))) (.rat 3 1)) (.div (.div (.inp n!"C9_bsmumu") (.div (.mul (.rat 16 1) (.mul .pi .pi)) (.mul (.sqrt (.mul (.mul (.rat 4 1) .pi) (.par n!"alpha_e"))) (.sqrt (.mul (.mul (.rat 4 1) .pi) (.par n!"alpha_e")))))) (.div (.div (.div (.sqrt (.rat 2 1)) (.par n!"GF")) (.mul (.ckm 2 2) (.conj (.ckm 2 1)))) (.rat 4 1)))))),
  (n!"1psbemu", (.mul (.div (.div (.sqrt (.rat 2 1)) (.par n!"GF")) (.rat 4 1)) (.sub (.div (.div (.inp n!"C9p_bsmue") (.div (.mul (.rat 16 1) (.mul .pi .pi)) (.mul (.sqrt (.mul (.mul (.rat 4 1) .pi) (.par n!"alpha_e"))) (.sqrt (.mul (.mul (.rat 4 1) .pi) (.par n!"alpha_e")))))) (.div (.div (.div (.sqrt (.rat 2 1)) (.par n!"GF")) (.mul (.ckm 2 2) (.conj (.ckm 2 1)))) (.rat 4 1))) (.div (.mul (.rat 5 1) (.div (.div (.inp n!"C10p_bsmue") (.div (.mul (.rat 16 1) (.mul .pi .pi)) (.mul (.sqrt (.mul (.mul (.rat 4 1) .pi) (.par n!"alpha_e"))) (.sqrt (.mul (.mul (.rat 4 1) .pi) (.par n!"alpha_e")))))) (.div (.div (.div (.sqrt (.rat 2 1)) (.par n!"GF")) (.mul (.ckm 2 2) (.conj (.ckm 2 1)))) (.rat 4 1)))) (.rat 3 1))))),
  (n!"3sbss", (.mul (.div (.div (.sqrt (.rat 2 1)) (.par n!"GF")) (.rat 4 1)) (.sub (.div (.mul (.mul (.div (.mul (.rat 4 1) (.par n!"GF")) (.sqrt (.rat 2 1))) (.mul (.ckm 2 2) (.conj (.ckm 2 1)))) (.inp n!"CVLL_bsss")) (.rat 12 1)) (.div (.mul (.mul (.div (.mul (.rat 4 1) (.par n!"GF")) (.sqrt (.rat 2 1))) (.mul (.ckm 2 2) (.conj (.ckm 2 1)))) (.inp n!"CVLR_bsss")) (.rat 12 1))))),
  (n!"7pudmue", (.mul (.div (.div (.sqrt (.rat 2 1)) (.par n!"GF")) (.rat 4 1)) (.div (.inp n!"CT_dumunue") (.div (.div (.div (.neg (.sqrt (.rat 2 1))) (.par n!"GF")) (.ckm 0 0)) (.rat 4 1))))),
  (n!"7pdstautau", (.mul (.div (.div (.sqrt (.rat 2 1)) (.par n!"GF")) (.rat 4 1)) (.sub (.add (.div (.mul (.rat (-2) 1) (.div (.div (.inp n!"CPp_sdtautau") (.div (.div (.mul (.rat 16 1) (.mul .pi .pi)) (.mul (.sqrt (.mul (.mul (.rat 4 1) .pi) (.par n!"alpha_e"))) (.sqrt (.mul (.mul (.rat 4 1) .pi) (.par n!"alpha_e"))))) (.par n!"m_s"))) (.div (.div (.div (.sqrt (.rat 2 1)) (.par n!"GF")) (.mul (.ckm 2 1) (.conj (.ckm 2 0)))) (.rat 4 1)))) (.rat 3 1)) (.div (.rat 0 1) (.div (.div (.div (.sqrt (.rat 2 1)) (.par n!"GF")) (.mul (.ckm 2 1) (.conj (.ckm 2 0)))) (.rat 4 1)))) (.div (.rat 0 1) (.div (.div (.div (.sqrt (.rat 2 1)) (.par n!"GF")) (.mul (.ckm 2 1) (.conj (.ckm 2 0)))) (.rat 4 1)))))),
  (n!"1pcbtautau", (.mul (.div (.div (.sqrt (.rat 2 1)) (.par n!"GF")) (.rat 4 1)) (.div (.inp n!"CVR_bctaunutau") (.div (.div (.div (.neg (.sqrt (.rat 2 1))) (.par n!"GF")) (.ckm 1 2)) (.rat 4 1))))),
  (n!"9sbetau", (.mul (.div (.div (.sqrt (.rat 2 1)) (.par n!"GF")) (.rat 4 1)) (.div (.div (.div (.inp n!"CP_bstaue") (.div (.div (.mul (.rat 16 1) (.mul .pi .pi)) (.mul (.sqrt (.mul (.mul (.rat 4 1) .pi) (.par n!"alpha_e"))) (.sqrt (.mul (.mul (.rat 4 1) .pi) (.par n!"alpha_e"))))) (.par n!"m_b"))) (.div (.div (.div (.sqrt (.rat 2 1)) (.par n!"GF")) (.mul (.ckm 2 2) (.conj (.ckm 2 1)))) (.rat 4 1))) (.rat 24 1)))),
  (n!"1sbss", (.mul (.div (.div (.sqrt (.rat 2 1)) (.par n!"GF")) (.rat 4 1)) (.add (.div (.neg (.mul (.mul (.div (.mul (.rat 4 1) (.par n!"GF")) (.sqrt (.rat 2 1))) (.mul (.ckm 2 2) (.conj (.ckm 2 1)))) (.inp n!"CVLL_bsss"))) (.rat 3 1)) (.div (.mul (.rat 4 1) (.mul (.mul (.div (.mul (.rat 4 1) (.par n!"GF")) (.sqrt (.rat 2 1))) (.mul (.ckm 2 2) (.conj (.ckm 2 1)))) (.inp n!"CVLR_bsss"))) (.rat 3 1))))),
  (n!"7psbdd", (.mul (.div (.div (.sqrt (.rat 2 1)) (.par n!"GF")) (.rat 4 1)) (.sub (.add (.add (.add (.sub (.div (.mul (.mul (.div (.mul (.rat 4 1) (.par n!"GF")) (.sqrt (.rat 2 1))) (.mul (.ckm 2 2) (.conj (.ckm 2 1)))) (.inp n!"CSLL_bsdd")) (.rat 3 1)) (.div (.mul (.mul (.div (.mul (.rat 4 1) (.par n!"GF")) (.sqrt (.rat 2 1))) (.mul (.ckm 2 2) (.conj (.ckm 2 1)))) (.inp n!"CSLR_bsdd")) (.rat 3 1))) (.mul (.mul (.div (.mul (.rat 4 1) (.par n!"GF")) (.sqrt (.rat 2 1))) (.mul (.ckm 2 2) (.conj (.ckm 2 1)))) (.inp n!"CTLL_bsdd"))) (.div (.mul (.mul (.div (.mul (.rat 4 1) (.par n!"GF")) (.sqrt (.rat 2 1))) (.mul (.ckm 2 2) (.conj (.ckm 2 1)))) (.inp n!"CTLLt_bsdd")) (.rat 3 1))) (.div (.mul (.mul (.div (.mul (.rat 4 1) (.par n!"GF")) (.sqrt (.rat 2 1))) (.mul (.ckm 2 2) (.conj (.ckm 2 1)))) (.inp n!"CSLLt_bsdd")) (.mul (.rat 3 1) (.rat 3 1)))) (.div (.mul (.mul (.div (.mul (.rat 4 1) (.par n!"GF")) (.sqrt (.rat 2 1))) (.mul (.ckm 2 2) (.conj (.ckm 2 1)))) (.inp n!"CSLRt_bsdd")) (.mul (.rat 3 1) (.rat 3 1)))))),
  (n!"9dsbb", (.mul (.div (.div (.sqrt (.rat 2 1)) (.par n!"GF")) (.rat 4 1)) (.sub (.add (.sub (.div (.mul (.mul (.div (.mul (.rat 4 1) (.par n!"GF")) (.sqrt (.rat 2 1))) (.mul (.ckm 2 1) (.conj (.ckm 2 0)))) (.inp n!"CSRR_sdbb")) (.rat 48 1)) (.div (.mul (.mul (.div (.mul (.rat 4 1) (.par n!"GF")) (.sqrt (.rat 2 1))) (.mul (.ckm 2 1) (.conj (.ckm 2 0)))) (.inp n!"CSRL_sdbb")) (.rat 48 1))) (.div (.mul (.mul (.div (.mul (.rat 4 1) (.par n!"GF")) (.sqrt (.rat 2 1))) (.mul (.ckm 2 1) (.conj (.ckm 2 0)))) (.inp n!"CSRRt_sdbb")) (.mul (.rat 48 1) (.rat 3 1)))) (.div (.mul (.mul (.div (.mul (.rat 4 1) (.par n!"GF")) (.sqrt (.rat 2 1))) (.mul (.ckm 2 1) (.conj (.ckm 2 0)))) (.inp n!"CSRLt_sdbb")) (.mul (.rat 48 1) (.rat 3 1)))))),
  (n!"3psbcc", (.mul (.div (.div (.sqrt (.rat 2 1)) (.par n!"GF")) (.rat 4 1)) (.sub (.add (.sub (.div (.mul (.mul (.div (.mul (.rat 4 1) (.par n!"GF")) (.sqrt (.rat 2 1))) (.mul (.ckm 2 2) (.conj (.ckm 2 1)))) (.inp n!"CVRR_bscc")) (.rat 12 1)) (.div (.mul (.mul (.div (.mul (.rat 4 1) (.par n!"GF")) (.sqrt (.rat 2 1))) (.mul (.ckm 2 2) (.conj (.ckm 2 1)))) (.inp n!"CVRL_bscc")) (.rat 12 1))) (.div (.mul (.mul (.div (.mul (.rat 4 1) (.par n!"GF")) (.sqrt (.rat 2 1))) (.mul (.ckm 2 2) (.conj (.ckm 2 1)))) (.inp n!"CVRRt_bscc")) (.mul (.rat 12 1) (.rat 3 1)))) (.div (.mul (.mul (.div (.mul (.rat 4 1) (.par n!"GF")) (.sqrt (.rat 2 1))) (.mul (.ckm 2 2) (.conj (.ckm 2 1)))) (.inp n!"CVRLt_bscc")) (.mul (.rat 12 1) (.rat 3 1)))))),
  (n!"1psbtaue", (.mul (.div (.div (.sqrt (.rat 2 1)) (.par n!"GF")) (.rat 4 1)) (.sub (.div (.div (.inp n!"C9p_bsetau") (.div (.mul (.rat 16 1) (.mul .pi .pi)) (.mul (.sqrt (.mul (.mul (.rat 4 1) .pi) (.par n!"alpha_e"))) (.sqrt (.mul (.mul (.rat 4 1) .pi) (.par n!"alpha_e")))))) (.div (.div (.div (.sqrt (.rat 2 1)) (.par n!"GF")) (.mul (.ckm 2 2) (.conj (.ckm 2 1)))) (.rat 4 1))) (.div (.mul (.rat 5 1) (.div (.div (.inp n!"C10p_bsetau") (.div (.mul (.rat 16 1) (.mul .pi .pi)) (.mul (.sqrt (.mul (.mul (.rat 4 1) .pi) (.par n!"alpha_e"))) (.sqrt (.mul (.mul (.rat 4 1) .pi) (.par n!"alpha_e")))))) (.div (.div (.div (.sqrt (.rat 2 1)) (.par n!"GF")) (.mul (.ckm 2 2) (.conj (.ckm 2 1)))) (.rat 4 1)))) (.rat 3 1))))),
  (n!"3dbtaue", (.mul (.div (.div (.sqrt (.rat 2 1)) (.par n!"GF")) (.rat 4 1)) (.div (.neg (.div (.div (.inp n!"C10_bdetau") (.div (.mul (.rat 16 1) (.mul .pi .pi)) (.mul (.sqrt (.mul (.mul (.rat 4 1) .pi) (.par n!"alpha_e"))) (.sqrt (.mul (.mul (.rat 4 1) .pi) (.par n!"alpha_e")))))) (.div (.div (.div (.sqrt (.rat 2 1)) (.par n!"GF")) (.mul (.ckm 2 2) (.conj (.ckm 2 0)))) (.rat 4 1)))) (.rat 6 1)))),
  (n!"1cbmue", (.mul (.div (.div (.sqrt (.rat 2 1)) (.par n!"GF")) (.rat 4 1)) (.div (.inp n!"CVL_bcmunue") (.div (.div (.div (.neg (.sqrt (.rat 2 1))) (.par n!"GF")) (.ckm 1 2)) (.rat 4 1))))),
  (n!"1pcsmue", (.mul (.div (.div (.sqrt (.rat 2 1)) (.par n!"GF")) (.rat 4 1)) (.div (.inp n!"CVR_scmunue") (.div (.div (.div (.neg (.sqrt (.rat 2 1))) (.par n!"GF")) (.ckm 1 1)) (.rat 4 1))))),
  (n!"7pcbtaumu", (.mul (.div (.div (.sqrt (.rat 2 1)) (.par n!"GF")) (.rat 4 1)) (.div (.inp n!"CT_bctaunumu") (.div (.div (.div (.neg (.sqrt (.rat 2 1))) (.par n!"GF")) (.ckm 1 2)) (.rat 4 1))))),
  (n!"6pdbcc", (.mul (.div (.div (.sqrt (.rat 2 1)) (.par n!"GF")) (.rat 4 1)) (.add (.div (.mul (.rat (-2) 1) (.mul (.mul (.div (.mul (.rat 4 1) (.par n!"GF")) (.sqrt (.rat 2 1))) (.mul (.ckm 2 2) (.conj (.ckm 2 0)))) (.inp n!"CSLLt_bdcc"))) (.rat 3 1)) (.div (.mul (.rat 8 1) (.mul (.mul (.div (.mul (.rat 4 1) (.par n!"GF")) (.sqrt (.rat 2 1))) (.mul (.ckm 2 2) (.conj (.ckm 2 0)))) (.inp n!"CSLRt_bdcc"))) (.rat 3 1))))),
  (n!"7dsbb", (.mul (.div (.div (.sqrt (.rat 2 1)) (.par n!"GF")) (.rat 4 1)) (.sub (.add (.add (.add (.sub (.div (.mul (.mul (.div (.mul (.rat 4 1) (.par n!"GF")) (.sqrt (.rat 2 1))) (.mul (.ckm 2 1) (.conj (.ckm 2 0)))) (.inp n!"CSRR_sdbb")) (.rat 3 1)) (.div (.mul (.mul (.div (.mul (.rat 4 1) (.par n!"GF")) (.sqrt (.rat 2 1))) (.mul (.ckm 2 1) (.conj (.ckm 2 0)))) (.inp n!"CSRL_sdbb")) (.rat 3 1))) (.mul (.mul (.div (.mul (.rat 4 1) (.par n!"GF")) (.sqrt (.rat 2 1))) (.mul (.ckm 2 1) (.conj (.ckm 2 0)))) (.inp n!"CTRR_sdbb"))) (.div (.mul (.mul (.div (.mul (.rat 4 1) (.par n!"GF")) (.sqrt (.rat 2 1))) (.mul (.ckm 2 1) (.conj (.ckm 2 0)))) (.inp n!"CTRRt_sdbb")) (.rat 3 1))) (.div (.mul (.mul (.div (.mul (.rat 4 1) (.par n!"GF")) (.sqrt (.rat 2 1))) (.mul (.ckm 2 1) (.conj (.ckm 2 0)))) (.inp n!"CSRRt_sdbb")) (.mul (.rat 3 1) (.rat 3 1)))) (.div (.mul (.mul (.div (.mul (.rat 4 1) (.par n!"GF")) (.sqrt (.rat 2 1))) (.mul (.ckm 2 1) (.conj (.ckm 2 0)))) (.inp n!"CSRLt_sdbb")) (.mul (.rat 3 1) (.rat 3 1)))))),
  (n!"5dsbb", (.mul (.div (.div (.sqrt (.rat 2 1)) (.par n!"GF")) (.rat 4 1)) (.add (.sub (.add (.div (.neg (.mul (.mul (.div (.mul (.rat 4 1) (.par n!"GF")) (.sqrt (.rat 2 1))) (.mul (.ckm 2 1) (.conj (.ckm 2 0)))) (.inp n!"CSRR_sdbb"))) (.rat 3 1)) (.div (.mul (.rat 4 1) (.mul (.mul (.div (.mul (.rat 4 1) (.par n!"GF")) (.sqrt (.rat 2 1))) (.mul (.ckm 2 1) (.conj (.ckm 2 0)))) (.inp n!"CSRL_sdbb"))) (.rat 3 1))) (.div (.mul (.mul (.div (.mul (.rat 4 1) (.par n!"GF")) (.sqrt (.rat 2 1))) (.mul (.ckm 2 1) (.conj (.ckm 2 0)))) (.inp n!"CSRRt_sdbb")) (.mul (.rat 3 1) (.rat 3 1)))) (.div (.mul (.rat 4 1) (.mul (.mul (.div (.mul (.rat 4 1) (.par n!"GF")) (.sqrt (.rat 2 1))) (.mul (.ckm 2 1) (.conj (.ckm 2 0)))) (.inp n!"CSRLt_sdbb"))) (.mul (.rat 3 1) (.rat 3 1)))))),
  (n!"5dbemu", (.mul (.div (.div (.sqrt (.rat 2 1)) (.par n!"GF")) (.rat 4 1)) (.sub (.div (.div (.inp n!"CS_bdmue") (.div (.div (.mul (.rat 16 1) (.mul .pi .pi)) (.mul (.sqrt (.mul (.mul (.rat 4 1) .pi) (.par n!"alpha_e"))) (.sqrt (.mul (.mul (.rat 4 1) .pi) (.par n!"alpha_e"))))) (.par n!"m_b"))) (.div (.div (.div (.sqrt (.rat 2 1)) (.par n!"GF")) (.mul (.ckm 2 2) (.conj (.ckm 2 0)))) (.rat 4 1))) (.div (.mul (.rat 5 1) (.div (.div (.inp n!"CP_bdmue") (.div (.div (.mul (.rat 16 1) (.mul .pi .pi)) (.mul (.sqrt (.mul (.mul (.rat 4 1) .pi) (.par n!"alpha_e"))) (.sqrt (.mul (.mul (.rat 4 1) .pi) (.par n!"alpha_e"))))) (.par n!"m_b"))) (.div (.div (.div (.sqrt (.rat 2 1)) (.par n!"GF")) (.mul (.ckm 2 2) (.conj (.ckm 2 0)))) (.rat 4 1)))) (.rat 3 1))))),
  (n!"3dsbb", (.mul (.div (.div (.sqrt (.rat 2 1)) (.par n!"GF")) (.rat 4 1)) (.sub (.add (.sub (.div (.mul (.mul (.div (.mul (.rat 4 1) (.par n!"GF")) (.sqrt (.rat 2 1))) (.mul (.ckm 2 1) (.conj (.ckm 2 0)))) (.inp n!"CVLL_sdbb")) (.rat 12 1)) (.div (.mul (.mul (.div (.mul (.rat 4 1) (.par n!"GF")) (.sqrt (.rat 2 1))) (.mul (.ckm 2 1) (.conj (.ckm 2 0)))) (.inp n!"CVLR_sdbb")) (.rat 12 1))) (.div (.mul (.mul (.div (.mul (.rat 4 1) (.par n!"GF")) (.sqrt (.rat 2 1))) (.mul (.ckm 2 1) (.conj (.ckm 2 0)))) (.inp n!"CVLLt_sdbb")) (.mul (.rat 12 1) (.rat 3 1)))) (.div (.mul (.mul (.div (.mul (.rat 4 1) (.par n!"GF")) (.sqrt (.rat 2 1))) (.mul (.ckm 2 1) (.conj (.ckm 2 0)))) (.inp n!"CVLRt_sdbb")) (.mul (.rat 12 1) (.rat 3 1)))))),
  (n!"5dsmumu", (.mul (.div (.div (.sqrt (.rat 2 1)) (.par n!"GF")) (.rat 4 1)) (.sub (.div (.div (.inp n!"CS_sdmumu") (.div (.div (.mul (.rat 16 1) (.mul .pi .pi)) (.mul (.sqrt (.mul (.mul (.rat 4 1) .pi) (.par n!"alpha_e"))) (.sqrt (.mul (.mul (.rat 4 1) .pi) (.par n!"alpha_e"))))) (.par n!"m_s"))) (.div (.div (.div (.sqrt (.rat 2 1)) (.par n!"GF")) (.mul (.ckm 2 1) (.conj (.ckm 2 0)))) (.rat 4 1))) (.div (.mul (.rat 5 1) (.div (.div (.inp n!"CP_sdmumu") (.div (.div (.mul (.rat 16 1) (.mul .pi .pi)) (.mul (.sqrt (.mul (.mul (.rat 4 1) .pi) (.par n!"alpha_e"))) (.sqrt (.mul (.mul (.rat 4 1) .pi) (.par n!"alpha_e"))))) (.par n!"m_s"))) (.div (.div (.div (.sqrt (.rat 2 1)) (.par n!"GF")) (.mul (.ckm 2 1) (.conj (.ckm 2 0)))) (.rat 4 1)))) (.rat 3 1))))),
  (n!"1pubtaumu", (.mul (.div (.div (.sqrt (.rat 2 1)) (.par n!"GF")) (.rat 4 1)) (.div (.inp n!"CVR_butaunumu") (.div (.div (.div (.neg (.sqrt (.rat 2 1))) (.par n!"GF")) (.ckm 0 2)) (.rat 4 1))))),
  (n!"nu1pdbtautau", (.mul (.div (.div (.sqrt (.rat 2 1)) (.par n!"GF")) (.rat 4 1)) (.div (.div (.inp n!"CR_bdnutaunutau") (.div (.mul (.rat 8 1) (.mul .pi .pi)) (.mul (.sqrt (.mul (.mul (.rat 4 1) .pi) (.par n!"alpha_e"))) (.sqrt (.mul (.mul (.rat 4 1) .pi) (.par n!"alpha_e")))))) (.div (.div (.div (.sqrt (.rat 2 1)) (.par n!"GF")) (.mul (.ckm 2 2) (.conj (.ckm 2 0)))) (.rat 4 1))))),
  (n!"1dsbb", (.mul (.div (.div (.sqrt (.rat 2 1)) (.par n!"GF")) (.rat 4 1)) (.add (.sub (.add (.div (.neg (.mul (.mul (.div (.mul (.rat 4 1) (.par n!"GF")) (.sqrt (.rat 2 1))) (.mul (.ckm 2 1) (.conj (.ckm 2 0)))) (.inp n!"CVLL_sdbb"))) (.rat 3 1)) (.div (.mul (.rat 4 1) (.mul (.mul (.div (.mul (.rat 4 1) (.par n!"GF")) (.sqrt (.rat 2 1))) (.mul (.ckm 2 1) (.conj (.ckm 2 0)))) (.inp n!"CVLR_sdbb"))) (.rat 3 1))) (.div (.mul (.mul (.div (.mul (.rat 4 1) (.par n!"GF")) (.sqrt (.rat 2 1))) (.mul (.ckm 2 1) (.conj (.ckm 2 0)))) (.inp n!"CVLLt_sdbb")) (.mul (.rat 3 1) (.rat 3 1)))) (.div (.mul (.rat 4 1) (.mul (.mul (.div (.mul (.rat 4 1) (.par n!"GF")) (.sqrt (.rat 2 1))) (.mul (.ckm 2 1) (.conj (.ckm 2 0)))) (.inp n!"CVLRt_sdbb"))) (.mul (.rat 3 1) (.rat 3 1)))))),
  (n!"1dbmutau", (.mul (.div (.div (.sqrt (.rat 2 1)) (.par n!"GF")) (.rat 4 1)) (.add (.div (.mul (.rat 5 1) (.div (.div (.inp n!"C10_bdtaumu") (.div (.mul (.rat 16 1) (.mul .pi .pi)) (.mul (.sqrt (.mul (.mul (.rat 4 1) .pi) (.par n!"alpha_e"))) (.sqrt (.mul (.mul (.rat 4 1) .pi) (.par n!"alpha_e")))))) (.div (.div (.div (.sqrt (.rat 2 1)) (.par n!"GF")) (.mul (.ckm 2 2) (.conj (.ckm 2 0)))) (.rat 4 1)))) (.rat 3 1)) (.div (.div (.inp n!"C9_bdtaumu") (.div (.mul (.rat 16 1) (.mul .pi .pi)) (.mul (.sqrt (.mul (.mul (.rat 4 1) .pi) (.par n!"alpha_e"))) (.sqrt (.mul (.mul (.rat 4 1) .pi) (.par n!"alpha_e")))))) (.div (.div (.div (.sqrt (.rat 2 1)) (.par n!"GF")) (.mul (.ckm 2 2) (.conj (.ckm 2 0)))) (.rat 4 1)))))),
  (n!"5pudmue", (.mul (.div (.div (.sqrt (.rat 2 1)) (.par n!"GF")) (.rat 4 1)) (.div (.inp n!"CSL_dumunue") (.div (.div (.div (.neg (.sqrt (.rat 2 1))) (.par n!"GF")) (.ckm 0 0)) (.rat 4 1))))),
  (n!"1usmumu", (.mul (.div (.div (.sqrt (.rat 2 1)) (.par n!"GF")) (.rat 4 1)) (.div (.inp n!"CVL_sumunumu") (.div (.div (.div (.neg (.sqrt (.rat 2 1))) (.par n!"GF")) (.ckm 0 1)) (.rat 4 1))))),
  (n!"3psbuu", (.mul (.div (.div (.sqrt (.rat 2 1)) (.par n!"GF")) (.rat 4 1)) (.sub (.add (.sub (.div (.mul (.mul (.div (.mul (.rat 4 1) (.par n!"GF")) (.sqrt (.rat 2 1))) (.mul (.ckm 2 2) (.conj (.ckm 2 1)))) (.inp n!"CVRR_bsuu")) (.rat 12 1)) (.div (.mul (.mul (.div (.mul (.rat 4 1) (.par n!"GF")) (.sqrt (.rat 2 1))) (.mul (.ckm 2 2) (.conj (.ckm 2 1)))) (.inp n!"CVRL_bsuu")) (.rat 12 1))) (.div (.mul (.mul (.div (.mul (.rat 4 1) (.par n!"GF")) (.sqrt (.rat 2 1))) (.mul (.ckm 2 2) (.conj (.ckm 2 1)))) (.inp n!"CVRRt_bsuu")) (.mul (.rat 12 1) (.rat 3 1)))) (.div (.mul (.mul (.div (.mul (.rat 4 1) (.par n!"GF")) (.sqrt (.rat 2 1))) (.mul (.ckm 2 2) (.conj (.ckm 2 1)))) (.inp n!"CVRLt_bsuu")) (.mul (.rat 12 1) (.rat 3 1)))))),
  (n!"7sbetau", (.mul (.div (.div (.sqrt (.rat 2 1)) (.par n!"GF")) (.rat 4 1)) (.add (.add (.div (.mul (.rat 2 1) (.div (.div (.inp n!"CP_bstaue") (.div (.div (.mul (.rat 16 1) (.mul .pi .pi)) (.mul (.sqrt (.mul (.mul (.rat 4 1) .pi) (.par n!"alpha_e"))) (.sqrt (.mul (.mul (.rat 4 1) .pi) (.par n!"alpha_e"))))) (.par n!"m_b"))) (.div (.div (.div (.sqrt (.rat 2 1)) (.par n!"GF")) (.mul (.ckm 2 2) (.conj (.ckm 2 1)))) (.rat 4 1)))) (.rat 3 1)) (.div (.rat 0 1) (.div (.div (.div (.sqrt (.rat 2 1)) (.par n!"GF")) (.mul (.ckm 2 2) (.conj (.ckm 2 1)))) (.rat 4 1)))) (.div (.rat 0 1) (.div (.div (.div (.sqrt (.rat 2 1)) (.par n!"GF")) (.mul (.ckm 2 2) (.conj (.ckm 2 1)))) (.rat 4 1)))))),
  (n!"5pdsmumu", (.mul (.div (.div (.sqrt (.rat 2 1)) (.par n!"GF")) (.rat 4 1)) (.add (.div (.mul (.rat 5 1) (.div (.div (.inp n!"CPp_sdmumu") (.div (.div (.mul (.rat 16 1) (.mul .pi .pi)) (.mul (.sqrt (.mul (.mul (.rat 4 1) .pi) (.par n!"alpha_e"))) (.sqrt (.mul (.mul (.rat 4 1) .pi) (.par n!"alpha_e"))))) (.par n!"m_s"))) (.div (.div (.div (.sqrt (.rat 2 1)) (.par n!"GF")) (.mul (.ckm 2 1) (.conj (.ckm 2 0)))) (.rat 4 1)))) (.rat 3 1)) (.div (.div (.inp n!"CSp_sdmumu") (.div (.div (.mul (.rat 16 1) (.mul .pi .pi)) (.mul (.sqrt (.mul (.mul (.rat 4 1) .pi) (.par n!"alpha_e"))) (.sqrt (.mul (.mul (.rat 4 1) .pi) (.par n!"alpha_e"))))) (.par n!"m_s"))) (.div (.div (.div (.sqrt (.rat 2 1)) (.par n!"GF")) (.mul (.ckm 2 1) (.conj (.ckm 2 0)))) (.rat 4 1)))))),
  (n!"7gammasb", (.mul (.div (.div (.sqrt (.rat 2 1)) (.par n!"GF")) (.rat 4 1)) (.mul (.div (.div (.mul (.sqrt (.mul (.mul (.rat 4 1) .pi) (.par n!"alpha_s"))) (.sqrt (.mul (.mul (.rat 4 1) .pi) (.par n!"alpha_s")))) (.sqrt (.mul (.mul (.rat 4 1) .pi) (.par n!"alpha_e")))) (.par n!"m_b")) (.div (.div (.inp n!"C7_bs") (.div (.div (.mul (.rat 16 1) (.mul .pi .pi)) (.sqrt (.mul (.mul (.rat 4 1) .pi) (.par n!"alpha_e")))) (.par n!"m_b"))) (.div (.div (.div (.sqrt (.rat 2 1)) (.par n!"GF")) (.mul (.ckm 2 2) (.conj (.ckm 2 1)))) (.rat 4 1)))))),
  (n!"2pdsds", (.mul (.div (.div (.sqrt (.rat 2 1)) (.par n!"GF")) (.rat 4 1)) (.sub (.inp n!"CSRR_sdsd") (.mul (.rat 4 1) (.inp n!"CTRR_sdsd"))))),
  (n!"6pdbuu", (.mul (.div (.div (.sqrt (.rat 2 1)) (.par n!"GF")) (.rat 4 1)) (.add (.div (.mul (.rat (-2) 1) (.mul (.mul (.div (.mul (.rat 4 1) (.par n!"GF")) (.sqrt (.rat 2 1))) (.mul (.ckm 2 2) (.conj (.ckm 2 0)))) (.inp n!"CSLLt_bduu"))) (.rat 3 1)) (.div (.mul (.rat 8 1) (.mul (.mul (.div (.mul (.rat 4 1) (.par n!"GF")) (.sqrt (.rat 2 1))) (.mul (.ckm 2 2) (.conj (.ckm 2 0)))) (.inp n!"CSLRt_bduu"))) (.rat 3 1))))),
  (n!"5dstautau", (.mul (.div (.div (.sqrt (.rat 2 1)) (.par n!"GF")) (.rat 4 1)) (.sub (.div (.div (.inp n!"CS_sdtautau") (.div (.div (.mul (.rat 16 1) (.mul .pi .pi)) (.mul (.sqrt (.mul (.mul (.rat 4 1) .pi) (.par n!"alpha_e"))) (.sqrt (.mul (.mul (.rat 4 1) .pi) (.par n!"alpha_e"))))) (.par n!"m_s"))) (.div (.div (.div (.sqrt (.rat 2 1)) (.par n!"GF")) (.mul (.ckm 2 1) (.conj (.ckm 2 0)))) (.rat 4 1))) (.div (.mul (.rat 5 1) (.div (.div (.inp n!"CP_sdtautau") (.div (.div (.mul (.rat 16 1) (.mul .pi .pi)) (.mul (.sqrt (.mul (.mul (.rat 4 1) .pi) (.par n!"alpha_e"))) (.sqrt (.mul (.mul (.rat 4 1) .pi) (.par n!"alpha_e"))))) (.par n!"m_s"))) (.div (.div (.div (.sqrt (.rat 2 1)) (.par n!"GF")) (.mul (.ckm 2 1) (.conj (.ckm 2 0)))) (.rat 4 1)))) (.rat 3 1))))),
  (n!"1dbtaue", (.mul (.div (.div (.sqrt (.rat 2 1)) (.par n!"GF")) (.rat 4 1)) (.add (.div (.mul (.rat 5 1) (.div (.div (.inp n!"C10_bdetau") (.div (.mul (.rat 16 1) (.mul .pi .pi)) (.mul (.sqrt (.mul (.mul (.rat 4 1) .pi) (.par n!"alpha_e"))) (.sqrt (.mul (.mul (.rat 4 1) .pi) (.par n!"alpha_e")))))) (.div (.div (.div (.sqrt (.rat 2 1)) (.par n!"GF")) (.mul (.ckm 2 2) (.conj (.ckm 2 0)))) (.rat 4 1)))) (.rat 3 1)) (.div (.div (.inp n!"C9_bdetau") (.div (.mul (.rat 16 1) (.mul .pi .pi)) (.mul (.sqrt (.mul (.mul (.rat 4 1) .pi) (.par n!"alpha_e"))) (.sqrt (.mul (.mul (.rat 4 1) .pi) (.par n!"alpha_e")))))) (.div (.div (.div (.sqrt (.rat 2 1)) (.par n!"GF")) (.mul (.ckm 2 2) (.conj (.ckm 2 0)))) (.rat 4 1)))))),
  (n!"7pcsetau", (.mul (.div (.div (.sqrt (.rat 2 1)) (.par n!"GF")) (.rat 4 1)) (.div (.inp n!"CT_scenutau") (.div (.div (.div (.neg (.sqrt (.rat 2 1))) (.par n!"GF")) (.ckm 1 1)) (.rat 4 1))))),
  (n!"5pcbmutau", (.mul (.div (.div (.sqrt (.rat 2 1)) (.par n!"GF")) (.rat 4 1)) (.div (.inp n!"CSL_bcmunutau") (.div (.div (.div (.neg (.sqrt (.rat 2 1))) (.par n!"GF")) (.ckm 1 2)) (.rat 4 1))))),
  (n!"1pcbemu", (.mul (.div (.div (.sqrt (.rat 2 1)) (.par n!"GF")) (.rat 4 1)) (.div (.inp n!"CVR_bcenumu") (.div (.div (.div (.neg (.sqrt (.rat 2 1))) (.par n!"GF")) (.ckm 1 2)) (.rat 4 1)))))]

def flavio_to_Bern_11 : List (ℕ × Sym) := [
  (n!"1pustaue", (.mul (.div (.div (.sqrt (.rat 2 1)) (.par n!"GF")) (.rat 4 1)) (.div (.inp n!"CVR_sutaunue") (.div (.div (.div (.neg (.sqrt (.rat 2 1))) (.par n!"GF")) (.ckm 0 1)) (.rat 4 1))))),
  (n!"7psbtautau", (.mul (.div (.div (.sqrt (.rat 2 1)) (.par n!"GF")) (.rat 4 1)) (.sub (.add (.div (.mul (.rat (-2) 1) (.div (.div (.inp n!"CPp_bstautau") (.div (.div (.mul (.rat 16 1) (.mul .pi .pi)) (.mul (.sqrt (.mul (.mul (.rat 4 1) .pi) (.par n!"alpha_e"))) (.sqrt (.mul (.mul (.rat 4 1) .pi) (.par n!"alpha_e"))))) (.par n!"m_b"))) (.div (.div (.div (.sqrt (.rat 2 1)) (.par n!"GF")) (.mul (.ckm 2 2) (.conj (.ckm 2 1)))) (.rat 4 1)))) (.rat 3 1)) (.div (.rat 0 1) (.div (.div (.div (.sqrt (.rat 2 1)) (.par n!"GF")) (.mul (.ckm 2 2) (.conj (.ckm 2 1)))) (.rat 4 1)))) (.div (.rat 0 1) (.div (.div (.div (.sqrt (.rat 2 1)) (.par n!"GF")) (.mul (.ckm 2 2) (.conj (.ckm 2 1)))) (.rat 4 1)))))),
  (n!"9pdbbb", (.mul (.div (.div (.sqrt (.rat 2 1)) (.par n!"GF")) (.rat 4 1)) (.sub (.div (.mul (.mul (.div (.mul (.rat 4 1) (.par n!"GF")) (.sqrt (.rat 2 1))) (.mul (.ckm 2 2) (.conj (.ckm 2 0)))) (.inp n!"CSLL_bdbb")) (.rat 48 1)) (.div (.mul (.mul (.div (.mul (.rat 4 1) (.par n!"GF")) (.sqrt (.rat 2 1))) (.mul (.ckm 2 2) (.conj (.ckm 2 0)))) (.inp n!"CSLR_bdbb")) (.rat 48 1))))),
  (n!"7pcdmue", (.mul (.div (.div (.sqrt (.rat 2 1)) (.par n!"GF")) (.rat 4 1)) (.div (.inp n!"CT_dcmunue") (.div (.div (.div (.neg (.sqrt (.rat 2 1))) (.par n!"GF")) (.ckm 1 0)) (.rat 4 1))))),
  (n!"9sbtaumu", (.mul (.div (.div (.sqrt (.rat 2 1)) (.par n!"GF")) (.rat 4 1)) (.div (.div (.div (.inp n!"CP_bsmutau") (.div (.div (.mul (.rat 16 1) (.mul .pi .pi)) (.mul (.sqrt (.mul (.mul (.rat 4 1) .pi) (.par n!"alpha_e"))) (.sqrt (.mul (.mul (.rat 4 1) .pi) (.par n!"alpha_e"))))) (.par n!"m_b"))) (.div (.div (.div (.sqrt (.rat 2 1)) (.par n!"GF")) (.mul (.ckm 2 2) (.conj (.ckm 2 1)))) (.rat 4 1))) (.rat 24 1)))),
  (n!"9pdbetau", (.mul (.div (.div (.sqrt (.rat 2 1)) (.par n!"GF")) (.rat 4 1)) (.div (.neg (.div (.div (.inp n!"CPp_bdtaue") (.div (.div (.mul (.rat 16 1) (.mul .pi .pi)) (.mul (.sqrt (.mul (.mul (.rat 4 1) .pi) (.par n!"alpha_e"))) (.sqrt (.mul (.mul (.rat 4 1) .pi) (.par n!"alpha_e"))))) (.par n!"m_b"))) (.div (.div (.div (.sqrt (.rat 2 1)) (.par n!"GF")) (.mul (.ckm 2 2) (.conj (.ckm 2 0)))) (.rat 4 1)))) (.rat 24 1)))),
  (n!"5pcstaumu", (.mul (.div (.div (.sqrt (.rat 2 1)) (.par n!"GF")) (.rat 4 1)) (.div (.inp n!"CSL_sctaunumu") (.div (.div (.div (.neg (.sqrt (.rat 2 1))) (.par n!"GF")) (.ckm 1 1)) (.rat 4 1))))),
  (n!"7pdsee", (.mul (.div (.div (.sqrt (.rat 2 1)) (.par n!"GF")) (.rat 4 1)) (.sub (.add (.div (.mul (.rat (-2) 1) (.div (.div (.inp n!"CPp_sdee") (.div (.div (.mul (.rat 16 1) (.mul .pi .pi)) (.mul (.sqrt (.mul (.mul (.rat 4 1) .pi) (.par n!"alpha_e"))) (.sqrt (.mul (.mul (.rat 4 1) .pi) (.par n!"alpha_e"))))) (.par n!"m_s"))) (.div (.div (.div (.sqrt (.rat 2 1)) (.par n!"GF")) (.mul (.ckm 2 1) (.conj (.ckm 2 0)))) (.rat 4 1)))) (.rat 3 1)) (.div (.rat 0 1) (.div (.div (.div (.sqrt (.rat 2 1)) (.par n!"GF")) (.mul (.ckm 2 1) (.conj (.ckm 2 0)))) (.rat 4 1)))) (.div (.rat 0 1) (.div (.div (.div (.sqrt (.rat 2 1)) (.par n!"GF")) (.mul (.ckm 2 1) (.conj (.ckm 2 0)))) (.rat 4 1)))))),
  (n!"3dsmumu", (.mul (.div (.div (.sqrt (.rat 2 1)) (.par n!"GF")) (.rat 4 1)) (.div (.neg (.div (.div (.inp n!"C10_sdmumu") (.div (.mul (.rat 16 1) (.mul .pi .pi)) (.mul (.sqrt (.mul (.mul (.rat 4 1) .pi) (.par n!"alpha_e"))) (.sqrt (.mul (.mul (.rat 4 1) .pi) (.par n!"alpha_e")))))) (.div (.div (.div (.sqrt (.rat 2 1)) (.par n!"GF")) (.mul (.ckm 2 1) (.conj (.ckm 2 0)))) (.rat 4 1)))) (.rat 6 1)))),
  (n!"1psbtaumu", (.mul (.div (.div (.sqrt (.rat 2 1)) (.par n!"GF")) (.rat 4 1)) (.sub (.div (.div (.inp n!"C9p_bsmutau") (.div (.mul (.rat 16 1) (.mul .pi .pi)) (.mul (.sqrt (.mul (.mul (.rat 4 1) .pi) (.par n!"alpha_e"))) (.sqrt (.mul (.mul (.rat 4 1) .pi) (.par n!"alpha_e")))))) (.div (.div (.div (.sqrt (.rat 2 1)) (.par n!"GF")) (.mul (.ckm 2 2) (.conj (.ckm 2 1)))) (.rat 4 1))) (.div (.mul (.rat 5 1) (.div (.div (.inp n!"C10p_bsmutau") (.div (.mul (.rat 16 1) (.mul .pi .pi)) (.mul (.sqrt (.mul (.mul (.rat 4 1) .pi) (.par n!"alpha_e"))) (.sqrt (.mul (.mul (.rat 4 1) .pi) (.par n!"alpha_e")))))) (.div (.div (.div (.sqrt (.rat 2 1)) (.par n!"GF")) (.mul (.ckm 2 2) (.conj (.ckm 2 1)))) (.rat 4 1)))) (.rat 3 1))))),
  (n!"3pdsdd", (.mul (.div (.div (.sqrt (.rat 2 1)) (.par n!"GF")) (.rat 4 1)) (.sub (.div (.mul (.mul (.div (.mul (.rat 4 1) (.par n!"GF")) (.sqrt (.rat 2 1))) (.mul (.ckm 2 1) (.conj (.ckm 2 0)))) (.inp n!"CVRR_sddd")) (.rat 12 1)) (.div (.mul (.mul (.div (.mul (.rat 4 1) (.par n!"GF")) (.sqrt (.rat 2 1))) (.mul (.ckm 2 1) (.conj (.ckm 2 0)))) (.inp n!"CVRL_sddd")) (.rat 12 1))))),
  (n!"nu1psbmutau", (.mul (.div (.div (.sqrt (.rat 2 1)) (.par n!"GF")) (.rat 4 1)) (.div (.div (.inp n!"CR_bsnutaunumu") (.div (.mul (.rat 8 1) (.mul .pi .pi)) (.mul (.sqrt (.mul (.mul (.rat 4 1) .pi) (.par n!"alpha_e"))) (.sqrt (.mul (.mul (.rat 4 1) .pi) (.par n!"alpha_e")))))) (.div (.div (.div (.sqrt (.rat 2 1)) (.par n!"GF")) (.mul (.ckm 2 2) (.conj (.ckm 2 1)))) (.rat 4 1))))),
  (n!"nu1dbtautau", (.mul (.div (.div (.sqrt (.rat 2 1)) (.par n!"GF")) (.rat 4 1)) (.div (.div (.inp n!"CL_bdnutaunutau") (.div (.mul (.rat 8 1) (.mul .pi .pi)) (.mul (.sqrt (.mul (.mul (.rat 4 1) .pi) (.par n!"alpha_e"))) (.sqrt (.mul (.mul (.rat 4 1) .pi) (.par n!"alpha_e")))))) (.div (.div (.div (.sqrt (.rat 2 1)) (.par n!"GF")) (.mul (.ckm 2 2) (.conj (.ckm 2 0)))) (.rat 4 1))))),
  (n!"7sbemu", (.mul (.div (.div (.sqrt (.rat 2 1)) (.par n!"GF")) (.rat 4 1)) (.add (.add (.div (.mul (.rat 2 1) (.div (.div (.inp n!"CP_bsmue") (.div (.div (.mul (.rat 16 1) (.mul .pi .pi)) (.mul (.sqrt (.mul (.mul (.rat 4 1) .pi) (.par n!"alpha_e"))) (.sqrt (.mul (.mul (.rat 4 1) .pi) (.par n!"alpha_e"))))) (.par n!"m_b"))) (.div (.div (.div (.sqrt (.rat 2 1)) (.par n!"GF")) (.mul (.ckm 2 2) (.conj (.ckm 2 1)))) (.rat 4 1)))) (.rat 3 1)) (.div (.rat 0 1) (.div (.div (.div (.sqrt (.rat 2 1)) (.par n!"GF")) (.mul (.ckm 2 2) (.conj (.ckm 2 1)))) (.rat 4 1)))) (.div (.rat 0 1) (.div (.div (.div (.sqrt (.rat 2 1)) (.par n!"GF")) (.mul (.ckm 2 2) (.conj (.ckm 2 1)))) (.rat 4 1)))))),
  (n!"5sbetau", (.mul (.div (.div (.sqrt (.rat 2 1)) (.par n!"GF")) (.rat 4 1)) (.sub (.div (.div (.inp n!"CS_bstaue") (.div (.div (.mul (.rat 16 1) (.mul .pi .pi)) (.mul (.sqrt (.mul (.mul (.rat 4 1) .pi) (.par n!"alpha_e"))) (.sqrt (.mul (.mul (.rat 4 1) .pi) (.par n!"alpha_e"))))) (.par n!"m_b"))) (.div (.div (.div (.sqrt (.rat 2 1)) (.par n!"GF")) (.mul (.ckm 2 2) (.conj (.ckm 2 1)))) (.rat 4 1))) (.div (.mul (.rat 5 1) (.div (.div (.inp n!"CP_bstaue") (.div (.div (.mul (.rat 16 1) (.mul .pi .pi)) (.mul (.sqrt (.mul (.mul (.rat 4 1) .pi) (.par n!"alpha_e"))) (.sqrt (.mul (.mul (.rat 4 1) .pi) (.par n!"alpha_e"))))) (.par n!"m_b"))) (.div (.div (.div (.sqrt (.rat 2 1)) (.par n!"GF")) (.mul (.ckm 2 2) (.conj (.ckm 2 1)))) (.rat 4 1)))) (.rat 3 1))))),
  (n!"9pdbmue", (.mul (.div (.div (.sqrt (.rat 2 1)) (.par n!"GF")) (.rat 4 1)) (.div (.neg (.div (.div (.inp n!"CPp_bdemu") (.div (.div (.mul (.rat 16 1) (.mul .pi .pi)) (.mul (.sqrt (.mul (.mul (.rat 4 1) .pi) (.par n!"alpha_e"))) (.sqrt (.mul (.mul (.rat 4 1) .pi) (.par n!"alpha_e"))))) (.par n!"m_b"))) (.div (.div (.div (.sqrt (.rat 2 1)) (.par n!"GF")) (.mul (.ckm 2 2) (.conj (.ckm 2 0)))) (.rat 4 1)))) (.rat 24 1)))),
  (n!"1pcdetau", (.mul (.div (.div (.sqrt (.rat 2 1)) (.par n!"GF")) (.rat 4 1)) (.div (.inp n!"CVR_dcenutau") (.div (.div (.div (.neg (.sqrt (.rat 2 1))) (.par n!"GF")) (.ckm 1 0)) (.rat 4 1))))),
  (n!"5psbetau", (.mul (.div (.div (.sqrt (.rat 2 1)) (.par n!"GF")) (.rat 4 1)) (.add (.div (.mul (.rat 5 1) (.div (.div (.inp n!"CPp_bstaue") (.div (.div (.mul (.rat 16 1) (.mul .pi .pi)) (.mul (.sqrt (.mul (.mul (.rat 4 1) .pi) (.par n!"alpha_e"))) (.sqrt (.mul (.mul (.rat 4 1) .pi) (.par n!"alpha_e"))))) (.par n!"m_b"))) (.div (.div (.div (.sqrt (.rat 2 1)) (.par n!"GF")) (.mul (.ckm 2 2) (.conj (.ckm 2 1)))) (.rat 4 1)))) (.rat 3 1)) (.div (.div (.inp n!"CSp_bstaue") (.div (.div (.mul (.rat 16 1) (.mul .pi .pi)) (.mul (.sqrt (.mul (.mul (.rat 4 1) .pi) (.par n!"alpha_e"))) (.sqrt (.mul (.mul (.rat 4 1) .pi) (.par n!"alpha_e"))))) (.par n!"m_b"))) (.div (.div (.div (.sqrt (.rat 2 1)) (.par n!"GF")) (.mul (.ckm 2 2) (.conj (.ckm 2 1)))) (.rat 4 1)))))),
  (n!"1pcbetau", (.mul (.div (.div (.sqrt (.rat 2 1)) (.par n!"GF")) (.rat 4 1)) (.div (.inp n!"CVR_bcenutau") (.div (.div (.div (.neg (.sqrt (.rat 2 1))) (.par n!"GF")) (.ckm 1 2)) (.rat 4 1))))),
  (n!"5pdbss", (.mul (.div (.div (.sqrt (.rat 2 1)) (.par n!"GF")) (.rat 4 1)) (.add (.sub (.add (.div (.neg (.mul (.mul (.div (.mul (.rat 4 1) (.par n!"GF")) (.sqrt (.rat 2 1))) (.mul (.ckm 2 2) (.conj (.ckm 2 0)))) (.inp n!"CSLL_bdss"))) (.rat 3 1)) (.div (.mul (.rat 4 1) (.mul (.mul (.div (.mul (.rat 4 1) (.par n!"GF")) (.sqrt (.rat 2 1))) (.mul (.ckm 2 2) (.conj (.ckm 2 0)))) (.inp n!"CSLR_bdss"))) (.rat 3 1))) (.div (.mul (.mul (.div (.mul (.rat 4 1) (.par n!"GF")) (.sqrt (.rat 2 1))) (.mul (.ckm 2 2) (.conj (.ckm 2 0)))) (.inp n!"CSLLt_bdss")) (.mul (.rat 3 1) (.rat 3 1)))) (.div (.mul (.rat 4 1) (.mul (.mul (.div (.mul (.rat 4 1) (.par n!"GF")) (.sqrt (.rat 2 1))) (.mul (.ckm 2 2) (.conj (.ckm 2 0)))) (.inp n!"CSLRt_bdss"))) (.mul (.rat 3 1) (.rat 3 1)))))),
  (n!"5pcdmue", (.mul (.div (.div (.sqrt (.rat 2 1)) (.par n!"GF")) (.rat 4 1)) (.div (.inp n!"CSL_dcmunue") (.div (.div (.div (.neg (.sqrt (.rat 2 1))) (.par n!"GF")) (.ckm 1 0)) (.rat 4 1))))),
  (n!"5sbtautau", (.mul (.div (.div (.sqrt (.rat 2 1)) (.par n!"GF")) (.rat 4 1)) (.sub (.div (.div (.inp n!"CS_bstautau") (.div (.div (.mul (.rat 16 1) (.mul .pi .pi)) (.mul (.sqrt (.mul (.mul (.rat 4 1) .pi) (.par n!"alpha_e"))) (.sqrt (.mul (.mul (.rat 4 1) .pi) (.par n!"alpha_e"))))) (.par n!"m_b"))) (.div (.div (.div (.sqrt (.rat 2 1)) (.par n!"GF")) (.mul (.ckm 2 2) (.conj (.ckm 2 1)))) (.rat 4 1))) (.div (.mul (.rat 5 1) (.div (.div (.inp n!"CP_bstautau") (.div (.div (.mul (.rat 16 1) (.mul .pi .pi)) (.mul (.sqrt (.mul (.mul (.rat 4 1) .pi) (.par n!"alpha_e"))) (.sqrt (.mul (.mul (.rat 4 1) .pi) (.par n!"alpha_e"))))) (.par n!"m_b"))) (.div (.div (.div (.sqrt (.rat 2 1)) (.par n!"GF")) (.mul (.ckm 2 2) (.conj (.ckm 2 1)))) (.rat 4 1)))) (.rat 3 1))))),
  (n!"1dsmumu", (.mul (.div (.div (.sqrt (.rat 2 1)) (.par n!"GF")) (.rat 4 1)) (.add (.div (.mul (.rat 5 1) (.div (.div (.inp n!"C10_sdmumu") (.div (.mul (.rat 16 1) (.mul .pi .pi)) (.mul (.sqrt (.mul (.mul (.rat 4 1) .pi) (.par n!"alpha_e"))) (.sqrt (.mul (.mul (.rat 4 1) .pi) (.par n!"alpha_e")))))) (.div (.div (.div (.sqrt (.rat 2 1)) (.par n!"GF")) (.mul (.ckm 2 1) (.conj (.ckm 2 0)))) (.rat 4 1)))) (.rat 3 1)) (.div (.div (.inp n!"C9_sdmumu") (.div (.mul (.rat 16 1) (.mul .pi .pi)) (.mul (.sqrt (.mul (.mul (.rat 4 1) .pi) (.par n!"alpha_e"))) (.sqrt (.mul (.mul (.rat 4 1) .pi) (.par n!"alpha_e")))))) (.div (.div (.div (.sqrt (.rat 2 1)) (.par n!"GF")) (.mul (.ckm 2 1) (.conj (.ckm 2 0)))) (.rat 4 1)))))),
  (n!"1pdbtautau", (.mul (.div (.div (.sqrt (.rat 2 1)) (.par n!"GF")) (.rat 4 1)) (.sub (.div (.div (.inp n!"C9p_bdtautau") (.div (.mul (.rat 16 1) (.mul .pi .pi)) (.mul (.sqrt (.mul (.mul (.rat 4 1) .pi) (.par n!"alpha_e"))) (.sqrt (.mul (.mul (.rat 4 1) .pi) (.par n!"alpha_e")))))) (.div (.div (.div (.sqrt (.rat 2 1)) (.par n!"GF")) (.mul (.ckm 2 2) (.conj (.ckm 2 0)))) (.rat 4 1))) (.div (.mul (.rat 5 1) (.div (.div (.inp n!"C10p_bdtautau") (.div (.mul (.rat 16 1) (.mul .pi .pi)) (.mul (.sqrt (.mul (.mul (.rat 4 1) .pi) (.par n!"alpha_e"))) (.sqrt (.mul (.mul (.rat 4 1) .pi) (.par n!"alpha_e")))))) (.div (.div (.div (.sqrt (.rat 2 1)) (.par n!"GF")) (.mul (.ckm 2 2) (.conj (.ckm 2 0)))) (.rat 4 1)))) (.rat 3 1))))),
  (n!"3dbmue", (.mul (.div (.div (.sqrt (.rat 2 1)) (.par n!"GF")) (.rat 4 1)) (.div (.neg (.div (.div (.inp n!"C10_bdemu") (.div (.mul (.rat 16 1) (.mul .pi .pi)) (.mul (.sqrt (.mul (.mul (.rat 4 1) .pi) (.par n!"alpha_e"))) (.sqrt (.mul (.mul (.rat 4 1) .pi) (.par n!"alpha_e")))))) (.div (.div (.div (.sqrt (.rat 2 1)) (.par n!"GF")) (.mul (.ckm 2 2) (.conj (.ckm 2 0)))) (.rat 4 1)))) (.rat 6 1)))),
  (n!"10dbss", (.mul (.div (.div (.sqrt (.rat 2 1)) (.par n!"GF")) (.rat 4 1)) (.sub (.div (.mul (.mul (.div (.mul (.rat 4 1) (.par n!"GF")) (.sqrt (.rat 2 1))) (.mul (.ckm 2 2) (.conj (.ckm 2 0)))) (.inp n!"CSRRt_bdss")) (.rat 24 1)) (.div (.mul (.mul (.div (.mul (.rat 4 1) (.par n!"GF")) (.sqrt (.rat 2 1))) (.mul (.ckm 2 2) (.conj (.ckm 2 0)))) (.inp n!"CSRLt_bdss")) (.rat 24 1))))),
  (n!"1pudmue", (.mul (.div (.div (.sqrt (.rat 2 1)) (.par n!"GF")) (.rat 4 1)) (.div (.inp n!"CVR_dumunue") (.div (.div (.div (.neg (.sqrt (.rat 2 1))) (.par n!"GF")) (.ckm 0 0)) (.rat 4 1))))),
  (n!"1dbtaumu", (.mul (.div (.div (.sqrt (.rat 2 1)) (.par n!"GF")) (.rat 4 1)) (.add (.div (.mul (.rat 5 1) (.div (.div (.inp n!"C10_bdmutau") (.div (.mul (.rat 16 1) (.mul .pi .pi)) (.mul (.sqrt (.mul (.mul (.rat 4 1) .pi) (.par n!"alpha_e"))) (.sqrt (.mul (.mul (.rat 4 1) .pi) (.par n!"alpha_e")))))) (.div (.div (.div (.sqrt (.rat 2 1)) (.par n!"GF")) (.mul (.ckm 2 2) (.conj (.ckm 2 0)))) (.rat 4 1)))) (.rat 3 1)) (.div (.div (.inp n!"C9_bdmutau") (.div (.mul (.rat 16 1) (.mul .pi .pi)) (.mul (.sqrt (.mul (.mul (.rat 4 1) .pi) (.par n!"alpha_e"))) (.sqrt (.mul (.mul (.rat 4 1) .pi) (.par n!"alpha_e")))))) (.div (.div (.div (.sqrt (.rat 2 1)) (.par n!"GF")) (.mul (.ckm 2 2) (.conj (.ckm 2 0)))) (.rat 4 1)))))),
  (n!"nu1psbmumu", (.mul (.div (.div (.sqrt (.rat 2 1)) (.par n!"GF")) (.rat 4 1)) (.div (.div (.inp n!"CR_bsnumunumu") (.div (.mul (.rat 8 1) (.mul .pi .pi)) (.mul (.sqrt (.mul (.mul (.rat 4 1) .pi) (.par n!"alpha_e"))) (.sqrt (.mul (.mul (.rat 4 1) .pi) (.par n!"alpha_e")))))) (.div (.div (.div (.sqrt (.rat 2 1)) (.par n!"GF")) (.mul (.ckm 2 2) (.conj (.ckm 2 1)))) (.rat 4 1))))),
  (n!"3sbetau", (.mul (.div (.div (.sqrt (.rat 2 1)) (.par n!"GF")) (.rat 4 1)) (.div (.neg (.div (.div (.inp n!"C10_bstaue") (.div (.mul (.rat 16 1) (.mul .pi .pi)) (.mul (.sqrt (.mul (.mul (.rat 4 1) .pi) (.par n!"alpha_e"))) (.sqrt (.mul (.mul (.rat 4 1) .pi) (.par n!"alpha_e")))))) (.div (.div (.div (.sqrt (.rat 2 1)) (.par n!"GF")) (.mul (.ckm 2 2) (.conj (.ckm 2 1)))) (.rat 4 1)))) (.rat 6 1)))),
  (n!"6pdscc", (.mul (.div (.div (.sqrt (.rat 2 1)) (.par n!"GF")) (.rat 4 1)) (.add (.div (.mul (.rat (-2) 1) (.mul (.mul (.div (.mul (.rat 4 1) (.par n!"GF")) (.sqrt (.rat 2 1))) (.mul (.ckm 2 1) (.conj (.ckm 2 0)))) (.inp n!"CSLLt_sdcc"))) (.rat 3 1)) (.div (.mul (.rat 8 1) (.mul (.mul (.div (.mul (.rat 4 1) (.par n!"GF")) (.sqrt (.rat 2 1))) (.mul (.ckm 2 1) (.conj (.ckm 2 0)))) (.inp n!"CSLRt_sdcc"))) (.rat 3 1))))),
  (n!"1psbee", (.mul (.div (.div (.sqrt (.rat 2 1)) (.par n!"GF")) (.rat 4 1)) (.sub (.div (.div (.inp n!"C9p_bsee") (.div (.mul (.rat 16 1) (.mul .pi .pi)) (.mul (.sqrt (.mul (.mul (.rat 4 1) .pi) (.par n!"alpha_e"))) (.sqrt (.mul (.mul (.rat 4 1) .pi) (.par n!"alpha_e")))))) (.div (.div (.div (.sqrt (.rat 2 1)) (.par n!"GF")) (.mul (.ckm 2 2) (.conj (.ckm 2 1)))) (.rat 4 1))) (.div (.mul (.rat 5 1) (.div (.div (.inp n!"C10p_bsee") (.div (.mul (.rat 16 1) (.mul .pi .pi)) (.mul (.sqrt (.mul (.mul (.rat 4 1) .pi) (.par n!"alpha_e"))) (.sqrt (.mul (.mul (.rat 4 1) .pi) (.par n!"alpha_e")))))) (.div (.div (.div (.sqrt (.rat 2 1)) (.par n!"GF")) (.mul (.ckm 2 2) (.conj (.ckm 2 1)))) (.rat 4 1)))) (.rat 3 1))))),
  (n!"nu1pdsemu", (.mul (.div (.div (.sqrt (.rat 2 1)) (.par n!"GF")) (.rat 4 1)) (.div (.div (.inp n!"CR_sdnumunue") (.div (.mul (.rat 8 1) (.mul .pi .pi)) (.mul (.sqrt (.mul (.mul (.rat 4 1) .pi) (.par n!"alpha_e"))) (.sqrt (.mul (.mul (.rat 4 1) .pi) (.par n!"alpha_e")))))) (.div (.div (.div (.sqrt (.rat 2 1)) (.par n!"GF")) (.mul (.ckm 2 1) (.conj (.ckm 2 0)))) (.rat 4 1))))),
  (n!"2pdsbb", (.mul (.div (.div (.sqrt (.rat 2 1)) (.par n!"GF")) (.rat 4 1)) (.add (.div (.mul (.rat (-2) 1) (.mul (.mul (.div (.mul (.rat 4 1) (.par n!"GF")) (.sqrt (.rat 2 1))) (.mul (.ckm 2 1) (.conj (.ckm 2 0)))) (.inp n!"CVRRt_sdbb"))) (.rat 3 1)) (.div (.mul (.rat 8 1) (.mul (.mul (.div (.mul (.rat 4 1) (.par n!"GF")) (.sqrt (.rat 2 1))) (.mul (.ckm 2 1) (.conj (.ckm 2 0)))) (.inp n!"CVRLt_sdbb"))) (.rat 3 1))))),
  (n!"7pdbmue", (.mul (.div (.div (.sqrt (.rat 2 1)) (.par n!"GF")) (.rat 4 1)) (.sub (.add (.div (.mul (.rat (-2) 1) (.div (.div (.inp n!"CPp_bdemu") (.div (.div (.mul (.rat 16 1) (.mul .pi .pi)) (.mul (.sqrt (.mul (.mul (.rat 4 1) .pi) (.par n!"alpha_e"))) (.sqrt (.mul (.mul (.rat 4 1) .pi) (.par n!"alpha_e"))))) (.par n!"m_b"))) (.div (.div (.div (.sqrt (.rat 2 1)) (.par n!"GF")) (.mul (.ckm 2 2) (.conj (.ckm 2 0)))) (.rat 4 1)))) (.rat 3 1)) (.div (.rat 0 1) (.div (.div (.div (.sqrt (.rat 2 1)) (.par n!"GF")) (.mul (.ckm 2 2) (.conj (.ckm 2 0)))) (.rat 4 1)))) (.div (.rat 0 1) (.div (.div (.div (.sqrt (.rat 2 1)) (.par n!"GF")) (.mul (.ckm 2 2) (.conj (.ckm 2 0)))) (.rat 4 1)))))),
  (n!"5usetau", (.mul (.div (.div (.sqrt (.rat 2 1)) (.par n!"GF")) (.rat 4 1)) (.div (.inp n!"CSR_suenutau") (.div (.div (.div (.neg (.sqrt (.rat 2 1))) (.par n!"GF")) (.ckm 0 1)) (.rat 4 1))))),
  (n!"7pudtaue", (.mul (.div (.div (.sqrt (.rat 2 1)) (.par n!"GF")) (.rat 4 1)) (.div (.inp n!"CT_dutaunue") (.div (.div (.div (.neg (.sqrt (.rat 2 1))) (.par n!"GF")) (.ckm 0 0)) (.rat 4 1))))),
  (n!"7pubtaue", (.mul (.div (.div (.sqrt (.rat 2 1)) (.par n!"GF")) (.rat 4 1)) (.div (.inp n!"CT_butaunue") (.div (.div (.div (.neg (.sqrt (.rat 2 1))) (.par n!"GF")) (.ckm 0 2)) (.rat 4 1))))),
  (n!"5pusetau", (.mul (.div (.div (.sqrt (.rat 2 1)) (.par n!"GF")) (.rat 4 1)) (.div (.inp n!"CSL_suenutau") (.div (.div (.div (.neg (.sqrt (.rat 2 1))) (.par n!"GF")) (.ckm 0 1)) (.rat 4 1))))),
  (n!"5pcbtaumu", (.mul (.div (.div (.sqrt (.rat 2 1)) (.par n!"GF")) (.rat 4 1)) (.div (.inp n!"CSL_bctaunumu") (.div (.div (.div (.neg (.sqrt (.rat 2 1))) (.par n!"GF")) (.ckm 1 2)) (.rat 4 1))))),
  (n!"9psbss", (.mul (.div (.div (.sqrt (.rat 2 1)) (.par n!"GF")) (.rat 4 1)) (.sub (.div (.mul (.mul (.div (.mul (.rat 4 1) (.par n!"GF")) (.sqrt (.rat 2 1))) (.mul (.ckm 2 2) (.conj (.ckm 2 1)))) (.inp n!"CSRR_bsss")) (.rat 48 1)) (.div (.mul (.mul (.div (.mul (.rat 4 1) (.par n!"GF")) (.sqrt (.rat 2 1))) (.mul (.ckm 2 2) (.conj (.ckm 2 1)))) (.inp n!"CSRL_bsss")) (.rat 48 1))))),
  (n!"9dbss", (.mul (.div (.div (.sqrt (.rat 2 1)) (.par n!"GF")) (.rat 4 1)) (.sub (.add (.sub (.div (.mul (.mul (.div (.mul (.rat 4 1) (.par n!"GF")) (.sqrt (.rat 2 1))) (.mul (.ckm 2 2) (.conj (.ckm 2 0)))) (.inp n!"CSRR_bdss")) (.rat 48 1)) (.div (.mul (.mul (.div (.mul (.rat 4 1) (.par n!"GF")) (.sqrt (.rat 2 1))) (.mul (.ckm 2 2) (.conj (.ckm 2 0)))) (.inp n!"CSRL_bdss")) (.rat 48 1))) (.div (.mul (.mul (.div (.mul (.rat 4 1) (.par n!"GF")) (.sqrt (.rat 2 1))) (.mul (.ckm 2 2) (.conj (.ckm 2 0)))) (.inp n!"CSRRt_bdss")) (.mul (.rat 48 1) (.rat 3 1)))) (.div (.mul (.mul (.div (.mul (.rat 4 1) (.par n!"GF")) (.sqrt (.rat 2 1))) (.mul (.ckm 2 2) (.conj (.ckm 2 0)))) (.inp n!"CSRLt_bdss")) (.mul (.rat 48 1) (.rat 3 1)))))),
  (n!"7psbmumu", (.mul (.div (.div (.sqrt (.rat 2 1)) (.par n!"GF")) (.rat 4 1)) (.sub (.add (.div (.mul (.rat (-2) 1) (.div (.div (.inp n!"CPp_bsmumu") (.div (.div (.mul (.rat 16 1) (.mul .pi .pi)) (.mul (.sqrt (.mul (.mul (.rat 4 1) .pi) (.par n!"alpha_e"))) (.sqrt (.mul (.mul (.rat 4 1) .pi) (.par n!"alpha_e"))))) (.par n!"m_b"))) (.div (.div (.div (.sqrt (.rat 2 1)) (.par n!"GF")) (.mul (.ckm 2 2) (.conj (.ckm 2 1)))) (.rat 4 1)))) (.rat 3 1)) (.div (.rat 0 1) (.div (.div (.div (.sqrt (.rat 2 1)) (.par n!"GF")) (.mul (.ckm 2 2) (.conj (.ckm 2 1)))) (.rat 4 1)))) (.div (.rat 0 1) (.div (.div (.div (.sqrt (.rat 2 1)) (.par n!"GF")) (.mul (.ckm 2 2) (.conj (.ckm 2 1)))) (.rat 4 1)))))),
  (n!"nu1dbmue", (.mul (.div (.div (.sqrt (.rat 2 1)) (.par n!"GF")) (.rat 4 1)) (.div (.div (.inp n!"CL_bdnuenumu") (.div (.mul (.rat 8 1) (.mul .pi .pi)) (.mul (.sqrt (.mul (.mul (.rat 4 1) .pi) (.par n!"alpha_e"))) (.sqrt (.mul (.mul (.rat 4 1) .pi) (.par n!"alpha_e")))))) (.div (.div (.div (.sqrt (.rat 2 1)) (.par n!"GF")) (.mul (.ckm 2 2) (.conj (.ckm 2 0)))) (.rat 4 1))))),
  (n!"7dbss", (.mul (.div (.div (.sqrt (.rat 2 1)) (.par n!"GF")) (.rat 4 1)) (.sub (.add (.add (.add (.sub (.div (.mul (.mul (.div (.mul (.rat 4 1) (.par n!"GF")) (.sqrt (.rat 2 1))) (.mul (.ckm 2 2) (.conj (.ckm 2 0)))) (.inp n!"CSRR_bdss")) (.rat 3 1)) (.div (.mul (.mul (.div (.mul (.rat 4 1) (.par n!"GF")) (.sqrt (.rat 2 1))) (.mul (.ckm 2 2) (.conj (.ckm 2 0)))) (.inp n!"CSRL_bdss")) (.rat 3 1))) (.mul (.mul (.div (.mul (.rat 4 1) (.par n!"GF")) (.sqrt (.rat 2 1))) (.mul (.ckm 2 2) (.conj (.ckm 2 0)))) (.inp n!"CTRR_bdss"))) (.div (.mul (.mul (.div (.mul (.rat 4 1) (.par n!"GF")) (.sqrt (.rat 2 1))) (.mul (.ckm 2 2) (.conj (.ckm 2 0)))) (.inp n!"CTRRt_bdss")) (.rat 3 1))) (.div (.mul (.mul (.div (.mul (.rat 4 1) (.par n!"GF")) (.sqrt (.rat 2 1))) (.mul (.ckm 2 2) (.conj (.ckm 2 0)))) (.inp n!"CSRRt_bdss")) (.mul (.rat 3 1) (.rat 3 1)))) (.div (.mul (.mul (.div (.mul (.rat 4 1) (.par n!"GF")) (.sqrt (.rat 2 1))) (.mul (.ckm 2 2) (.conj (.ckm 2 0)))) (.inp n!"CSRLt_bdss")) (.mul (.rat 3 1) (.rat 3 1)))))),
  (n!"6pdsuu", (.mul (.div (.div (.sqrt (.rat 2 1)) (.par n!"GF")) (.rat 4 1)) (.add (.div (.mul (.rat (-2) 1) (.mul (.mul (.div (.mul (.rat 4 1) (.par n!"GF")) (.sqrt (.rat 2 1))) (.mul (.ckm 2 1) (.conj (.ckm 2 0)))) (.inp n!"CSLLt_sduu"))) (.rat 3 1)) (.div (.mul (.rat 8 1) (.mul (.mul (.div (.mul (.rat 4 1) (.par n!"GF")) (.sqrt (.rat 2 1))) (.mul (.ckm 2 1) (.conj (.ckm 2 0)))) (.inp n!"CSLRt_sduu"))) (.rat 3 1))))),
  (n!"nu1psbtaumu", (.mul (.div (.div (.sqrt (.rat 2 1)) (.par n!"GF")) (.rat 4 1)) (.div (.div (.inp n!"CR_bsnumunutau") (.div (.mul (.rat 8 1) (.mul .pi .pi)) (.mul (.sqrt (.mul (.mul (.rat 4 1) .pi) (.par n!"alpha_e"))) (.sqrt (.mul (.mul (.rat 4 1) .pi) (.par n!"alpha_e")))))) (.div (.div (.div (.sqrt (.rat 2 1)) (.par n!"GF")) (.mul (.ckm 2 2) (.conj (.ckm 2 1)))) (.rat 4 1))))),
  (n!"5ubmue", (.mul (.div (.div (.sqrt (.rat 2 1)) (.par n!"GF")) (.rat 4 1)) (.div (.inp n!"CSR_bumunue") (.div (.div (.div (.neg (.sqrt (.rat 2 1))) (.par n!"GF")) (.ckm 0 2)) (.rat 4 1))))),
  (n!"1sbetau", (.mul (.div (.div (.sqrt (.rat 2 1)) (.par n!"GF")) (.rat 4 1)) (.add (.div (.mul (.rat 5 1) (.div (.div (.inp n!"C10_bstaue") (.div (.mul (.rat 16 1) (.mul .pi .pi)) (.mul (.sqrt (.mul (.mul (.rat 4 1) .pi) (.par n!"alpha_e"))) (.sqrt (.mul (.mul (.rat 4 1) .pi) (.par n!"alpha_e")))))) (.div (.div (.div (.sqrt (.rat 2 1)) (.par n!"GF")) (.mul (.ckm 2 2) (.conj (.ckm 2 1)))) (.rat 4 1)))) (.rat 3 1)) (.div (.div (.inp n!"C9_bstaue") (.div (.mul (.rat 16 1) (.mul .pi .pi)) (.mul (.sqrt (.mul (.mul (.rat 4 1) .pi) (.par n!"alpha_e"))) (.sqrt (.mul (.mul (.rat 4 1) .pi) (.par n!"alpha_e")))))) (.div (.div (.div (.sqrt (.rat 2 1)) (.par n!"GF")) (.mul (.ckm 2 2) (.conj (.ckm 2 1)))) (.rat 4 1)))))),
  (n!"5dbss", (.mul (.div (.div (.sqrt (.rat 2 1)) (.par n!"GF")) (.rat 4 1)) (.add (.sub (.add (.div (.neg (.mul (.mul (.div (.mul (.rat 4 1) (.par n!"GF")) (.sqrt (.rat 2 1))) (.mul (.ckm 2 2) (.conj (.ckm 2 0)))) (.inp n!"CSRR_bdss"))) (.rat 3 1)) (.div (.mul (.rat 4 1) (.mul (.mul (.div (.mul (.rat 4 1) (.par n!"GF")) (.sqrt (.rat 2 1))) (.mul (.ckm 2 2) (.conj (.ckm 2 0)))) (.inp n!"CSRL_bdss"))) (.rat 3 1))) (.div (.mul (.mul (.div (.mul (.rat 4 1) (.par n!"GF")) (.sqrt (.rat 2 1))) (.mul (.ckm 2 2) (.conj (.ckm 2 0)))) (.inp n!"CSRRt_bdss")) (.mul (.rat 3 1) (.rat 3 1)))) (.div (.mul (.rat 4 1) (.mul (.mul (.div (.mul (.rat 4 1) (.par n!"GF")) (.sqrt (.rat 2 1))) (.mul (.ckm 2 2) (.conj (.ckm 2 0)))) (.inp n!"CSRLt_bdss"))) (.mul (.rat 3 1) (.rat 3 1))))))]

def flavio_to_Bern_12 : List (ℕ × Sym) := [
  (n!"1cdmutau", (.mul (.div (.div (.sqrt (.rat 2 1)) (.par n!"GF")) (.rat 4 1)) (.div (.inp n!"CVL_dcmunutau") (.div (.div (.div (.neg (.sqrt (.rat 2 1))) (.par n!"GF")) (.ckm 1 0)) (.rat 4 1))))),
  (n!"5pdbmue", (.mul (.div (.div (.sqrt (.rat 2 1)) (.par n!"GF")) (.rat 4 1)) (.add (.div (.mul (.rat 5 1) (.div (.div (.inp n!"CPp_bdemu") (.div (.div (.mul (.rat 16 1) (.mul .pi .pi)) (.mul (.sqrt (.mul (.mul (.rat 4 1) .pi) (.par n!"alpha_e"))) (.sqrt (.mul (.mul (.rat 4 1) .pi) (.par n!"alpha_e"))))) (.par n!"m_b"))) (.div (.div (.div (.sqrt (.rat 2 1)) (.par n!"GF")) (.mul (.ckm 2 2) (.conj (.ckm 2 0)))) (.rat 4 1)))) (.rat 3 1)) (.div (.div (.inp n!"CSp_bdemu") (.div (.div (.mul (.rat 16 1) (.mul .pi .pi)) (.mul (.sqrt (.mul (.mul (.rat 4 1) .pi) (.par n!"alpha_e"))) (.sqrt (.mul (.mul (.rat 4 1) .pi) (.par n!"alpha_e"))))) (.par n!"m_b"))) (.div (.div (.div (.sqrt (.rat 2 1)) (.par n!"GF")) (.mul (.ckm 2 2) (.conj (.ckm 2 0)))) (.rat 4 1)))))),
  (n!"5sbmue", (.mul (.div (.div (.sqrt (.rat 2 1)) (.par n!"GF")) (.rat 4 1)) (.sub (.div (.div (.inp n!"CS_bsemu") (.div (.div (.mul (.rat 16 1) (.mul .pi .pi)) (.mul (.sqrt (.mul (.mul (.rat 4 1) .pi) (.par n!"alpha_e"))) (.sqrt (.mul (.mul (.rat 4 1) .pi) (.par n!"alpha_e"))))) (.par n!"m_b"))) (.div (.div (.div (.sqrt (.rat 2 1)) (.par n!"GF")) (.mul (.ckm 2 2) (.conj (.ckm 2 1)))) (.rat 4 1))) (.div (.mul (.rat 5 1) (.div (.div (.inp n!"CP_bsemu") (.div (.div (.mul (.rat 16 1) (.mul .pi .pi)) (.mul (.sqrt (.mul (.mul (.rat 4 1) .pi) (.par n!"alpha_e"))) (.sqrt (.mul (.mul (.rat 4 1) .pi) (.par n!"alpha_e"))))) (.par n!"m_b"))) (.div (.div (.div (.sqrt (.rat 2 1)) (.par n!"GF")) (.mul (.ckm 2 2) (.conj (.ckm 2 1)))) (.rat 4 1)))) (.rat 3 1))))),
  (n!"8sbcc", (.mul (.div (.div (.sqrt (.rat 2 1)) (.par n!"GF")) (.rat 4 1)) (.sub (.add (.mul (.rat 2 1) (.mul (.mul (.div (.mul (.rat 4 1) (.par n!"GF")) (.sqrt (.rat 2 1))) (.mul (.ckm 2 2) (.conj (.ckm 2 1)))) (.inp n!"CTRRt_bscc"))) (.div (.mul (.rat 2 1) (.mul (.mul (.div (.mul (.rat 4 1) (.par n!"GF")) (.sqrt (.rat 2 1))) (.mul (.ckm 2 2) (.conj (.ckm 2 1)))) (.inp n!"CSRRt_bscc"))) (.rat 3 1))) (.div (.mul (.rat 2 1) (.mul (.mul (.div (.mul (.rat 4 1) (.par n!"GF")) (.sqrt (.rat 2 1))) (.mul (.ckm 2 2) (.conj (.ckm 2 1)))) (.inp n!"CSRLt_bscc"))) (.rat 3 1))))),
  (n!"3dbss", (.mul (.div (.div (.sqrt (.rat 2 1)) (.par n!"GF")) (.rat 4 1)) (.sub (.add (.sub (.div (.mul (.mul (.div (.mul (.rat 4 1) (.par n!"GF")) (.sqrt (.rat 2 1))) (.mul (.ckm 2 2) (.conj (.ckm 2 0)))) (.inp n!"CVLL_bdss")) (.rat 12 1)) (.div (.mul (.mul (.div (.mul (.rat 4 1) (.par n!"GF")) (.sqrt (.rat 2 1))) (.mul (.ckm 2 2) (.conj (.ckm 2 0)))) (.inp n!"CVLR_bdss")) (.rat 12 1))) (.div (.mul (.mul (.div (.mul (.rat 4 1) (.par n!"GF")) (.sqrt (.rat 2 1))) (.mul (.ckm 2 2) (.conj (.ckm 2 0)))) (.inp n!"CVLLt_bdss")) (.mul (.rat 12 1) (.rat 3 1)))) (.div (.mul (.mul (.div (.mul (.rat 4 1) (.par n!"GF")) (.sqrt (.rat 2 1))) (.mul (.ckm 2 2) (.conj (.ckm 2 0)))) (.inp n!"CVLRt_bdss")) (.mul (.rat 12 1) (.rat 3 1)))))),
  (n!"9pdsbb", (.mul (.div (.div (.sqrt (.rat 2 1)) (.par n!"GF")) (.rat 4 1)) (.sub (.add (.sub (.div (.mul (.mul (.div (.mul (.rat 4 1) (.par n!"GF")) (.sqrt (.rat 2 1))) (.mul (.ckm 2 1) (.conj (.ckm 2 0)))) (.inp n!"CSLL_sdbb")) (.rat 48 1)) (.div (.mul (.mul (.div (.mul (.rat 4 1) (.par n!"GF")) (.sqrt (.rat 2 1))) (.mul (.ckm 2 1) (.conj (.ckm 2 0)))) (.inp n!"CSLR_sdbb")) (.rat 48 1))) (.div (.mul (.mul (.div (.mul (.rat 4 1) (.par n!"GF")) (.sqrt (.rat 2 1))) (.mul (.ckm 2 1) (.conj (.ckm 2 0)))) (.inp n!"CSLLt_sdbb")) (.mul (.rat 48 1) (.rat 3 1)))) (.div (.mul (.mul (.div (.mul (.rat 4 1) (.par n!"GF")) (.sqrt (.rat 2 1))) (.mul (.ckm 2 1) (.conj (.ckm 2 0)))) (.inp n!"CSLRt_sdbb")) (.mul (.rat 48 1) (.rat 3 1)))))),
  (n!"4psbdd", (.mul (.div (.div (.sqrt (.rat 2 1)) (.par n!"GF")) (.rat 4 1)) (.sub (.div (.mul (.mul (.div (.mul (.rat 4 1) (.par n!"GF")) (.sqrt (.rat 2 1))) (.mul (.ckm 2 2) (.conj (.ckm 2 1)))) (.inp n!"CVRRt_bsdd")) (.rat 6 1)) (.div (.mul (.mul (.div (.mul (.rat 4 1) (.par n!"GF")) (.sqrt (.rat 2 1))) (.mul (.ckm 2 2) (.conj (.ckm 2 1)))) (.inp n!"CVRLt_bsdd")) (.rat 6 1))))),
  (n!"6sbcc", (.mul (.div (.div (.sqrt (.rat 2 1)) (.par n!"GF")) (.rat 4 1)) (.add (.div (.mul (.rat (-2) 1) (.mul (.mul (.div (.mul (.rat 4 1) (.par n!"GF")) (.sqrt (.rat 2 1))) (.mul (.ckm 2 2) (.conj (.ckm 2 1)))) (.inp n!"CSRRt_bscc"))) (.rat 3 1)) (.div (.mul (.rat 8 1) (.mul (.mul (.div (.mul (.rat 4 1) (.par n!"GF")) (.sqrt (.rat 2 1))) (.mul (.ckm 2 2) (.conj (.ckm 2 1)))) (.inp n!"CSRLt_bscc"))) (.rat 3 1))))),
  (n!"1dbss", (.mul (.div (.div (.sqrt (.rat 2 1)) (.par n!"GF")) (.rat 4 1)) (.add (.sub (.add (.div (.neg (.mul (.mul (.div (.mul (.rat 4 1) (.par n!"GF")) (.sqrt (.rat 2 1))) (.mul (.ckm 2 2) (.conj (.ckm 2 0)))) (.inp n!"CVLL_bdss"))) (.rat 3 1)) (.div (.mul (.rat 4 1) (.mul (.mul (.div (.mul (.rat 4 1) (.par n!"GF")) (.sqrt (.rat 2 1))) (.mul (.ckm 2 2) (.conj (.ckm 2 0)))) (.inp n!"CVLR_bdss"))) (.rat 3 1))) (.div (.mul (.mul (.div (.mul (.rat 4 1) (.par n!"GF")) (.sqrt (.rat 2 1))) (.mul (.ckm 2 2) (.conj (.ckm 2 0)))) (.inp n!"CVLLt_bdss")) (.mul (.rat 3 1) (.rat 3 1)))) (.div (.mul (.rat 4 1) (.mul (.mul (.div (.mul (.rat 4 1) (.par n!"GF")) (.sqrt (.rat 2 1))) (.mul (.ckm 2 2) (.conj (.ckm 2 0)))) (.inp n!"CVLRt_bdss"))) (.mul (.rat 3 1) (.rat 3 1)))))),
  (n!"3dstautau", (.mul (.div (.div (.sqrt (.rat 2 1)) (.par n!"GF")) (.rat 4 1)) (.div (.neg (.div (.div (.inp n!"C10_sdtautau") (.div (.mul (.rat 16 1) (.mul .pi .pi)) (.mul (.sqrt (.mul (.mul (.rat 4 1) .pi) (.par n!"alpha_e"))) (.sqrt (.mul (.mul (.rat 4 1) .pi) (.par n!"alpha_e")))))) (.div (.div (.div (.sqrt (.rat 2 1)) (.par n!"GF")) (.mul (.ckm 2 1) (.conj (.ckm 2 0)))) (.rat 4 1)))) (.rat 6 1)))),
  (n!"7pdbdd", (.mul (.div (.div (.sqrt (.rat 2 1)) (.par n!"GF")) (.rat 4 1)) (.add (.sub (.div (.mul (.mul (.div (.mul (.rat 4 1) (.par n!"GF")) (.sqrt (.rat 2 1))) (.mul (.ckm 2 2) (.conj (.ckm 2 0)))) (.inp n!"CSRR_bddd")) (.rat 3 1)) (.div (.mul (.mul (.div (.mul (.rat 4 1) (.par n!"GF")) (.sqrt (.rat 2 1))) (.mul (.ckm 2 2) (.conj (.ckm 2 0)))) (.inp n!"CSRL_bddd")) (.rat 3 1))) (.mul (.mul (.div (.mul (.rat 4 1) (.par n!"GF")) (.sqrt (.rat 2 1))) (.mul (.ckm 2 2) (.conj (.ckm 2 0)))) (.inp n!"CTRR_bddd"))))),
  (n!"nu1pdbtaue", (.mul (.div (.div (.sqrt (.rat 2 1)) (.par n!"GF")) (.rat 4 1)) (.div (.div (.inp n!"CR_bdnuenutau") (.div (.mul (.rat 8 1) (.mul .pi .pi)) (.mul (.sqrt (.mul (.mul (.rat 4 1) .pi) (.par n!"alpha_e"))) (.sqrt (.mul (.mul (.rat 4 1) .pi) (.par n!"alpha_e")))))) (.div (.div (.div (.sqrt (.rat 2 1)) (.par n!"GF")) (.mul (.ckm 2 2) (.conj (.ckm 2 0)))) (.rat 4 1))))),
  (n!"3pdbcc", (.mul (.div (.div (.sqrt (.rat 2 1)) (.par n!"GF")) (.rat 4 1)) (.sub (.add (.sub (.div (.mul (.mul (.div (.mul (.rat 4 1) (.par n!"GF")) (.sqrt (.rat 2 1))) (.mul (.ckm 2 2) (.conj (.ckm 2 0)))) (.inp n!"CVRR_bdcc")) (.rat 12 1)) (.div (.mul (.mul (.div (.mul (.rat 4 1) (.par n!"GF")) (.sqrt (.rat 2 1))) (.mul (.ckm 2 2) (.conj (.ckm 2 0)))) (.inp n!"CVRL_bdcc")) (.rat 12 1))) (.div (.mul (.mul (.div (.mul (.rat 4 1) (.par n!"GF")) (.sqrt (.rat 2 1))) (.mul (.ckm 2 2) (.conj (.ckm 2 0)))) (.inp n!"CVRRt_bdcc")) (.mul (.rat 12 1) (.rat 3 1)))) (.div (.mul (.mul (.div (.mul (.rat 4 1) (.par n!"GF")) (.sqrt (.rat 2 1))) (.mul (.ckm 2 2) (.conj (.ckm 2 0)))) (.inp n!"CVRLt_bdcc")) (.mul (.rat 12 1) (.rat 3 1)))))),
  (n!"4sbcc", (.mul (.div (.div (.sqrt (.rat 2 1)) (.par n!"GF")) (.rat 4 1)) (.sub (.div (.mul (.mul (.div (.mul (.rat 4 1) (.par n!"GF")) (.sqrt (.rat 2 1))) (.mul (.ckm 2 2) (.conj (.ckm 2 1)))) (.inp n!"CVLLt_bscc")) (.rat 6 1)) (.div (.mul (.mul (.div (.mul (.rat 4 1) (.par n!"GF")) (.sqrt (.rat 2 1))) (.mul (.ckm 2 2) (.conj (.ckm 2 1)))) (.inp n!"CVLRt_bscc")) (.rat 6 1))))),
  (n!"5cstaue", (.mul (.div (.div (.sqrt (.rat 2 1)) (.par n!"GF")) (.rat 4 1)) (.div (.inp n!"CSR_sctaunue") (.div (.div (.div (.neg (.sqrt (.rat 2 1))) (.par n!"GF")) (.ckm 1 1)) (.rat 4 1))))),
  (n!"1pcdmue", (.mul (.div (.div (.sqrt (.rat 2 1)) (.par n!"GF")) (.rat 4 1)) (.div (.inp n!"CVR_dcmunue") (.div (.div (.div (.neg (.sqrt (.rat 2 1))) (.par n!"GF")) (.ckm 1 0)) (.rat 4 1))))),
  (n!"2sbcc", (.mul (.div (.div (.sqrt (.rat 2 1)) (.par n!"GF")) (.rat 4 1)) (.add (.div (.mul (.rat (-2) 1) (.mul (.mul (.div (.mul (.rat 4 1) (.par n!"GF")) (.sqrt (.rat 2 1))) (.mul (.ckm 2 2) (.conj (.ckm 2 1)))) (.inp n!"CVLLt_bscc"))) (.rat 3 1)) (.div (.mul (.rat 8 1) (.mul (.mul (.div (.mul (.rat 4 1) (.par n!"GF")) (.sqrt (.rat 2 1))) (.mul (.ckm 2 2) (.conj (.ckm 2 1)))) (.inp n!"CVLRt_bscc"))) (.rat 3 1))))),
  (n!"1cstautau", (.mul (.div (.div (.sqrt (.rat 2 1)) (.par n!"GF")) (.rat 4 1)) (.div (.inp n!"CVL_sctaunutau") (.div (.div (.div (.neg (.sqrt (.rat 2 1))) (.par n!"GF")) (.ckm 1 1)) (.rat 4 1))))),
  (n!"5pcstaue", (.mul (.div (.div (.sqrt (.rat 2 1)) (.par n!"GF")) (.rat 4 1)) (.div (.inp n!"CSL_sctaunue") (.div (.div (.div (.neg (.sqrt (.rat 2 1))) (.par n!"GF")) (.ckm 1 1)) (.rat 4 1))))),
  (n!"7pusmumu", (.mul (.div (.div (.sqrt (.rat 2 1)) (.par n!"GF")) (.rat 4 1)) (.div (.inp n!"CT_sumunumu") (.div (.div (.div (.neg (.sqrt (.rat 2 1))) (.par n!"GF")) (.ckm 0 1)) (.rat 4 1))))),
  (n!"1pdbdb", (.mul (.div (.div (.sqrt (.rat 2 1)) (.par n!"GF")) (.rat 4 1)) (.inp n!"CVRR_bdbd"))),
  (n!"8sbuu", (.mul (.div (.div (.sqrt (.rat 2 1)) (.par n!"GF")) (.rat 4 1)) (.sub (.add (.mul (.rat 2 1) (.mul (.mul (.div (.mul (.rat 4 1) (.par n!"GF")) (.sqrt (.rat 2 1))) (.mul (.ckm 2 2) (.conj (.ckm 2 1)))) (.inp n!"CTRRt_bsuu"))) (.div (.mul (.rat 2 1) (.mul (.mul (.div (.mul (.rat 4 1) (.par n!"GF")) (.sqrt (.rat 2 1))) (.mul (.ckm 2 2) (.conj (.ckm 2 1)))) (.inp n!"CSRRt_bsuu"))) (.rat 3 1))) (.div (.mul (.rat 2 1) (.mul (.mul (.div (.mul (.rat 4 1) (.par n!"GF")) (.sqrt (.rat 2 1))) (.mul (.ckm 2 2) (.conj (.ckm 2 1)))) (.inp n!"CSRLt_bsuu"))) (.rat 3 1))))),
  (n!"3pdbmue", (.mul (.div (.div (.sqrt (.rat 2 1)) (.par n!"GF")) (.rat 4 1)) (.div (.div (.div (.inp n!"C10p_bdemu") (.div (.mul (.rat 16 1) (.mul .pi .pi)) (.mul (.sqrt (.mul (.mul (.rat 4 1) .pi) (.par n!"alpha_e"))) (.sqrt (.mul (.mul (.rat 4 1) .pi) (.par n!"alpha_e")))))) (.div (.div (.div (.sqrt (.rat 2 1)) (.par n!"GF")) (.mul (.ckm 2 2) (.conj (.ckm 2 0)))) (.rat 4 1))) (.rat 6 1)))),
  (n!"5pdsss", (.mul (.div (.div (.sqrt (.rat 2 1)) (.par n!"GF")) (.rat 4 1)) (.add (.div (.neg (.mul (.mul (.div (.mul (.rat 4 1) (.par n!"GF")) (.sqrt (.rat 2 1))) (.mul (.ckm 2 1) (.conj (.ckm 2 0)))) (.inp n!"CSLL_sdss"))) (.rat 3 1)) (.div (.mul (.rat 4 1) (.mul (.mul (.div (.mul (.rat 4 1) (.par n!"GF")) (.sqrt (.rat 2 1))) (.mul (.ckm 2 1) (.conj (.ckm 2 0)))) (.inp n!"CSLR_sdss"))) (.rat 3 1))))),
  (n!"7pdbtaue", (.mul (.div (.div (.sqrt (.rat 2 1)) (.par n!"GF")) (.rat 4 1)) (.sub (.add (.div (.mul (.rat (-2) 1) (.div (.div (.inp n!"CPp_bdetau") (.div (.div (.mul (.rat 16 1) (.mul .pi .pi)) (.mul (.sqrt (.mul (.mul (.rat 4 1) .pi) (.par n!"alpha_e"))) (.sqrt (.mul (.mul (.rat 4 1) .pi) (.par n!"alpha_e"))))) (.par n!"m_b"))) (.div (.div (.div (.sqrt (.rat 2 1)) (.par n!"GF")) (.mul (.ckm 2 2) (.conj (.ckm 2 0)))) (.rat 4 1)))) (.rat 3 1)) (.div (.rat 0 1) (.div (.div (.div (.sqrt (.rat 2 1)) (.par n!"GF")) (.mul (.ckm 2 2) (.conj (.ckm 2 0)))) (.rat 4 1)))) (.div (.rat 0 1) (.div (.div (.div (.sqrt (.rat 2 1)) (.par n!"GF")) (.mul (.ckm 2 2) (.conj (.ckm 2 0)))) (.rat 4 1)))))),
  (n!"1usetau", (.mul (.div (.div (.sqrt (.rat 2 1)) (.par n!"GF")) (.rat 4 1)) (.div (.inp n!"CVL_suenutau") (.div (.div (.div (.neg (.sqrt (.rat 2 1))) (.par n!"GF")) (.ckm 0 1)) (.rat 4 1))))),
  (n!"6sbuu", (.mul (.div (.div (.sqrt (.rat 2 1)) (.par n!"GF")) (.rat 4 1)) (.add (.div (.mul (.rat (-2) 1) (.mul (.mul (.div (.mul (.rat 4 1) (.par n!"GF")) (.sqrt (.rat 2 1))) (.mul (.ckm 2 2) (.conj (.ckm 2 1)))) (.inp n!"CSRRt_bsuu"))) (.rat 3 1)) (.div (.mul (.rat 8 1) (.mul (.mul (.div (.mul (.rat 4 1) (.par n!"GF")) (.sqrt (.rat 2 1))) (.mul (.ckm 2 2) (.conj (.ckm 2 1)))) (.inp n!"CSRLt_bsuu"))) (.rat 3 1))))),
  (n!"3pdbuu", (.mul (.div (.div (.sqrt (.rat 2 1)) (.par n!"GF")) (.rat 4 1)) (.sub (.add (.sub (.div (.mul (.mul (.div (.mul (.rat 4 1) (.par n!"GF")) (.sqrt (.rat 2 1))) (.mul (.ckm 2 2) (.conj (.ckm 2 0)))) (.inp n!"CVRR_bduu")) (.rat 12 1)) (.div (.mul (.mul (.div (.mul (.rat 4 1) (.par n!"GF")) (.sqrt (.rat 2 1))) (.mul (.ckm 2 2) (.conj (.ckm 2 0)))) (.inp n!"CVRL_bduu")) (.rat 12 1))) (.div (.mul (.mul (.div (.mul (.rat 4 1) (.par n!"GF")) (.sqrt (.rat 2 1))) (.mul (.ckm 2 2) (.conj (.ckm 2 0)))) (.inp n!"CVRRt_bduu")) (.mul (.rat 12 1) (.rat 3 1)))) (.div (.mul (.mul (.div (.mul (.rat 4 1) (.par n!"GF")) (.sqrt (.rat 2 1))) (.mul (.ckm 2 2) (.conj (.ckm 2 0)))) (.inp n!"CVRLt_bduu")) (.mul (.rat 12 1) (.rat 3 1)))))),
  (n!"4sbuu", (.mul (.div (.div (.sqrt (.rat 2 1)) (.par n!"GF")) (.rat 4 1)) (.sub (.div (.mul (.mul (.div (.mul (.rat 4 1) (.par n!"GF")) (.sqrt (.rat 2 1))) (.mul (.ckm 2 2) (.conj (.ckm 2 1)))) (.inp n!"CVLLt_bsuu")) (.rat 6 1)) (.div (.mul (.mul (.div (.mul (.rat 4 1) (.par n!"GF")) (.sqrt (.rat 2 1))) (.mul (.ckm 2 2) (.conj (.ckm 2 1)))) (.inp n!"CVLRt_bsuu")) (.rat 6 1))))),
  (n!"7psbcc", (.mul (.div (.div (.sqrt (.rat 2 1)) (.par n!"GF")) (.rat 4 1)) (.sub (.add (.add (.add (.sub (.div (.mul (.mul (.div (.mul (.rat 4 1) (.par n!"GF")) (.sqrt (.rat 2 1))) (.mul (.ckm 2 2) (.conj (.ckm 2 1)))) (.inp n!"CSLL_bscc")) (.rat 3 1)) (.div (.mul (.mul (.div (.mul (.rat 4 1) (.par n!"GF")) (.sqrt (.rat 2 1))) (.mul (.ckm 2 2) (.conj (.ckm 2 1)))) (.inp n!"CSLR_bscc")) (.rat 3 1))) (.mul (.mul (.div (.mul (.rat 4 1) (.par n!"GF")) (.sqrt (.rat 2 1))) (.mul (.ckm 2 2) (.conj (.ckm 2 1)))) (.inp n!"CTLL_bscc"))) (.div (.mul (.mul (.div (.mul (.rat 4 1) (.par n!"GF")) (.sqrt (.rat 2 1))) (.mul (.ckm 2 2) (.conj (.ckm 2 1)))) (.inp n!"CTLLt_bscc")) (.rat 3 1))) (.div (.mul (.mul (.div (.mul (.rat 4 1) (.par n!"GF")) (.sqrt (.rat 2 1))) (.mul (.ckm 2 2) (.conj (.ckm 2 1)))) (.inp n!"CSLLt_bscc")) (.mul (.rat 3 1) (.rat 3 1)))) (.div (.mul (.mul (.div (.mul (.rat 4 1) (.par n!"GF")) (.sqrt (.rat 2 1))) (.mul (.ckm 2 2) (.conj (.ckm 2 1)))) (.inp n!"CSLRt_bscc")) (.mul (.rat 3 1) (.rat 3 1)))))),
  (n!"2sbuu", (.mul (.div (.div (.sqrt (.rat 2 1)) (.par n!"GF")) (.rat 4 1)) (.add (.div (.mul (.rat (-2) 1) (.mul (.mul (.div (.mul (.rat 4 1) (.par n!"GF")) (.sqrt (.rat 2 1))) (.mul (.ckm 2 2) (.conj (.ckm 2 1)))) (.inp n!"CVLLt_bsuu"))) (.rat 3 1)) (.div (.mul (.rat 8 1) (.mul (.mul (.div (.mul (.rat 4 1) (.par n!"GF")) (.sqrt (.rat 2 1))) (.mul (.ckm 2 2) (.conj (.ckm 2 1)))) (.inp n!"CVLRt_bsuu"))) (.rat 3 1))))),
  (n!"3psbbb", (.mul (.div (.div (.sqrt (.rat 2 1)) (.par n!"GF")) (.rat 4 1)) (.sub (.div (.mul (.mul (.div (.mul (.rat 4 1) (.par n!"GF")) (.sqrt (.rat 2 1))) (.mul (.ckm 2 2) (.conj (.ckm 2 1)))) (.inp n!"CVRR_bsbb")) (.rat 12 1)) (.div (.mul (.mul (.div (.mul (.rat 4 1) (.par n!"GF")) (.sqrt (.rat 2 1))) (.mul (.ckm 2 2) (.conj (.ckm 2 1)))) (.inp n!"CVRL_bsbb")) (.rat 12 1))))),
  (n!"5cbmue", (.mul (.div (.div (.sqrt (.rat 2 1)) (.par n!"GF")) (.rat 4 1)) (.div (.inp n!"CSR_bcmunue") (.div (.div (.div (.neg (.sqrt (.rat 2 1))) (.par n!"GF")) (.ckm 1 2)) (.rat 4 1))))),
  (n!"7pgammads", (.mul (.div (.div (.sqrt (.rat 2 1)) (.par n!"GF")) (.rat 4 1)) (.mul (.div (.div (.mul (.sqrt (.mul (.mul (.rat 4 1) .pi) (.par n!"alpha_s"))) (.sqrt (.mul (.mul (.rat 4 1) .pi) (.par n!"alpha_s")))) (.sqrt (.mul (.mul (.rat 4 1) .pi) (.par n!"alpha_e")))) (.par n!"m_s")) (.div (.div (.inp n!"C7p_sd") (.div (.div (.mul (.rat 16 1) (.mul .pi .pi)) (.sqrt (.mul (.mul (.rat 4 1) .pi) (.par n!"alpha_e")))) (.par n!"m_s"))) (.div (.div (.div (.sqrt (.rat 2 1)) (.par n!"GF")) (.mul (.ckm 2 1) (.conj (.ckm 2 0)))) (.rat 4 1)))))),
  (n!"1pudmumu", (.mul (.div (.div (.sqrt (.rat 2 1)) (.par n!"GF")) (.rat 4 1)) (.div (.inp n!"CVR_dumunumu") (.div (.div (.div (.neg (.sqrt (.rat 2 1))) (.par n!"GF")) (.ckm 0 0)) (.rat 4 1))))),
  (n!"3psbtaue", (.mul (.div (.div (.sqrt (.rat 2 1)) (.par n!"GF")) (.rat 4 1)) (.div (.div (.div (.inp n!"C10p_bsetau") (.div (.mul (.rat 16 1) (.mul .pi .pi)) (.mul (.sqrt (.mul (.mul (.rat 4 1) .pi) (.par n!"alpha_e"))) (.sqrt (.mul (.mul (.rat 4 1) .pi) (.par n!"alpha_e")))))) (.div (.div (.div (.sqrt (.rat 2 1)) (.par n!"GF")) (.mul (.ckm 2 2) (.conj (.ckm 2 1)))) (.rat 4 1))) (.rat 6 1)))),
  (n!"3sbtautau", (.mul (.div (.div (.sqrt (.rat 2 1)) (.par n!"GF")) (.rat 4 1)) (.div (.neg (.div (.div (.inp n!"C10_bstautau") (.div (.mul (.rat 16 1) (.mul .pi .pi)) (.mul (.sqrt (.mul (.mul (.rat 4 1) .pi) (.par n!"alpha_e"))) (.sqrt (.mul (.mul (.rat 4 1) .pi) (.par n!"alpha_e")))))) (.div (.div (.div (.sqrt (.rat 2 1)) (.par n!"GF")) (.mul (.ckm 2 2) (.conj (.ckm 2 1)))) (.rat 4 1)))) (.rat 6 1)))),
  (n!"1pcsmutau", (.mul (.div (.div (.sqrt (.rat 2 1)) (.par n!"GF")) (.rat 4 1)) (.div (.inp n!"CVR_scmunutau") (.div (.div (.div (.neg (.sqrt (.rat 2 1))) (.par n!"GF")) (.ckm 1 1)) (.rat 4 1))))),
  (n!"nu1pdsmumu", (.mul (.div (.div (.sqrt (.rat 2 1)) (.par n!"GF")) (.rat 4 1)) (.div (.div (.inp n!"CR_sdnumunumu") (.div (.mul (.rat 8 1) (.mul .pi .pi)) (.mul (.sqrt (.mul (.mul (.rat 4 1) .pi) (.par n!"alpha_e"))) (.sqrt (.mul (.mul (.rat 4 1) .pi) (.par n!"alpha_e")))))) (.div (.div (.div (.sqrt (.rat 2 1)) (.par n!"GF")) (.mul (.ckm 2 1) (.conj (.ckm 2 0)))) (.rat 4 1))))),
  (n!"8pgsb", (.mul (.div (.div (.sqrt (.rat 2 1)) (.par n!"GF")) (.rat 4 1)) (.mul (.div (.sqrt (.mul (.mul (.rat 4 1) .pi) (.par n!"alpha_s"))) (.par n!"m_b")) (.div (.div (.inp n!"C8p_bs") (.div (.div (.mul (.rat 16 1) (.mul .pi .pi)) (.sqrt (.mul (.mul (.rat 4 1) .pi) (.par n!"alpha_s")))) (.par n!"m_b"))) (.div (.div (.div (.sqrt (.rat 2 1)) (.par n!"GF")) (.mul (.ckm 2 2) (.conj (.ckm 2 1)))) (.rat 4 1)))))),
  (n!"1pubmumu", (.mul (.div (.div (.sqrt (.rat 2 1)) (.par n!"GF")) (.rat 4 1)) (.div (.inp n!"CVR_bumunumu") (.div (.div (.div (.neg (.sqrt (.rat 2 1))) (.par n!"GF")) (.ckm 0 2)) (.rat 4 1))))),
  (n!"9dbemu", (.mul (.div (.div (.sqrt (.rat 2 1)) (.par n!"GF")) (.rat 4 1)) (.div (.div (.div (.inp n!"CP_bdmue") (.div (.div (.mul (.rat 16 1) (.mul .pi .pi)) (.mul (.sqrt (.mul (.mul (.rat 4 1) .pi) (.par n!"alpha_e"))) (.sqrt (.mul (.mul (.rat 4 1) .pi) (.par n!"alpha_e"))))) (.par n!"m_b"))) (.div (.div (.div (.sqrt (.rat 2 1)) (.par n!"GF")) (.mul (.ckm 2 2) (.conj (.ckm 2 0)))) (.rat 4 1))) (.rat 24 1)))),
  (n!"7pudtautau", (.mul (.div (.div (.sqrt (.rat 2 1)) (.par n!"GF")) (.rat 4 1)) (.div (.inp n!"CT_dutaunutau") (.div (.div (.div (.neg (.sqrt (.rat 2 1))) (.par n!"GF")) (.ckm 0 0)) (.rat 4 1))))),
  (n!"1pdbmue", (.mul (.div (.div (.sqrt (.rat 2 1)) (.par n!"GF")) (.rat 4 1)) (.sub (.div (.div (.inp n!"C9p_bdemu") (.div (.mul (.rat 16 1) (.mul .pi .pi)) (.mul (.sqrt (.mul (.mul (.rat 4 1) .pi) (.par n!"alpha_e"))) (.sqrt (.mul (.mul (.rat 4 1) .pi) (.par n!"alpha_e")))))) (.div (.div (.div (.sqrt (.rat 2 1)) (.par n!"GF")) (.mul (.ckm 2 2) (.conj (.ckm 2 0)))) (.rat 4 1))) (.div (.mul (.rat 5 1) (.div (.div (.inp n!"C10p_bdemu") (.div (.mul (.rat 16 1) (.mul .pi .pi)) (.mul (.sqrt (.mul (.mul (.rat 4 1) .pi) (.par n!"alpha_e"))) (.sqrt (.mul (.mul (.rat 4 1) .pi) (.par n!"alpha_e")))))) (.div (.div (.div (.sqrt (.rat 2 1)) (.par n!"GF")) (.mul (.ckm 2 2) (.conj (.ckm 2 0)))) (.rat 4 1)))) (.rat 3 1))))),
  (n!"1cdtaumu", (.mul (.div (.div (.sqrt (.rat 2 1)) (.par n!"GF")) (.rat 4 1)) (.div (.inp n!"CVL_dctaunumu") (.div (.div (.div (.neg (.sqrt (.rat 2 1))) (.par n!"GF")) (.ckm 1 0)) (.rat 4 1))))),
  (n!"5udmutau", (.mul (.div (.div (.sqrt (.rat 2 1)) (.par n!"GF")) (.rat 4 1)) (.div (.inp n!"CSR_dumunutau") (.div (.div (.div (.neg (.sqrt (.rat 2 1))) (.par n!"GF")) (.ckm 0 0)) (.rat 4 1))))),
  (n!"7psbuu", (.mul (.div (.div (.sqrt (.rat 2 1)) (.par n!"GF")) (.rat 4 1)) (.sub (.add (.add (.add (.sub (.div (.mul (.mul (.div (.mul (.rat 4 1) (.par n!"GF")) (.sqrt (.rat 2 1))) (.mul (.ckm 2 2) (.conj (.ckm 2 1)))) (.inp n!"CSLL_bsuu")) (.rat 3 1)) (.div (.mul (.mul (.div (.mul (.rat 4 1) (.par n!"GF")) (.sqrt (.rat 2 1))) (.mul (.ckm 2 2) (.conj (.ckm 2 1)))) (.inp n!"CSLR_bsuu")) (.rat 3 1))) (.mul (.mul (.div (.mul (.rat 4 1) (.par n!"GF")) (.sqrt (.rat 2 1))) (.mul (.ckm 2 2) (.conj (.ckm 2 1)))) (.inp n!"CTLL_bsuu"))) (.div (.mul (.mul (.div (.mul (.rat 4 1) (.par n!"GF")) (.sqrt (.rat 2 1))) (.mul (.ckm 2 2) (.conj (.ckm 2 1)))) (.inp n!"CTLLt_bsuu")) (.rat 3 1))) (.div (.mul (.mul (.div (.mul (.rat 4 1) (.par n!"GF")) (.sqrt (.rat 2 1))) (.mul (.ckm 2 2) (.conj (.ckm 2 1)))) (.inp n!"CSLLt_bsuu")) (.mul (.rat 3 1) (.rat 3 1)))) (.div (.mul (.mul (.div (.mul (.rat 4 1) (.par n!"GF")) (.sqrt (.rat 2 1))) (.mul (.ckm 2 2) (.conj (.ckm 2 1)))) (.inp n!"CSLRt_bsuu")) (.mul (.rat 3 1) (.rat 3 1)))))),
  (n!"9dsss", (.mul (.div (.div (.sqrt (.rat 2 1)) (.par n!"GF")) (.rat 4 1)) (.sub (.div (.mul (.mul (.div (.mul (.rat 4 1) (.par n!"GF")) (.sqrt (.rat 2 1))) (.mul (.ckm 2 1) (.conj (.ckm 2 0)))) (.inp n!"CSRR_sdss")) (.rat 48 1)) (.div (.mul (.mul (.div (.mul (.rat 4 1) (.par n!"GF")) (.sqrt (.rat 2 1))) (.mul (.ckm 2 1) (.conj (.ckm 2 0)))) (.inp n!"CSRL_sdss")) (.rat 48 1))))),
  (n!"7pcdee", (.mul (.div (.div (.sqrt (.rat 2 1)) (.par n!"GF")) (.rat 4 1)) (.div (.inp n!"CT_dcenue") (.div (.div (.div (.neg (.sqrt (.rat 2 1))) (.par n!"GF")) (.ckm 1 0)) (.rat 4 1))))),
  (n!"3dbmutau", (.mul (.div (.div (.sqrt (.rat 2 1)) (.par n!"GF")) (.rat 4 1)) (.div (.neg (.div (.div (.inp n!"C10_bdtaumu") (.div (.mul (.rat 16 1) (.mul .pi .pi)) (.mul (.sqrt (.mul (.mul (.rat 4 1) .pi) (.par n!"alpha_e"))) (.sqrt (.mul (.mul (.rat 4 1) .pi) (.par n!"alpha_e")))))) (.div (.div (.div (.sqrt (.rat 2 1)) (.par n!"GF")) (.mul (.ckm 2 2) (.conj (.ckm 2 0)))) (.rat 4 1)))) (.rat 6 1))))]

def flavio_to_Bern_13 : List (ℕ × Sym) := [
  (n!"1cstaue", (.mul (.div (.div (.sqrt (.rat 2 1)) (.par n!"GF")) (.rat 4 1)) (.div (.inp n!"CVL_sctaunue") (.div (.div (.div (.neg (.sqrt (.rat 2 1))) (.par n!"GF")) (.ckm 1 1)) (.rat 4 1))))),
  (n!"7dsss", (.mul (.div (.div (.sqrt (.rat 2 1)) (.par n!"GF")) (.rat 4 1)) (.add (.sub (.div (.mul (.mul (.div (.mul (.rat 4 1) (.par n!"GF")) (.sqrt (.rat 2 1))) (.mul (.ckm 2 1) (.conj (.ckm 2 0)))) (.inp n!"CSRR_sdss")) (.rat 3 1)) (.div (.mul (.mul (.div (.mul (.rat 4 1) (.par n!"GF")) (.sqrt (.rat 2 1))) (.mul (.ckm 2 1) (.conj (.ckm 2 0)))) (.inp n!"CSRL_sdss")) (.rat 3 1))) (.mul (.mul (.div (.mul (.rat 4 1) (.par n!"GF")) (.sqrt (.rat 2 1))) (.mul (.ckm 2 1) (.conj (.ckm 2 0)))) (.inp n!"CTRR_sdss"))))),
  (n!"2pdbss", (.mul (.div (.div (.sqrt (.rat 2 1)) (.par n!"GF")) (.rat 4 1)) (.add (.div (.mul (.rat (-2) 1) (.mul (.mul (.div (.mul (.rat 4 1) (.par n!"GF")) (.sqrt (.rat 2 1))) (.mul (.ckm 2 2) (.conj (.ckm 2 0)))) (.inp n!"CVRRt_bdss"))) (.rat 3 1)) (.div (.mul (.rat 8 1) (.mul (.mul (.div (.mul (.rat 4 1) (.par n!"GF")) (.sqrt (.rat 2 1))) (.mul (.ckm 2 2) (.conj (.ckm 2 0)))) (.inp n!"CVRLt_bdss"))) (.rat 3 1))))),
  (n!"5cucu", (.mul (.div (.div (.sqrt (.rat 2 1)) (.par n!"GF")) (.rat 4 1)) (.mul (.rat (-2) 1) (.inp n!"CVLR_ucuc")))),
  (n!"7pdsmumu", (.mul (.div (.div (.sqrt (.rat 2 1)) (.par n!"GF")) (.rat 4 1)) (.sub (.add (.div (.mul (.rat (-2) 1) (.div (.div (.inp n!"CPp_sdmumu") (.div (.div (.mul (.rat 16 1) (.mul .pi .pi)) (.mul (.sqrt (.mul (.mul (.rat 4 1) .pi) (.par n!"alpha_e"))) (.sqrt (.mul (.mul (.rat 4 1) .pi) (.par n!"alpha_e"))))) (.par n!"m_s"))) (.div (.div (.div (.sqrt (.rat 2 1)) (.par n!"GF")) (.mul (.ckm 2 1) (.conj (.ckm 2 0)))) (.rat 4 1)))) (.rat 3 1)) (.div (.rat 0 1) (.div (.div (.div (.sqrt (.rat 2 1)) (.par n!"GF")) (.mul (.ckm 2 1) (.conj (.ckm 2 0)))) (.rat 4 1)))) (.div (.rat 0 1) (.div (.div (.div (.sqrt (.rat 2 1)) (.par n!"GF")) (.mul (.ckm 2 1) (.conj (.ckm 2 0)))) (.rat 4 1)))))),
  (n!"5dsss", (.mul (.div (.div (.sqrt (.rat 2 1)) (.par n!"GF")) (.rat 4 1)) (.add (.div (.neg (.mul (.mul (.div (.mul (.rat 4 1) (.par n!"GF")) (.sqrt (.rat 2 1))) (.mul (.ckm 2 1) (.conj (.ckm 2 0)))) (.inp n!"CSRR_sdss"))) (.rat 3 1)) (.div (.mul (.rat 4 1) (.mul (.mul (.div (.mul (.rat 4 1) (.par n!"GF")) (.sqrt (.rat 2 1))) (.mul (.ckm 2 1) (.conj (.ckm 2 0)))) (.inp n!"CSRL_sdss"))) (.rat 3 1))))),
  (n!"3cucu", (.mul (.div (.div (.sqrt (.rat 2 1)) (.par n!"GF")) (.rat 4 1)) (.mul (.rat (-8) 1) (.inp n!"CTLL_ucuc")))),
  (n!"3dsss", (.mul (.div (.div (.sqrt (.rat 2 1)) (.par n!"GF")) (.rat 4 1)) (.sub (.div (.mul (.mul (.div (.mul (.rat 4 1) (.par n!"GF")) (.sqrt (.rat 2 1))) (.mul (.ckm 2 1) (.conj (.ckm 2 0)))) (.inp n!"CVLL_sdss")) (.rat 12 1)) (.div (.mul (.mul (.div (.mul (.rat 4 1) (.par n!"GF")) (.sqrt (.rat 2 1))) (.mul (.ckm 2 1) (.conj (.ckm 2 0)))) (.inp n!"CVLR_sdss")) (.rat 12 1))))),
  (n!"1cucu", (.mul (.div (.div (.sqrt (.rat 2 1)) (.par n!"GF")) (.rat 4 1)) (.inp n!"CVLL_ucuc"))),
  (n!"1usmutau", (.mul (.div (.div (.sqrt (.rat 2 1)) (.par n!"GF")) (.rat 4 1)) (.div (.inp n!"CVL_sumunutau") (.div (.div (.div (.neg (.sqrt (.rat 2 1))) (.par n!"GF")) (.ckm 0 1)) (.rat 4 1))))),
  (n!"7pubtautau", (.mul (.div (.div (.sqrt (.rat 2 1)) (.par n!"GF")) (.rat 4 1)) (.div (.inp n!"CT_butaunutau") (.div (.div (.div (.neg (.sqrt (.rat 2 1))) (.par n!"GF")) (.ckm 0 2)) (.rat 4 1))))),
  (n!"1dsss", (.mul (.div (.div (.sqrt (.rat 2 1)) (.par n!"GF")) (.rat 4 1)) (.add (.div (.neg (.mul (.mul (.div (.mul (.rat 4 1) (.par n!"GF")) (.sqrt (.rat 2 1))) (.mul (.ckm 2 1) (.conj (.ckm 2 0)))) (.inp n!"CVLL_sdss"))) (.rat 3 1)) (.div (.mul (.rat 4 1) (.mul (.mul (.div (.mul (.rat 4 1) (.par n!"GF")) (.sqrt (.rat 2 1))) (.mul (.ckm 2 1) (.conj (.ckm 2 0)))) (.inp n!"CVLR_sdss"))) (.rat 3 1))))),
  (n!"7pusemu", (.mul (.div (.div (.sqrt (.rat 2 1)) (.par n!"GF")) (.rat 4 1)) (.div (.inp n!"CT_suenumu") (.div (.div (.div (.neg (.sqrt (.rat 2 1))) (.par n!"GF")) (.ckm 0 1)) (.rat 4 1))))),
  (n!"7pdsdd", (.mul (.div (.div (.sqrt (.rat 2 1)) (.par n!"GF")) (.rat 4 1)) (.add (.sub (.div (.mul (.mul (.div (.mul (.rat 4 1) (.par n!"GF")) (.sqrt (.rat 2 1))) (.mul (.ckm 2 1) (.conj (.ckm 2 0)))) (.inp n!"CSRR_sddd")) (.rat 3 1)) (.div (.mul (.mul (.div (.mul (.rat 4 1) (.par n!"GF")) (.sqrt (.rat 2 1))) (.mul (.ckm 2 1) (.conj (.ckm 2 0)))) (.inp n!"CSRL_sddd")) (.rat 3 1))) (.mul (.mul (.div (.mul (.rat 4 1) (.par n!"GF")) (.sqrt (.rat 2 1))) (.mul (.ckm 2 1) (.conj (.ckm 2 0)))) (.inp n!"CTRR_sddd"))))),
  (n!"nu1psbetau", (.mul (.div (.div (.sqrt (.rat 2 1)) (.par n!"GF")) (.rat 4 1)) (.div (.div (.inp n!"CR_bsnutaunue") (.div (.mul (.rat 8 1) (.mul .pi .pi)) (.mul (.sqrt (.mul (.mul (.rat 4 1) .pi) (.par n!"alpha_e"))) (.sqrt (.mul (.mul (.rat 4 1) .pi) (.par n!"alpha_e")))))) (.div (.div (.div (.sqrt (.rat 2 1)) (.par n!"GF")) (.mul (.ckm 2 2) (.conj (.ckm 2 1)))) (.rat 4 1))))),
  (n!"3pdscc", (.mul (.div (.div (.sqrt (.rat 2 1)) (.par n!"GF")) (.rat 4 1)) (.sub (.add (.sub (.div (.mul (.mul (.div (.mul (.rat 4 1) (.par n!"GF")) (.sqrt (.rat 2 1))) (.mul (.ckm 2 1) (.conj (.ckm 2 0)))) (.inp n!"CVRR_sdcc")) (.rat 12 1)) (.div (.mul (.mul (.div (.mul (.rat 4 1) (.par n!"GF")) (.sqrt (.rat 2 1))) (.mul (.ckm 2 1) (.conj (.ckm 2 0)))) (.inp n!"CVRL_sdcc")) (.rat 12 1))) (.div (.mul (.mul (.div (.mul (.rat 4 1) (.par n!"GF")) (.sqrt (.rat 2 1))) (.mul (.ckm 2 1) (.conj (.ckm 2 0)))) (.inp n!"CVRRt_sdcc")) (.mul (.rat 12 1) (.rat 3 1)))) (.div (.mul (.mul (.div (.mul (.rat 4 1) (.par n!"GF")) (.sqrt (.rat 2 1))) (.mul (.ckm 2 1) (.conj (.ckm 2 0)))) (.inp n!"CVRLt_sdcc")) (.mul (.rat 12 1) (.rat 3 1)))))),
  (n!"8gds", (.mul (.div (.div (.sqrt (.rat 2 1)) (.par n!"GF")) (.rat 4 1)) (.mul (.div (.sqrt (.mul (.mul (.rat 4 1) .pi) (.par n!"alpha_s"))) (.par n!"m_s")) (.div (.div (.inp n!"C8_sd") (.div (.div (.mul (.rat 16 1) (.mul .pi .pi)) (.sqrt (.mul (.mul (.rat 4 1) .pi) (.par n!"alpha_s")))) (.par n!"m_s"))) (.div (.div (.div (.sqrt (.rat 2 1)) (.par n!"GF")) (.mul (.ckm 2 1) (.conj (.ckm 2 0)))) (.rat 4 1)))))),
  (n!"9pdstautau", (.mul (.div (.div (.sqrt (.rat 2 1)) (.par n!"GF")) (.rat 4 1)) (.div (.neg (.div (.div (.inp n!"CPp_sdtautau") (.div (.div (.mul (.rat 16 1) (.mul .pi .pi)) (.mul (.sqrt (.mul (.mul (.rat 4 1) .pi) (.par n!"alpha_e"))) (.sqrt (.mul (.mul (.rat 4 1) .pi) (.par n!"alpha_e"))))) (.par n!"m_s"))) (.div (.div (.div (.sqrt (.rat 2 1)) (.par n!"GF")) (.mul (.ckm 2 1) (.conj (.ckm 2 0)))) (.rat 4 1)))) (.rat 24 1)))),
  (n!"1pdbee", (.mul (.div (.div (.sqrt (.rat 2 1)) (.par n!"GF")) (.rat 4 1)) (.sub (.div (.div (.inp n!"C9p_bdee") (.div (.mul (.rat 16 1) (.mul .pi .pi)) (.mul (.sqrt (.mul (.mul (.rat 4 1) .pi) (.par n!"alpha_e"))) (.sqrt (.mul (.mul (.rat 4 1) .pi) (.par n!"alpha_e")))))) (.div (.div (.div (.sqrt (.rat 2 1)) (.par n!"GF")) (.mul (.ckm 2 2) (.conj (.ckm 2 0)))) (.rat 4 1))) (.div (.mul (.rat 5 1) (.div (.div (.inp n!"C10p_bdee") (.div (.mul (.rat 16 1) (.mul .pi .pi)) (.mul (.sqrt (.mul (.mul (.rat 4 1) .pi) (.par n!"alpha_e"))) (.sqrt (.mul (.mul (.rat 4 1) .pi) (.par n!"alpha_e")))))) (.div (.div (.div (.sqrt (.rat 2 1)) (.par n!"GF")) (.mul (.ckm 2 2) (.conj (.ckm 2 0)))) (.rat 4 1)))) (.rat 3 1))))),
  (n!"5udtautau", (.mul (.div (.div (.sqrt (.rat 2 1)) (.par n!"GF")) (.rat 4 1)) (.div (.inp n!"CSR_dutaunutau") (.div (.div (.div (.neg (.sqrt (.rat 2 1))) (.par n!"GF")) (.ckm 0 0)) (.rat 4 1))))),
  (n!"1dstautau", (.mul (.div (.div (.sqrt (.rat 2 1)) (.par n!"GF")) (.rat 4 1)) (.add (.div (.mul (.rat 5 1) (.div (.div (.inp n!"C10_sdtautau") (.div (.mul (.rat 16 1) (.mul .pi .pi)) (.mul (.sqrt (.mul (.mul (.rat 4 1) .pi) (.par n!"alpha_e"))) (.sqrt (.mul (.mul (.rat 4 1) .pi) (.par n!"alpha_e")))))) (.div (.div (.div (.sqrt (.rat 2 1)) (.par n!"GF")) (.mul (.ckm 2 1) (.conj (.ckm 2 0)))) (.rat 4 1)))) (.rat 3 1)) (.div (.div (.inp n!"C9_sdtautau") (.div (.mul (.rat 16 1) (.mul .pi .pi)) (.mul (.sqrt (.mul (.mul (.rat 4 1) .pi) (.par n!"alpha_e"))) (.sqrt (.mul (.mul (.rat 4 1) .pi) (.par n!"alpha_e")))))) (.div (.div (.div (.sqrt (.rat 2 1)) (.par n!"GF")) (.mul (.ckm 2 1) (.conj (.ckm 2 0)))) (.rat 4 1)))))),
  (n!"nu1sbmumu", (.mul (.div (.div (.sqrt (.rat 2 1)) (.par n!"GF")) (.rat 4 1)) (.div (.div (.inp n!"CL_bsnumunumu") (.div (.mul (.rat 8 1) (.mul .pi .pi)) (.mul (.sqrt (.mul (.mul (.rat 4 1) .pi) (.par n!"alpha_e"))) (.sqrt (.mul (.mul (.rat 4 1) .pi) (.par n!"alpha_e")))))) (.div (.div (.div (.sqrt (.rat 2 1)) (.par n!"GF")) (.mul (.ckm 2 2) (.conj (.ckm 2 1)))) (.rat 4 1))))),
  (n!"5pustautau", (.mul (.div (.div (.sqrt (.rat 2 1)) (.par n!"GF")) (.rat 4 1)) (.div (.inp n!"CSL_sutaunutau") (.div (.div (.div (.neg (.sqrt (.rat 2 1))) (.par n!"GF")) (.ckm 0 1)) (.rat 4 1))))),
  (n!"nu1psbemu", (.mul (.div (.div (.sqrt (.rat 2 1)) (.par n!"GF")) (.rat 4 1)) (.div (.div (.inp n!"CR_bsnumunue") (.div (.mul (.rat 8 1) (.mul .pi .pi)) (.mul (.sqrt (.mul (.mul (.rat 4 1) .pi) (.par n!"alpha_e"))) (.sqrt (.mul (.mul (.rat 4 1) .pi) (.par n!"alpha_e")))))) (.div (.div (.div (.sqrt (.rat 2 1)) (.par n!"GF")) (.mul (.ckm 2 2) (.conj (.ckm 2 1)))) (.rat 4 1))))),
  (n!"1pcbmutau", (.mul (.div (.div (.sqrt (.rat 2 1)) (.par n!"GF")) (.rat 4 1)) (.div (.inp n!"CVR_bcmunutau") (.div (.div (.div (.neg (.sqrt (.rat 2 1))) (.par n!"GF")) (.ckm 1 2)) (.rat 4 1))))),
  (n!"1pdbmumu", (.mul (.div (.div (.sqrt (.rat 2 1)) (.par n!"GF")) (.rat 4 1)) (.sub (.div (.div (.inp n!"C9p_bdmumu") (.div (.mul (.rat 16 1) (.mul .pi .pi)) (.mul (.sqrt (.mul (.mul (.rat 4 1) .pi) (.par n!"alpha_e"))) (.sqrt (.mul (.mul (.rat 4 1) .pi) (.par n!"alpha_e")))))) (.div (.div (.div (.sqrt (.rat 2 1)) (.par n!"GF")) (.mul (.ckm 2 2) (.conj (.ckm 2 0)))) (.rat 4 1))) (.div (.mul (.rat 5 1) (.div (.div (.inp n!"C10p_bdmumu") (.div (.mul (.rat 16 1) (.mul .pi .pi)) (.mul (.sqrt (.mul (.mul (.rat 4 1) .pi) (.par n!"alpha_e"))) (.sqrt (.mul (.mul (.rat 4 1) .pi) (.par n!"alpha_e")))))) (.div (.div (.div (.sqrt (.rat 2 1)) (.par n!"GF")) (.mul (.ckm 2 2) (.conj (.ckm 2 0)))) (.rat 4 1)))) (.rat 3 1))))),
  (n!"9pdbss", (.mul (.div (.div (.sqrt (.rat 2 1)) (.par n!"GF")) (.rat 4 1)) (.sub (.add (.sub (.div (.mul (.mul (.div (.mul (.rat 4 1) (.par n!"GF")) (.sqrt (.rat 2 1))) (.mul (.ckm 2 2) (.conj (.ckm 2 0)))) (.inp n!"CSLL_bdss")) (.rat 48 1)) (.div (.mul (.mul (.div (.mul (.rat 4 1) (.par n!"GF")) (.sqrt (.rat 2 1))) (.mul (.ckm 2 2) (.conj (.ckm 2 0)))) (.inp n!"CSLR_bdss")) (.rat 48 1))) (.div (.mul (.mul (.div (.mul (.rat 4 1) (.par n!"GF")) (.sqrt (.rat 2 1))) (.mul (.ckm 2 2) (.conj (.ckm 2 0)))) (.inp n!"CSLLt_bdss")) (.mul (.rat 48 1) (.rat 3 1)))) (.div (.mul (.mul (.div (.mul (.rat 4 1) (.par n!"GF")) (.sqrt (.rat 2 1))) (.mul (.ckm 2 2) (.conj (.ckm 2 0)))) (.inp n!"CSLRt_bdss")) (.mul (.rat 48 1) (.rat 3 1)))))),
  (n!"7pudee", (.mul (.div (.div (.sqrt (.rat 2 1)) (.par n!"GF")) (.rat 4 1)) (.div (.inp n!"CT_duenue") (.div (.div (.div (.neg (.sqrt (.rat 2 1))) (.par n!"GF")) (.ckm 0 0)) (.rat 4 1))))),
  (n!"1pcstautau", (.mul (.div (.div (.sqrt (.rat 2 1)) (.par n!"GF")) (.rat 4 1)) (.div (.inp n!"CVR_sctaunutau") (.div (.div (.div (.neg (.sqrt (.rat 2 1))) (.par n!"GF")) (.ckm 1 1)) (.rat 4 1))))),
  (n!"7psbetau", (.mul (.div (.div (.sqrt (.rat 2 1)) (.par n!"GF")) (.rat 4 1)) (.sub (.add (.div (.mul (.rat (-2) 1) (.div (.div (.inp n!"CPp_bstaue") (.div (.div (.mul (.rat 16 1) (.mul .pi .pi)) (.mul (.sqrt (.mul (.mul (.rat 4 1) .pi) (.par n!"alpha_e"))) (.sqrt (.mul (.mul (.rat 4 1) .pi) (.par n!"alpha_e"))))) (.par n!"m_b"))) (.div (.div (.div (.sqrt (.rat 2 1)) (.par n!"GF")) (.mul (.ckm 2 2) (.conj (.ckm 2 1)))) (.rat 4 1)))) (.rat 3 1)) (.div (.rat 0 1) (.div (.div (.div (.sqrt (.rat 2 1)) (.par n!"GF")) (.mul (.ckm 2 2) (.conj (.ckm 2 1)))) (.rat 4 1)))) (.div (.rat 0 1) (.div (.div (.div (.sqrt (.rat 2 1)) (.par n!"GF")) (.mul (.ckm 2 2) (.conj (.ckm 2 1)))) (.rat 4 1)))))),
  (n!"3pdsuu", (.mul (.div (.div (.sqrt (.rat 2 1)) (.par n!"GF")) (.rat 4 1)) (.sub (.add (.sub (.div (.mul (.mul (.div (.mul (.rat 4 1) (.par n!"GF")) (.sqrt (.rat 2 1))) (.mul (.ckm 2 1) (.conj (.ckm 2 0)))) (.inp n!"CVRR_sduu")) (.rat 12 1)) (.div (.mul (.mul (.div (.mul (.rat 4 1) (.par n!"GF")) (.sqrt (.rat 2 1))) (.mul (.ckm 2 1) (.conj (.ckm 2 0)))) (.inp n!"CVRL_sduu")) (.rat 12 1))) (.div (.mul (.mul (.div (.mul (.rat 4 1) (.par n!"GF")) (.sqrt (.rat 2 1))) (.mul (.ckm 2 1) (.conj (.ckm 2 0)))) (.inp n!"CVRRt_sduu")) (.mul (.rat 12 1) (.rat 3 1)))) (.div (.mul (.mul (.div (.mul (.rat 4 1) (.par n!"GF")) (.sqrt (.rat 2 1))) (.mul (.ckm 2 1) (.conj (.ckm 2 0)))) (.inp n!"CVRLt_sduu")) (.mul (.rat 12 1) (.rat 3 1)))))),
  (n!"7pcbee", (.mul (.div (.div (.sqrt (.rat 2 1)) (.par n!"GF")) (.rat 4 1)) (.div (.inp n!"CT_bcenue") (.div (.div (.div (.neg (.sqrt (.rat 2 1))) (.par n!"GF")) (.ckm 1 2)) (.rat 4 1))))),
  (n!"1pcstaumu", (.mul (.div (.div (.sqrt (.rat 2 1)) (.par n!"GF")) (.rat 4 1)) (.div (.inp n!"CVR_sctaunumu") (.div (.div (.div (.neg (.sqrt (.rat 2 1))) (.par n!"GF")) (.ckm 1 1)) (.rat 4 1))))),
  (n!"5pusemu", (.mul (.div (.div (.sqrt (.rat 2 1)) (.par n!"GF")) (.rat 4 1)) (.div (.inp n!"CSL_suenumu") (.div (.div (.div (.neg (.sqrt (.rat 2 1))) (.par n!"GF")) (.ckm 0 1)) (.rat 4 1))))),
  (n!"7pudmutau", (.mul (.div (.div (.sqrt (.rat 2 1)) (.par n!"GF")) (.rat 4 1)) (.div (.inp n!"CT_dumunutau") (.div (.div (.div (.neg (.sqrt (.rat 2 1))) (.par n!"GF")) (.ckm 0 0)) (.rat 4 1))))),
  (n!"7dbmue", (.mul (.div (.div (.sqrt (.rat 2 1)) (.par n!"GF")) (.rat 4 1)) (.add (.add (.div (.mul (.rat 2 1) (.div (.div (.inp n!"CP_bdemu") (.div (.div (.mul (.rat 16 1) (.mul .pi .pi)) (.mul (.sqrt (.mul (.mul (.rat 4 1) .pi) (.par n!"alpha_e"))) (.sqrt (.mul (.mul (.rat 4 1) .pi) (.par n!"alpha_e"))))) (.par n!"m_b"))) (.div (.div (.div (.sqrt (.rat 2 1)) (.par n!"GF")) (.mul (.ckm 2 2) (.conj (.ckm 2 0)))) (.rat 4 1)))) (.rat 3 1)) (.div (.rat 0 1) (.div (.div (.div (.sqrt (.rat 2 1)) (.par n!"GF")) (.mul (.ckm 2 2) (.conj (.ckm 2 0)))) (.rat 4 1)))) (.div (.rat 0 1) (.div (.div (.div (.sqrt (.rat 2 1)) (.par n!"GF")) (.mul (.ckm 2 2) (.conj (.ckm 2 0)))) (.rat 4 1)))))),
  (n!"5ubtautau", (.mul (.div (.div (.sqrt (.rat 2 1)) (.par n!"GF")) (.rat 4 1)) (.div (.inp n!"CSR_butaunutau") (.div (.div (.div (.neg (.sqrt (.rat 2 1))) (.par n!"GF")) (.ckm 0 2)) (.rat 4 1))))),
  (n!"5psbee", (.mul (.div (.div (.sqrt (.rat 2 1)) (.par n!"GF")) (.rat 4 1)) (.add (.div (.mul (.rat 5 1) (.div (.div (.inp n!"CPp_bsee") (.div (.div (.mul (.rat 16 1) (.mul .pi .pi)) (.mul (.sqrt (.mul (.mul (.rat 4 1) .pi) (.par n!"alpha_e"))) (.sqrt (.mul (.mul (.rat 4 1) .pi) (.par n!"alpha_e"))))) (.par n!"m_b"))) (.div (.div (.div (.sqrt (.rat 2 1)) (.par n!"GF")) (.mul (.ckm 2 2) (.conj (.ckm 2 1)))) (.rat 4 1)))) (.rat 3 1)) (.div (.div (.inp n!"CSp_bsee") (.div (.div (.mul (.rat 16 1) (.mul .pi .pi)) (.mul (.sqrt (.mul (.mul (.rat 4 1) .pi) (.par n!"alpha_e"))) (.sqrt (.mul (.mul (.rat 4 1) .pi) (.par n!"alpha_e"))))) (.par n!"m_b"))) (.div (.div (.div (.sqrt (.rat 2 1)) (.par n!"GF")) (.mul (.ckm 2 2) (.conj (.ckm 2 1)))) (.rat 4 1)))))),
  (n!"5udtaumu", (.mul (.div (.div (.sqrt (.rat 2 1)) (.par n!"GF")) (.rat 4 1)) (.div (.inp n!"CSR_dutaunumu") (.div (.div (.div (.neg (.sqrt (.rat 2 1))) (.par n!"GF")) (.ckm 0 0)) (.rat 4 1))))),
  (n!"6pdsbb", (.mul (.div (.div (.sqrt (.rat 2 1)) (.par n!"GF")) (.rat 4 1)) (.add (.div (.mul (.rat (-2) 1) (.mul (.mul (.div (.mul (.rat 4 1) (.par n!"GF")) (.sqrt (.rat 2 1))) (.mul (.ckm 2 1) (.conj (.ckm 2 0)))) (.inp n!"CSLLt_sdbb"))) (.rat 3 1)) (.div (.mul (.rat 8 1) (.mul (.mul (.div (.mul (.rat 4 1) (.par n!"GF")) (.sqrt (.rat 2 1))) (.mul (.ckm 2 1) (.conj (.ckm 2 0)))) (.inp n!"CSLRt_sdbb"))) (.rat 3 1))))),
  (n!"1psbdd", (.mul (.div (.div (.sqrt (.rat 2 1)) (.par n!"GF")) (.rat 4 1)) (.add (.sub (.add (.div (.neg (.mul (.mul (.div (.mul (.rat 4 1) (.par n!"GF")) (.sqrt (.rat 2 1))) (.mul (.ckm 2 2) (.conj (.ckm 2 1)))) (.inp n!"CVRR_bsdd"))) (.rat 3 1)) (.div (.mul (.rat 4 1) (.mul (.mul (.div (.mul (.rat 4 1) (.par n!"GF")) (.sqrt (.rat 2 1))) (.mul (.ckm 2 2) (.conj (.ckm 2 1)))) (.inp n!"CVRL_bsdd"))) (.rat 3 1))) (.div (.mul (.mul (.div (.mul (.rat 4 1) (.par n!"GF")) (.sqrt (.rat 2 1))) (.mul (.ckm 2 2) (.conj (.ckm 2 1)))) (.inp n!"CVRRt_bsdd")) (.mul (.rat 3 1) (.rat 3 1)))) (.div (.mul (.rat 4 1) (.mul (.mul (.div (.mul (.rat 4 1) (.par n!"GF")) (.sqrt (.rat 2 1))) (.mul (.ckm 2 2) (.conj (.ckm 2 1)))) (.inp n!"CVRLt_bsdd"))) (.mul (.rat 3 1) (.rat 3 1)))))),
  (n!"8dbcc", (.mul (.div (.div (.sqrt (.rat 2 1)) (.par n!"GF")) (.rat 4 1)) (.sub (.add (.mul (.rat 2 1) (.mul (.mul (.div (.mul (.rat 4 1) (.par n!"GF")) (.sqrt (.rat 2 1))) (.mul (.ckm 2 2) (.conj (.ckm 2 0)))) (.inp n!"CTRRt_bdcc"))) (.div (.mul (.rat 2 1) (.mul (.mul (.div (.mul (.rat 4 1) (.par n!"GF")) (.sqrt (.rat 2 1))) (.mul (.ckm 2 2) (.conj (.ckm 2 0)))) (.inp n!"CSRRt_bdcc"))) (.rat 3 1))) (.div (.mul (.rat 2 1) (.mul (.mul (.div (.mul (.rat 4 1) (.par n!"GF")) (.sqrt (.rat 2 1))) (.mul (.ckm 2 2) (.conj (.ckm 2 0)))) (.inp n!"CSRLt_bdcc"))) (.rat 3 1))))),
  (n!"3dbtaumu", (.mul (.div (.div (.sqrt (.rat 2 1)) (.par n!"GF")) (.rat 4 1)) (.div (.neg (.div (.div (.inp n!"C10_bdmutau") (.div (.mul (.rat 16 1) (.mul .pi .pi)) (.mul (.sqrt (.mul (.mul (.rat 4 1) .pi) (.par n!"alpha_e"))) (.sqrt (.mul (.mul (.rat 4 1) .pi) (.par n!"alpha_e")))))) (.div (.div (.div (.sqrt (.rat 2 1)) (.par n!"GF")) (.mul (.ckm 2 2) (.conj (.ckm 2 0)))) (.rat 4 1)))) (.rat 6 1)))),
  (n!"6dbcc", (.mul (.div (.div (.sqrt (.rat 2 1)) (.par n!"GF")) (.rat 4 1)) (.add (.div (.mul (.rat (-2) 1) (.mul (.mul (.div (.mul (.rat 4 1) (.par n!"GF")) (.sqrt (.rat 2 1))) (.mul (.ckm 2 2) (.conj (.ckm 2 0)))) (.inp n!"CSRRt_bdcc"))) (.rat 3 1)) (.div (.mul (.rat 8 1) (.mul (.mul (.div (.mul (.rat 4 1) (.par n!"GF")) (.sqrt (.rat 2 1))) (.mul (.ckm 2 2) (.conj (.ckm 2 0)))) (.inp n!"CSRLt_bdcc"))) (.rat 3 1))))),
  (n!"nu1pdstautau", (.mul (.div (.div (.sqrt (.rat 2 1)) (.par n!"GF")) (.rat 4 1)) (.div (.div (.inp n!"CR_sdnutaunutau") (.div (.mul (.rat 8 1) (.mul .pi .pi)) (.mul (.sqrt (.mul (.mul (.rat 4 1) .pi) (.par n!"alpha_e"))) (.sqrt (.mul (.mul (.rat 4 1) .pi) (.par n!"alpha_e")))))) (.div (.div (.div (.sqrt (.rat 2 1)) (.par n!"GF")) (.mul (.ckm 2 1) (.conj (.ckm 2 0)))) (.rat 4 1))))),
  (n!"1ubmutau", (.mul (.div (.div (.sqrt (.rat 2 1)) (.par n!"GF")) (.rat 4 1)) (.div (.inp n!"CVL_bumunutau") (.div (.div (.div (.neg (.sqrt (.rat 2 1))) (.par n!"GF")) (.ckm 0 2)) (.rat 4 1))))),
  (n!"7pcsemu", (.mul (.div (.div (.sqrt (.rat 2 1)) (.par n!"GF")) (.rat 4 1)) (.div (.inp n!"CT_scenumu") (.div (.div (.div (.neg (.sqrt (.rat 2 1))) (.par n!"GF")) (.ckm 1 1)) (.rat 4 1))))),
  (n!"9psbtautau", (.mul (.div (.div (.sqrt (.rat 2 1)) (.par n!"GF")) (.rat 4 1)) (.div (.neg (.div (.div (.inp n!"CPp_bstautau") (.div (.div (.mul (.rat 16 1) (.mul .pi .pi)) (.mul (.sqrt (.mul (.mul (.rat 4 1) .pi) (.par n!"alpha_e"))) (.sqrt (.mul (.mul (.rat 4 1) .pi) (.par n!"alpha_e"))))) (.par n!"m_b"))) (.div (.div (.div (.sqrt (.rat 2 1)) (.par n!"GF")) (.mul (.ckm 2 2) (.conj (.ckm 2 1)))) (.rat 4 1)))) (.rat 24 1)))),
  (n!"4dbcc", (.mul (.div (.div (.sqrt (.rat 2 1)) (.par n!"GF")) (.rat 4 1)) (.sub (.div (.mul (.mul (.div (.mul (.rat 4 1) (.par n!"GF")) (.sqrt (.rat 2 1))) (.mul (.ckm 2 2) (.conj (.ckm 2 0)))) (.inp n!"CVLLt_bdcc")) (.rat 6 1)) (.div (.mul (.mul (.div (.mul (.rat 4 1) (.par n!"GF")) (.sqrt (.rat 2 1))) (.mul (.ckm 2 2) (.conj (.ckm 2 0)))) (.inp n!"CVLRt_bdcc")) (.rat 6 1))))),
  (n!"1psbsb", (.mul (.div (.div (.sqrt (.rat 2 1)) (.par n!"GF")) (.rat 4 1)) (.inp n!"CVRR_bsbs")))]

def flavio_to_Bern_14 : List (ℕ × Sym) := [
  (n!"5cdmumu", (.mul (.div (.div (.sqrt (.rat 2 1)) (.par n!"GF")) (.rat 4 1)) (.div (.inp n!"CSR_dcmunumu") (.div (.div (.div (.neg (.sqrt (.rat 2 1))) (.par n!"GF")) (.ckm 1 0)) (.rat 4 1))))),
  (n!"nu1dbtaue", (.mul (.div (.div (.sqrt (.rat 2 1)) (.par n!"GF")) (.rat 4 1)) (.div (.div (.inp n!"CL_bdnuenutau") (.div (.mul (.rat 8 1) (.mul .pi .pi)) (.mul (.sqrt (.mul (.mul (.rat 4 1) .pi) (.par n!"alpha_e"))) (.sqrt (.mul (.mul (.rat 4 1) .pi) (.par n!"alpha_e")))))) (.div (.div (.div (.sqrt (.rat 2 1)) (.par n!"GF")) (.mul (.ckm 2 2) (.conj (.ckm 2 0)))) (.rat 4 1))))),
  (n!"2dbcc", (.mul (.div (.div (.sqrt (.rat 2 1)) (.par n!"GF")) (.rat 4 1)) (.add (.div (.mul (.rat (-2) 1) (.mul (.mul (.div (.mul (.rat 4 1) (.par n!"GF")) (.sqrt (.rat 2 1))) (.mul (.ckm 2 2) (.conj (.ckm 2 0)))) (.inp n!"CVLLt_bdcc"))) (.rat 3 1)) (.div (.mul (.rat 8 1) (.mul (.mul (.div (.mul (.rat 4 1) (.par n!"GF")) (.sqrt (.rat 2 1))) (.mul (.ckm 2 2) (.conj (.ckm 2 0)))) (.inp n!"CVLRt_bdcc"))) (.rat 3 1))))),
  (n!"7pusetau", (.mul (.div (.div (.sqrt (.rat 2 1)) (.par n!"GF")) (.rat 4 1)) (.div (.inp n!"CT_suenutau") (.div (.div (.div (.neg (.sqrt (.rat 2 1))) (.par n!"GF")) (.ckm 0 1)) (.rat 4 1))))),
  (n!"1usmue", (.mul (.div (.div (.sqrt (.rat 2 1)) (.par n!"GF")) (.rat 4 1)) (.div (.inp n!"CVL_sumunue") (.div (.div (.div (.neg (.sqrt (.rat 2 1))) (.par n!"GF")) (.ckm 0 1)) (.rat 4 1))))),
  (n!"1sbtautau", (.mul (.div (.div (.sqrt (.rat 2 1)) (.par n!"GF")) (.rat 4 1)) (.add (.div (.mul (.rat 5 1) (.div (.div (.inp n!"C10_bstautau") (.div (.mul (.rat 16 1) (.mul .pi .pi)) (.mul (.sqrt (.mul (.mul (.rat 4 1) .pi) (.par n!"alpha_e"))) (.sqrt (.mul (.mul (.rat 4 1) .pi) (.par n!"alpha_e")))))) (.div (.div (.div (.sqrt (.rat 2 1)) (.par n!"GF")) (.mul (.ckm 2 2) (.conj (.ckm 2 1)))) (.rat 4 1)))) (.rat 3 1)) (.div (.div (.inp n!"C9_bstautau") (.div (.mul (.rat 16 1) (.mul .pi .pi)) (.mul (.sqrt (.mul (.mul (.rat 4 1) .pi) (.par n!"alpha_e"))) (.sqrt (.mul (.mul (.rat 4 1) .pi) (.par n!"alpha_e")))))) (.div (.div (.div (.sqrt (.rat 2 1)) (.par n!"GF")) (.mul (.ckm 2 2) (.conj (.ckm 2 1)))) (.rat 4 1)))))),
  (n!"1ustaumu", (.mul (.div (.div (.sqrt (.rat 2 1)) (.par n!"GF")) (.rat 4 1)) (.div (.inp n!"CVL_sutaunumu") (.div (.div (.div (.neg (.sqrt (.rat 2 1))) (.par n!"GF")) (.ckm 0 1)) (.rat 4 1))))),
  (n!"5cbmumu", (.mul (.div (.div (.sqrt (.rat 2 1)) (.par n!"GF")) (.rat 4 1)) (.div (.inp n!"CSR_bcmunumu") (.div (.div (.div (.neg (.sqrt (.rat 2 1))) (.par n!"GF")) (.ckm 1 2)) (.rat 4 1))))),
  (n!"2pcucu", (.mul (.div (.div (.sqrt (.rat 2 1)) (.par n!"GF")) (.rat 4 1)) (.sub (.inp n!"CSRR_ucuc") (.mul (.rat 4 1) (.inp n!"CTRR_ucuc"))))),
  (n!"9sbtaue", (.mul (.div (.div (.sqrt (.rat 2 1)) (.par n!"GF")) (.rat 4 1)) (.div (.div (.div (.inp n!"CP_bsetau") (.div (.div (.mul (.rat 16 1) (.mul .pi .pi)) (.mul (.sqrt (.mul (.mul (.rat 4 1) .pi) (.par n!"alpha_e"))) (.sqrt (.mul (.mul (.rat 4 1) .pi) (.par n!"alpha_e"))))) (.par n!"m_b"))) (.div (.div (.div (.sqrt (.rat 2 1)) (.par n!"GF")) (.mul (.ckm 2 2) (.conj (.ckm 2 1)))) (.rat 4 1))) (.rat 24 1)))),
  (n!"5pcdmumu", (.mul (.div (.div (.sqrt (.rat 2 1)) (.par n!"GF")) (.rat 4 1)) (.div (.inp n!"CSL_dcmunumu") (.div (.div (.div (.neg (.sqrt (.rat 2 1))) (.par n!"GF")) (.ckm 1 0)) (.rat 4 1))))),
  (n!"8dbuu", (.mul (.div (.div (.sqrt (.rat 2 1)) (.par n!"GF")) (.rat 4 1)) (.sub (.add (.mul (.rat 2 1) (.mul (.mul (.div (.mul (.rat 4 1) (.par n!"GF")) (.sqrt (.rat 2 1))) (.mul (.ckm 2 2) (.conj (.ckm 2 0)))) (.inp n!"CTRRt_bduu"))) (.div (.mul (.rat 2 1) (.mul (.mul (.div (.mul (.rat 4 1) (.par n!"GF")) (.sqrt (.rat 2 1))) (.mul (.ckm 2 2) (.conj (.ckm 2 0)))) (.inp n!"CSRRt_bduu"))) (.rat 3 1))) (.div (.mul (.rat 2 1) (.mul (.mul (.div (.mul (.rat 4 1) (.par n!"GF")) (.sqrt (.rat 2 1))) (.mul (.ckm 2 2) (.conj (.ckm 2 0)))) (.inp n!"CSRLt_bduu"))) (.rat 3 1))))),
  (n!"9psbmumu", (.mul (.div (.div (.sqrt (.rat 2 1)) (.par n!"GF")) (.rat 4 1)) (.div (.neg (.div (.div (.inp n!"CPp_bsmumu") (.div (.div (.mul (.rat 16 1) (.mul .pi .pi)) (.mul (.sqrt (.mul (.mul (.rat 4 1) .pi) (.par n!"alpha_e"))) (.sqrt (.mul (.mul (.rat 4 1) .pi) (.par n!"alpha_e"))))) (.par n!"m_b"))) (.div (.div (.div (.sqrt (.rat 2 1)) (.par n!"GF")) (.mul (.ckm 2 2) (.conj (.ckm 2 1)))) (.rat 4 1)))) (.rat 24 1)))),
  (n!"5pcbmumu", (.mul (.div (.div (.sqrt (.rat 2 1)) (.par n!"GF")) (.rat 4 1)) (.div (.inp n!"CSL_bcmunumu") (.div (.div (.div (.neg (.sqrt (.rat 2 1))) (.par n!"GF")) (.ckm 1 2)) (.rat 4 1))))),
  (n!"7pubee", (.mul (.div (.div (.sqrt (.rat 2 1)) (.par n!"GF")) (.rat 4 1)) (.div (.inp n!"CT_buenue") (.div (.div (.div (.neg (.sqrt (.rat 2 1))) (.par n!"GF")) (.ckm 0 2)) (.rat 4 1))))),
  (n!"7gammads", (.mul (.div (.div (.sqrt (.rat 2 1)) (.par n!"GF")) (.rat 4 1)) (.mul (.div (.div (.mul (.sqrt (.mul (.mul (.rat 4 1) .pi) (.par n!"alpha_s"))) (.sqrt (.mul (.mul (.rat 4 1) .pi) (.par n!"alpha_s")))) (.sqrt (.mul (.mul (.rat 4 1) .pi) (.par n!"alpha_e")))) (.par n!"m_s")) (.div (.div (.inp n!"C7_sd") (.div (.div (.mul (.rat 16 1) (.mul .pi .pi)) (.sqrt (.mul (.mul (.rat 4 1) .pi) (.par n!"alpha_e")))) (.par n!"m_s"))) (.div (.div (.div (.sqrt (.rat 2 1)) (.par n!"GF")) (.mul (.ckm 2 1) (.conj (.ckm 2 0)))) (.rat 4 1)))))),
  (n!"6dbuu", (.mul (.div (.div (.sqrt (.rat 2 1)) (.par n!"GF")) (.rat 4 1)) (.add (.div (.mul (.rat (-2) 1) (.mul (.mul (.div (.mul (.rat 4 1) (.par n!"GF")) (.sqrt (.rat 2 1))) (.mul (.ckm 2 2) (.conj (.ckm 2 0)))) (.inp n!"CSRRt_bduu"))) (.rat 3 1)) (.div (.mul (.rat 8 1) (.mul (.mul (.div (.mul (.rat 4 1) (.par n!"GF")) (.sqrt (.rat 2 1))) (.mul (.ckm 2 2) (.conj (.ckm 2 0)))) (.inp n!"CSRLt_bduu"))) (.rat 3 1))))),
  (n!"9sbmue", (.mul (.div (.div (.sqrt (.rat 2 1)) (.par n!"GF")) (.rat 4 1)) (.div (.div (.div (.inp n!"CP_bsemu") (.div (.div (.mul (.rat 16 1) (.mul .pi .pi)) (.mul (.sqrt (.mul (.mul (.rat 4 1) .pi) (.par n!"alpha_e"))) (.sqrt (.mul (.mul (.rat 4 1) .pi) (.par n!"alpha_e"))))) (.par n!"m_b"))) (.div (.div (.div (.sqrt (.rat 2 1)) (.par n!"GF")) (.mul (.ckm 2 2) (.conj (.ckm 2 1)))) (.rat 4 1))) (.rat 24 1)))),
  (n!"9sbee", (.mul (.div (.div (.sqrt (.rat 2 1)) (.par n!"GF")) (.rat 4 1)) (.div (.div (.div (.inp n!"CP_bsee") (.div (.div (.mul (.rat 16 1) (.mul .pi .pi)) (.mul (.sqrt (.mul (.mul (.rat 4 1) .pi) (.par n!"alpha_e"))) (.sqrt (.mul (.mul (.rat 4 1) .pi) (.par n!"alpha_e"))))) (.par n!"m_b"))) (.div (.div (.div (.sqrt (.rat 2 1)) (.par n!"GF")) (.mul (.ckm 2 2) (.conj (.ckm 2 1)))) (.rat 4 1))) (.rat 24 1)))),
  (n!"8psbdd", (.mul (.div (.div (.sqrt (.rat 2 1)) (.par n!"GF")) (.rat 4 1)) (.sub (.add (.mul (.rat 2 1) (.mul (.mul (.div (.mul (.rat 4 1) (.par n!"GF")) (.sqrt (.rat 2 1))) (.mul (.ckm 2 2) (.conj (.ckm 2 1)))) (.inp n!"CTLLt_bsdd"))) (.div (.mul (.rat 2 1) (.mul (.mul (.div (.mul (.rat 4 1) (.par n!"GF")) (.sqrt (.rat 2 1))) (.mul (.ckm 2 2) (.conj (.ckm 2 1)))) (.inp n!"CSLLt_bsdd"))) (.rat 3 1))) (.div (.mul (.rat 2 1) (.mul (.mul (.div (.mul (.rat 4 1) (.par n!"GF")) (.sqrt (.rat 2 1))) (.mul (.ckm 2 2) (.conj (.ckm 2 1)))) (.inp n!"CSLRt_bsdd"))) (.rat 3 1))))),
  (n!"4dbuu", (.mul (.div (.div (.sqrt (.rat 2 1)) (.par n!"GF")) (.rat 4 1)) (.sub (.div (.mul (.mul (.div (.mul (.rat 4 1) (.par n!"GF")) (.sqrt (.rat 2 1))) (.mul (.ckm 2 2) (.conj (.ckm 2 0)))) (.inp n!"CVLLt_bduu")) (.rat 6 1)) (.div (.mul (.mul (.div (.mul (.rat 4 1) (.par n!"GF")) (.sqrt (.rat 2 1))) (.mul (.ckm 2 2) (.conj (.ckm 2 0)))) (.inp n!"CVLRt_bduu")) (.rat 6 1))))),
  (n!"4psbcc", (.mul (.div (.div (.sqrt (.rat 2 1)) (.par n!"GF")) (.rat 4 1)) (.sub (.div (.mul (.mul (.div (.mul (.rat 4 1) (.par n!"GF")) (.sqrt (.rat 2 1))) (.mul (.ckm 2 2) (.conj (.ckm 2 1)))) (.inp n!"CVRRt_bscc")) (.rat 6 1)) (.div (.mul (.mul (.div (.mul (.rat 4 1) (.par n!"GF")) (.sqrt (.rat 2 1))) (.mul (.ckm 2 2) (.conj (.ckm 2 1)))) (.inp n!"CVRLt_bscc")) (.rat 6 1))))),
  (n!"nu1dstautau", (.mul (.div (.div (.sqrt (.rat 2 1)) (.par n!"GF")) (.rat 4 1)) (.div (.div (.inp n!"CL_sdnutaunutau") (.div (.mul (.rat 8 1) (.mul .pi .pi)) (.mul (.sqrt (.mul (.mul (.rat 4 1) .pi) (.par n!"alpha_e"))) (.sqrt (.mul (.mul (.rat 4 1) .pi) (.par n!"alpha_e")))))) (.div (.div (.div (.sqrt (.rat 2 1)) (.par n!"GF")) (.mul (.ckm 2 1) (.conj (.ckm 2 0)))) (.rat 4 1))))),
  (n!"1sbmutau", (.mul (.div (.div (.sqrt (.rat 2 1)) (.par n!"GF")) (.rat 4 1)) (.add (.div (.mul (.rat 5 1) (.div (.div (.inp n!"C10_bstaumu") (.div (.mul (.rat 16 1) (.mul .pi .pi)) (.mul (.sqrt (.mul (.mul (.rat 4 1) .pi) (.par n!"alpha_e"))) (.sqrt (.mul (.mul (.rat 4 1) .pi) (.par n!"alpha_e")))))) (.div (.div (.div (.sqrt (.rat 2 1)) (.par n!"GF")) (.mul (.ckm 2 2) (.conj (.ckm 2 1)))) (.rat 4 1)))) (.rat 3 1)) (.div (.div (.inp n!"C9_bstaumu") (.div (.mul (.rat 16 1) (.mul .pi .pi)) (.mul (.sqrt (.mul (.mul (.rat 4 1) .pi) (.par n!"alpha_e"))) (.sqrt (.mul (.mul (.rat 4 1) .pi) (.par n!"alpha_e")))))) (.div (.div (.div (.sqrt (.rat 2 1)) (.par n!"GF")) (.mul (.ckm 2 2) (.conj (.ckm 2 1)))) (.rat 4 1)))))),
  (n!"5pcsemu", (.mul (.div (.div (.sqrt (.rat 2 1)) (.par n!"GF")) (.rat 4 1)) (.div (.inp n!"CSL_scenumu") (.div (.div (.div (.neg (.sqrt (.rat 2 1))) (.par n!"GF")) (.ckm 1 1)) (.rat 4 1))))),
  (n!"1pcbtaumu", (.mul (.div (.div (.sqrt (.rat 2 1)) (.par n!"GF")) (.rat 4 1)) (.div (.inp n!"CVR_bctaunumu") (.div (.div (.div (.neg (.sqrt (.rat 2 1))) (.par n!"GF")) (.ckm 1 2)) (.rat 4 1))))),
  (n!"7sbee", (.mul (.div (.div (.sqrt (.rat 2 1)) (.par n!"GF")) (.rat 4 1)) (.add (.add (.div (.mul (.rat 2 1) (.div (.div (.inp n!"CP_bsee") (.div (.div (.mul (.rat 16 1) (.mul .pi .pi)) (.mul (.sqrt (.mul (.mul (.rat 4 1) .pi) (.par n!"alpha_e"))) (.sqrt (.mul (.mul (.rat 4 1) .pi) (.par n!"alpha_e"))))) (.par n!"m_b"))) (.div (.div (.div (.sqrt (.rat 2 1)) (.par n!"GF")) (.mul (.ckm 2 2) (.conj (.ckm 2 1)))) (.rat 4 1)))) (.rat 3 1)) (.div (.rat 0 1) (.div (.div (.div (.sqrt (.rat 2 1)) (.par n!"GF")) (.mul (.ckm 2 2) (.conj (.ckm 2 1)))) (.rat 4 1)))) (.div (.rat 0 1) (.div (.div (.div (.sqrt (.rat 2 1)) (.par n!"GF")) (.mul (.ckm 2 2) (.conj (.ckm 2 1)))) (.rat 4 1)))))),
  (n!"7pdbcc", (.mul (.div (.div (.sqrt (.rat 2 1)) (.par n!"GF")) (.rat 4 1)) (.sub (.add (.add (.add (.sub (.div (.mul (.mul (.div (.mul (.rat 4 1) (.par n!"GF")) (.sqrt (.rat 2 1))) (.mul (.ckm 2 2) (.conj (.ckm 2 0)))) (.inp n!"CSLL_bdcc")) (.rat 3 1)) (.div (.mul (.mul (.div (.mul (.rat 4 1) (.par n!"GF")) (.sqrt (.rat 2 1))) (.mul (.ckm 2 2) (.conj (.ckm 2 0)))) (.inp n!"CSLR_bdcc")) (.rat 3 1))) (.mul (.mul (.div (.mul (.rat 4 1) (.par n!"GF")) (.sqrt (.rat 2 1))) (.mul (.ckm 2 2) (.conj (.ckm 2 0)))) (.inp n!"CTLL_bdcc"))) (.div (.mul (.mul (.div (.mul (.rat 4 1) (.par n!"GF")) (.sqrt (.rat 2 1))) (.mul (.ckm 2 2) (.conj (.ckm 2 0)))) (.inp n!"CTLLt_bdcc")) (.rat 3 1))) (.div (.mul (.mul (.div (.mul (.rat 4 1) (.par n!"GF")) (.sqrt (.rat 2 1))) (.mul (.ckm 2 2) (.conj (.ckm 2 0)))) (.inp n!"CSLLt_bdcc")) (.mul (.rat 3 1) (.rat 3 1)))) (.div (.mul (.mul (.div (.mul (.rat 4 1) (.par n!"GF")) (.sqrt (.rat 2 1))) (.mul (.ckm 2 2) (.conj (.ckm 2 0)))) (.inp n!"CSLRt_bdcc")) (.mul (.rat 3 1) (.rat 3 1)))))),
  (n!"2dbuu", (.mul (.div (.div (.sqrt (.rat 2 1)) (.par n!"GF")) (.rat 4 1)) (.add (.div (.mul (.rat (-2) 1) (.mul (.mul (.div (.mul (.rat 4 1) (.par n!"GF")) (.sqrt (.rat 2 1))) (.mul (.ckm 2 2) (.conj (.ckm 2 0)))) (.inp n!"CVLLt_bduu"))) (.rat 3 1)) (.div (.mul (.rat 8 1) (.mul (.mul (.div (.mul (.rat 4 1) (.par n!"GF")) (.sqrt (.rat 2 1))) (.mul (.ckm 2 2) (.conj (.ckm 2 0)))) (.inp n!"CVLRt_bduu"))) (.rat 3 1))))),
  (n!"3pdbbb", (.mul (.div (.div (.sqrt (.rat 2 1)) (.par n!"GF")) (.rat 4 1)) (.sub (.div (.mul (.mul (.div (.mul (.rat 4 1) (.par n!"GF")) (.sqrt (.rat 2 1))) (.mul (.ckm 2 2) (.conj (.ckm 2 0)))) (.inp n!"CVRR_bdbb")) (.rat 12 1)) (.div (.mul (.mul (.div (.mul (.rat 4 1) (.par n!"GF")) (.sqrt (.rat 2 1))) (.mul (.ckm 2 2) (.conj (.ckm 2 0)))) (.inp n!"CVRL_bdbb")) (.rat 12 1))))),
  (n!"1pudetau", (.mul (.div (.div (.sqrt (.rat 2 1)) (.par n!"GF")) (.rat 4 1)) (.div (.inp n!"CVR_duenutau") (.div (.div (.div (.neg (.sqrt (.rat 2 1))) (.par n!"GF")) (.ckm 0 0)) (.rat 4 1))))),
  (n!"5sbee", (.mul (.div (.div (.sqrt (.rat 2 1)) (.par n!"GF")) (.rat 4 1)) (.sub (.div (.div (.inp n!"CS_bsee") (.div (.div (.mul (.rat 16 1) (.mul .pi .pi)) (.mul (.sqrt (.mul (.mul (.rat 4 1) .pi) (.par n!"alpha_e"))) (.sqrt (.mul (.mul (.rat 4 1) .pi) (.par n!"alpha_e"))))) (.par n!"m_b"))) (.div (.div (.div (.sqrt (.rat 2 1)) (.par n!"GF")) (.mul (.ckm 2 2) (.conj (.ckm 2 1)))) (.rat 4 1))) (.div (.mul (.rat 5 1) (.div (.div (.inp n!"CP_bsee") (.div (.div (.mul (.rat 16 1) (.mul .pi .pi)) (.mul (.sqrt (.mul (.mul (.rat 4 1) .pi) (.par n!"alpha_e"))) (.sqrt (.mul (.mul (.rat 4 1) .pi) (.par n!"alpha_e"))))) (.par n!"m_b"))) (.div (.div (.div (.sqrt (.rat 2 1)) (.par n!"GF")) (.mul (.ckm 2 2) (.conj (.ckm 2 1)))) (.rat 4 1)))) (.rat 3 1))))),
  (n!"1pdsee", (.mul (.div (.div (.sqrt (.rat 2 1)) (.par n!"GF")) (.rat 4 1)) (.sub (.div (.div (.inp n!"C9p_sdee") (.div (.mul (.rat 16 1) (.mul .pi .pi)) (.mul (.sqrt (.mul (.mul (.rat 4 1) .pi) (.par n!"alpha_e"))) (.sqrt (.mul (.mul (.rat 4 1) .pi) (.par n!"alpha_e")))))) (.div (.div (.div (.sqrt (.rat 2 1)) (.par n!"GF")) (.mul (.ckm 2 1) (.conj (.ckm 2 0)))) (.rat 4 1))) (.div (.mul (.rat 5 1) (.div (.div (.inp n!"C10p_sdee") (.div (.mul (.rat 16 1) (.mul .pi .pi)) (.mul (.sqrt (.mul (.mul (.rat 4 1) .pi) (.par n!"alpha_e"))) (.sqrt (.mul (.mul (.rat 4 1) .pi) (.par n!"alpha_e")))))) (.div (.div (.div (.sqrt (.rat 2 1)) (.par n!"GF")) (.mul (.ckm 2 1) (.conj (.ckm 2 0)))) (.rat 4 1)))) (.rat 3 1))))),
  (n!"nu1pdsetau", (.mul (.div (.div (.sqrt (.rat 2 1)) (.par n!"GF")) (.rat 4 1)) (.div (.div (.inp n!"CR_sdnutaunue") (.div (.mul (.rat 8 1) (.mul .pi .pi)) (.mul (.sqrt (.mul (.mul (.rat 4 1) .pi) (.par n!"alpha_e"))) (.sqrt (.mul (.mul (.rat 4 1) .pi) (.par n!"alpha_e")))))) (.div (.div (.div (.sqrt (.rat 2 1)) (.par n!"GF")) (.mul (.ckm 2 1) (.conj (.ckm 2 0)))) (.rat 4 1))))),
  (n!"1pubetau", (.mul (.div (.div (.sqrt (.rat 2 1)) (.par n!"GF")) (.rat 4 1)) (.div (.inp n!"CVR_buenutau") (.div (.div (.div (.neg (.sqrt (.rat 2 1))) (.par n!"GF")) (.ckm 0 2)) (.rat 4 1))))),
  (n!"1ubemu", (.mul (.div (.div (.sqrt (.rat 2 1)) (.par n!"GF")) (.rat 4 1)) (.div (.inp n!"CVL_buenumu") (.div (.div (.div (.neg (.sqrt (.rat 2 1))) (.par n!"GF")) (.ckm 0 2)) (.rat 4 1))))),
  (n!"3pdbtautau", (.mul (.div (.div (.sqrt (.rat 2 1)) (.par n!"GF")) (.rat 4 1)) (.div (.div (.div (.inp n!"C10p_bdtautau") (.div (.mul (.rat 16 1) (.mul .pi .pi)) (.mul (.sqrt (.mul (.mul (.rat 4 1) .pi) (.par n!"alpha_e"))) (.sqrt (.mul (.mul (.rat 4 1) .pi) (.par n!"alpha_e")))))) (.div (.div (.div (.sqrt (.rat 2 1)) (.par n!"GF")) (.mul (.ckm 2 2) (.conj (.ckm 2 0)))) (.rat 4 1))) (.rat 6 1)))),
  (n!"1pusemu", (.mul (.div (.div (.sqrt (.rat 2 1)) (.par n!"GF")) (.rat 4 1)) (.div (.inp n!"CVR_suenumu") (.div (.div (.div (.neg (.sqrt (.rat 2 1))) (.par n!"GF")) (.ckm 0 1)) (.rat 4 1))))),
  (n!"nu1psbtautau", (.mul (.div (.div (.sqrt (.rat 2 1)) (.par n!"GF")) (.rat 4 1)) (.div (.div (.inp n!"CR_bsnutaunutau") (.div (.mul (.rat 8 1) (.mul .pi .pi)) (.mul (.sqrt (.mul (.mul (.rat 4 1) .pi) (.par n!"alpha_e"))) (.sqrt (.mul (.mul (.rat 4 1) .pi) (.par n!"alpha_e")))))) (.div (.div (.div (.sqrt (.rat 2 1)) (.par n!"GF")) (.mul (.ckm 2 2) (.conj (.ckm 2 1)))) (.rat 4 1))))),
  (n!"7sbtaue", (.mul (.div (.div (.sqrt (.rat 2 1)) (.par n!"GF")) (.rat 4 1)) (.add (.add (.div (.mul (.rat 2 1) (.div (.div (.inp n!"CP_bsetau") (.div (.div (.mul (.rat 16 1) (.mul .pi .pi)) (.mul (.sqrt (.mul (.mul (.rat 4 1) .pi) (.par n!"alpha_e"))) (.sqrt (.mul (.mul (.rat 4 1) .pi) (.par n!"alpha_e"))))) (.par n!"m_b"))) (.div (.div (.div (.sqrt (.rat 2 1)) (.par n!"GF")) (.mul (.ckm 2 2) (.conj (.ckm 2 1)))) (.rat 4 1)))) (.rat 3 1)) (.div (.rat 0 1) (.div (.div (.div (.sqrt (.rat 2 1)) (.par n!"GF")) (.mul (.ckm 2 2) (.conj (.ckm 2 1)))) (.rat 4 1)))) (.div (.rat 0 1) (.div (.div (.div (.sqrt (.rat 2 1)) (.par n!"GF")) (.mul (.ckm 2 2) (.conj (.ckm 2 1)))) (.rat 4 1)))))),
  (n!"3sbee", (.mul (.div (.div (.sqrt (.rat 2 1)) (.par n!"GF")) (.rat 4 1)) (.div (.neg (.div (.div (.inp n!"C10_bsee") (.div (.mul (.rat 16 1) (.mul .pi .pi)) (.mul (.sqrt (.mul (.mul (.rat 4 1) .pi) (.par n!"alpha_e"))) (.sqrt (.mul (.mul (.rat 4 1) .pi) (.par n!"alpha_e")))))) (.div (.div (.div (.sqrt (.rat 2 1)) (.par n!"GF")) (.mul (.ckm 2 2) (.conj (.ckm 2 1)))) (.rat 4 1)))) (.rat 6 1)))),
  (n!"1sbemu", (.mul (.div (.div (.sqrt (.rat 2 1)) (.par n!"GF")) (.rat 4 1)) (.add (.div (.mul (.rat 5 1) (.div (.div (.inp n!"C10_bsmue") (.div (.mul (.rat 16 1) (.mul .pi .pi)) (.mul (.sqrt (.mul (.mul (.rat 4 1) .pi) (.par n!"alpha_e"))) (.sqrt (.mul (.mul (.rat 4 1) .pi) (.par n!"alpha_e")))))) (.div (.div (.div (.sqrt (.rat 2 1)) (.par n!"GF")) (.mul (.ckm 2 2) (.conj (.ckm 2 1)))) (.rat 4 1)))) (.rat 3 1)) (.div (.div (.inp n!"C9_bsmue") (.div (.mul (.rat 16 1) (.mul .pi .pi)) (.mul (.sqrt (.mul (.mul (.rat 4 1) .pi) (.par n!"alpha_e"))) (.sqrt (.mul (.mul (.rat 4 1) .pi) (.par n!"alpha_e")))))) (.div (.div (.div (.sqrt (.rat 2 1)) (.par n!"GF")) (.mul (.ckm 2 2) (.conj (.ckm 2 1)))) (.rat 4 1)))))),
  (n!"7pudtaumu", (.mul (.div (.div (.sqrt (.rat 2 1)) (.par n!"GF")) (.rat 4 1)) (.div (.inp n!"CT_dutaunumu") (.div (.div (.div (.neg (.sqrt (.rat 2 1))) (.par n!"GF")) (.ckm 0 0)) (.rat 4 1))))),
  (n!"1sbee", (.mul (.div (.div (.sqrt (.rat 2 1)) (.par n!"GF")) (.rat 4 1)) (.add (.div (.mul (.rat 5 1) (.div (.div (.inp n!"C10_bsee") (.div (.mul (.rat 16 1) (.mul .pi .pi)) (.mul (.sqrt (.mul (.mul (.rat 4 1) .pi) (.par n!"alpha_e"))) (.sqrt (.mul (.mul (.rat 4 1) .pi) (.par n!"alpha_e")))))) (.div (.div (.div (.sqrt (.rat 2 1)) (.par n!"GF")) (.mul (.ckm 2 2) (.conj (.ckm 2 1)))) (.rat 4 1)))) (.rat 3 1)) (.div (.div (.inp n!"C9_bsee") (.div (.mul (.rat 16 1) (.mul .pi .pi)) (.mul (.sqrt (.mul (.mul (.rat 4 1) .pi) (.par n!"alpha_e"))) (.sqrt (.mul (.mul (.rat 4 1) .pi) (.par n!"alpha_e")))))) (.div (.div (.div (.sqrt (.rat 2 1)) (.par n!"GF")) (.mul (.ckm 2 2) (.conj (.ckm 2 1)))) (.rat 4 1)))))),
  (n!"10psbdd", (.mul (.div (.div (.sqrt (.rat 2 1)) (.par n!"GF")) (.rat 4 1)) (.sub (.div (.mul (.mul (.div (.mul (.rat 4 1) (.par n!"GF")) (.sqrt (.rat 2 1))) (.mul (.ckm 2 2) (.conj (.ckm 2 1)))) (.inp n!"CSLLt_bsdd")) (.rat 24 1)) (.div (.mul (.mul (.div (.mul (.rat 4 1) (.par n!"GF")) (.sqrt (.rat 2 1))) (.mul (.ckm 2 2) (.conj (.ckm 2 1)))) (.inp n!"CSLRt_bsdd")) (.rat 24 1))))),
  (n!"7pcstaue", (.mul (.div (.div (.sqrt (.rat 2 1)) (.par n!"GF")) (.rat 4 1)) (.div (.inp n!"CT_sctaunue") (.div (.div (.div (.neg (.sqrt (.rat 2 1))) (.par n!"GF")) (.ckm 1 1)) (.rat 4 1))))),
  (n!"nu1dsmumu", (.mul (.div (.div (.sqrt (.rat 2 1)) (.par n!"GF")) (.rat 4 1)) (.div (.div (.inp n!"CL_sdnumunumu") (.div (.mul (.rat 8 1) (.mul .pi .pi)) (.mul (.sqrt (.mul (.mul (.rat 4 1) .pi) (.par n!"alpha_e"))) (.sqrt (.mul (.mul (.rat 4 1) .pi) (.par n!"alpha_e")))))) (.div (.div (.div (.sqrt (.rat 2 1)) (.par n!"GF")) (.mul (.ckm 2 1) (.conj (.ckm 2 0)))) (.rat 4 1))))),
  (n!"9pdsss", (.mul (.div (.div (.sqrt (.rat 2 1)) (.par n!"GF")) (.rat 4 1)) (.sub (.div (.mul (.mul (.div (.mul (.rat 4 1) (.par n!"GF")) (.sqrt (.rat 2 1))) (.mul (.ckm 2 1) (.conj (.ckm 2 0)))) (.inp n!"CSLL_sdss")) (.rat 48 1)) (.div (.mul (.mul (.div (.mul (.rat 4 1) (.par n!"GF")) (.sqrt (.rat 2 1))) (.mul (.ckm 2 1) (.conj (.ckm 2 0)))) (.inp n!"CSLR_sdss")) (.rat 48 1))))),
  (n!"4psbuu", (.mul (.div (.div (.sqrt (.rat 2 1)) (.par n!"GF")) (.rat 4 1)) (.sub (.div (.mul (.mul (.div (.mul (.rat 4 1) (.par n!"GF")) (.sqrt (.rat 2 1))) (.mul (.ckm 2 2) (.conj (.ckm 2 1)))) (.inp n!"CVRRt_bsuu")) (.rat 6 1)) (.div (.mul (.mul (.div (.mul (.rat 4 1) (.par n!"GF")) (.sqrt (.rat 2 1))) (.mul (.ckm 2 2) (.conj (.ckm 2 1)))) (.inp n!"CVRLt_bsuu")) (.rat 6 1))))),
  (n!"3pdsds", (.mul (.div (.div (.sqrt (.rat 2 1)) (.par n!"GF")) (.rat 4 1)) (.mul (.rat (-8) 1) (.inp n!"CTRR_sdsd"))))]

def flavio_to_Bern_15 : List (ℕ × Sym) := [
  (n!"1pdstautau", (.mul (.div (.div (.sqrt (.rat 2 1)) (.par n!"GF")) (.rat 4 1)) (.sub (.div (.div (.inp n!"C9p_sdtautau") (.div (.mul (.rat 16 1) (.mul .pi .pi)) (.mul (.sqrt (.mul (.mul (.rat 4 1) .pi) (.par n!"alpha_e"))) (.sqrt (.mul (.mul (.rat 4 1) .pi) (.par n!"alpha_e")))))) (.div (.div (.div (.sqrt (.rat 2 1)) (.par n!"GF")) (.mul (.ckm 2 1) (.conj (.ckm 2 0)))) (.rat 4 1))) (.div (.mul (.rat 5 1) (.div (.div (.inp n!"C10p_sdtautau") (.div (.mul (.rat 16 1) (.mul .pi .pi)) (.mul (.sqrt (.mul (.mul (.rat 4 1) .pi) (.par n!"alpha_e"))) (.sqrt (.mul (.mul (.rat 4 1) .pi) (.par n!"alpha_e")))))) (.div (.div (.div (.sqrt (.rat 2 1)) (.par n!"GF")) (.mul (.ckm 2 1) (.conj (.ckm 2 0)))) (.rat 4 1)))) (.rat 3 1))))),
  (n!"7pdbuu", (.mul (.div (.div (.sqrt (.rat 2 1)) (.par n!"GF")) (.rat 4 1)) (.sub (.add (.add (.add (.sub (.div (.mul (.mul (.div (.mul (.rat 4 1) (.par n!"GF")) (.sqrt (.rat 2 1))) (.mul (.ckm 2 2) (.conj (.ckm 2 0)))) (.inp n!"CSLL_bduu")) (.rat 3 1)) (.div (.mul (.mul (.div (.mul (.rat 4 1) (.par n!"GF")) (.sqrt (.rat 2 1))) (.mul (.ckm 2 2) (.conj (.ckm 2 0)))) (.inp n!"CSLR_bduu")) (.rat 3 1))) (.mul (.mul (.div (.mul (.rat 4 1) (.par n!"GF")) (.sqrt (.rat 2 1))) (.mul (.ckm 2 2) (.conj (.ckm 2 0)))) (.inp n!"CTLL_bduu"))) (.div (.mul (.mul (.div (.mul (.rat 4 1) (.par n!"GF")) (.sqrt (.rat 2 1))) (.mul (.ckm 2 2) (.conj (.ckm 2 0)))) (.inp n!"CTLLt_bduu")) (.rat 3 1))) (.div (.mul (.mul (.div (.mul (.rat 4 1) (.par n!"GF")) (.sqrt (.rat 2 1))) (.mul (.ckm 2 2) (.conj (.ckm 2 0)))) (.inp n!"CSLLt_bduu")) (.mul (.rat 3 1) (.rat 3 1)))) (.div (.mul (.mul (.div (.mul (.rat 4 1) (.par n!"GF")) (.sqrt (.rat 2 1))) (.mul (.ckm 2 2) (.conj (.ckm 2 0)))) (.inp n!"CSLRt_bduu")) (.mul (.rat 3 1) (.rat 3 1)))))),
  (n!"1csmue", (.mul (.div (.div (.sqrt (.rat 2 1)) (.par n!"GF")) (.rat 4 1)) (.div (.inp n!"CVL_scmunue") (.div (.div (.div (.neg (.sqrt (.rat 2 1))) (.par n!"GF")) (.ckm 1 1)) (.rat 4 1))))),
  (n!"7pcsee", (.mul (.div (.div (.sqrt (.rat 2 1)) (.par n!"GF")) (.rat 4 1)) (.div (.inp n!"CT_scenue") (.div (.div (.div (.neg (.sqrt (.rat 2 1))) (.par n!"GF")) (.ckm 1 1)) (.rat 4 1))))),
  (n!"9pdbtaue", (.mul (.div (.div (.sqrt (.rat 2 1)) (.par n!"GF")) (.rat 4 1)) (.div (.neg (.div (.div (.inp n!"CPp_bdetau") (.div (.div (.mul (.rat 16 1) (.mul .pi .pi)) (.mul (.sqrt (.mul (.mul (.rat 4 1) .pi) (.par n!"alpha_e"))) (.sqrt (.mul (.mul (.rat 4 1) .pi) (.par n!"alpha_e"))))) (.par n!"m_b"))) (.div (.div (.div (.sqrt (.rat 2 1)) (.par n!"GF")) (.mul (.ckm 2 2) (.conj (.ckm 2 0)))) (.rat 4 1)))) (.rat 24 1)))),
  (n!"1ubtaumu", (.mul (.div (.div (.sqrt (.rat 2 1)) (.par n!"GF")) (.rat 4 1)) (.div (.inp n!"CVL_butaunumu") (.div (.div (.div (.neg (.sqrt (.rat 2 1))) (.par n!"GF")) (.ckm 0 2)) (.rat 4 1))))),
  (n!"9pdbmutau", (.mul (.div (.div (.sqrt (.rat 2 1)) (.par n!"GF")) (.rat 4 1)) (.div (.neg (.div (.div (.inp n!"CPp_bdtaumu") (.div (.div (.mul (.rat 16 1) (.mul .pi .pi)) (.mul (.sqrt (.mul (.mul (.rat 4 1) .pi) (.par n!"alpha_e"))) (.sqrt (.mul (.mul (.rat 4 1) .pi) (.par n!"alpha_e"))))) (.par n!"m_b"))) (.div (.div (.div (.sqrt (.rat 2 1)) (.par n!"GF")) (.mul (.ckm 2 2) (.conj (.ckm 2 0)))) (.rat 4 1)))) (.rat 24 1)))),
  (n!"7psbbb", (.mul (.div (.div (.sqrt (.rat 2 1)) (.par n!"GF")) (.rat 4 1)) (.add (.sub (.div (.mul (.mul (.div (.mul (.rat 4 1) (.par n!"GF")) (.sqrt (.rat 2 1))) (.mul (.ckm 2 2) (.conj (.ckm 2 1)))) (.inp n!"CSLL_bsbb")) (.rat 3 1)) (.div (.mul (.mul (.div (.mul (.rat 4 1) (.par n!"GF")) (.sqrt (.rat 2 1))) (.mul (.ckm 2 2) (.conj (.ckm 2 1)))) (.inp n!"CSLR_bsbb")) (.rat 3 1))) (.mul (.mul (.div (.mul (.rat 4 1) (.par n!"GF")) (.sqrt (.rat 2 1))) (.mul (.ckm 2 2) (.conj (.ckm 2 1)))) (.inp n!"CTLL_bsbb"))))),
  (n!"1cdmumu", (.mul (.div (.div (.sqrt (.rat 2 1)) (.par n!"GF")) (.rat 4 1)) (.div (.inp n!"CVL_dcmunumu") (.div (.div (.div (.neg (.sqrt (.rat 2 1))) (.par n!"GF")) (.ckm 1 0)) (.rat 4 1))))),
  (n!"1cbmumu", (.mul (.div (.div (.sqrt (.rat 2 1)) (.par n!"GF")) (.rat 4 1)) (.div (.inp n!"CVL_bcmunumu") (.div (.div (.div (.neg (.sqrt (.rat 2 1))) (.par n!"GF")) (.ckm 1 2)) (.rat 4 1))))),
  (n!"5sbtaue", (.mul (.div (.div (.sqrt (.rat 2 1)) (.par n!"GF")) (.rat 4 1)) (.sub (.div (.div (.inp n!"CS_bsetau") (.div (.div (.mul (.rat 16 1) (.mul .pi .pi)) (.mul (.sqrt (.mul (.mul (.rat 4 1) .pi) (.par n!"alpha_e"))) (.sqrt (.mul (.mul (.rat 4 1) .pi) (.par n!"alpha_e"))))) (.par n!"m_b"))) (.div (.div (.div (.sqrt (.rat 2 1)) (.par n!"GF")) (.mul (.ckm 2 2) (.conj (.ckm 2 1)))) (.rat 4 1))) (.div (.mul (.rat 5 1) (.div (.div (.inp n!"CP_bsetau") (.div (.div (.mul (.rat 16 1) (.mul .pi .pi)) (.mul (.sqrt (.mul (.mul (.rat 4 1) .pi) (.par n!"alpha_e"))) (.sqrt (.mul (.mul (.rat 4 1) .pi) (.par n!"alpha_e"))))) (.par n!"m_b"))) (.div (.div (.div (.sqrt (.rat 2 1)) (.par n!"GF")) (.mul (.ckm 2 2) (.conj (.ckm 2 1)))) (.rat 4 1)))) (.rat 3 1))))),
  (n!"8dscc", (.mul (.div (.div (.sqrt (.rat 2 1)) (.par n!"GF")) (.rat 4 1)) (.sub (.add (.mul (.rat 2 1) (.mul (.mul (.div (.mul (.rat 4 1) (.par n!"GF")) (.sqrt (.rat 2 1))) (.mul (.ckm 2 1) (.conj (.ckm 2 0)))) (.inp n!"CTRRt_sdcc"))) (.div (.mul (.rat 2 1) (.mul (.mul (.div (.mul (.rat 4 1) (.par n!"GF")) (.sqrt (.rat 2 1))) (.mul (.ckm 2 1) (.conj (.ckm 2 0)))) (.inp n!"CSRRt_sdcc"))) (.rat 3 1))) (.div (.mul (.rat 2 1) (.mul (.mul (.div (.mul (.rat 4 1) (.par n!"GF")) (.sqrt (.rat 2 1))) (.mul (.ckm 2 1) (.conj (.ckm 2 0)))) (.inp n!"CSRLt_sdcc"))) (.rat 3 1))))),
  (n!"nu1sbtautau", (.mul (.div (.div (.sqrt (.rat 2 1)) (.par n!"GF")) (.rat 4 1)) (.div (.div (.inp n!"CL_bsnutaunutau") (.div (.mul (.rat 8 1) (.mul .pi .pi)) (.mul (.sqrt (.mul (.mul (.rat 4 1) .pi) (.par n!"alpha_e"))) (.sqrt (.mul (.mul (.rat 4 1) .pi) (.par n!"alpha_e")))))) (.div (.div (.div (.sqrt (.rat 2 1)) (.par n!"GF")) (.mul (.ckm 2 2) (.conj (.ckm 2 1)))) (.rat 4 1))))),
  (n!"1pcdtaue", (.mul (.div (.div (.sqrt (.rat 2 1)) (.par n!"GF")) (.rat 4 1)) (.div (.inp n!"CVR_dctaunue") (.div (.div (.div (.neg (.sqrt (.rat 2 1))) (.par n!"GF")) (.ckm 1 0)) (.rat 4 1))))),
  (n!"5pudmutau", (.mul (.div (.div (.sqrt (.rat 2 1)) (.par n!"GF")) (.rat 4 1)) (.div (.inp n!"CSL_dumunutau") (.div (.div (.div (.neg (.sqrt (.rat 2 1))) (.par n!"GF")) (.ckm 0 0)) (.rat 4 1))))),
  (n!"6dscc", (.mul (.div (.div (.sqrt (.rat 2 1)) (.par n!"GF")) (.rat 4 1)) (.add (.div (.mul (.rat (-2) 1) (.mul (.mul (.div (.mul (.rat 4 1) (.par n!"GF")) (.sqrt (.rat 2 1))) (.mul (.ckm 2 1) (.conj (.ckm 2 0)))) (.inp n!"CSRRt_sdcc"))) (.rat 3 1)) (.div (.mul (.rat 8 1) (.mul (.mul (.div (.mul (.rat 4 1) (.par n!"GF")) (.sqrt (.rat 2 1))) (.mul (.ckm 2 1) (.conj (.ckm 2 0)))) (.inp n!"CSRLt_sdcc"))) (.rat 3 1))))),
  (n!"7pudemu", (.mul (.div (.div (.sqrt (.rat 2 1)) (.par n!"GF")) (.rat 4 1)) (.div (.inp n!"CT_duenumu") (.div (.div (.div (.neg (.sqrt (.rat 2 1))) (.par n!"GF")) (.ckm 0 0)) (.rat 4 1))))),
  (n!"5psbtaue", (.mul (.div (.div (.sqrt (.rat 2 1)) (.par n!"GF")) (.rat 4 1)) (.add (.div (.mul (.rat 5 1) (.div (.div (.inp n!"CPp_bsetau") (.div (.div (.mul (.rat 16 1) (.mul .pi .pi)) (.mul (.sqrt (.mul (.mul (.rat 4 1) .pi) (.par n!"alpha_e"))) (.sqrt (.mul (.mul (.rat 4 1) .pi) (.par n!"alpha_e"))))) (.par n!"m_b"))) (.div (.div (.div (.sqrt (.rat 2 1)) (.par n!"GF")) (.mul (.ckm 2 2) (.conj (.ckm 2 1)))) (.rat 4 1)))) (.rat 3 1)) (.div (.div (.inp n!"CSp_bsetau") (.div (.div (.mul (.rat 16 1) (.mul .pi .pi)) (.mul (.sqrt (.mul (.mul (.rat 4 1) .pi) (.par n!"alpha_e"))) (.sqrt (.mul (.mul (.rat 4 1) .pi) (.par n!"alpha_e"))))) (.par n!"m_b"))) (.div (.div (.div (.sqrt (.rat 2 1)) (.par n!"GF")) (.mul (.ckm 2 2) (.conj (.ckm 2 1)))) (.rat 4 1)))))),
  (n!"1pcbtaue", (.mul (.div (.div (.sqrt (.rat 2 1)) (.par n!"GF")) (.rat 4 1)) (.div (.inp n!"CVR_bctaunue") (.div (.div (.div (.neg (.sqrt (.rat 2 1))) (.par n!"GF")) (.ckm 1 2)) (.rat 4 1))))),
  (n!"4dscc", (.mul (.div (.div (.sqrt (.rat 2 1)) (.par n!"GF")) (.rat 4 1)) (.sub (.div (.mul (.mul (.div (.mul (.rat 4 1) (.par n!"GF")) (.sqrt (.rat 2 1))) (.mul (.ckm 2 1) (.conj (.ckm 2 0)))) (.inp n!"CVLLt_sdcc")) (.rat 6 1)) (.div (.mul (.mul (.div (.mul (.rat 4 1) (.par n!"GF")) (.sqrt (.rat 2 1))) (.mul (.ckm 2 1) (.conj (.ckm 2 0)))) (.inp n!"CVLRt_sdcc")) (.rat 6 1))))),
  (n!"2dscc", (.mul (.div (.div (.sqrt (.rat 2 1)) (.par n!"GF")) (.rat 4 1)) (.add (.div (.mul (.rat (-2) 1) (.mul (.mul (.div (.mul (.rat 4 1) (.par n!"GF")) (.sqrt (.rat 2 1))) (.mul (.ckm 2 1) (.conj (.ckm 2 0)))) (.inp n!"CVLLt_sdcc"))) (.rat 3 1)) (.div (.mul (.rat 8 1) (.mul (.mul (.div (.mul (.rat 4 1) (.par n!"GF")) (.sqrt (.rat 2 1))) (.mul (.ckm 2 1) (.conj (.ckm 2 0)))) (.inp n!"CVLRt_sdcc"))) (.rat 3 1))))),
  (n!"nu1sbetau", (.mul (.div (.div (.sqrt (.rat 2 1)) (.par n!"GF")) (.rat 4 1)) (.div (.div (.inp n!"CL_bsnutaunue") (.div (.mul (.rat 8 1) (.mul .pi .pi)) (.mul (.sqrt (.mul (.mul (.rat 4 1) .pi) (.par n!"alpha_e"))) (.sqrt (.mul (.mul (.rat 4 1) .pi) (.par n!"alpha_e")))))) (.div (.div (.div (.sqrt (.rat 2 1)) (.par n!"GF")) (.mul (.ckm 2 2) (.conj (.ckm 2 1)))) (.rat 4 1))))),
  (n!"1cbemu", (.mul (.div (.div (.sqrt (.rat 2 1)) (.par n!"GF")) (.rat 4 1)) (.div (.inp n!"CVL_bcenumu") (.div (.div (.div (.neg (.sqrt (.rat 2 1))) (.par n!"GF")) (.ckm 1 2)) (.rat 4 1))))),
  (n!"1pcsemu", (.mul (.div (.div (.sqrt (.rat 2 1)) (.par n!"GF")) (.rat 4 1)) (.div (.inp n!"CVR_scenumu") (.div (.div (.div (.neg (.sqrt (.rat 2 1))) (.par n!"GF")) (.ckm 1 1)) (.rat 4 1))))),
  (n!"3psbss", (.mul (.div (.div (.sqrt (.rat 2 1)) (.par n!"GF")) (.rat 4 1)) (.sub (.div (.mul (.mul (.div (.mul (.rat 4 1) (.par n!"GF")) (.sqrt (.rat 2 1))) (.mul (.ckm 2 2) (.conj (.ckm 2 1)))) (.inp n!"CVRR_bsss")) (.rat 12 1)) (.div (.mul (.mul (.div (.mul (.rat 4 1) (.par n!"GF")) (.sqrt (.rat 2 1))) (.mul (.ckm 2 2) (.conj (.ckm 2 1)))) (.inp n!"CVRL_bsss")) (.rat 12 1))))),
  (n!"1sbtaumu", (.mul (.div (.div (.sqrt (.rat 2 1)) (.par n!"GF")) (.rat 4 1)) (.add (.div (.mul (.rat 5 1) (.div (.div (.inp n!"C10_bsmutau") (.div (.mul (.rat 16 1) (.mul .pi .pi)) (.mul (.sqrt (.mul (.mul (.rat 4 1) .pi) (.par n!"alpha_e"))) (.sqrt (.mul (.mul (.rat 4 1) .pi) (.par n!"alpha_e")))))) (.div (.div (.div (.sqrt (.rat 2 1)) (.par n!"GF")) (.mul (.ckm 2 2) (.conj (.ckm 2 1)))) (.rat 4 1)))) (.rat 3 1)) (.div (.div (.inp n!"C9_bsmutau") (.div (.mul (.rat 16 1) (.mul .pi .pi)) (.mul (.sqrt (.mul (.mul (.rat 4 1) .pi) (.par n!"alpha_e"))) (.sqrt (.mul (.mul (.rat 4 1) .pi) (.par n!"alpha_e")))))) (.div (.div (.div (.sqrt (.rat 2 1)) (.par n!"GF")) (.mul (.ckm 2 2) (.conj (.ckm 2 1)))) (.rat 4 1)))))),
  (n!"1pdbetau", (.mul (.div (.div (.sqrt (.rat 2 1)) (.par n!"GF")) (.rat 4 1)) (.sub (.div (.div (.inp n!"C9p_bdtaue") (.div (.mul (.rat 16 1) (.mul .pi .pi)) (.mul (.sqrt (.mul (.mul (.rat 4 1) .pi) (.par n!"alpha_e"))) (.sqrt (.mul (.mul (.rat 4 1) .pi) (.par n!"alpha_e")))))) (.div (.div (.div (.sqrt (.rat 2 1)) (.par n!"GF")) (.mul (.ckm 2 2) (.conj (.ckm 2 0)))) (.rat 4 1))) (.div (.mul (.rat 5 1) (.div (.div (.inp n!"C10p_bdtaue") (.div (.mul (.rat 16 1) (.mul .pi .pi)) (.mul (.sqrt (.mul (.mul (.rat 4 1) .pi) (.par n!"alpha_e"))) (.sqrt (.mul (.mul (.rat 4 1) .pi) (.par n!"alpha_e")))))) (.div (.div (.div (.sqrt (.rat 2 1)) (.par n!"GF")) (.mul (.ckm 2 2) (.conj (.ckm 2 0)))) (.rat 4 1)))) (.rat 3 1))))),
  (n!"6pdbss", (.mul (.div (.div (.sqrt (.rat 2 1)) (.par n!"GF")) (.rat 4 1)) (.add (.div (.mul (.rat (-2) 1) (.mul (.mul (.div (.mul (.rat 4 1) (.par n!"GF")) (.sqrt (.rat 2 1))) (.mul (.ckm 2 2) (.conj (.ckm 2 0)))) (.inp n!"CSLLt_bdss"))) (.rat 3 1)) (.div (.mul (.rat 8 1) (.mul (.mul (.div (.mul (.rat 4 1) (.par n!"GF")) (.sqrt (.rat 2 1))) (.mul (.ckm 2 2) (.conj (.ckm 2 0)))) (.inp n!"CSLRt_bdss"))) (.rat 3 1))))),
  (n!"5dbdb", (.mul (.div (.div (.sqrt (.rat 2 1)) (.par n!"GF")) (.rat 4 1)) (.mul (.rat (-2) 1) (.inp n!"CVLR_bdbd")))),
  (n!"8dsuu", (.mul (.div (.div (.sqrt (.rat 2 1)) (.par n!"GF")) (.rat 4 1)) (.sub (.add (.mul (.rat 2 1) (.mul (.mul (.div (.mul (.rat 4 1) (.par n!"GF")) (.sqrt (.rat 2 1))) (.mul (.ckm 2 1) (.conj (.ckm 2 0)))) (.inp n!"CTRRt_sduu"))) (.div (.mul (.rat 2 1) (.mul (.mul (.div (.mul (.rat 4 1) (.par n!"GF")) (.sqrt (.rat 2 1))) (.mul (.ckm 2 1) (.conj (.ckm 2 0)))) (.inp n!"CSRRt_sduu"))) (.rat 3 1))) (.div (.mul (.rat 2 1) (.mul (.mul (.div (.mul (.rat 4 1) (.par n!"GF")) (.sqrt (.rat 2 1))) (.mul (.ckm 2 1) (.conj (.ckm 2 0)))) (.inp n!"CSRLt_sduu"))) (.rat 3 1))))),
  (n!"5dbmutau", (.mul (.div (.div (.sqrt (.rat 2 1)) (.par n!"GF")) (.rat 4 1)) (.sub (.div (.div (.inp n!"CS_bdtaumu") (.div (.div (.mul (.rat 16 1) (.mul .pi .pi)) (.mul (.sqrt (.mul (.mul (.rat 4 1) .pi) (.par n!"alpha_e"))) (.sqrt (.mul (.mul (.rat 4 1) .pi) (.par n!"alpha_e"))))) (.par n!"m_b"))) (.div (.div (.div (.sqrt (.rat 2 1)) (.par n!"GF")) (.mul (.ckm 2 2) (.conj (.ckm 2 0)))) (.rat 4 1))) (.div (.mul (.rat 5 1) (.div (.div (.inp n!"CP_bdtaumu") (.div (.div (.mul (.rat 16 1) (.mul .pi .pi)) (.mul (.sqrt (.mul (.mul (.rat 4 1) .pi) (.par n!"alpha_e"))) (.sqrt (.mul (.mul (.rat 4 1) .pi) (.par n!"alpha_e"))))) (.par n!"m_b"))) (.div (.div (.div (.sqrt (.rat 2 1)) (.par n!"GF")) (.mul (.ckm 2 2) (.conj (.ckm 2 0)))) (.rat 4 1)))) (.rat 3 1))))),
  (n!"7pusee", (.mul (.div (.div (.sqrt (.rat 2 1)) (.par n!"GF")) (.rat 4 1)) (.div (.inp n!"CT_suenue") (.div (.div (.div (.neg (.sqrt (.rat 2 1))) (.par n!"GF")) (.ckm 0 1)) (.rat 4 1))))),
  (n!"1psbtautau", (.mul (.div (.div (.sqrt (.rat 2 1)) (.par n!"GF")) (.rat 4 1)) (.sub (.div (.div (.inp n!"C9p_bstautau") (.div (.mul (.rat 16 1) (.mul .pi .pi)) (.mul (.sqrt (.mul (.mul (.rat 4 1) .pi) (.par n!"alpha_e"))) (.sqrt (.mul (.mul (.rat 4 1) .pi) (.par n!"alpha_e")))))) (.div (.div (.div (.sqrt (.rat 2 1)) (.par n!"GF")) (.mul (.ckm 2 2) (.conj (.ckm 2 1)))) (.rat 4 1))) (.div (.mul (.rat 5 1) (.div (.div (.inp n!"C10p_bstautau") (.div (.mul (.rat 16 1) (.mul .pi .pi)) (.mul (.sqrt (.mul (.mul (.rat 4 1) .pi) (.par n!"alpha_e"))) (.sqrt (.mul (.mul (.rat 4 1) .pi) (.par n!"alpha_e")))))) (.div (.div (.div (.sqrt (.rat 2 1)) (.par n!"GF")) (.mul (.ckm 2 2) (.conj (.ckm 2 1)))) (.rat 4 1)))) (.rat 3 1))))),
  (n!"3dbdb", (.mul (.div (.div (.sqrt (.rat 2 1)) (.par n!"GF")) (.rat 4 1)) (.mul (.rat (-8) 1) (.inp n!"CTLL_bdbd")))),
  (n!"3sbtaue", (.mul (.div (.div (.sqrt (.rat 2 1)) (.par n!"GF")) (.rat 4 1)) (.div (.neg (.div (.div (.inp n!"C10_bsetau") (.div (.mul (.rat 16 1) (.mul .pi .pi)) (.mul (.sqrt (.mul (.mul (.rat 4 1) .pi) (.par n!"alpha_e"))) (.sqrt (.mul (.mul (.rat 4 1) .pi) (.par n!"alpha_e")))))) (.div (.div (.div (.sqrt (.rat 2 1)) (.par n!"GF")) (.mul (.ckm 2 2) (.conj (.ckm 2 1)))) (.rat 4 1)))) (.rat 6 1)))),
  (n!"6dsuu", (.mul (.div (.div (.sqrt (.rat 2 1)) (.par n!"GF")) (.rat 4 1)) (.add (.div (.mul (.rat (-2) 1) (.mul (.mul (.div (.mul (.rat 4 1) (.par n!"GF")) (.sqrt (.rat 2 1))) (.mul (.ckm 2 1) (.conj (.ckm 2 0)))) (.inp n!"CSRRt_sduu"))) (.rat 3 1)) (.div (.mul (.rat 8 1) (.mul (.mul (.div (.mul (.rat 4 1) (.par n!"GF")) (.sqrt (.rat 2 1))) (.mul (.ckm 2 1) (.conj (.ckm 2 0)))) (.inp n!"CSRLt_sduu"))) (.rat 3 1))))),
  (n!"9pdsmumu", (.mul (.div (.div (.sqrt (.rat 2 1)) (.par n!"GF")) (.rat 4 1)) (.div (.neg (.div (.div (.inp n!"CPp_sdmumu") (.div (.div (.mul (.rat 16 1) (.mul .pi .pi)) (.mul (.sqrt (.mul (.mul (.rat 4 1) .pi) (.par n!"alpha_e"))) (.sqrt (.mul (.mul (.rat 4 1) .pi) (.par n!"alpha_e"))))) (.par n!"m_s"))) (.div (.div (.div (.sqrt (.rat 2 1)) (.par n!"GF")) (.mul (.ckm 2 1) (.conj (.ckm 2 0)))) (.rat 4 1)))) (.rat 24 1)))),
  (n!"5ustaue", (.mul (.div (.div (.sqrt (.rat 2 1)) (.par n!"GF")) (.rat 4 1)) (.div (.inp n!"CSR_sutaunue") (.div (.div (.div (.neg (.sqrt (.rat 2 1))) (.par n!"GF")) (.ckm 0 1)) (.rat 4 1))))),
  (n!"1dbdb", (.mul (.div (.div (.sqrt (.rat 2 1)) (.par n!"GF")) (.rat 4 1)) (.inp n!"CVLL_bdbd"))),
  (n!"4dsuu", (.mul (.div (.div (.sqrt (.rat 2 1)) (.par n!"GF")) (.rat 4 1)) (.sub (.div (.mul (.mul (.div (.mul (.rat 4 1) (.par n!"GF")) (.sqrt (.rat 2 1))) (.mul (.ckm 2 1) (.conj (.ckm 2 0)))) (.inp n!"CVLLt_sduu")) (.rat 6 1)) (.div (.mul (.mul (.div (.mul (.rat 4 1) (.par n!"GF")) (.sqrt (.rat 2 1))) (.mul (.ckm 2 1) (.conj (.ckm 2 0)))) (.inp n!"CVLRt_sduu")) (.rat 6 1))))),
  (n!"5pudemu", (.mul (.div (.div (.sqrt (.rat 2 1)) (.par n!"GF")) (.rat 4 1)) (.div (.inp n!"CSL_duenumu") (.div (.div (.div (.neg (.sqrt (.rat 2 1))) (.par n!"GF")) (.ckm 0 0)) (.rat 4 1))))),
  (n!"7pdscc", (.mul (.div (.div (.sqrt (.rat 2 1)) (.par n!"GF")) (.rat 4 1)) (.sub (.add (.add (.add (.sub (.div (.mul (.mul (.div (.mul (.rat 4 1) (.par n!"GF")) (.sqrt (.rat 2 1))) (.mul (.ckm 2 1) (.conj (.ckm 2 0)))) (.inp n!"CSLL_sdcc")) (.rat 3 1)) (.div (.mul (.mul (.div (.mul (.rat 4 1) (.par n!"GF")) (.sqrt (.rat 2 1))) (.mul (.ckm 2 1) (.conj (.ckm 2 0)))) (.inp n!"CSLR_sdcc")) (.rat 3 1))) (.mul (.mul (.div (.mul (.rat 4 1) (.par n!"GF")) (.sqrt (.rat 2 1))) (.mul (.ckm 2 1) (.conj (.ckm 2 0)))) (.inp n!"CTLL_sdcc"))) (.div (.mul (.mul (.div (.mul (.rat 4 1) (.par n!"GF")) (.sqrt (.rat 2 1))) (.mul (.ckm 2 1) (.conj (.ckm 2 0)))) (.inp n!"CTLLt_sdcc")) (.rat 3 1))) (.div (.mul (.mul (.div (.mul (.rat 4 1) (.par n!"GF")) (.sqrt (.rat 2 1))) (.mul (.ckm 2 1) (.conj (.ckm 2 0)))) (.inp n!"CSLLt_sdcc")) (.mul (.rat 3 1) (.rat 3 1)))) (.div (.mul (.mul (.div (.mul (.rat 4 1) (.par n!"GF")) (.sqrt (.rat 2 1))) (.mul (.ckm 2 1) (.conj (.ckm 2 0)))) (.inp n!"CSLRt_sdcc")) (.mul (.rat 3 1) (.rat 3 1)))))),
  (n!"2dsuu", (.mul (.div (.div (.sqrt (.rat 2 1)) (.par n!"GF")) (.rat 4 1)) (.add (.div (.mul (.rat (-2) 1) (.mul (.mul (.div (.mul (.rat 4 1) (.par n!"GF")) (.sqrt (.rat 2 1))) (.mul (.ckm 2 1) (.conj (.ckm 2 0)))) (.inp n!"CVLLt_sduu"))) (.rat 3 1)) (.div (.mul (.rat 8 1) (.mul (.mul (.div (.mul (.rat 4 1) (.par n!"GF")) (.sqrt (.rat 2 1))) (.mul (.ckm 2 1) (.conj (.ckm 2 0)))) (.inp n!"CVLRt_sduu"))) (.rat 3 1))))),
  (n!"3pdsbb", (.mul (.div (.div (.sqrt (.rat 2 1)) (.par n!"GF")) (.rat 4 1)) (.sub (.add (.sub (.div (.mul (.mul (.div (.mul (.rat 4 1) (.par n!"GF")) (.sqrt (.rat 2 1))) (.mul (.ckm 2 1) (.conj (.ckm 2 0)))) (.inp n!"CVRR_sdbb")) (.rat 12 1)) (.div (.mul (.mul (.div (.mul (.rat 4 1) (.par n!"GF")) (.sqrt (.rat 2 1))) (.mul (.ckm 2 1) (.conj (.ckm 2 0)))) (.inp n!"CVRL_sdbb")) (.rat 12 1))) (.div (.mul (.mul (.div (.mul (.rat 4 1) (.par n!"GF")) (.sqrt (.rat 2 1))) (.mul (.ckm 2 1) (.conj (.ckm 2 0)))) (.inp n!"CVRRt_sdbb")) (.mul (.rat 12 1) (.rat 3 1)))) (.div (.mul (.mul (.div (.mul (.rat 4 1) (.par n!"GF")) (.sqrt (.rat 2 1))) (.mul (.ckm 2 1) (.conj (.ckm 2 0)))) (.inp n!"CVRLt_sdbb")) (.mul (.rat 12 1) (.rat 3 1)))))),
  (n!"5pustaue", (.mul (.div (.div (.sqrt (.rat 2 1)) (.par n!"GF")) (.rat 4 1)) (.div (.inp n!"CSL_sutaunue") (.div (.div (.div (.neg (.sqrt (.rat 2 1))) (.par n!"GF")) (.ckm 0 1)) (.rat 4 1))))),
  (n!"5pdbee", (.mul (.div (.div (.sqrt (.rat 2 1)) (.par n!"GF")) (.rat 4 1)) (.add (.div (.mul (.rat 5 1) (.div (.div (.inp n!"CPp_bdee") (.div (.div (.mul (.rat 16 1) (.mul .pi .pi)) (.mul (.sqrt (.mul (.mul (.rat 4 1) .pi) (.par n!"alpha_e"))) (.sqrt (.mul (.mul (.rat 4 1) .pi) (.par n!"alpha_e"))))) (.par n!"m_b"))) (.div (.div (.div (.sqrt (.rat 2 1)) (.par n!"GF")) (.mul (.ckm 2 2) (.conj (.ckm 2 0)))) (.rat 4 1)))) (.rat 3 1)) (.div (.div (.inp n!"CSp_bdee") (.div (.div (.mul (.rat 16 1) (.mul .pi .pi)) (.mul (.sqrt (.mul (.mul (.rat 4 1) .pi) (.par n!"alpha_e"))) (.sqrt (.mul (.mul (.rat 4 1) .pi) (.par n!"alpha_e"))))) (.par n!"m_b"))) (.div (.div (.div (.sqrt (.rat 2 1)) (.par n!"GF")) (.mul (.ckm 2 2) (.conj (.ckm 2 0)))) (.rat 4 1)))))),
  (n!"1pdbdd", (.mul (.div (.div (.sqrt (.rat 2 1)) (.par n!"GF")) (.rat 4 1)) (.add (.div (.neg (.mul (.mul (.div (.mul (.rat 4 1) (.par n!"GF")) (.sqrt (.rat 2 1))) (.mul (.ckm 2 2) (.conj (.ckm 2 0)))) (.inp n!"CVRR_bddd"))) (.rat 3 1)) (.div (.mul (.rat 4 1) (.mul (.mul (.div (.mul (.rat 4 1) (.par n!"GF")) (.sqrt (.rat 2 1))) (.mul (.ckm 2 2) (.conj (.ckm 2 0)))) (.inp n!"CVRL_bddd"))) (.rat 3 1))))),
  (n!"9pdbtaumu", (.mul (.div (.div (.sqrt (.rat 2 1)) (.par n!"GF")) (.rat 4 1)) (.div (.neg (.div (.div (.inp n!"CPp_bdmutau") (.div (.div (.mul (.rat 16 1) (.mul .pi .pi)) (.mul (.sqrt (.mul (.mul (.rat 4 1) .pi) (.par n!"alpha_e"))) (.sqrt (.mul (.mul (.rat 4 1) .pi) (.par n!"alpha_e"))))) (.par n!"m_b"))) (.div (.div (.div (.sqrt (.rat 2 1)) (.par n!"GF")) (.mul (.ckm 2 2) (.conj (.ckm 2 0)))) (.rat 4 1)))) (.rat 24 1)))),
  (n!"1pcsmumu", (.mul (.div (.div (.sqrt (.rat 2 1)) (.par n!"GF")) (.rat 4 1)) (.div (.inp n!"CVR_scmunumu") (.div (.div (.div (.neg (.sqrt (.rat 2 1))) (.par n!"GF")) (.ckm 1 1)) (.rat 4 1))))),
  (n!"7pcdemu", (.mul (.div (.div (.sqrt (.rat 2 1)) (.par n!"GF")) (.rat 4 1)) (.div (.inp n!"CT_dcenumu") (.div (.div (.div (.neg (.sqrt (.rat 2 1))) (.par n!"GF")) (.ckm 1 0)) (.rat 4 1)))))]

def flavio_to_Bern_16 : List (ℕ × Sym) := [
  (n!"5cdetau", (.mul (.div (.div (.sqrt (.rat 2 1)) (.par n!"GF")) (.rat 4 1)) (.div (.inp n!"CSR_dcenutau") (.div (.div (.div (.neg (.sqrt (.rat 2 1))) (.par n!"GF")) (.ckm 1 0)) (.rat 4 1))))),
  (n!"1sbtaue", (.mul (.div (.div (.sqrt (.rat 2 1)) (.par n!"GF")) (.rat 4 1)) (.add (.div (.mul (.rat 5 1) (.div (.div (.inp n!"C10_bsetau") (.div (.mul (.rat 16 1) (.mul .pi .pi)) (.mul (.sqrt (.mul (.mul (.rat 4 1) .pi) (.par n!"alpha_e"))) (.sqrt (.mul (.mul (.rat 4 1) .pi) (.par n!"alpha_e")))))) (.div (.div (.div (.sqrt (.rat 2 1)) (.par n!"GF")) (.mul (.ckm 2 2) (.conj (.ckm 2 1)))) (.rat 4 1)))) (.rat 3 1)) (.div (.div (.inp n!"C9_bsetau") (.div (.mul (.rat 16 1) (.mul .pi .pi)) (.mul (.sqrt (.mul (.mul (.rat 4 1) .pi) (.par n!"alpha_e"))) (.sqrt (.mul (.mul (.rat 4 1) .pi) (.par n!"alpha_e")))))) (.div (.div (.div (.sqrt (.rat 2 1)) (.par n!"GF")) (.mul (.ckm 2 2) (.conj (.ckm 2 1)))) (.rat 4 1)))))),
  (n!"5cbetau", (.mul (.div (.div (.sqrt (.rat 2 1)) (.par n!"GF")) (.rat 4 1)) (.div (.inp n!"CSR_bcenutau") (.div (.div (.div (.neg (.sqrt (.rat 2 1))) (.par n!"GF")) (.ckm 1 2)) (.rat 4 1))))),
  (n!"3pdbmumu", (.mul (.div (.div (.sqrt (.rat 2 1)) (.par n!"GF")) (.rat 4 1)) (.div (.div (.div (.inp n!"C10p_bdmumu") (.div (.mul (.rat 16 1) (.mul .pi .pi)) (.mul (.sqrt (.mul (.mul (.rat 4 1) .pi) (.par n!"alpha_e"))) (.sqrt (.mul (.mul (.rat 4 1) .pi) (.par n!"alpha_e")))))) (.div (.div (.div (.sqrt (.rat 2 1)) (.par n!"GF")) (.mul (.ckm 2 2) (.conj (.ckm 2 0)))) (.rat 4 1))) (.rat 6 1)))),
  (n!"1udmue", (.mul (.div (.div (.sqrt (.rat 2 1)) (.par n!"GF")) (.rat 4 1)) (.div (.inp n!"CVL_dumunue") (.div (.div (.div (.neg (.sqrt (.rat 2 1))) (.par n!"GF")) (.ckm 0 0)) (.rat 4 1))))),
  (n!"7pdsuu", (.mul (.div (.div (.sqrt (.rat 2 1)) (.par n!"GF")) (.rat 4 1)) (.sub (.add (.add (.add (.sub (.div (.mul (.mul (.div (.mul (.rat 4 1) (.par n!"GF")) (.sqrt (.rat 2 1))) (.mul (.ckm 2 1) (.conj (.ckm 2 0)))) (.inp n!"CSLL_sduu")) (.rat 3 1)) (.div (.mul (.mul (.div (.mul (.rat 4 1) (.par n!"GF")) (.sqrt (.rat 2 1))) (.mul (.ckm 2 1) (.conj (.ckm 2 0)))) (.inp n!"CSLR_sduu")) (.rat 3 1))) (.mul (.mul (.div (.mul (.rat 4 1) (.par n!"GF")) (.sqrt (.rat 2 1))) (.mul (.ckm 2 1) (.conj (.ckm 2 0)))) (.inp n!"CTLL_sduu"))) (.div (.mul (.mul (.div (.mul (.rat 4 1) (.par n!"GF")) (.sqrt (.rat 2 1))) (.mul (.ckm 2 1) (.conj (.ckm 2 0)))) (.inp n!"CTLLt_sduu")) (.rat 3 1))) (.div (.mul (.mul (.div (.mul (.rat 4 1) (.par n!"GF")) (.sqrt (.rat 2 1))) (.mul (.ckm 2 1) (.conj (.ckm 2 0)))) (.inp n!"CSLLt_sduu")) (.mul (.rat 3 1) (.rat 3 1)))) (.div (.mul (.mul (.div (.mul (.rat 4 1) (.par n!"GF")) (.sqrt (.rat 2 1))) (.mul (.ckm 2 1) (.conj (.ckm 2 0)))) (.inp n!"CSLRt_sduu")) (.mul (.rat 3 1) (.rat 3 1)))))),
  (n!"5pcdetau", (.mul (.div (.div (.sqrt (.rat 2 1)) (.par n!"GF")) (.rat 4 1)) (.div (.inp n!"CSL_dcenutau") (.div (.div (.div (.neg (.sqrt (.rat 2 1))) (.par n!"GF")) (.ckm 1 0)) (.rat 4 1))))),
  (n!"5pudtaumu", (.mul (.div (.div (.sqrt (.rat 2 1)) (.par n!"GF")) (.rat 4 1)) (.div (.inp n!"CSL_dutaunumu") (.div (.div (.div (.neg (.sqrt (.rat 2 1))) (.par n!"GF")) (.ckm 0 0)) (.rat 4 1))))),
  (n!"9psbetau", (.mul (.div (.div (.sqrt (.rat 2 1)) (.par n!"GF")) (.rat 4 1)) (.div (.neg (.div (.div (.inp n!"CPp_bstaue") (.div (.div (.mul (.rat 16 1) (.mul .pi .pi)) (.mul (.sqrt (.mul (.mul (.rat 4 1) .pi) (.par n!"alpha_e"))) (.sqrt (.mul (.mul (.rat 4 1) .pi) (.par n!"alpha_e"))))) (.par n!"m_b"))) (.div (.div (.div (.sqrt (.rat 2 1)) (.par n!"GF")) (.mul (.ckm 2 2) (.conj (.ckm 2 1)))) (.rat 4 1)))) (.rat 24 1)))),
  (n!"5pcbetau", (.mul (.div (.div (.sqrt (.rat 2 1)) (.par n!"GF")) (.rat 4 1)) (.div (.inp n!"CSL_bcenutau") (.div (.div (.div (.neg (.sqrt (.rat 2 1))) (.par n!"GF")) (.ckm 1 2)) (.rat 4 1))))),
  (n!"9pdbemu", (.mul (.div (.div (.sqrt (.rat 2 1)) (.par n!"GF")) (.rat 4 1)) (.div (.neg (.div (.div (.inp n!"CPp_bdmue") (.div (.div (.mul (.rat 16 1) (.mul .pi .pi)) (.mul (.sqrt (.mul (.mul (.rat 4 1) .pi) (.par n!"alpha_e"))) (.sqrt (.mul (.mul (.rat 4 1) .pi) (.par n!"alpha_e"))))) (.par n!"m_b"))) (.div (.div (.div (.sqrt (.rat 2 1)) (.par n!"GF")) (.mul (.ckm 2 2) (.conj (.ckm 2 0)))) (.rat 4 1)))) (.rat 24 1)))),
  (n!"5pcdtautau", (.mul (.div (.div (.sqrt (.rat 2 1)) (.par n!"GF")) (.rat 4 1)) (.div (.inp n!"CSL_dctaunutau") (.div (.div (.div (.neg (.sqrt (.rat 2 1))) (.par n!"GF")) (.ckm 1 0)) (.rat 4 1))))),
  (n!"1udtautau", (.mul (.div (.div (.sqrt (.rat 2 1)) (.par n!"GF")) (.rat 4 1)) (.div (.inp n!"CVL_dutaunutau") (.div (.div (.div (.neg (.sqrt (.rat 2 1))) (.par n!"GF")) (.ckm 0 0)) (.rat 4 1))))),
  (n!"9psbee", (.mul (.div (.div (.sqrt (.rat 2 1)) (.par n!"GF")) (.rat 4 1)) (.div (.neg (.div (.div (.inp n!"CPp_bsee") (.div (.div (.mul (.rat 16 1) (.mul .pi .pi)) (.mul (.sqrt (.mul (.mul (.rat 4 1) .pi) (.par n!"alpha_e"))) (.sqrt (.mul (.mul (.rat 4 1) .pi) (.par n!"alpha_e"))))) (.par n!"m_b"))) (.div (.div (.div (.sqrt (.rat 2 1)) (.par n!"GF")) (.mul (.ckm 2 2) (.conj (.ckm 2 1)))) (.rat 4 1)))) (.rat 24 1)))),
  (n!"5psbdd", (.mul (.div (.div (.sqrt (.rat 2 1)) (.par n!"GF")) (.rat 4 1)) (.add (.sub (.add (.div (.neg (.mul (.mul (.div (.mul (.rat 4 1) (.par n!"GF")) (.sqrt (.rat 2 1))) (.mul (.ckm 2 2) (.conj (.ckm 2 1)))) (.inp n!"CSLL_bsdd"))) (.rat 3 1)) (.div (.mul (.rat 4 1) (.mul (.mul (.div (.mul (.rat 4 1) (.par n!"GF")) (.sqrt (.rat 2 1))) (.mul (.ckm 2 2) (.conj (.ckm 2 1)))) (.inp n!"CSLR_bsdd"))) (.rat 3 1))) (.div (.mul (.mul (.div (.mul (.rat 4 1) (.par n!"GF")) (.sqrt (.rat 2 1))) (.mul (.ckm 2 2) (.conj (.ckm 2 1)))) (.inp n!"CSLLt_bsdd")) (.mul (.rat 3 1) (.rat 3 1)))) (.div (.mul (.rat 4 1) (.mul (.mul (.div (.mul (.rat 4 1) (.par n!"GF")) (.sqrt (.rat 2 1))) (.mul (.ckm 2 2) (.conj (.ckm 2 1)))) (.inp n!"CSLRt_bsdd"))) (.mul (.rat 3 1) (.rat 3 1)))))),
  (n!"1psbcc", (.mul (.div (.div (.sqrt (.rat 2 1)) (.par n!"GF")) (.rat 4 1)) (.add (.sub (.add (.div (.neg (.mul (.mul (.div (.mul (.rat 4 1) (.par n!"GF")) (.sqrt (.rat 2 1))) (.mul (.ckm 2 2) (.conj (.ckm 2 1)))) (.inp n!"CVRR_bscc"))) (.rat 3 1)) (.div (.mul (.rat 4 1) (.mul (.mul (.div (.mul (.rat 4 1) (.par n!"GF")) (.sqrt (.rat 2 1))) (.mul (.ckm 2 2) (.conj (.ckm 2 1)))) (.inp n!"CVRL_bscc"))) (.rat 3 1))) (.div (.mul (.mul (.div (.mul (.rat 4 1) (.par n!"GF")) (.sqrt (.rat 2 1))) (.mul (.ckm 2 2) (.conj (.ckm 2 1)))) (.inp n!"CVRRt_bscc")) (.mul (.rat 3 1) (.rat 3 1)))) (.div (.mul (.rat 4 1) (.mul (.mul (.div (.mul (.rat 4 1) (.par n!"GF")) (.sqrt (.rat 2 1))) (.mul (.ckm 2 2) (.conj (.ckm 2 1)))) (.inp n!"CVRLt_bscc"))) (.mul (.rat 3 1) (.rat 3 1)))))),
  (n!"nu1pdbmue", (.mul (.div (.div (.sqrt (.rat 2 1)) (.par n!"GF")) (.rat 4 1)) (.div (.div (.inp n!"CR_bdnuenumu") (.div (.mul (.rat 8 1) (.mul .pi .pi)) (.mul (.sqrt (.mul (.mul (.rat 4 1) .pi) (.par n!"alpha_e"))) (.sqrt (.mul (.mul (.rat 4 1) .pi) (.par n!"alpha_e")))))) (.div (.div (.div (.sqrt (.rat 2 1)) (.par n!"GF")) (.mul (.ckm 2 2) (.conj (.ckm 2 0)))) (.rat 4 1))))),
  (n!"9dbee", (.mul (.div (.div (.sqrt (.rat 2 1)) (.par n!"GF")) (.rat 4 1)) (.div (.div (.div (.inp n!"CP_bdee") (.div (.div (.mul (.rat 16 1) (.mul .pi .pi)) (.mul (.sqrt (.mul (.mul (.rat 4 1) .pi) (.par n!"alpha_e"))) (.sqrt (.mul (.mul (.rat 4 1) .pi) (.par n!"alpha_e"))))) (.par n!"m_b"))) (.div (.div (.div (.sqrt (.rat 2 1)) (.par n!"GF")) (.mul (.ckm 2 2) (.conj (.ckm 2 0)))) (.rat 4 1))) (.rat 24 1))))]

/-- the items returned by `flavio_to_Bern` (in the order of the search tree of the model) -/
def flavio_to_Bern : List (ℕ × Sym) :=
  flavio_to_Bern_0 ++ (flavio_to_Bern_1 ++ (flavio_to_Bern_2 ++ (flavio_to_Bern_3 ++ (flavio_to_Bern_4 ++ (flavio_to_Bern_5 ++ (flavio_to_Bern_6 ++ (flavio_to_Bern_7 ++ (flavio_to_Bern_8 ++ (flavio_to_Bern_9 ++ (flavio_to_Bern_10 ++ (flavio_to_Bern_11 ++ (flavio_to_Bern_12 ++ (flavio_to_Bern_13 ++ (flavio_to_Bern_14 ++ (flavio_to_Bern_15 ++ (flavio_to_Bern_16))))))))))))))))

end Verif.Gen.WetOut
