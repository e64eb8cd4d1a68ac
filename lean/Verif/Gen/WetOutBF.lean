import Verif.Model.Py

/-!
# The dictionary returned by `Bern_to_flavio`

GENERATED by tools/gen_wetout.lean; that this is what the translator returns is proved in
`Lemmas/WetRunsBF`.
-/

set_option autoImplicit false
set_option maxRecDepth 20000

namespace Verif.Gen.WetOut
open Verif.Py

def Bern_to_flavio_0 : List (ℕ × Sym) := [
  (n!"CT_bumunutau", (.div (.mul (.div (.div (.div (.neg (.sqrt (.rat 2 1))) (.par n!"GF")) (.ckm 0 2)) (.rat 4 1)) (.inp n!"7pubmutau")) (.div (.div (.sqrt (.rat 2 1)) (.par n!"GF")) (.rat 4 1)))),
  (n!"CP_sdmumu", (.div (.mul (.div (.div (.div (.sqrt (.rat 2 1)) (.par n!"GF")) (.mul (.ckm 2 1) (.conj (.ckm 2 0)))) (.rat 4 1)) (.mul (.div (.div (.mul (.rat 16 1) (.mul .pi .pi)) (.mul (.sqrt (.mul (.mul (.rat 4 1) .pi) (.par n!"alpha_e"))) (.sqrt (.mul (.mul (.rat 4 1) .pi) (.par n!"alpha_e"))))) (.par n!"m_s")) (.mul (.rat 24 1) (.inp n!"9dsmumu")))) (.div (.div (.sqrt (.rat 2 1)) (.par n!"GF")) (.rat 4 1)))),
  (n!"CSLL_bscc", (.div (.mul (.div (.div (.div (.sqrt (.rat 2 1)) (.par n!"GF")) (.mul (.ckm 2 2) (.conj (.ckm 2 1)))) (.rat 4 1)) (.add (.sub (.add (.neg (.div (.mul (.rat 32 1) (.inp n!"10psbcc")) (.rat 3 1))) (.inp n!"5psbcc")) (.div (.inp n!"6psbcc") (.rat 6 1))) (.mul (.rat 64 1) (.inp n!"9psbcc")))) (.div (.div (.sqrt (.rat 2 1)) (.par n!"GF")) (.rat 4 1)))),
  (n!"CVRL_bsdd", (.div (.mul (.div (.div (.div (.sqrt (.rat 2 1)) (.par n!"GF")) (.mul (.ckm 2 2) (.conj (.ckm 2 1)))) (.rat 4 1)) (.sub (.add (.sub (.inp n!"1psbdd") (.div (.inp n!"2psbdd") (.rat 6 1))) (.mul (.rat 4 1) (.inp n!"3psbdd"))) (.div (.mul (.rat 2 1) (.inp n!"4psbdd")) (.rat 3 1)))) (.div (.div (.sqrt (.rat 2 1)) (.par n!"GF")) (.rat 4 1)))),
  (n!"CT_dumunumu", (.div (.mul (.div (.div (.div (.neg (.sqrt (.rat 2 1))) (.par n!"GF")) (.ckm 0 0)) (.rat 4 1)) (.inp n!"7pudmumu")) (.div (.div (.sqrt (.rat 2 1)) (.par n!"GF")) (.rat 4 1)))),
  (n!"CVLR_bscc", (.div (.mul (.div (.div (.div (.sqrt (.rat 2 1)) (.par n!"GF")) (.mul (.ckm 2 2) (.conj (.ckm 2 1)))) (.rat 4 1)) (.sub (.add (.sub (.inp n!"1sbcc") (.div (.inp n!"2sbcc") (.rat 6 1))) (.mul (.rat 4 1) (.inp n!"3sbcc"))) (.div (.mul (.rat 2 1) (.inp n!"4sbcc")) (.rat 3 1)))) (.div (.div (.sqrt (.rat 2 1)) (.par n!"GF")) (.rat 4 1)))),
  (n!"CSRR_sdbb", (.div (.mul (.div (.div (.div (.sqrt (.rat 2 1)) (.par n!"GF")) (.mul (.ckm 2 1) (.conj (.ckm 2 0)))) (.rat 4 1)) (.add (.sub (.add (.neg (.div (.mul (.rat 32 1) (.inp n!"10dsbb")) (.rat 3 1))) (.inp n!"5dsbb")) (.div (.inp n!"6dsbb") (.rat 6 1))) (.mul (.rat 64 1) (.inp n!"9dsbb")))) (.div (.div (.sqrt (.rat 2 1)) (.par n!"GF")) (.rat 4 1)))),
  (n!"C10p_bstaumu", (.div (.mul (.div (.div (.div (.sqrt (.rat 2 1)) (.par n!"GF")) (.mul (.ckm 2 2) (.conj (.ckm 2 1)))) (.rat 4 1)) (.mul (.div (.mul (.rat 16 1) (.mul .pi .pi)) (.mul (.sqrt (.mul (.mul (.rat 4 1) .pi) (.par n!"alpha_e"))) (.sqrt (.mul (.mul (.rat 4 1) .pi) (.par n!"alpha_e"))))) (.mul (.rat 6 1) (.inp n!"3psbmutau")))) (.div (.div (.sqrt (.rat 2 1)) (.par n!"GF")) (.rat 4 1)))),
  (n!"CSp_sdemu", (.div (.mul (.div (.div (.div (.sqrt (.rat 2 1)) (.par n!"GF")) (.mul (.ckm 2 1) (.conj (.ckm 2 0)))) (.rat 4 1)) (.mul (.div (.div (.mul (.rat 16 1) (.mul .pi .pi)) (.mul (.sqrt (.mul (.mul (.rat 4 1) .pi) (.par n!"alpha_e"))) (.sqrt (.mul (.mul (.rat 4 1) .pi) (.par n!"alpha_e"))))) (.par n!"m_s")) (.add (.inp n!"5pdsmue") (.mul (.rat 40 1) (.inp n!"9pdsmue"))))) (.div (.div (.sqrt (.rat 2 1)) (.par n!"GF")) (.rat 4 1)))),
  (n!"CSR_dumunumu", (.div (.mul (.div (.div (.div (.neg (.sqrt (.rat 2 1))) (.par n!"GF")) (.ckm 0 0)) (.rat 4 1)) (.inp n!"5udmumu")) (.div (.div (.sqrt (.rat 2 1)) (.par n!"GF")) (.rat 4 1)))),
  (n!"CVRLt_sduu", (.div (.mul (.div (.div (.div (.sqrt (.rat 2 1)) (.par n!"GF")) (.mul (.ckm 2 1) (.conj (.ckm 2 0)))) (.rat 4 1)) (.add (.div (.inp n!"2pdsuu") (.rat 2 1)) (.mul (.rat 2 1) (.inp n!"4pdsuu")))) (.div (.div (.sqrt (.rat 2 1)) (.par n!"GF")) (.rat 4 1)))),
  (n!"CTRR_bdbd", (.div (.mul (.div (.rat (-1) 1) (.rat 8 1)) (.inp n!"3pdbdb")) (.div (.div (.sqrt (.rat 2 1)) (.par n!"GF")) (.rat 4 1)))),
  (n!"CSRR_bsss", (.div (.mul (.div (.div (.div (.sqrt (.rat 2 1)) (.par n!"GF")) (.mul (.ckm 2 2) (.conj (.ckm 2 1)))) (.rat 4 1)) (.add (.inp n!"5psbss") (.mul (.rat 64 1) (.inp n!"9psbss")))) (.div (.div (.sqrt (.rat 2 1)) (.par n!"GF")) (.rat 4 1)))),
  (n!"CVR_scenutau", (.div (.mul (.div (.div (.div (.neg (.sqrt (.rat 2 1))) (.par n!"GF")) (.ckm 1 1)) (.rat 4 1)) (.inp n!"1pcsetau")) (.div (.div (.sqrt (.rat 2 1)) (.par n!"GF")) (.rat 4 1)))),
  (n!"CTRR_sdsd", (.div (.mul (.div (.rat (-1) 1) (.rat 8 1)) (.inp n!"3pdsds")) (.div (.div (.sqrt (.rat 2 1)) (.par n!"GF")) (.rat 4 1)))),
  (n!"CSL_duenumu", (.div (.mul (.div (.div (.div (.neg (.sqrt (.rat 2 1))) (.par n!"GF")) (.ckm 0 0)) (.rat 4 1)) (.inp n!"5pudemu")) (.div (.div (.sqrt (.rat 2 1)) (.par n!"GF")) (.rat 4 1)))),
  (n!"C9p_bdee", (.div (.mul (.div (.div (.div (.sqrt (.rat 2 1)) (.par n!"GF")) (.mul (.ckm 2 2) (.conj (.ckm 2 0)))) (.rat 4 1)) (.mul (.div (.mul (.rat 16 1) (.mul .pi .pi)) (.mul (.sqrt (.mul (.mul (.rat 4 1) .pi) (.par n!"alpha_e"))) (.sqrt (.mul (.mul (.rat 4 1) .pi) (.par n!"alpha_e"))))) (.add (.inp n!"1pdbee") (.mul (.rat 10 1) (.inp n!"3pdbee"))))) (.div (.div (.sqrt (.rat 2 1)) (.par n!"GF")) (.rat 4 1)))),
  (n!"CTRRt_sduu", (.div (.mul (.div (.div (.div (.sqrt (.rat 2 1)) (.par n!"GF")) (.mul (.ckm 2 1) (.conj (.ckm 2 0)))) (.rat 4 1)) (.add (.mul (.rat (-8) 1) (.inp n!"10dsuu")) (.div (.inp n!"8dsuu") (.rat 2 1)))) (.div (.div (.sqrt (.rat 2 1)) (.par n!"GF")) (.rat 4 1)))),
  (n!"CSL_dutaunue", (.div (.mul (.div (.div (.div (.neg (.sqrt (.rat 2 1))) (.par n!"GF")) (.ckm 0 0)) (.rat 4 1)) (.inp n!"5pudtaue")) (.div (.div (.sqrt (.rat 2 1)) (.par n!"GF")) (.rat 4 1)))),
  (n!"CSLR_bdbd", (.div (.inp n!"4dbdb") (.div (.div (.sqrt (.rat 2 1)) (.par n!"GF")) (.rat 4 1)))),
  (n!"CR_bdnutaunumu", (.div (.mul (.div (.div (.div (.sqrt (.rat 2 1)) (.par n!"GF")) (.mul (.ckm 2 2) (.conj (.ckm 2 0)))) (.rat 4 1)) (.mul (.div (.mul (.rat 8 1) (.mul .pi .pi)) (.mul (.sqrt (.mul (.mul (.rat 4 1) .pi) (.par n!"alpha_e"))) (.sqrt (.mul (.mul (.rat 4 1) .pi) (.par n!"alpha_e"))))) (.inp n!"nu1pdbmutau"))) (.div (.div (.sqrt (.rat 2 1)) (.par n!"GF")) (.rat 4 1)))),
  (n!"CSLR_sdsd", (.div (.inp n!"4dsds") (.div (.div (.sqrt (.rat 2 1)) (.par n!"GF")) (.rat 4 1)))),
  (n!"CT_buenutau", (.div (.mul (.div (.div (.div (.neg (.sqrt (.rat 2 1))) (.par n!"GF")) (.ckm 0 2)) (.rat 4 1)) (.inp n!"7pubetau")) (.div (.div (.sqrt (.rat 2 1)) (.par n!"GF")) (.rat 4 1)))),
  (n!"CVR_dutaunutau", (.div (.mul (.div (.div (.div (.neg (.sqrt (.rat 2 1))) (.par n!"GF")) (.ckm 0 0)) (.rat 4 1)) (.inp n!"1pudtautau")) (.div (.div (.sqrt (.rat 2 1)) (.par n!"GF")) (.rat 4 1)))),
  (n!"CVRLt_bdss", (.div (.mul (.div (.div (.div (.sqrt (.rat 2 1)) (.par n!"GF")) (.mul (.ckm 2 2) (.conj (.ckm 2 0)))) (.rat 4 1)) (.add (.div (.inp n!"2pdbss") (.rat 2 1)) (.mul (.rat 2 1) (.inp n!"4pdbss")))) (.div (.div (.sqrt (.rat 2 1)) (.par n!"GF")) (.rat 4 1)))),
  (n!"CSLL_sddd", (.div (.mul (.div (.div (.div (.sqrt (.rat 2 1)) (.par n!"GF")) (.mul (.ckm 2 1) (.conj (.ckm 2 0)))) (.rat 4 1)) (.add (.inp n!"5dsdd") (.mul (.rat 64 1) (.inp n!"9dsdd")))) (.div (.div (.sqrt (.rat 2 1)) (.par n!"GF")) (.rat 4 1)))),
  (n!"CL_bsnutaunumu", (.div (.mul (.div (.div (.div (.sqrt (.rat 2 1)) (.par n!"GF")) (.mul (.ckm 2 2) (.conj (.ckm 2 1)))) (.rat 4 1)) (.mul (.div (.mul (.rat 8 1) (.mul .pi .pi)) (.mul (.sqrt (.mul (.mul (.rat 4 1) .pi) (.par n!"alpha_e"))) (.sqrt (.mul (.mul (.rat 4 1) .pi) (.par n!"alpha_e"))))) (.inp n!"nu1sbmutau"))) (.div (.div (.sqrt (.rat 2 1)) (.par n!"GF")) (.rat 4 1)))),
  (n!"CSR_buenutau", (.div (.mul (.div (.div (.div (.neg (.sqrt (.rat 2 1))) (.par n!"GF")) (.ckm 0 2)) (.rat 4 1)) (.inp n!"5ubetau")) (.div (.div (.sqrt (.rat 2 1)) (.par n!"GF")) (.rat 4 1)))),
  (n!"CVL_bumunutau", (.div (.mul (.div (.div (.div (.neg (.sqrt (.rat 2 1))) (.par n!"GF")) (.ckm 0 2)) (.rat 4 1)) (.inp n!"1ubmutau")) (.div (.div (.sqrt (.rat 2 1)) (.par n!"GF")) (.rat 4 1)))),
  (n!"CVLR_sddd", (.div (.mul (.div (.div (.div (.sqrt (.rat 2 1)) (.par n!"GF")) (.mul (.ckm 2 1) (.conj (.ckm 2 0)))) (.rat 4 1)) (.add (.inp n!"1dsdd") (.mul (.rat 4 1) (.inp n!"3dsdd")))) (.div (.div (.sqrt (.rat 2 1)) (.par n!"GF")) (.rat 4 1)))),
  (n!"CS_bdtaumu", (.div (.mul (.div (.div (.div (.sqrt (.rat 2 1)) (.par n!"GF")) (.mul (.ckm 2 2) (.conj (.ckm 2 0)))) (.rat 4 1)) (.mul (.div (.div (.mul (.rat 16 1) (.mul .pi .pi)) (.mul (.sqrt (.mul (.mul (.rat 4 1) .pi) (.par n!"alpha_e"))) (.sqrt (.mul (.mul (.rat 4 1) .pi) (.par n!"alpha_e"))))) (.par n!"m_b")) (.add (.inp n!"5dbmutau") (.mul (.rat 40 1) (.inp n!"9dbmutau"))))) (.div (.div (.sqrt (.rat 2 1)) (.par n!"GF")) (.rat 4 1)))),
  (n!"CSLL_bsuu", (.div (.mul (.div (.div (.div (.sqrt (.rat 2 1)) (.par n!"GF")) (.mul (.ckm 2 2) (.conj (.ckm 2 1)))) (.rat 4 1)) (.add (.sub (.add (.neg (.div (.mul (.rat 32 1) (.inp n!"10psbuu")) (.rat 3 1))) (.inp n!"5psbuu")) (.div (.inp n!"6psbuu") (.rat 6 1))) (.mul (.rat 64 1) (.inp n!"9psbuu")))) (.div (.div (.sqrt (.rat 2 1)) (.par n!"GF")) (.rat 4 1)))),
  (n!"CTRRt_bdss", (.div (.mul (.div (.div (.div (.sqrt (.rat 2 1)) (.par n!"GF")) (.mul (.ckm 2 2) (.conj (.ckm 2 0)))) (.rat 4 1)) (.add (.mul (.rat (-8) 1) (.inp n!"10dbss")) (.div (.inp n!"8dbss") (.rat 2 1)))) (.div (.div (.sqrt (.rat 2 1)) (.par n!"GF")) (.rat 4 1)))),
  (n!"CVLRt_bsdd", (.div (.mul (.div (.div (.div (.sqrt (.rat 2 1)) (.par n!"GF")) (.mul (.ckm 2 2) (.conj (.ckm 2 1)))) (.rat 4 1)) (.add (.div (.inp n!"2sbdd") (.rat 2 1)) (.mul (.rat 2 1) (.inp n!"4sbdd")))) (.div (.div (.sqrt (.rat 2 1)) (.par n!"GF")) (.rat 4 1)))),
  (n!"C9_sdmumu", (.div (.mul (.div (.div (.div (.sqrt (.rat 2 1)) (.par n!"GF")) (.mul (.ckm 2 1) (.conj (.ckm 2 0)))) (.rat 4 1)) (.mul (.div (.mul (.rat 16 1) (.mul .pi .pi)) (.mul (.sqrt (.mul (.mul (.rat 4 1) .pi) (.par n!"alpha_e"))) (.sqrt (.mul (.mul (.rat 4 1) .pi) (.par n!"alpha_e"))))) (.add (.inp n!"1dsmumu") (.mul (.rat 10 1) (.inp n!"3dsmumu"))))) (.div (.div (.sqrt (.rat 2 1)) (.par n!"GF")) (.rat 4 1)))),
  (n!"CVLR_bsuu", (.div (.mul (.div (.div (.div (.sqrt (.rat 2 1)) (.par n!"GF")) (.mul (.ckm 2 2) (.conj (.ckm 2 1)))) (.rat 4 1)) (.sub (.add (.sub (.inp n!"1sbuu") (.div (.inp n!"2sbuu") (.rat 6 1))) (.mul (.rat 4 1) (.inp n!"3sbuu"))) (.div (.mul (.rat 2 1) (.inp n!"4sbuu")) (.rat 3 1)))) (.div (.div (.sqrt (.rat 2 1)) (.par n!"GF")) (.rat 4 1)))),
  (n!"C9p_bsetau", (.div (.mul (.div (.div (.div (.sqrt (.rat 2 1)) (.par n!"GF")) (.mul (.ckm 2 2) (.conj (.ckm 2 1)))) (.rat 4 1)) (.mul (.div (.mul (.rat 16 1) (.mul .pi .pi)) (.mul (.sqrt (.mul (.mul (.rat 4 1) .pi) (.par n!"alpha_e"))) (.sqrt (.mul (.mul (.rat 4 1) .pi) (.par n!"alpha_e"))))) (.add (.inp n!"1psbtaue") (.mul (.rat 10 1) (.inp n!"3psbtaue"))))) (.div (.div (.sqrt (.rat 2 1)) (.par n!"GF")) (.rat 4 1)))),
  (n!"CSLL_bdbb", (.div (.mul (.div (.div (.div (.sqrt (.rat 2 1)) (.par n!"GF")) (.mul (.ckm 2 2) (.conj (.ckm 2 0)))) (.rat 4 1)) (.add (.inp n!"5pdbbb") (.mul (.rat 64 1) (.inp n!"9pdbbb")))) (.div (.div (.sqrt (.rat 2 1)) (.par n!"GF")) (.rat 4 1)))),
  (n!"CVRL_bdcc", (.div (.mul (.div (.div (.div (.sqrt (.rat 2 1)) (.par n!"GF")) (.mul (.ckm 2 2) (.conj (.ckm 2 0)))) (.rat 4 1)) (.sub (.add (.sub (.inp n!"1pdbcc") (.div (.inp n!"2pdbcc") (.rat 6 1))) (.mul (.rat 4 1) (.inp n!"3pdbcc"))) (.div (.mul (.rat 2 1) (.inp n!"4pdbcc")) (.rat 3 1)))) (.div (.div (.sqrt (.rat 2 1)) (.par n!"GF")) (.rat 4 1)))),
  (n!"C10_bstaumu", (.div (.mul (.div (.div (.div (.sqrt (.rat 2 1)) (.par n!"GF")) (.mul (.ckm 2 2) (.conj (.ckm 2 1)))) (.rat 4 1)) (.mul (.div (.mul (.rat 16 1) (.mul .pi .pi)) (.mul (.sqrt (.mul (.mul (.rat 4 1) .pi) (.par n!"alpha_e"))) (.sqrt (.mul (.mul (.rat 4 1) .pi) (.par n!"alpha_e"))))) (.mul (.rat (-6) 1) (.inp n!"3sbmutau")))) (.div (.div (.sqrt (.rat 2 1)) (.par n!"GF")) (.rat 4 1)))),
  (n!"CVLR_bdbb", (.div (.mul (.div (.div (.div (.sqrt (.rat 2 1)) (.par n!"GF")) (.mul (.ckm 2 2) (.conj (.ckm 2 0)))) (.rat 4 1)) (.add (.inp n!"1dbbb") (.mul (.rat 4 1) (.inp n!"3dbbb")))) (.div (.div (.sqrt (.rat 2 1)) (.par n!"GF")) (.rat 4 1)))),
  (n!"CSRRt_sdcc", (.div (.mul (.div (.div (.div (.sqrt (.rat 2 1)) (.par n!"GF")) (.mul (.ckm 2 1) (.conj (.ckm 2 0)))) (.rat 4 1)) (.add (.mul (.rat 32 1) (.inp n!"10dscc")) (.div (.inp n!"6dscc") (.rat 2 1)))) (.div (.div (.sqrt (.rat 2 1)) (.par n!"GF")) (.rat 4 1)))),
  (n!"CSR_scmunutau", (.div (.mul (.div (.div (.div (.neg (.sqrt (.rat 2 1))) (.par n!"GF")) (.ckm 1 1)) (.rat 4 1)) (.inp n!"5csmutau")) (.div (.div (.sqrt (.rat 2 1)) (.par n!"GF")) (.rat 4 1)))),
  (n!"C10p_sdemu", (.div (.mul (.div (.div (.div (.sqrt (.rat 2 1)) (.par n!"GF")) (.mul (.ckm 2 1) (.conj (.ckm 2 0)))) (.rat 4 1)) (.mul (.div (.mul (.rat 16 1) (.mul .pi .pi)) (.mul (.sqrt (.mul (.mul (.rat 4 1) .pi) (.par n!"alpha_e"))) (.sqrt (.mul (.mul (.rat 4 1) .pi) (.par n!"alpha_e"))))) (.mul (.rat 6 1) (.inp n!"3pdsmue")))) (.div (.div (.sqrt (.rat 2 1)) (.par n!"GF")) (.rat 4 1)))),
  (n!"CSL_buenumu", (.div (.mul (.div (.div (.div (.neg (.sqrt (.rat 2 1))) (.par n!"GF")) (.ckm 0 2)) (.rat 4 1)) (.inp n!"5pubemu")) (.div (.div (.sqrt (.rat 2 1)) (.par n!"GF")) (.rat 4 1)))),
  (n!"CSL_scenumu", (.div (.mul (.div (.div (.div (.neg (.sqrt (.rat 2 1))) (.par n!"GF")) (.ckm 1 1)) (.rat 4 1)) (.inp n!"5pcsemu")) (.div (.div (.sqrt (.rat 2 1)) (.par n!"GF")) (.rat 4 1)))),
  (n!"CVR_bctaunue", (.div (.mul (.div (.div (.div (.neg (.sqrt (.rat 2 1))) (.par n!"GF")) (.ckm 1 2)) (.rat 4 1)) (.inp n!"1pcbtaue")) (.div (.div (.sqrt (.rat 2 1)) (.par n!"GF")) (.rat 4 1)))),
  (n!"CVR_bctaunumu", (.div (.mul (.div (.div (.div (.neg (.sqrt (.rat 2 1))) (.par n!"GF")) (.ckm 1 2)) (.rat 4 1)) (.inp n!"1pcbtaumu")) (.div (.div (.sqrt (.rat 2 1)) (.par n!"GF")) (.rat 4 1)))),
  (n!"CR_bdnuenumu", (.div (.mul (.div (.div (.div (.sqrt (.rat 2 1)) (.par n!"GF")) (.mul (.ckm 2 2) (.conj (.ckm 2 0)))) (.rat 4 1)) (.mul (.div (.mul (.rat 8 1) (.mul .pi .pi)) (.mul (.sqrt (.mul (.mul (.rat 4 1) .pi) (.par n!"alpha_e"))) (.sqrt (.mul (.mul (.rat 4 1) .pi) (.par n!"alpha_e"))))) (.inp n!"nu1pdbmue"))) (.div (.div (.sqrt (.rat 2 1)) (.par n!"GF")) (.rat 4 1)))),
  (n!"CVL_dcenutau", (.div (.mul (.div (.div (.div (.neg (.sqrt (.rat 2 1))) (.par n!"GF")) (.ckm 1 0)) (.rat 4 1)) (.inp n!"1cdetau")) (.div (.div (.sqrt (.rat 2 1)) (.par n!"GF")) (.rat 4 1))))]

def Bern_to_flavio_1 : List (ℕ × Sym) := [
  (n!"CSR_dcmunue", (.div (.mul (.div (.div (.div (.neg (.sqrt (.rat 2 1))) (.par n!"GF")) (.ckm 1 0)) (.rat 4 1)) (.inp n!"5cdmue")) (.div (.div (.sqrt (.rat 2 1)) (.par n!"GF")) (.rat 4 1)))),
  (n!"CSp_bstaue", (.div (.mul (.div (.div (.div (.sqrt (.rat 2 1)) (.par n!"GF")) (.mul (.ckm 2 2) (.conj (.ckm 2 1)))) (.rat 4 1)) (.mul (.div (.div (.mul (.rat 16 1) (.mul .pi .pi)) (.mul (.sqrt (.mul (.mul (.rat 4 1) .pi) (.par n!"alpha_e"))) (.sqrt (.mul (.mul (.rat 4 1) .pi) (.par n!"alpha_e"))))) (.par n!"m_b")) (.add (.inp n!"5psbetau") (.mul (.rat 40 1) (.inp n!"9psbetau"))))) (.div (.div (.sqrt (.rat 2 1)) (.par n!"GF")) (.rat 4 1)))),
  (n!"CP_bdmumu", (.div (.mul (.div (.div (.div (.sqrt (.rat 2 1)) (.par n!"GF")) (.mul (.ckm 2 2) (.conj (.ckm 2 0)))) (.rat 4 1)) (.mul (.div (.div (.mul (.rat 16 1) (.mul .pi .pi)) (.mul (.sqrt (.mul (.mul (.rat 4 1) .pi) (.par n!"alpha_e"))) (.sqrt (.mul (.mul (.rat 4 1) .pi) (.par n!"alpha_e"))))) (.par n!"m_b")) (.mul (.rat 24 1) (.inp n!"9dbmumu")))) (.div (.div (.sqrt (.rat 2 1)) (.par n!"GF")) (.rat 4 1)))),
  (n!"CSp_bdtautau", (.div (.mul (.div (.div (.div (.sqrt (.rat 2 1)) (.par n!"GF")) (.mul (.ckm 2 2) (.conj (.ckm 2 0)))) (.rat 4 1)) (.mul (.div (.div (.mul (.rat 16 1) (.mul .pi .pi)) (.mul (.sqrt (.mul (.mul (.rat 4 1) .pi) (.par n!"alpha_e"))) (.sqrt (.mul (.mul (.rat 4 1) .pi) (.par n!"alpha_e"))))) (.par n!"m_b")) (.add (.inp n!"5pdbtautau") (.mul (.rat 40 1) (.inp n!"9pdbtautau"))))) (.div (.div (.sqrt (.rat 2 1)) (.par n!"GF")) (.rat 4 1)))),
  (n!"CT_butaunumu", (.div (.mul (.div (.div (.div (.neg (.sqrt (.rat 2 1))) (.par n!"GF")) (.ckm 0 2)) (.rat 4 1)) (.inp n!"7pubtaumu")) (.div (.div (.sqrt (.rat 2 1)) (.par n!"GF")) (.rat 4 1)))),
  (n!"CVRRt_sdbb", (.div (.mul (.div (.div (.div (.sqrt (.rat 2 1)) (.par n!"GF")) (.mul (.ckm 2 1) (.conj (.ckm 2 0)))) (.rat 4 1)) (.add (.div (.inp n!"2pdsbb") (.rat 2 1)) (.mul (.rat 8 1) (.inp n!"4pdsbb")))) (.div (.div (.sqrt (.rat 2 1)) (.par n!"GF")) (.rat 4 1)))),
  (n!"CVRL_bduu", (.div (.mul (.div (.div (.div (.sqrt (.rat 2 1)) (.par n!"GF")) (.mul (.ckm 2 2) (.conj (.ckm 2 0)))) (.rat 4 1)) (.sub (.add (.sub (.inp n!"1pdbuu") (.div (.inp n!"2pdbuu") (.rat 6 1))) (.mul (.rat 4 1) (.inp n!"3pdbuu"))) (.div (.mul (.rat 2 1) (.inp n!"4pdbuu")) (.rat 3 1)))) (.div (.div (.sqrt (.rat 2 1)) (.par n!"GF")) (.rat 4 1)))),
  (n!"CVLRt_bdcc", (.div (.mul (.div (.div (.div (.sqrt (.rat 2 1)) (.par n!"GF")) (.mul (.ckm 2 2) (.conj (.ckm 2 0)))) (.rat 4 1)) (.add (.div (.inp n!"2dbcc") (.rat 2 1)) (.mul (.rat 2 1) (.inp n!"4dbcc")))) (.div (.div (.sqrt (.rat 2 1)) (.par n!"GF")) (.rat 4 1)))),
  (n!"CR_sdnutaunue", (.div (.mul (.div (.div (.div (.sqrt (.rat 2 1)) (.par n!"GF")) (.mul (.ckm 2 1) (.conj (.ckm 2 0)))) (.rat 4 1)) (.mul (.div (.mul (.rat 8 1) (.mul .pi .pi)) (.mul (.sqrt (.mul (.mul (.rat 4 1) .pi) (.par n!"alpha_e"))) (.sqrt (.mul (.mul (.rat 4 1) .pi) (.par n!"alpha_e"))))) (.inp n!"nu1pdsetau"))) (.div (.div (.sqrt (.rat 2 1)) (.par n!"GF")) (.rat 4 1)))),
  (n!"CSLL_ucuc", (.div (.sub (.inp n!"2cucu") (.mul (.div (.rat 1 1) (.rat 2 1)) (.inp n!"3cucu"))) (.div (.div (.sqrt (.rat 2 1)) (.par n!"GF")) (.rat 4 1)))),
  (n!"CVL_suenutau", (.div (.mul (.div (.div (.div (.neg (.sqrt (.rat 2 1))) (.par n!"GF")) (.ckm 0 1)) (.rat 4 1)) (.inp n!"1usetau")) (.div (.div (.sqrt (.rat 2 1)) (.par n!"GF")) (.rat 4 1)))),
  (n!"CSRRt_sduu", (.div (.mul (.div (.div (.div (.sqrt (.rat 2 1)) (.par n!"GF")) (.mul (.ckm 2 1) (.conj (.ckm 2 0)))) (.rat 4 1)) (.add (.mul (.rat 32 1) (.inp n!"10dsuu")) (.div (.inp n!"6dsuu") (.rat 2 1)))) (.div (.div (.sqrt (.rat 2 1)) (.par n!"GF")) (.rat 4 1)))),
  (n!"CVLR_ucuc", (.div (.mul (.div (.rat (-1) 1) (.rat 2 1)) (.inp n!"5cucu")) (.div (.div (.sqrt (.rat 2 1)) (.par n!"GF")) (.rat 4 1)))),
  (n!"CS_bdtautau", (.div (.mul (.div (.div (.div (.sqrt (.rat 2 1)) (.par n!"GF")) (.mul (.ckm 2 2) (.conj (.ckm 2 0)))) (.rat 4 1)) (.mul (.div (.div (.mul (.rat 16 1) (.mul .pi .pi)) (.mul (.sqrt (.mul (.mul (.rat 4 1) .pi) (.par n!"alpha_e"))) (.sqrt (.mul (.mul (.rat 4 1) .pi) (.par n!"alpha_e"))))) (.par n!"m_b")) (.add (.inp n!"5dbtautau") (.mul (.rat 40 1) (.inp n!"9dbtautau"))))) (.div (.div (.sqrt (.rat 2 1)) (.par n!"GF")) (.rat 4 1)))),
  (n!"CPp_bstautau", (.div (.mul (.div (.div (.div (.sqrt (.rat 2 1)) (.par n!"GF")) (.mul (.ckm 2 2) (.conj (.ckm 2 1)))) (.rat 4 1)) (.mul (.div (.div (.mul (.rat 16 1) (.mul .pi .pi)) (.mul (.sqrt (.mul (.mul (.rat 4 1) .pi) (.par n!"alpha_e"))) (.sqrt (.mul (.mul (.rat 4 1) .pi) (.par n!"alpha_e"))))) (.par n!"m_b")) (.mul (.rat (-24) 1) (.inp n!"9psbtautau")))) (.div (.div (.sqrt (.rat 2 1)) (.par n!"GF")) (.rat 4 1)))),
  (n!"CP_bsee", (.div (.mul (.div (.div (.div (.sqrt (.rat 2 1)) (.par n!"GF")) (.mul (.ckm 2 2) (.conj (.ckm 2 1)))) (.rat 4 1)) (.mul (.div (.div (.mul (.rat 16 1) (.mul .pi .pi)) (.mul (.sqrt (.mul (.mul (.rat 4 1) .pi) (.par n!"alpha_e"))) (.sqrt (.mul (.mul (.rat 4 1) .pi) (.par n!"alpha_e"))))) (.par n!"m_b")) (.mul (.rat 24 1) (.inp n!"9sbee")))) (.div (.div (.sqrt (.rat 2 1)) (.par n!"GF")) (.rat 4 1)))),
  (n!"C10_sdemu", (.div (.mul (.div (.div (.div (.sqrt (.rat 2 1)) (.par n!"GF")) (.mul (.ckm 2 1) (.conj (.ckm 2 0)))) (.rat 4 1)) (.mul (.div (.mul (.rat 16 1) (.mul .pi .pi)) (.mul (.sqrt (.mul (.mul (.rat 4 1) .pi) (.par n!"alpha_e"))) (.sqrt (.mul (.mul (.rat 4 1) .pi) (.par n!"alpha_e"))))) (.mul (.rat (-6) 1) (.inp n!"3dsmue")))) (.div (.div (.sqrt (.rat 2 1)) (.par n!"GF")) (.rat 4 1)))),
  (n!"CSp_bsmue", (.div (.mul (.div (.div (.div (.sqrt (.rat 2 1)) (.par n!"GF")) (.mul (.ckm 2 2) (.conj (.ckm 2 1)))) (.rat 4 1)) (.mul (.div (.div (.mul (.rat 16 1) (.mul .pi .pi)) (.mul (.sqrt (.mul (.mul (.rat 4 1) .pi) (.par n!"alpha_e"))) (.sqrt (.mul (.mul (.rat 4 1) .pi) (.par n!"alpha_e"))))) (.par n!"m_b")) (.add (.inp n!"5psbemu") (.mul (.rat 40 1) (.inp n!"9psbemu"))))) (.div (.div (.sqrt (.rat 2 1)) (.par n!"GF")) (.rat 4 1)))),
  (n!"CSL_sumunutau", (.div (.mul (.div (.div (.div (.neg (.sqrt (.rat 2 1))) (.par n!"GF")) (.ckm 0 1)) (.rat 4 1)) (.inp n!"5pusmutau")) (.div (.div (.sqrt (.rat 2 1)) (.par n!"GF")) (.rat 4 1)))),
  (n!"C8_sd", (.div (.mul (.div (.div (.div (.sqrt (.rat 2 1)) (.par n!"GF")) (.mul (.ckm 2 1) (.conj (.ckm 2 0)))) (.rat 4 1)) (.mul (.div (.div (.mul (.rat 16 1) (.mul .pi .pi)) (.sqrt (.mul (.mul (.rat 4 1) .pi) (.par n!"alpha_s")))) (.par n!"m_s")) (.div (.inp n!"8gds") (.div (.sqrt (.mul (.mul (.rat 4 1) .pi) (.par n!"alpha_s"))) (.par n!"m_s"))))) (.div (.div (.sqrt (.rat 2 1)) (.par n!"GF")) (.rat 4 1)))),
  (n!"CVL_suenue", (.div (.mul (.div (.div (.div (.neg (.sqrt (.rat 2 1))) (.par n!"GF")) (.ckm 0 1)) (.rat 4 1)) (.inp n!"1usee")) (.div (.div (.sqrt (.rat 2 1)) (.par n!"GF")) (.rat 4 1)))),
  (n!"CSRL_bsbb", (.div (.mul (.div (.div (.div (.sqrt (.rat 2 1)) (.par n!"GF")) (.mul (.ckm 2 2) (.conj (.ckm 2 1)))) (.rat 4 1)) (.add (.inp n!"5sbbb") (.mul (.rat 16 1) (.inp n!"9sbbb")))) (.div (.div (.sqrt (.rat 2 1)) (.par n!"GF")) (.rat 4 1)))),
  (n!"CSRRt_bdss", (.div (.mul (.div (.div (.div (.sqrt (.rat 2 1)) (.par n!"GF")) (.mul (.ckm 2 2) (.conj (.ckm 2 0)))) (.rat 4 1)) (.add (.mul (.rat 32 1) (.inp n!"10dbss")) (.div (.inp n!"6dbss") (.rat 2 1)))) (.div (.div (.sqrt (.rat 2 1)) (.par n!"GF")) (.rat 4 1)))),
  (n!"CVR_sctaunutau", (.div (.mul (.div (.div (.div (.neg (.sqrt (.rat 2 1))) (.par n!"GF")) (.ckm 1 1)) (.rat 4 1)) (.inp n!"1pcstautau")) (.div (.div (.sqrt (.rat 2 1)) (.par n!"GF")) (.rat 4 1)))),
  (n!"CVRR_bsbb", (.div (.mul (.div (.div (.div (.sqrt (.rat 2 1)) (.par n!"GF")) (.mul (.ckm 2 2) (.conj (.ckm 2 1)))) (.rat 4 1)) (.add (.inp n!"1psbbb") (.mul (.rat 16 1) (.inp n!"3psbbb")))) (.div (.div (.sqrt (.rat 2 1)) (.par n!"GF")) (.rat 4 1)))),
  (n!"C9_bdmumu", (.div (.mul (.div (.div (.div (.sqrt (.rat 2 1)) (.par n!"GF")) (.mul (.ckm 2 2) (.conj (.ckm 2 0)))) (.rat 4 1)) (.mul (.div (.mul (.rat 16 1) (.mul .pi .pi)) (.mul (.sqrt (.mul (.mul (.rat 4 1) .pi) (.par n!"alpha_e"))) (.sqrt (.mul (.mul (.rat 4 1) .pi) (.par n!"alpha_e"))))) (.add (.inp n!"1dbmumu") (.mul (.rat 10 1) (.inp n!"3dbmumu"))))) (.div (.div (.sqrt (.rat 2 1)) (.par n!"GF")) (.rat 4 1)))),
  (n!"CSR_bcmunue", (.div (.mul (.div (.div (.div (.neg (.sqrt (.rat 2 1))) (.par n!"GF")) (.ckm 1 2)) (.rat 4 1)) (.inp n!"5cbmue")) (.div (.div (.sqrt (.rat 2 1)) (.par n!"GF")) (.rat 4 1)))),
  (n!"CVL_butaunumu", (.div (.mul (.div (.div (.div (.neg (.sqrt (.rat 2 1))) (.par n!"GF")) (.ckm 0 2)) (.rat 4 1)) (.inp n!"1ubtaumu")) (.div (.div (.sqrt (.rat 2 1)) (.par n!"GF")) (.rat 4 1)))),
  (n!"CSL_scenutau", (.div (.mul (.div (.div (.div (.neg (.sqrt (.rat 2 1))) (.par n!"GF")) (.ckm 1 1)) (.rat 4 1)) (.inp n!"5pcsetau")) (.div (.div (.sqrt (.rat 2 1)) (.par n!"GF")) (.rat 4 1)))),
  (n!"CVLRt_bduu", (.div (.mul (.div (.div (.div (.sqrt (.rat 2 1)) (.par n!"GF")) (.mul (.ckm 2 2) (.conj (.ckm 2 0)))) (.rat 4 1)) (.add (.div (.inp n!"2dbuu") (.rat 2 1)) (.mul (.rat 2 1) (.inp n!"4dbuu")))) (.div (.div (.sqrt (.rat 2 1)) (.par n!"GF")) (.rat 4 1)))),
  (n!"CTLL_bscc", (.div (.mul (.div (.div (.div (.sqrt (.rat 2 1)) (.par n!"GF")) (.mul (.ckm 2 2) (.conj (.ckm 2 1)))) (.rat 4 1)) (.sub (.sub (.add (.div (.mul (.rat 8 1) (.inp n!"10psbcc")) (.rat 3 1)) (.inp n!"7psbcc")) (.div (.inp n!"8psbcc") (.rat 6 1))) (.mul (.rat 16 1) (.inp n!"9psbcc")))) (.div (.div (.sqrt (.rat 2 1)) (.par n!"GF")) (.rat 4 1)))),
  (n!"CVR_bumunumu", (.div (.mul (.div (.div (.div (.neg (.sqrt (.rat 2 1))) (.par n!"GF")) (.ckm 0 2)) (.rat 4 1)) (.inp n!"1pubmumu")) (.div (.div (.sqrt (.rat 2 1)) (.par n!"GF")) (.rat 4 1)))),
  (n!"CTRR_sdbb", (.div (.mul (.div (.div (.div (.sqrt (.rat 2 1)) (.par n!"GF")) (.mul (.ckm 2 1) (.conj (.ckm 2 0)))) (.rat 4 1)) (.sub (.sub (.add (.div (.mul (.rat 8 1) (.inp n!"10dsbb")) (.rat 3 1)) (.inp n!"7dsbb")) (.div (.inp n!"8dsbb") (.rat 6 1))) (.mul (.rat 16 1) (.inp n!"9dsbb")))) (.div (.div (.sqrt (.rat 2 1)) (.par n!"GF")) (.rat 4 1)))),
  (n!"CVLL_bsdd", (.div (.mul (.div (.div (.div (.sqrt (.rat 2 1)) (.par n!"GF")) (.mul (.ckm 2 2) (.conj (.ckm 2 1)))) (.rat 4 1)) (.sub (.add (.sub (.inp n!"1sbdd") (.div (.inp n!"2sbdd") (.rat 6 1))) (.mul (.rat 16 1) (.inp n!"3sbdd"))) (.div (.mul (.rat 8 1) (.inp n!"4sbdd")) (.rat 3 1)))) (.div (.div (.sqrt (.rat 2 1)) (.par n!"GF")) (.rat 4 1)))),
  (n!"CSRL_sdcc", (.div (.mul (.div (.div (.div (.sqrt (.rat 2 1)) (.par n!"GF")) (.mul (.ckm 2 1) (.conj (.ckm 2 0)))) (.rat 4 1)) (.add (.sub (.add (.neg (.div (.mul (.rat 8 1) (.inp n!"10dscc")) (.rat 3 1))) (.inp n!"5dscc")) (.div (.inp n!"6dscc") (.rat 6 1))) (.mul (.rat 16 1) (.inp n!"9dscc")))) (.div (.div (.sqrt (.rat 2 1)) (.par n!"GF")) (.rat 4 1)))),
  (n!"CSR_sctaunumu", (.div (.mul (.div (.div (.div (.neg (.sqrt (.rat 2 1))) (.par n!"GF")) (.ckm 1 1)) (.rat 4 1)) (.inp n!"5cstaumu")) (.div (.div (.sqrt (.rat 2 1)) (.par n!"GF")) (.rat 4 1)))),
  (n!"CTRR_bsss", (.div (.mul (.div (.div (.div (.sqrt (.rat 2 1)) (.par n!"GF")) (.mul (.ckm 2 2) (.conj (.ckm 2 1)))) (.rat 4 1)) (.sub (.inp n!"7psbss") (.mul (.rat 16 1) (.inp n!"9psbss")))) (.div (.div (.sqrt (.rat 2 1)) (.par n!"GF")) (.rat 4 1)))),
  (n!"CVL_butaunue", (.div (.mul (.div (.div (.div (.neg (.sqrt (.rat 2 1))) (.par n!"GF")) (.ckm 0 2)) (.rat 4 1)) (.inp n!"1ubtaue")) (.div (.div (.sqrt (.rat 2 1)) (.par n!"GF")) (.rat 4 1)))),
  (n!"CSLR_sdbb", (.div (.mul (.div (.div (.div (.sqrt (.rat 2 1)) (.par n!"GF")) (.mul (.ckm 2 1) (.conj (.ckm 2 0)))) (.rat 4 1)) (.add (.sub (.add (.neg (.div (.mul (.rat 8 1) (.inp n!"10pdsbb")) (.rat 3 1))) (.inp n!"5pdsbb")) (.div (.inp n!"6pdsbb") (.rat 6 1))) (.mul (.rat 16 1) (.inp n!"9pdsbb")))) (.div (.div (.sqrt (.rat 2 1)) (.par n!"GF")) (.rat 4 1)))),
  (n!"CVRR_sdcc", (.div (.mul (.div (.div (.div (.sqrt (.rat 2 1)) (.par n!"GF")) (.mul (.ckm 2 1) (.conj (.ckm 2 0)))) (.rat 4 1)) (.sub (.add (.sub (.inp n!"1pdscc") (.div (.inp n!"2pdscc") (.rat 6 1))) (.mul (.rat 16 1) (.inp n!"3pdscc"))) (.div (.mul (.rat 8 1) (.inp n!"4pdscc")) (.rat 3 1)))) (.div (.div (.sqrt (.rat 2 1)) (.par n!"GF")) (.rat 4 1)))),
  (n!"CSLR_bsss", (.div (.mul (.div (.div (.div (.sqrt (.rat 2 1)) (.par n!"GF")) (.mul (.ckm 2 2) (.conj (.ckm 2 1)))) (.rat 4 1)) (.add (.inp n!"5sbss") (.mul (.rat 16 1) (.inp n!"9sbss")))) (.div (.div (.sqrt (.rat 2 1)) (.par n!"GF")) (.rat 4 1)))),
  (n!"C9_bdemu", (.div (.mul (.div (.div (.div (.sqrt (.rat 2 1)) (.par n!"GF")) (.mul (.ckm 2 2) (.conj (.ckm 2 0)))) (.rat 4 1)) (.mul (.div (.mul (.rat 16 1) (.mul .pi .pi)) (.mul (.sqrt (.mul (.mul (.rat 4 1) .pi) (.par n!"alpha_e"))) (.sqrt (.mul (.mul (.rat 4 1) .pi) (.par n!"alpha_e"))))) (.add (.inp n!"1dbmue") (.mul (.rat 10 1) (.inp n!"3dbmue"))))) (.div (.div (.sqrt (.rat 2 1)) (.par n!"GF")) (.rat 4 1)))),
  (n!"CT_bcmunumu", (.div (.mul (.div (.div (.div (.neg (.sqrt (.rat 2 1))) (.par n!"GF")) (.ckm 1 2)) (.rat 4 1)) (.inp n!"7pcbmumu")) (.div (.div (.sqrt (.rat 2 1)) (.par n!"GF")) (.rat 4 1)))),
  (n!"C10p_bsmue", (.div (.mul (.div (.div (.div (.sqrt (.rat 2 1)) (.par n!"GF")) (.mul (.ckm 2 2) (.conj (.ckm 2 1)))) (.rat 4 1)) (.mul (.div (.mul (.rat 16 1) (.mul .pi .pi)) (.mul (.sqrt (.mul (.mul (.rat 4 1) .pi) (.par n!"alpha_e"))) (.sqrt (.mul (.mul (.rat 4 1) .pi) (.par n!"alpha_e"))))) (.mul (.rat 6 1) (.inp n!"3psbemu")))) (.div (.div (.sqrt (.rat 2 1)) (.par n!"GF")) (.rat 4 1)))),
  (n!"CP_bdmutau", (.div (.mul (.div (.div (.div (.sqrt (.rat 2 1)) (.par n!"GF")) (.mul (.ckm 2 2) (.conj (.ckm 2 0)))) (.rat 4 1)) (.mul (.div (.div (.mul (.rat 16 1) (.mul .pi .pi)) (.mul (.sqrt (.mul (.mul (.rat 4 1) .pi) (.par n!"alpha_e"))) (.sqrt (.mul (.mul (.rat 4 1) .pi) (.par n!"alpha_e"))))) (.par n!"m_b")) (.mul (.rat 24 1) (.inp n!"9dbtaumu")))) (.div (.div (.sqrt (.rat 2 1)) (.par n!"GF")) (.rat 4 1)))),
  (n!"CTLL_sddd", (.div (.mul (.div (.div (.div (.sqrt (.rat 2 1)) (.par n!"GF")) (.mul (.ckm 2 1) (.conj (.ckm 2 0)))) (.rat 4 1)) (.sub (.inp n!"7dsdd") (.mul (.rat 16 1) (.inp n!"9dsdd")))) (.div (.div (.sqrt (.rat 2 1)) (.par n!"GF")) (.rat 4 1)))),
  (n!"CL_bdnumunue", (.div (.mul (.div (.div (.div (.sqrt (.rat 2 1)) (.par n!"GF")) (.mul (.ckm 2 2) (.conj (.ckm 2 0)))) (.rat 4 1)) (.mul (.div (.mul (.rat 8 1) (.mul .pi .pi)) (.mul (.sqrt (.mul (.mul (.rat 4 1) .pi) (.par n!"alpha_e"))) (.sqrt (.mul (.mul (.rat 4 1) .pi) (.par n!"alpha_e"))))) (.inp n!"nu1dbemu"))) (.div (.div (.sqrt (.rat 2 1)) (.par n!"GF")) (.rat 4 1)))),
  (n!"CR_sdnuenue", (.div (.mul (.div (.div (.div (.sqrt (.rat 2 1)) (.par n!"GF")) (.mul (.ckm 2 1) (.conj (.ckm 2 0)))) (.rat 4 1)) (.mul (.div (.mul (.rat 8 1) (.mul .pi .pi)) (.mul (.sqrt (.mul (.mul (.rat 4 1) .pi) (.par n!"alpha_e"))) (.sqrt (.mul (.mul (.rat 4 1) .pi) (.par n!"alpha_e"))))) (.inp n!"nu1pdsee"))) (.div (.div (.sqrt (.rat 2 1)) (.par n!"GF")) (.rat 4 1)))),
  (n!"CSR_bcmunumu", (.div (.mul (.div (.div (.div (.neg (.sqrt (.rat 2 1))) (.par n!"GF")) (.ckm 1 2)) (.rat 4 1)) (.inp n!"5cbmumu")) (.div (.div (.sqrt (.rat 2 1)) (.par n!"GF")) (.rat 4 1)))),
  (n!"CTLL_bsuu", (.div (.mul (.div (.div (.div (.sqrt (.rat 2 1)) (.par n!"GF")) (.mul (.ckm 2 2) (.conj (.ckm 2 1)))) (.rat 4 1)) (.sub (.sub (.add (.div (.mul (.rat 8 1) (.inp n!"10psbuu")) (.rat 3 1)) (.inp n!"7psbuu")) (.div (.inp n!"8psbuu") (.rat 6 1))) (.mul (.rat 16 1) (.inp n!"9psbuu")))) (.div (.div (.sqrt (.rat 2 1)) (.par n!"GF")) (.rat 4 1))))]

def Bern_to_flavio_2 : List (ℕ × Sym) := [
  (n!"CSR_sutaunutau", (.div (.mul (.div (.div (.div (.neg (.sqrt (.rat 2 1))) (.par n!"GF")) (.ckm 0 1)) (.rat 4 1)) (.inp n!"5ustautau")) (.div (.div (.sqrt (.rat 2 1)) (.par n!"GF")) (.rat 4 1)))),
  (n!"CVLLt_bsdd", (.div (.mul (.div (.div (.div (.sqrt (.rat 2 1)) (.par n!"GF")) (.mul (.ckm 2 2) (.conj (.ckm 2 1)))) (.rat 4 1)) (.add (.div (.inp n!"2sbdd") (.rat 2 1)) (.mul (.rat 8 1) (.inp n!"4sbdd")))) (.div (.div (.sqrt (.rat 2 1)) (.par n!"GF")) (.rat 4 1)))),
  (n!"CSL_bctaunue", (.div (.mul (.div (.div (.div (.neg (.sqrt (.rat 2 1))) (.par n!"GF")) (.ckm 1 2)) (.rat 4 1)) (.inp n!"5pcbtaue")) (.div (.div (.sqrt (.rat 2 1)) (.par n!"GF")) (.rat 4 1)))),
  (n!"CTLL_bdbb", (.div (.mul (.div (.div (.div (.sqrt (.rat 2 1)) (.par n!"GF")) (.mul (.ckm 2 2) (.conj (.ckm 2 0)))) (.rat 4 1)) (.sub (.inp n!"7pdbbb") (.mul (.rat 16 1) (.inp n!"9pdbbb")))) (.div (.div (.sqrt (.rat 2 1)) (.par n!"GF")) (.rat 4 1)))),
  (n!"CVL_suenumu", (.div (.mul (.div (.div (.div (.neg (.sqrt (.rat 2 1))) (.par n!"GF")) (.ckm 0 1)) (.rat 4 1)) (.inp n!"1usemu")) (.div (.div (.sqrt (.rat 2 1)) (.par n!"GF")) (.rat 4 1)))),
  (n!"CSRL_sduu", (.div (.mul (.div (.div (.div (.sqrt (.rat 2 1)) (.par n!"GF")) (.mul (.ckm 2 1) (.conj (.ckm 2 0)))) (.rat 4 1)) (.add (.sub (.add (.neg (.div (.mul (.rat 8 1) (.inp n!"10dsuu")) (.rat 3 1))) (.inp n!"5dsuu")) (.div (.inp n!"6dsuu") (.rat 6 1))) (.mul (.rat 16 1) (.inp n!"9dsuu")))) (.div (.div (.sqrt (.rat 2 1)) (.par n!"GF")) (.rat 4 1)))),
  (n!"CL_sdnumunumu", (.div (.mul (.div (.div (.div (.sqrt (.rat 2 1)) (.par n!"GF")) (.mul (.ckm 2 1) (.conj (.ckm 2 0)))) (.rat 4 1)) (.mul (.div (.mul (.rat 8 1) (.mul .pi .pi)) (.mul (.sqrt (.mul (.mul (.rat 4 1) .pi) (.par n!"alpha_e"))) (.sqrt (.mul (.mul (.rat 4 1) .pi) (.par n!"alpha_e"))))) (.inp n!"nu1dsmumu"))) (.div (.div (.sqrt (.rat 2 1)) (.par n!"GF")) (.rat 4 1)))),
  (n!"CP_bsemu", (.div (.mul (.div (.div (.div (.sqrt (.rat 2 1)) (.par n!"GF")) (.mul (.ckm 2 2) (.conj (.ckm 2 1)))) (.rat 4 1)) (.mul (.div (.div (.mul (.rat 16 1) (.mul .pi .pi)) (.mul (.sqrt (.mul (.mul (.rat 4 1) .pi) (.par n!"alpha_e"))) (.sqrt (.mul (.mul (.rat 4 1) .pi) (.par n!"alpha_e"))))) (.par n!"m_b")) (.mul (.rat 24 1) (.inp n!"9sbmue")))) (.div (.div (.sqrt (.rat 2 1)) (.par n!"GF")) (.rat 4 1)))),
  (n!"CVRR_sduu", (.div (.mul (.div (.div (.div (.sqrt (.rat 2 1)) (.par n!"GF")) (.mul (.ckm 2 1) (.conj (.ckm 2 0)))) (.rat 4 1)) (.sub (.add (.sub (.inp n!"1pdsuu") (.div (.inp n!"2pdsuu") (.rat 6 1))) (.mul (.rat 16 1) (.inp n!"3pdsuu"))) (.div (.mul (.rat 8 1) (.inp n!"4pdsuu")) (.rat 3 1)))) (.div (.div (.sqrt (.rat 2 1)) (.par n!"GF")) (.rat 4 1)))),
  (n!"CVL_scenue", (.div (.mul (.div (.div (.div (.neg (.sqrt (.rat 2 1))) (.par n!"GF")) (.ckm 1 1)) (.rat 4 1)) (.inp n!"1csee")) (.div (.div (.sqrt (.rat 2 1)) (.par n!"GF")) (.rat 4 1)))),
  (n!"CT_suenumu", (.div (.mul (.div (.div (.div (.neg (.sqrt (.rat 2 1))) (.par n!"GF")) (.ckm 0 1)) (.rat 4 1)) (.inp n!"7pusemu")) (.div (.div (.sqrt (.rat 2 1)) (.par n!"GF")) (.rat 4 1)))),
  (n!"CVR_dumunue", (.div (.mul (.div (.div (.div (.neg (.sqrt (.rat 2 1))) (.par n!"GF")) (.ckm 0 0)) (.rat 4 1)) (.inp n!"1pudmue")) (.div (.div (.sqrt (.rat 2 1)) (.par n!"GF")) (.rat 4 1)))),
  (n!"CVLL_bdcc", (.div (.mul (.div (.div (.div (.sqrt (.rat 2 1)) (.par n!"GF")) (.mul (.ckm 2 2) (.conj (.ckm 2 0)))) (.rat 4 1)) (.sub (.add (.sub (.inp n!"1dbcc") (.div (.inp n!"2dbcc") (.rat 6 1))) (.mul (.rat 16 1) (.inp n!"3dbcc"))) (.div (.mul (.rat 8 1) (.inp n!"4dbcc")) (.rat 3 1)))) (.div (.div (.sqrt (.rat 2 1)) (.par n!"GF")) (.rat 4 1)))),
  (n!"CP_sdetau", (.div (.mul (.div (.div (.div (.sqrt (.rat 2 1)) (.par n!"GF")) (.mul (.ckm 2 1) (.conj (.ckm 2 0)))) (.rat 4 1)) (.mul (.div (.div (.mul (.rat 16 1) (.mul .pi .pi)) (.mul (.sqrt (.mul (.mul (.rat 4 1) .pi) (.par n!"alpha_e"))) (.sqrt (.mul (.mul (.rat 4 1) .pi) (.par n!"alpha_e"))))) (.par n!"m_s")) (.mul (.rat 24 1) (.inp n!"9dstaue")))) (.div (.div (.sqrt (.rat 2 1)) (.par n!"GF")) (.rat 4 1)))),
  (n!"CVL_buenue", (.div (.mul (.div (.div (.div (.neg (.sqrt (.rat 2 1))) (.par n!"GF")) (.ckm 0 2)) (.rat 4 1)) (.inp n!"1ubee")) (.div (.div (.sqrt (.rat 2 1)) (.par n!"GF")) (.rat 4 1)))),
  (n!"CL_bsnutaunutau", (.div (.mul (.div (.div (.div (.sqrt (.rat 2 1)) (.par n!"GF")) (.mul (.ckm 2 2) (.conj (.ckm 2 1)))) (.rat 4 1)) (.mul (.div (.mul (.rat 8 1) (.mul .pi .pi)) (.mul (.sqrt (.mul (.mul (.rat 4 1) .pi) (.par n!"alpha_e"))) (.sqrt (.mul (.mul (.rat 4 1) .pi) (.par n!"alpha_e"))))) (.inp n!"nu1sbtautau"))) (.div (.div (.sqrt (.rat 2 1)) (.par n!"GF")) (.rat 4 1)))),
  (n!"CS_sdee", (.div (.mul (.div (.div (.div (.sqrt (.rat 2 1)) (.par n!"GF")) (.mul (.ckm 2 1) (.conj (.ckm 2 0)))) (.rat 4 1)) (.mul (.div (.div (.mul (.rat 16 1) (.mul .pi .pi)) (.mul (.sqrt (.mul (.mul (.rat 4 1) .pi) (.par n!"alpha_e"))) (.sqrt (.mul (.mul (.rat 4 1) .pi) (.par n!"alpha_e"))))) (.par n!"m_s")) (.add (.inp n!"5dsee") (.mul (.rat 40 1) (.inp n!"9dsee"))))) (.div (.div (.sqrt (.rat 2 1)) (.par n!"GF")) (.rat 4 1)))),
  (n!"CSRLt_sdcc", (.div (.mul (.div (.div (.div (.sqrt (.rat 2 1)) (.par n!"GF")) (.mul (.ckm 2 1) (.conj (.ckm 2 0)))) (.rat 4 1)) (.add (.mul (.rat 8 1) (.inp n!"10dscc")) (.div (.inp n!"6dscc") (.rat 2 1)))) (.div (.div (.sqrt (.rat 2 1)) (.par n!"GF")) (.rat 4 1)))),
  (n!"CSL_sutaunumu", (.div (.mul (.div (.div (.div (.neg (.sqrt (.rat 2 1))) (.par n!"GF")) (.ckm 0 1)) (.rat 4 1)) (.inp n!"5pustaumu")) (.div (.div (.sqrt (.rat 2 1)) (.par n!"GF")) (.rat 4 1)))),
  (n!"CSRL_bdss", (.div (.mul (.div (.div (.div (.sqrt (.rat 2 1)) (.par n!"GF")) (.mul (.ckm 2 2) (.conj (.ckm 2 0)))) (.rat 4 1)) (.add (.sub (.add (.neg (.div (.mul (.rat 8 1) (.inp n!"10dbss")) (.rat 3 1))) (.inp n!"5dbss")) (.div (.inp n!"6dbss") (.rat 6 1))) (.mul (.rat 16 1) (.inp n!"9dbss")))) (.div (.div (.sqrt (.rat 2 1)) (.par n!"GF")) (.rat 4 1)))),
  (n!"CSp_sdmumu", (.div (.mul (.div (.div (.div (.sqrt (.rat 2 1)) (.par n!"GF")) (.mul (.ckm 2 1) (.conj (.ckm 2 0)))) (.rat 4 1)) (.mul (.div (.div (.mul (.rat 16 1) (.mul .pi .pi)) (.mul (.sqrt (.mul (.mul (.rat 4 1) .pi) (.par n!"alpha_e"))) (.sqrt (.mul (.mul (.rat 4 1) .pi) (.par n!"alpha_e"))))) (.par n!"m_s")) (.add (.inp n!"5pdsmumu") (.mul (.rat 40 1) (.inp n!"9pdsmumu"))))) (.div (.div (.sqrt (.rat 2 1)) (.par n!"GF")) (.rat 4 1)))),
  (n!"C10p_bstautau", (.div (.mul (.div (.div (.div (.sqrt (.rat 2 1)) (.par n!"GF")) (.mul (.ckm 2 2) (.conj (.ckm 2 1)))) (.rat 4 1)) (.mul (.div (.mul (.rat 16 1) (.mul .pi .pi)) (.mul (.sqrt (.mul (.mul (.rat 4 1) .pi) (.par n!"alpha_e"))) (.sqrt (.mul (.mul (.rat 4 1) .pi) (.par n!"alpha_e"))))) (.mul (.rat 6 1) (.inp n!"3psbtautau")))) (.div (.div (.sqrt (.rat 2 1)) (.par n!"GF")) (.rat 4 1)))),
  (n!"C10_bsmue", (.div (.mul (.div (.div (.div (.sqrt (.rat 2 1)) (.par n!"GF")) (.mul (.ckm 2 2) (.conj (.ckm 2 1)))) (.rat 4 1)) (.mul (.div (.mul (.rat 16 1) (.mul .pi .pi)) (.mul (.sqrt (.mul (.mul (.rat 4 1) .pi) (.par n!"alpha_e"))) (.sqrt (.mul (.mul (.rat 4 1) .pi) (.par n!"alpha_e"))))) (.mul (.rat (-6) 1) (.inp n!"3sbemu")))) (.div (.div (.sqrt (.rat 2 1)) (.par n!"GF")) (.rat 4 1)))),
  (n!"CVRR_bdss", (.div (.mul (.div (.div (.div (.sqrt (.rat 2 1)) (.par n!"GF")) (.mul (.ckm 2 2) (.conj (.ckm 2 0)))) (.rat 4 1)) (.sub (.add (.sub (.inp n!"1pdbss") (.div (.inp n!"2pdbss") (.rat 6 1))) (.mul (.rat 16 1) (.inp n!"3pdbss"))) (.div (.mul (.rat 8 1) (.inp n!"4pdbss")) (.rat 3 1)))) (.div (.div (.sqrt (.rat 2 1)) (.par n!"GF")) (.rat 4 1)))),
  (n!"CR_bsnumunutau", (.div (.mul (.div (.div (.div (.sqrt (.rat 2 1)) (.par n!"GF")) (.mul (.ckm 2 2) (.conj (.ckm 2 1)))) (.rat 4 1)) (.mul (.div (.mul (.rat 8 1) (.mul .pi .pi)) (.mul (.sqrt (.mul (.mul (.rat 4 1) .pi) (.par n!"alpha_e"))) (.sqrt (.mul (.mul (.rat 4 1) .pi) (.par n!"alpha_e"))))) (.inp n!"nu1psbtaumu"))) (.div (.div (.sqrt (.rat 2 1)) (.par n!"GF")) (.rat 4 1)))),
  (n!"C9p_bsee", (.div (.mul (.div (.div (.div (.sqrt (.rat 2 1)) (.par n!"GF")) (.mul (.ckm 2 2) (.conj (.ckm 2 1)))) (.rat 4 1)) (.mul (.div (.mul (.rat 16 1) (.mul .pi .pi)) (.mul (.sqrt (.mul (.mul (.rat 4 1) .pi) (.par n!"alpha_e"))) (.sqrt (.mul (.mul (.rat 4 1) .pi) (.par n!"alpha_e"))))) (.add (.inp n!"1psbee") (.mul (.rat 10 1) (.inp n!"3psbee"))))) (.div (.div (.sqrt (.rat 2 1)) (.par n!"GF")) (.rat 4 1)))),
  (n!"C9_bdtautau", (.div (.mul (.div (.div (.div (.sqrt (.rat 2 1)) (.par n!"GF")) (.mul (.ckm 2 2) (.conj (.ckm 2 0)))) (.rat 4 1)) (.mul (.div (.mul (.rat 16 1) (.mul .pi .pi)) (.mul (.sqrt (.mul (.mul (.rat 4 1) .pi) (.par n!"alpha_e"))) (.sqrt (.mul (.mul (.rat 4 1) .pi) (.par n!"alpha_e"))))) (.add (.inp n!"1dbtautau") (.mul (.rat 10 1) (.inp n!"3dbtautau"))))) (.div (.div (.sqrt (.rat 2 1)) (.par n!"GF")) (.rat 4 1)))),
  (n!"CTLL_ucuc", (.div (.mul (.div (.rat (-1) 1) (.rat 8 1)) (.inp n!"3cucu")) (.div (.div (.sqrt (.rat 2 1)) (.par n!"GF")) (.rat 4 1)))),
  (n!"CVRLt_sdbb", (.div (.mul (.div (.div (.div (.sqrt (.rat 2 1)) (.par n!"GF")) (.mul (.ckm 2 1) (.conj (.ckm 2 0)))) (.rat 4 1)) (.add (.div (.inp n!"2pdsbb") (.rat 2 1)) (.mul (.rat 2 1) (.inp n!"4pdsbb")))) (.div (.div (.sqrt (.rat 2 1)) (.par n!"GF")) (.rat 4 1)))),
  (n!"CVL_scmunumu", (.div (.mul (.div (.div (.div (.neg (.sqrt (.rat 2 1))) (.par n!"GF")) (.ckm 1 1)) (.rat 4 1)) (.inp n!"1csmumu")) (.div (.div (.sqrt (.rat 2 1)) (.par n!"GF")) (.rat 4 1)))),
  (n!"CVLL_bduu", (.div (.mul (.div (.div (.div (.sqrt (.rat 2 1)) (.par n!"GF")) (.mul (.ckm 2 2) (.conj (.ckm 2 0)))) (.rat 4 1)) (.sub (.add (.sub (.inp n!"1dbuu") (.div (.inp n!"2dbuu") (.rat 6 1))) (.mul (.rat 16 1) (.inp n!"3dbuu"))) (.div (.mul (.rat 8 1) (.inp n!"4dbuu")) (.rat 3 1)))) (.div (.div (.sqrt (.rat 2 1)) (.par n!"GF")) (.rat 4 1)))),
  (n!"CVLLt_bdcc", (.div (.mul (.div (.div (.div (.sqrt (.rat 2 1)) (.par n!"GF")) (.mul (.ckm 2 2) (.conj (.ckm 2 0)))) (.rat 4 1)) (.add (.div (.inp n!"2dbcc") (.rat 2 1)) (.mul (.rat 8 1) (.inp n!"4dbcc")))) (.div (.div (.sqrt (.rat 2 1)) (.par n!"GF")) (.rat 4 1)))),
  (n!"CT_duenue", (.div (.mul (.div (.div (.div (.neg (.sqrt (.rat 2 1))) (.par n!"GF")) (.ckm 0 0)) (.rat 4 1)) (.inp n!"7pudee")) (.div (.div (.sqrt (.rat 2 1)) (.par n!"GF")) (.rat 4 1)))),
  (n!"CTRRt_sdbb", (.div (.mul (.div (.div (.div (.sqrt (.rat 2 1)) (.par n!"GF")) (.mul (.ckm 2 1) (.conj (.ckm 2 0)))) (.rat 4 1)) (.add (.mul (.rat (-8) 1) (.inp n!"10dsbb")) (.div (.inp n!"8dsbb") (.rat 2 1)))) (.div (.div (.sqrt (.rat 2 1)) (.par n!"GF")) (.rat 4 1)))),
  (n!"CSRLt_sduu", (.div (.mul (.div (.div (.div (.sqrt (.rat 2 1)) (.par n!"GF")) (.mul (.ckm 2 1) (.conj (.ckm 2 0)))) (.rat 4 1)) (.add (.mul (.rat 8 1) (.inp n!"10dsuu")) (.div (.inp n!"6dsuu") (.rat 2 1)))) (.div (.div (.sqrt (.rat 2 1)) (.par n!"GF")) (.rat 4 1)))),
  (n!"C9_sdetau", (.div (.mul (.div (.div (.div (.sqrt (.rat 2 1)) (.par n!"GF")) (.mul (.ckm 2 1) (.conj (.ckm 2 0)))) (.rat 4 1)) (.mul (.div (.mul (.rat 16 1) (.mul .pi .pi)) (.mul (.sqrt (.mul (.mul (.rat 4 1) .pi) (.par n!"alpha_e"))) (.sqrt (.mul (.mul (.rat 4 1) .pi) (.par n!"alpha_e"))))) (.add (.inp n!"1dstaue") (.mul (.rat 10 1) (.inp n!"3dstaue"))))) (.div (.div (.sqrt (.rat 2 1)) (.par n!"GF")) (.rat 4 1)))),
  (n!"CVR_bumunue", (.div (.mul (.div (.div (.div (.neg (.sqrt (.rat 2 1))) (.par n!"GF")) (.ckm 0 2)) (.rat 4 1)) (.inp n!"1pubmue")) (.div (.div (.sqrt (.rat 2 1)) (.par n!"GF")) (.rat 4 1)))),
  (n!"CVR_scmunue", (.div (.mul (.div (.div (.div (.neg (.sqrt (.rat 2 1))) (.par n!"GF")) (.ckm 1 1)) (.rat 4 1)) (.inp n!"1pcsmue")) (.div (.div (.sqrt (.rat 2 1)) (.par n!"GF")) (.rat 4 1)))),
  (n!"CR_bdnuenutau", (.div (.mul (.div (.div (.div (.sqrt (.rat 2 1)) (.par n!"GF")) (.mul (.ckm 2 2) (.conj (.ckm 2 0)))) (.rat 4 1)) (.mul (.div (.mul (.rat 8 1) (.mul .pi .pi)) (.mul (.sqrt (.mul (.mul (.rat 4 1) .pi) (.par n!"alpha_e"))) (.sqrt (.mul (.mul (.rat 4 1) .pi) (.par n!"alpha_e"))))) (.inp n!"nu1pdbtaue"))) (.div (.div (.sqrt (.rat 2 1)) (.par n!"GF")) (.rat 4 1)))),
  (n!"CS_sdemu", (.div (.mul (.div (.div (.div (.sqrt (.rat 2 1)) (.par n!"GF")) (.mul (.ckm 2 1) (.conj (.ckm 2 0)))) (.rat 4 1)) (.mul (.div (.div (.mul (.rat 16 1) (.mul .pi .pi)) (.mul (.sqrt (.mul (.mul (.rat 4 1) .pi) (.par n!"alpha_e"))) (.sqrt (.mul (.mul (.rat 4 1) .pi) (.par n!"alpha_e"))))) (.par n!"m_s")) (.add (.inp n!"5dsmue") (.mul (.rat 40 1) (.inp n!"9dsmue"))))) (.div (.div (.sqrt (.rat 2 1)) (.par n!"GF")) (.rat 4 1)))),
  (n!"CPp_bdee", (.div (.mul (.div (.div (.div (.sqrt (.rat 2 1)) (.par n!"GF")) (.mul (.ckm 2 2) (.conj (.ckm 2 0)))) (.rat 4 1)) (.mul (.div (.div (.mul (.rat 16 1) (.mul .pi .pi)) (.mul (.sqrt (.mul (.mul (.rat 4 1) .pi) (.par n!"alpha_e"))) (.sqrt (.mul (.mul (.rat 4 1) .pi) (.par n!"alpha_e"))))) (.par n!"m_b")) (.mul (.rat (-24) 1) (.inp n!"9pdbee")))) (.div (.div (.sqrt (.rat 2 1)) (.par n!"GF")) (.rat 4 1)))),
  (n!"CSL_bumunumu", (.div (.mul (.div (.div (.div (.neg (.sqrt (.rat 2 1))) (.par n!"GF")) (.ckm 0 2)) (.rat 4 1)) (.inp n!"5pubmumu")) (.div (.div (.sqrt (.rat 2 1)) (.par n!"GF")) (.rat 4 1)))),
  (n!"CPp_bsemu", (.div (.mul (.div (.div (.div (.sqrt (.rat 2 1)) (.par n!"GF")) (.mul (.ckm 2 2) (.conj (.ckm 2 1)))) (.rat 4 1)) (.mul (.div (.div (.mul (.rat 16 1) (.mul .pi .pi)) (.mul (.sqrt (.mul (.mul (.rat 4 1) .pi) (.par n!"alpha_e"))) (.sqrt (.mul (.mul (.rat 4 1) .pi) (.par n!"alpha_e"))))) (.par n!"m_b")) (.mul (.rat (-24) 1) (.inp n!"9psbmue")))) (.div (.div (.sqrt (.rat 2 1)) (.par n!"GF")) (.rat 4 1)))),
  (n!"CSLL_bsbb", (.div (.mul (.div (.div (.div (.sqrt (.rat 2 1)) (.par n!"GF")) (.mul (.ckm 2 2) (.conj (.ckm 2 1)))) (.rat 4 1)) (.add (.inp n!"5psbbb") (.mul (.rat 64 1) (.inp n!"9psbbb")))) (.div (.div (.sqrt (.rat 2 1)) (.par n!"GF")) (.rat 4 1)))),
  (n!"CVRL_bscc", (.div (.mul (.div (.div (.div (.sqrt (.rat 2 1)) (.par n!"GF")) (.mul (.ckm 2 2) (.conj (.ckm 2 1)))) (.rat 4 1)) (.sub (.add (.sub (.inp n!"1psbcc") (.div (.inp n!"2psbcc") (.rat 6 1))) (.mul (.rat 4 1) (.inp n!"3psbcc"))) (.div (.mul (.rat 2 1) (.inp n!"4psbcc")) (.rat 3 1)))) (.div (.div (.sqrt (.rat 2 1)) (.par n!"GF")) (.rat 4 1)))),
  (n!"CSRLt_bdss", (.div (.mul (.div (.div (.div (.sqrt (.rat 2 1)) (.par n!"GF")) (.mul (.ckm 2 2) (.conj (.ckm 2 0)))) (.rat 4 1)) (.add (.mul (.rat 8 1) (.inp n!"10dbss")) (.div (.inp n!"6dbss") (.rat 2 1)))) (.div (.div (.sqrt (.rat 2 1)) (.par n!"GF")) (.rat 4 1)))),
  (n!"CVR_scmunutau", (.div (.mul (.div (.div (.div (.neg (.sqrt (.rat 2 1))) (.par n!"GF")) (.ckm 1 1)) (.rat 4 1)) (.inp n!"1pcsmutau")) (.div (.div (.sqrt (.rat 2 1)) (.par n!"GF")) (.rat 4 1)))),
  (n!"CVLR_bsbb", (.div (.mul (.div (.div (.div (.sqrt (.rat 2 1)) (.par n!"GF")) (.mul (.ckm 2 2) (.conj (.ckm 2 1)))) (.rat 4 1)) (.add (.inp n!"1sbbb") (.mul (.rat 4 1) (.inp n!"3sbbb")))) (.div (.div (.sqrt (.rat 2 1)) (.par n!"GF")) (.rat 4 1)))),
  (n!"CP_bdtaumu", (.div (.mul (.div (.div (.div (.sqrt (.rat 2 1)) (.par n!"GF")) (.mul (.ckm 2 2) (.conj (.ckm 2 0)))) (.rat 4 1)) (.mul (.div (.div (.mul (.rat 16 1) (.mul .pi .pi)) (.mul (.sqrt (.mul (.mul (.rat 4 1) .pi) (.par n!"alpha_e"))) (.sqrt (.mul (.mul (.rat 4 1) .pi) (.par n!"alpha_e"))))) (.par n!"m_b")) (.mul (.rat 24 1) (.inp n!"9dbmutau")))) (.div (.div (.sqrt (.rat 2 1)) (.par n!"GF")) (.rat 4 1)))),
  (n!"CSLRt_bsdd", (.div (.mul (.div (.div (.div (.sqrt (.rat 2 1)) (.par n!"GF")) (.mul (.ckm 2 2) (.conj (.ckm 2 1)))) (.rat 4 1)) (.add (.mul (.rat 8 1) (.inp n!"10psbdd")) (.div (.inp n!"6psbdd") (.rat 2 1)))) (.div (.div (.sqrt (.rat 2 1)) (.par n!"GF")) (.rat 4 1))))]

def Bern_to_flavio_3 : List (ℕ × Sym) := [
  (n!"CT_sumunutau", (.div (.mul (.div (.div (.div (.neg (.sqrt (.rat 2 1))) (.par n!"GF")) (.ckm 0 1)) (.rat 4 1)) (.inp n!"7pusmutau")) (.div (.div (.sqrt (.rat 2 1)) (.par n!"GF")) (.rat 4 1)))),
  (n!"CL_bsnuenutau", (.div (.mul (.div (.div (.div (.sqrt (.rat 2 1)) (.par n!"GF")) (.mul (.ckm 2 2) (.conj (.ckm 2 1)))) (.rat 4 1)) (.mul (.div (.mul (.rat 8 1) (.mul .pi .pi)) (.mul (.sqrt (.mul (.mul (.rat 4 1) .pi) (.par n!"alpha_e"))) (.sqrt (.mul (.mul (.rat 4 1) .pi) (.par n!"alpha_e"))))) (.inp n!"nu1sbtaue"))) (.div (.div (.sqrt (.rat 2 1)) (.par n!"GF")) (.rat 4 1)))),
  (n!"CVLLt_bduu", (.div (.mul (.div (.div (.div (.sqrt (.rat 2 1)) (.par n!"GF")) (.mul (.ckm 2 2) (.conj (.ckm 2 0)))) (.rat 4 1)) (.add (.div (.inp n!"2dbuu") (.rat 2 1)) (.mul (.rat 8 1) (.inp n!"4dbuu")))) (.div (.div (.sqrt (.rat 2 1)) (.par n!"GF")) (.rat 4 1)))),
  (n!"CS_bstaue", (.div (.mul (.div (.div (.div (.sqrt (.rat 2 1)) (.par n!"GF")) (.mul (.ckm 2 2) (.conj (.ckm 2 1)))) (.rat 4 1)) (.mul (.div (.div (.mul (.rat 16 1) (.mul .pi .pi)) (.mul (.sqrt (.mul (.mul (.rat 4 1) .pi) (.par n!"alpha_e"))) (.sqrt (.mul (.mul (.rat 4 1) .pi) (.par n!"alpha_e"))))) (.par n!"m_b")) (.add (.inp n!"5sbetau") (.mul (.rat 40 1) (.inp n!"9sbetau"))))) (.div (.div (.sqrt (.rat 2 1)) (.par n!"GF")) (.rat 4 1)))),
  (n!"CVL_bcenue", (.div (.mul (.div (.div (.div (.neg (.sqrt (.rat 2 1))) (.par n!"GF")) (.ckm 1 2)) (.rat 4 1)) (.inp n!"1cbee")) (.div (.div (.sqrt (.rat 2 1)) (.par n!"GF")) (.rat 4 1)))),
  (n!"CVL_dcmunue", (.div (.mul (.div (.div (.div (.neg (.sqrt (.rat 2 1))) (.par n!"GF")) (.ckm 1 0)) (.rat 4 1)) (.inp n!"1cdmue")) (.div (.div (.sqrt (.rat 2 1)) (.par n!"GF")) (.rat 4 1)))),
  (n!"CP_bdetau", (.div (.mul (.div (.div (.div (.sqrt (.rat 2 1)) (.par n!"GF")) (.mul (.ckm 2 2) (.conj (.ckm 2 0)))) (.rat 4 1)) (.mul (.div (.div (.mul (.rat 16 1) (.mul .pi .pi)) (.mul (.sqrt (.mul (.mul (.rat 4 1) .pi) (.par n!"alpha_e"))) (.sqrt (.mul (.mul (.rat 4 1) .pi) (.par n!"alpha_e"))))) (.par n!"m_b")) (.mul (.rat 24 1) (.inp n!"9dbtaue")))) (.div (.div (.sqrt (.rat 2 1)) (.par n!"GF")) (.rat 4 1)))),
  (n!"CVRR_bdbd", (.div (.inp n!"1pdbdb") (.div (.div (.sqrt (.rat 2 1)) (.par n!"GF")) (.rat 4 1)))),
  (n!"CVRR_sdsd", (.div (.inp n!"1pdsds") (.div (.div (.sqrt (.rat 2 1)) (.par n!"GF")) (.rat 4 1)))),
  (n!"CT_dcmunue", (.div (.mul (.div (.div (.div (.neg (.sqrt (.rat 2 1))) (.par n!"GF")) (.ckm 1 0)) (.rat 4 1)) (.inp n!"7pcdmue")) (.div (.div (.sqrt (.rat 2 1)) (.par n!"GF")) (.rat 4 1)))),
  (n!"C8p_bd", (.div (.mul (.div (.div (.div (.sqrt (.rat 2 1)) (.par n!"GF")) (.mul (.ckm 2 2) (.conj (.ckm 2 0)))) (.rat 4 1)) (.mul (.div (.div (.mul (.rat 16 1) (.mul .pi .pi)) (.sqrt (.mul (.mul (.rat 4 1) .pi) (.par n!"alpha_s")))) (.par n!"m_b")) (.div (.inp n!"8pgdb") (.div (.sqrt (.mul (.mul (.rat 4 1) .pi) (.par n!"alpha_s"))) (.par n!"m_b"))))) (.div (.div (.sqrt (.rat 2 1)) (.par n!"GF")) (.rat 4 1)))),
  (n!"C10p_sdtaue", (.div (.mul (.div (.div (.div (.sqrt (.rat 2 1)) (.par n!"GF")) (.mul (.ckm 2 1) (.conj (.ckm 2 0)))) (.rat 4 1)) (.mul (.div (.mul (.rat 16 1) (.mul .pi .pi)) (.mul (.sqrt (.mul (.mul (.rat 4 1) .pi) (.par n!"alpha_e"))) (.sqrt (.mul (.mul (.rat 4 1) .pi) (.par n!"alpha_e"))))) (.mul (.rat 6 1) (.inp n!"3pdsetau")))) (.div (.div (.sqrt (.rat 2 1)) (.par n!"GF")) (.rat 4 1)))),
  (n!"CSLL_sdcc", (.div (.mul (.div (.div (.div (.sqrt (.rat 2 1)) (.par n!"GF")) (.mul (.ckm 2 1) (.conj (.ckm 2 0)))) (.rat 4 1)) (.add (.sub (.add (.neg (.div (.mul (.rat 32 1) (.inp n!"10pdscc")) (.rat 3 1))) (.inp n!"5pdscc")) (.div (.inp n!"6pdscc") (.rat 6 1))) (.mul (.rat 64 1) (.inp n!"9pdscc")))) (.div (.div (.sqrt (.rat 2 1)) (.par n!"GF")) (.rat 4 1)))),
  (n!"CVRL_sddd", (.div (.mul (.div (.div (.div (.sqrt (.rat 2 1)) (.par n!"GF")) (.mul (.ckm 2 1) (.conj (.ckm 2 0)))) (.rat 4 1)) (.add (.inp n!"1pdsdd") (.mul (.rat 4 1) (.inp n!"3pdsdd")))) (.div (.div (.sqrt (.rat 2 1)) (.par n!"GF")) (.rat 4 1)))),
  (n!"CSp_bdmumu", (.div (.mul (.div (.div (.div (.sqrt (.rat 2 1)) (.par n!"GF")) (.mul (.ckm 2 2) (.conj (.ckm 2 0)))) (.rat 4 1)) (.mul (.div (.div (.mul (.rat 16 1) (.mul .pi .pi)) (.mul (.sqrt (.mul (.mul (.rat 4 1) .pi) (.par n!"alpha_e"))) (.sqrt (.mul (.mul (.rat 4 1) .pi) (.par n!"alpha_e"))))) (.par n!"m_b")) (.add (.inp n!"5pdbmumu") (.mul (.rat 40 1) (.inp n!"9pdbmumu"))))) (.div (.div (.sqrt (.rat 2 1)) (.par n!"GF")) (.rat 4 1)))),
  (n!"CVLR_sdcc", (.div (.mul (.div (.div (.div (.sqrt (.rat 2 1)) (.par n!"GF")) (.mul (.ckm 2 1) (.conj (.ckm 2 0)))) (.rat 4 1)) (.sub (.add (.sub (.inp n!"1dscc") (.div (.inp n!"2dscc") (.rat 6 1))) (.mul (.rat 4 1) (.inp n!"3dscc"))) (.div (.mul (.rat 2 1) (.inp n!"4dscc")) (.rat 3 1)))) (.div (.div (.sqrt (.rat 2 1)) (.par n!"GF")) (.rat 4 1)))),
  (n!"CT_duenutau", (.div (.mul (.div (.div (.div (.neg (.sqrt (.rat 2 1))) (.par n!"GF")) (.ckm 0 0)) (.rat 4 1)) (.inp n!"7pudetau")) (.div (.div (.sqrt (.rat 2 1)) (.par n!"GF")) (.rat 4 1)))),
  (n!"CVRL_bsuu", (.div (.mul (.div (.div (.div (.sqrt (.rat 2 1)) (.par n!"GF")) (.mul (.ckm 2 2) (.conj (.ckm 2 1)))) (.rat 4 1)) (.sub (.add (.sub (.inp n!"1psbuu") (.div (.inp n!"2psbuu") (.rat 6 1))) (.mul (.rat 4 1) (.inp n!"3psbuu"))) (.div (.mul (.rat 2 1) (.inp n!"4psbuu")) (.rat 3 1)))) (.div (.div (.sqrt (.rat 2 1)) (.par n!"GF")) (.rat 4 1)))),
  (n!"CVLRt_bscc", (.div (.mul (.div (.div (.div (.sqrt (.rat 2 1)) (.par n!"GF")) (.mul (.ckm 2 2) (.conj (.ckm 2 1)))) (.rat 4 1)) (.add (.div (.inp n!"2sbcc") (.rat 2 1)) (.mul (.rat 2 1) (.inp n!"4sbcc")))) (.div (.div (.sqrt (.rat 2 1)) (.par n!"GF")) (.rat 4 1)))),
  (n!"C9p_bsemu", (.div (.mul (.div (.div (.div (.sqrt (.rat 2 1)) (.par n!"GF")) (.mul (.ckm 2 2) (.conj (.ckm 2 1)))) (.rat 4 1)) (.mul (.div (.mul (.rat 16 1) (.mul .pi .pi)) (.mul (.sqrt (.mul (.mul (.rat 4 1) .pi) (.par n!"alpha_e"))) (.sqrt (.mul (.mul (.rat 4 1) .pi) (.par n!"alpha_e"))))) (.add (.inp n!"1psbmue") (.mul (.rat 10 1) (.inp n!"3psbmue"))))) (.div (.div (.sqrt (.rat 2 1)) (.par n!"GF")) (.rat 4 1)))),
  (n!"CSR_duenutau", (.div (.mul (.div (.div (.div (.neg (.sqrt (.rat 2 1))) (.par n!"GF")) (.ckm 0 0)) (.rat 4 1)) (.inp n!"5udetau")) (.div (.div (.sqrt (.rat 2 1)) (.par n!"GF")) (.rat 4 1)))),
  (n!"CSRR_sdss", (.div (.mul (.div (.div (.div (.sqrt (.rat 2 1)) (.par n!"GF")) (.mul (.ckm 2 1) (.conj (.ckm 2 0)))) (.rat 4 1)) (.add (.inp n!"5dsss") (.mul (.rat 64 1) (.inp n!"9dsss")))) (.div (.div (.sqrt (.rat 2 1)) (.par n!"GF")) (.rat 4 1)))),
  (n!"CPp_bstaue", (.div (.mul (.div (.div (.div (.sqrt (.rat 2 1)) (.par n!"GF")) (.mul (.ckm 2 2) (.conj (.ckm 2 1)))) (.rat 4 1)) (.mul (.div (.div (.mul (.rat 16 1) (.mul .pi .pi)) (.mul (.sqrt (.mul (.mul (.rat 4 1) .pi) (.par n!"alpha_e"))) (.sqrt (.mul (.mul (.rat 4 1) .pi) (.par n!"alpha_e"))))) (.par n!"m_b")) (.mul (.rat (-24) 1) (.inp n!"9psbetau")))) (.div (.div (.sqrt (.rat 2 1)) (.par n!"GF")) (.rat 4 1)))),
  (n!"CVRL_bdbb", (.div (.mul (.div (.div (.div (.sqrt (.rat 2 1)) (.par n!"GF")) (.mul (.ckm 2 2) (.conj (.ckm 2 0)))) (.rat 4 1)) (.add (.inp n!"1pdbbb") (.mul (.rat 4 1) (.inp n!"3pdbbb")))) (.div (.div (.sqrt (.rat 2 1)) (.par n!"GF")) (.rat 4 1)))),
  (n!"CR_bsnutaunumu", (.div (.mul (.div (.div (.div (.sqrt (.rat 2 1)) (.par n!"GF")) (.mul (.ckm 2 2) (.conj (.ckm 2 1)))) (.rat 4 1)) (.mul (.div (.mul (.rat 8 1) (.mul .pi .pi)) (.mul (.sqrt (.mul (.mul (.rat 4 1) .pi) (.par n!"alpha_e"))) (.sqrt (.mul (.mul (.rat 4 1) .pi) (.par n!"alpha_e"))))) (.inp n!"nu1psbmutau"))) (.div (.div (.sqrt (.rat 2 1)) (.par n!"GF")) (.rat 4 1)))),
  (n!"CT_dcenue", (.div (.mul (.div (.div (.div (.neg (.sqrt (.rat 2 1))) (.par n!"GF")) (.ckm 1 0)) (.rat 4 1)) (.inp n!"7pcdee")) (.div (.div (.sqrt (.rat 2 1)) (.par n!"GF")) (.rat 4 1)))),
  (n!"CS_sdmutau", (.div (.mul (.div (.div (.div (.sqrt (.rat 2 1)) (.par n!"GF")) (.mul (.ckm 2 1) (.conj (.ckm 2 0)))) (.rat 4 1)) (.mul (.div (.div (.mul (.rat 16 1) (.mul .pi .pi)) (.mul (.sqrt (.mul (.mul (.rat 4 1) .pi) (.par n!"alpha_e"))) (.sqrt (.mul (.mul (.rat 4 1) .pi) (.par n!"alpha_e"))))) (.par n!"m_s")) (.add (.inp n!"5dstaumu") (.mul (.rat 40 1) (.inp n!"9dstaumu"))))) (.div (.div (.sqrt (.rat 2 1)) (.par n!"GF")) (.rat 4 1)))),
  (n!"CVL_sumunutau", (.div (.mul (.div (.div (.div (.neg (.sqrt (.rat 2 1))) (.par n!"GF")) (.ckm 0 1)) (.rat 4 1)) (.inp n!"1usmutau")) (.div (.div (.sqrt (.rat 2 1)) (.par n!"GF")) (.rat 4 1)))),
  (n!"CSRRt_sdbb", (.div (.mul (.div (.div (.div (.sqrt (.rat 2 1)) (.par n!"GF")) (.mul (.ckm 2 1) (.conj (.ckm 2 0)))) (.rat 4 1)) (.add (.mul (.rat 32 1) (.inp n!"10dsbb")) (.div (.inp n!"6dsbb") (.rat 2 1)))) (.div (.div (.sqrt (.rat 2 1)) (.par n!"GF")) (.rat 4 1)))),
  (n!"CSp_bdmue", (.div (.mul (.div (.div (.div (.sqrt (.rat 2 1)) (.par n!"GF")) (.mul (.ckm 2 2) (.conj (.ckm 2 0)))) (.rat 4 1)) (.mul (.div (.div (.mul (.rat 16 1) (.mul .pi .pi)) (.mul (.sqrt (.mul (.mul (.rat 4 1) .pi) (.par n!"alpha_e"))) (.sqrt (.mul (.mul (.rat 4 1) .pi) (.par n!"alpha_e"))))) (.par n!"m_b")) (.add (.inp n!"5pdbemu") (.mul (.rat 40 1) (.inp n!"9pdbemu"))))) (.div (.div (.sqrt (.rat 2 1)) (.par n!"GF")) (.rat 4 1)))),
  (n!"CSLRt_bdcc", (.div (.mul (.div (.div (.div (.sqrt (.rat 2 1)) (.par n!"GF")) (.mul (.ckm 2 2) (.conj (.ckm 2 0)))) (.rat 4 1)) (.add (.mul (.rat 8 1) (.inp n!"10pdbcc")) (.div (.inp n!"6pdbcc") (.rat 2 1)))) (.div (.div (.sqrt (.rat 2 1)) (.par n!"GF")) (.rat 4 1)))),
  (n!"CVR_sutaunutau", (.div (.mul (.div (.div (.div (.neg (.sqrt (.rat 2 1))) (.par n!"GF")) (.ckm 0 1)) (.rat 4 1)) (.inp n!"1pustautau")) (.div (.div (.sqrt (.rat 2 1)) (.par n!"GF")) (.rat 4 1)))),
  (n!"C9_sdmue", (.div (.mul (.div (.div (.div (.sqrt (.rat 2 1)) (.par n!"GF")) (.mul (.ckm 2 1) (.conj (.ckm 2 0)))) (.rat 4 1)) (.mul (.div (.mul (.rat 16 1) (.mul .pi .pi)) (.mul (.sqrt (.mul (.mul (.rat 4 1) .pi) (.par n!"alpha_e"))) (.sqrt (.mul (.mul (.rat 4 1) .pi) (.par n!"alpha_e"))))) (.add (.inp n!"1dsemu") (.mul (.rat 10 1) (.inp n!"3dsemu"))))) (.div (.div (.sqrt (.rat 2 1)) (.par n!"GF")) (.rat 4 1)))),
  (n!"C9_bdetau", (.div (.mul (.div (.div (.div (.sqrt (.rat 2 1)) (.par n!"GF")) (.mul (.ckm 2 2) (.conj (.ckm 2 0)))) (.rat 4 1)) (.mul (.div (.mul (.rat 16 1) (.mul .pi .pi)) (.mul (.sqrt (.mul (.mul (.rat 4 1) .pi) (.par n!"alpha_e"))) (.sqrt (.mul (.mul (.rat 4 1) .pi) (.par n!"alpha_e"))))) (.add (.inp n!"1dbtaue") (.mul (.rat 10 1) (.inp n!"3dbtaue"))))) (.div (.div (.sqrt (.rat 2 1)) (.par n!"GF")) (.rat 4 1)))),
  (n!"CVL_bcmunue", (.div (.mul (.div (.div (.div (.neg (.sqrt (.rat 2 1))) (.par n!"GF")) (.ckm 1 2)) (.rat 4 1)) (.inp n!"1cbmue")) (.div (.div (.sqrt (.rat 2 1)) (.par n!"GF")) (.rat 4 1)))),
  (n!"C10_bstaue", (.div (.mul (.div (.div (.div (.sqrt (.rat 2 1)) (.par n!"GF")) (.mul (.ckm 2 2) (.conj (.ckm 2 1)))) (.rat 4 1)) (.mul (.div (.mul (.rat 16 1) (.mul .pi .pi)) (.mul (.sqrt (.mul (.mul (.rat 4 1) .pi) (.par n!"alpha_e"))) (.sqrt (.mul (.mul (.rat 4 1) .pi) (.par n!"alpha_e"))))) (.mul (.rat (-6) 1) (.inp n!"3sbetau")))) (.div (.div (.sqrt (.rat 2 1)) (.par n!"GF")) (.rat 4 1)))),
  (n!"CSLL_sduu", (.div (.mul (.div (.div (.div (.sqrt (.rat 2 1)) (.par n!"GF")) (.mul (.ckm 2 1) (.conj (.ckm 2 0)))) (.rat 4 1)) (.add (.sub (.add (.neg (.div (.mul (.rat 32 1) (.inp n!"10pdsuu")) (.rat 3 1))) (.inp n!"5pdsuu")) (.div (.inp n!"6pdsuu") (.rat 6 1))) (.mul (.rat 64 1) (.inp n!"9pdsuu")))) (.div (.div (.sqrt (.rat 2 1)) (.par n!"GF")) (.rat 4 1)))),
  (n!"CT_bcmunue", (.div (.mul (.div (.div (.div (.neg (.sqrt (.rat 2 1))) (.par n!"GF")) (.ckm 1 2)) (.rat 4 1)) (.inp n!"7pcbmue")) (.div (.div (.sqrt (.rat 2 1)) (.par n!"GF")) (.rat 4 1)))),
  (n!"CTLLt_bsdd", (.div (.mul (.div (.div (.div (.sqrt (.rat 2 1)) (.par n!"GF")) (.mul (.ckm 2 2) (.conj (.ckm 2 1)))) (.rat 4 1)) (.add (.mul (.rat (-8) 1) (.inp n!"10psbdd")) (.div (.inp n!"8psbdd") (.rat 2 1)))) (.div (.div (.sqrt (.rat 2 1)) (.par n!"GF")) (.rat 4 1)))),
  (n!"CVLR_sduu", (.div (.mul (.div (.div (.div (.sqrt (.rat 2 1)) (.par n!"GF")) (.mul (.ckm 2 1) (.conj (.ckm 2 0)))) (.rat 4 1)) (.sub (.add (.sub (.inp n!"1dsuu") (.div (.inp n!"2dsuu") (.rat 6 1))) (.mul (.rat 4 1) (.inp n!"3dsuu"))) (.div (.mul (.rat 2 1) (.inp n!"4dsuu")) (.rat 3 1)))) (.div (.div (.sqrt (.rat 2 1)) (.par n!"GF")) (.rat 4 1)))),
  (n!"CVLRt_bsuu", (.div (.mul (.div (.div (.div (.sqrt (.rat 2 1)) (.par n!"GF")) (.mul (.ckm 2 2) (.conj (.ckm 2 1)))) (.rat 4 1)) (.add (.div (.inp n!"2sbuu") (.rat 2 1)) (.mul (.rat 2 1) (.inp n!"4sbuu")))) (.div (.div (.sqrt (.rat 2 1)) (.par n!"GF")) (.rat 4 1)))),
  (n!"CVR_dctaunue", (.div (.mul (.div (.div (.div (.neg (.sqrt (.rat 2 1))) (.par n!"GF")) (.ckm 1 0)) (.rat 4 1)) (.inp n!"1pcdtaue")) (.div (.div (.sqrt (.rat 2 1)) (.par n!"GF")) (.rat 4 1)))),
  (n!"CSL_suenue", (.div (.mul (.div (.div (.div (.neg (.sqrt (.rat 2 1))) (.par n!"GF")) (.ckm 0 1)) (.rat 4 1)) (.inp n!"5pusee")) (.div (.div (.sqrt (.rat 2 1)) (.par n!"GF")) (.rat 4 1)))),
  (n!"C9_bdmutau", (.div (.mul (.div (.div (.div (.sqrt (.rat 2 1)) (.par n!"GF")) (.mul (.ckm 2 2) (.conj (.ckm 2 0)))) (.rat 4 1)) (.mul (.div (.mul (.rat 16 1) (.mul .pi .pi)) (.mul (.sqrt (.mul (.mul (.rat 4 1) .pi) (.par n!"alpha_e"))) (.sqrt (.mul (.mul (.rat 4 1) .pi) (.par n!"alpha_e"))))) (.add (.inp n!"1dbtaumu") (.mul (.rat 10 1) (.inp n!"3dbtaumu"))))) (.div (.div (.sqrt (.rat 2 1)) (.par n!"GF")) (.rat 4 1)))),
  (n!"CVR_duenue", (.div (.mul (.div (.div (.div (.neg (.sqrt (.rat 2 1))) (.par n!"GF")) (.ckm 0 0)) (.rat 4 1)) (.inp n!"1pudee")) (.div (.div (.sqrt (.rat 2 1)) (.par n!"GF")) (.rat 4 1)))),
  (n!"CSLL_bdss", (.div (.mul (.div (.div (.div (.sqrt (.rat 2 1)) (.par n!"GF")) (.mul (.ckm 2 2) (.conj (.ckm 2 0)))) (.rat 4 1)) (.add (.sub (.add (.neg (.div (.mul (.rat 32 1) (.inp n!"10pdbss")) (.rat 3 1))) (.inp n!"5pdbss")) (.div (.inp n!"6pdbss") (.rat 6 1))) (.mul (.rat 64 1) (.inp n!"9pdbss")))) (.div (.div (.sqrt (.rat 2 1)) (.par n!"GF")) (.rat 4 1)))),
  (n!"CS_bsmue", (.div (.mul (.div (.div (.div (.sqrt (.rat 2 1)) (.par n!"GF")) (.mul (.ckm 2 2) (.conj (.ckm 2 1)))) (.rat 4 1)) (.mul (.div (.div (.mul (.rat 16 1) (.mul .pi .pi)) (.mul (.sqrt (.mul (.mul (.rat 4 1) .pi) (.par n!"alpha_e"))) (.sqrt (.mul (.mul (.rat 4 1) .pi) (.par n!"alpha_e"))))) (.par n!"m_b")) (.add (.inp n!"5sbemu") (.mul (.rat 40 1) (.inp n!"9sbemu"))))) (.div (.div (.sqrt (.rat 2 1)) (.par n!"GF")) (.rat 4 1)))),
  (n!"CVR_sctaunumu", (.div (.mul (.div (.div (.div (.neg (.sqrt (.rat 2 1))) (.par n!"GF")) (.ckm 1 1)) (.rat 4 1)) (.inp n!"1pcstaumu")) (.div (.div (.sqrt (.rat 2 1)) (.par n!"GF")) (.rat 4 1)))),
  (n!"CR_sdnuenumu", (.div (.mul (.div (.div (.div (.sqrt (.rat 2 1)) (.par n!"GF")) (.mul (.ckm 2 1) (.conj (.ckm 2 0)))) (.rat 4 1)) (.mul (.div (.mul (.rat 8 1) (.mul .pi .pi)) (.mul (.sqrt (.mul (.mul (.rat 4 1) .pi) (.par n!"alpha_e"))) (.sqrt (.mul (.mul (.rat 4 1) .pi) (.par n!"alpha_e"))))) (.inp n!"nu1pdsmue"))) (.div (.div (.sqrt (.rat 2 1)) (.par n!"GF")) (.rat 4 1)))),
  (n!"CVLR_bdss", (.div (.mul (.div (.div (.div (.sqrt (.rat 2 1)) (.par n!"GF")) (.mul (.ckm 2 2) (.conj (.ckm 2 0)))) (.rat 4 1)) (.sub (.add (.sub (.inp n!"1dbss") (.div (.inp n!"2dbss") (.rat 6 1))) (.mul (.rat 4 1) (.inp n!"3dbss"))) (.div (.mul (.rat 2 1) (.inp n!"4dbss")) (.rat 3 1)))) (.div (.div (.sqrt (.rat 2 1)) (.par n!"GF")) (.rat 4 1))))]

def Bern_to_flavio_4 : List (ℕ × Sym) := [
  (n!"CVR_sutaunue", (.div (.mul (.div (.div (.div (.neg (.sqrt (.rat 2 1))) (.par n!"GF")) (.ckm 0 1)) (.rat 4 1)) (.inp n!"1pustaue")) (.div (.div (.sqrt (.rat 2 1)) (.par n!"GF")) (.rat 4 1)))),
  (n!"CP_bdtautau", (.div (.mul (.div (.div (.div (.sqrt (.rat 2 1)) (.par n!"GF")) (.mul (.ckm 2 2) (.conj (.ckm 2 0)))) (.rat 4 1)) (.mul (.div (.div (.mul (.rat 16 1) (.mul .pi .pi)) (.mul (.sqrt (.mul (.mul (.rat 4 1) .pi) (.par n!"alpha_e"))) (.sqrt (.mul (.mul (.rat 4 1) .pi) (.par n!"alpha_e"))))) (.par n!"m_b")) (.mul (.rat 24 1) (.inp n!"9dbtautau")))) (.div (.div (.sqrt (.rat 2 1)) (.par n!"GF")) (.rat 4 1)))),
  (n!"CSLRt_bduu", (.div (.mul (.div (.div (.div (.sqrt (.rat 2 1)) (.par n!"GF")) (.mul (.ckm 2 2) (.conj (.ckm 2 0)))) (.rat 4 1)) (.add (.mul (.rat 8 1) (.inp n!"10pdbuu")) (.div (.inp n!"6pdbuu") (.rat 2 1)))) (.div (.div (.sqrt (.rat 2 1)) (.par n!"GF")) (.rat 4 1)))),
  (n!"CT_sutaunumu", (.div (.mul (.div (.div (.div (.neg (.sqrt (.rat 2 1))) (.par n!"GF")) (.ckm 0 1)) (.rat 4 1)) (.inp n!"7pustaumu")) (.div (.div (.sqrt (.rat 2 1)) (.par n!"GF")) (.rat 4 1)))),
  (n!"C10p_bdmue", (.div (.mul (.div (.div (.div (.sqrt (.rat 2 1)) (.par n!"GF")) (.mul (.ckm 2 2) (.conj (.ckm 2 0)))) (.rat 4 1)) (.mul (.div (.mul (.rat 16 1) (.mul .pi .pi)) (.mul (.sqrt (.mul (.mul (.rat 4 1) .pi) (.par n!"alpha_e"))) (.sqrt (.mul (.mul (.rat 4 1) .pi) (.par n!"alpha_e"))))) (.mul (.rat 6 1) (.inp n!"3pdbemu")))) (.div (.div (.sqrt (.rat 2 1)) (.par n!"GF")) (.rat 4 1)))),
  (n!"C10p_bdtaue", (.div (.mul (.div (.div (.div (.sqrt (.rat 2 1)) (.par n!"GF")) (.mul (.ckm 2 2) (.conj (.ckm 2 0)))) (.rat 4 1)) (.mul (.div (.mul (.rat 16 1) (.mul .pi .pi)) (.mul (.sqrt (.mul (.mul (.rat 4 1) .pi) (.par n!"alpha_e"))) (.sqrt (.mul (.mul (.rat 4 1) .pi) (.par n!"alpha_e"))))) (.mul (.rat 6 1) (.inp n!"3pdbetau")))) (.div (.div (.sqrt (.rat 2 1)) (.par n!"GF")) (.rat 4 1)))),
  (n!"CT_sctaunue", (.div (.mul (.div (.div (.div (.neg (.sqrt (.rat 2 1))) (.par n!"GF")) (.ckm 1 1)) (.rat 4 1)) (.inp n!"7pcstaue")) (.div (.div (.sqrt (.rat 2 1)) (.par n!"GF")) (.rat 4 1)))),
  (n!"CR_bsnumunumu", (.div (.mul (.div (.div (.div (.sqrt (.rat 2 1)) (.par n!"GF")) (.mul (.ckm 2 2) (.conj (.ckm 2 1)))) (.rat 4 1)) (.mul (.div (.mul (.rat 8 1) (.mul .pi .pi)) (.mul (.sqrt (.mul (.mul (.rat 4 1) .pi) (.par n!"alpha_e"))) (.sqrt (.mul (.mul (.rat 4 1) .pi) (.par n!"alpha_e"))))) (.inp n!"nu1psbmumu"))) (.div (.div (.sqrt (.rat 2 1)) (.par n!"GF")) (.rat 4 1)))),
  (n!"C9_bdee", (.div (.mul (.div (.div (.div (.sqrt (.rat 2 1)) (.par n!"GF")) (.mul (.ckm 2 2) (.conj (.ckm 2 0)))) (.rat 4 1)) (.mul (.div (.mul (.rat 16 1) (.mul .pi .pi)) (.mul (.sqrt (.mul (.mul (.rat 4 1) .pi) (.par n!"alpha_e"))) (.sqrt (.mul (.mul (.rat 4 1) .pi) (.par n!"alpha_e"))))) (.add (.inp n!"1dbee") (.mul (.rat 10 1) (.inp n!"3dbee"))))) (.div (.div (.sqrt (.rat 2 1)) (.par n!"GF")) (.rat 4 1)))),
  (n!"CTLLt_bdcc", (.div (.mul (.div (.div (.div (.sqrt (.rat 2 1)) (.par n!"GF")) (.mul (.ckm 2 2) (.conj (.ckm 2 0)))) (.rat 4 1)) (.add (.mul (.rat (-8) 1) (.inp n!"10pdbcc")) (.div (.inp n!"8pdbcc") (.rat 2 1)))) (.div (.div (.sqrt (.rat 2 1)) (.par n!"GF")) (.rat 4 1)))),
  (n!"CL_bsnuenue", (.div (.mul (.div (.div (.div (.sqrt (.rat 2 1)) (.par n!"GF")) (.mul (.ckm 2 2) (.conj (.ckm 2 1)))) (.rat 4 1)) (.mul (.div (.mul (.rat 8 1) (.mul .pi .pi)) (.mul (.sqrt (.mul (.mul (.rat 4 1) .pi) (.par n!"alpha_e"))) (.sqrt (.mul (.mul (.rat 4 1) .pi) (.par n!"alpha_e"))))) (.inp n!"nu1sbee"))) (.div (.div (.sqrt (.rat 2 1)) (.par n!"GF")) (.rat 4 1)))),
  (n!"CSR_sctaunue", (.div (.mul (.div (.div (.div (.neg (.sqrt (.rat 2 1))) (.par n!"GF")) (.ckm 1 1)) (.rat 4 1)) (.inp n!"5cstaue")) (.div (.div (.sqrt (.rat 2 1)) (.par n!"GF")) (.rat 4 1)))),
  (n!"CTLL_bsbb", (.div (.mul (.div (.div (.div (.sqrt (.rat 2 1)) (.par n!"GF")) (.mul (.ckm 2 2) (.conj (.ckm 2 1)))) (.rat 4 1)) (.sub (.inp n!"7psbbb") (.mul (.rat 16 1) (.inp n!"9psbbb")))) (.div (.div (.sqrt (.rat 2 1)) (.par n!"GF")) (.rat 4 1)))),
  (n!"CP_bdemu", (.div (.mul (.div (.div (.div (.sqrt (.rat 2 1)) (.par n!"GF")) (.mul (.ckm 2 2) (.conj (.ckm 2 0)))) (.rat 4 1)) (.mul (.div (.div (.mul (.rat 16 1) (.mul .pi .pi)) (.mul (.sqrt (.mul (.mul (.rat 4 1) .pi) (.par n!"alpha_e"))) (.sqrt (.mul (.mul (.rat 4 1) .pi) (.par n!"alpha_e"))))) (.par n!"m_b")) (.mul (.rat 24 1) (.inp n!"9dbmue")))) (.div (.div (.sqrt (.rat 2 1)) (.par n!"GF")) (.rat 4 1)))),
  (n!"CSL_dcmunutau", (.div (.mul (.div (.div (.div (.neg (.sqrt (.rat 2 1))) (.par n!"GF")) (.ckm 1 0)) (.rat 4 1)) (.inp n!"5pcdmutau")) (.div (.div (.sqrt (.rat 2 1)) (.par n!"GF")) (.rat 4 1)))),
  (n!"CL_sdnutaunutau", (.div (.mul (.div (.div (.div (.sqrt (.rat 2 1)) (.par n!"GF")) (.mul (.ckm 2 1) (.conj (.ckm 2 0)))) (.rat 4 1)) (.mul (.div (.mul (.rat 8 1) (.mul .pi .pi)) (.mul (.sqrt (.mul (.mul (.rat 4 1) .pi) (.par n!"alpha_e"))) (.sqrt (.mul (.mul (.rat 4 1) .pi) (.par n!"alpha_e"))))) (.inp n!"nu1dstautau"))) (.div (.div (.sqrt (.rat 2 1)) (.par n!"GF")) (.rat 4 1)))),
  (n!"CP_sdee", (.div (.mul (.div (.div (.div (.sqrt (.rat 2 1)) (.par n!"GF")) (.mul (.ckm 2 1) (.conj (.ckm 2 0)))) (.rat 4 1)) (.mul (.div (.div (.mul (.rat 16 1) (.mul .pi .pi)) (.mul (.sqrt (.mul (.mul (.rat 4 1) .pi) (.par n!"alpha_e"))) (.sqrt (.mul (.mul (.rat 4 1) .pi) (.par n!"alpha_e"))))) (.par n!"m_s")) (.mul (.rat 24 1) (.inp n!"9dsee")))) (.div (.div (.sqrt (.rat 2 1)) (.par n!"GF")) (.rat 4 1)))),
  (n!"CPp_sdtautau", (.div (.mul (.div (.div (.div (.sqrt (.rat 2 1)) (.par n!"GF")) (.mul (.ckm 2 1) (.conj (.ckm 2 0)))) (.rat 4 1)) (.mul (.div (.div (.mul (.rat 16 1) (.mul .pi .pi)) (.mul (.sqrt (.mul (.mul (.rat 4 1) .pi) (.par n!"alpha_e"))) (.sqrt (.mul (.mul (.rat 4 1) .pi) (.par n!"alpha_e"))))) (.par n!"m_s")) (.mul (.rat (-24) 1) (.inp n!"9pdstautau")))) (.div (.div (.sqrt (.rat 2 1)) (.par n!"GF")) (.rat 4 1)))),
  (n!"CS_sdmumu", (.div (.mul (.div (.div (.div (.sqrt (.rat 2 1)) (.par n!"GF")) (.mul (.ckm 2 1) (.conj (.ckm 2 0)))) (.rat 4 1)) (.mul (.div (.div (.mul (.rat 16 1) (.mul .pi .pi)) (.mul (.sqrt (.mul (.mul (.rat 4 1) .pi) (.par n!"alpha_e"))) (.sqrt (.mul (.mul (.rat 4 1) .pi) (.par n!"alpha_e"))))) (.par n!"m_s")) (.add (.inp n!"5dsmumu") (.mul (.rat 40 1) (.inp n!"9dsmumu"))))) (.div (.div (.sqrt (.rat 2 1)) (.par n!"GF")) (.rat 4 1)))),
  (n!"CVLL_bscc", (.div (.mul (.div (.div (.div (.sqrt (.rat 2 1)) (.par n!"GF")) (.mul (.ckm 2 2) (.conj (.ckm 2 1)))) (.rat 4 1)) (.sub (.add (.sub (.inp n!"1sbcc") (.div (.inp n!"2sbcc") (.rat 6 1))) (.mul (.rat 16 1) (.inp n!"3sbcc"))) (.div (.mul (.rat 8 1) (.inp n!"4sbcc")) (.rat 3 1)))) (.div (.div (.sqrt (.rat 2 1)) (.par n!"GF")) (.rat 4 1)))),
  (n!"CVL_sutaunumu", (.div (.mul (.div (.div (.div (.neg (.sqrt (.rat 2 1))) (.par n!"GF")) (.ckm 0 1)) (.rat 4 1)) (.inp n!"1ustaumu")) (.div (.div (.sqrt (.rat 2 1)) (.par n!"GF")) (.rat 4 1)))),
  (n!"CSRL_sdbb", (.div (.mul (.div (.div (.div (.sqrt (.rat 2 1)) (.par n!"GF")) (.mul (.ckm 2 1) (.conj (.ckm 2 0)))) (.rat 4 1)) (.add (.sub (.add (.neg (.div (.mul (.rat 8 1) (.inp n!"10dsbb")) (.rat 3 1))) (.inp n!"5dsbb")) (.div (.inp n!"6dsbb") (.rat 6 1))) (.mul (.rat 16 1) (.inp n!"9dsbb")))) (.div (.div (.sqrt (.rat 2 1)) (.par n!"GF")) (.rat 4 1)))),
  (n!"CSp_sdetau", (.div (.mul (.div (.div (.div (.sqrt (.rat 2 1)) (.par n!"GF")) (.mul (.ckm 2 1) (.conj (.ckm 2 0)))) (.rat 4 1)) (.mul (.div (.div (.mul (.rat 16 1) (.mul .pi .pi)) (.mul (.sqrt (.mul (.mul (.rat 4 1) .pi) (.par n!"alpha_e"))) (.sqrt (.mul (.mul (.rat 4 1) .pi) (.par n!"alpha_e"))))) (.par n!"m_s")) (.add (.inp n!"5pdstaue") (.mul (.rat 40 1) (.inp n!"9pdstaue"))))) (.div (.div (.sqrt (.rat 2 1)) (.par n!"GF")) (.rat 4 1)))),
  (n!"CVR_dumunumu", (.div (.mul (.div (.div (.div (.neg (.sqrt (.rat 2 1))) (.par n!"GF")) (.ckm 0 0)) (.rat 4 1)) (.inp n!"1pudmumu")) (.div (.div (.sqrt (.rat 2 1)) (.par n!"GF")) (.rat 4 1)))),
  (n!"CVRR_sdbb", (.div (.mul (.div (.div (.div (.sqrt (.rat 2 1)) (.par n!"GF")) (.mul (.ckm 2 1) (.conj (.ckm 2 0)))) (.rat 4 1)) (.sub (.add (.sub (.inp n!"1pdsbb") (.div (.inp n!"2pdsbb") (.rat 6 1))) (.mul (.rat 16 1) (.inp n!"3pdsbb"))) (.div (.mul (.rat 8 1) (.inp n!"4pdsbb")) (.rat 3 1)))) (.div (.div (.sqrt (.rat 2 1)) (.par n!"GF")) (.rat 4 1)))),
  (n!"CSLLt_bsdd", (.div (.mul (.div (.div (.div (.sqrt (.rat 2 1)) (.par n!"GF")) (.mul (.ckm 2 2) (.conj (.ckm 2 1)))) (.rat 4 1)) (.add (.mul (.rat 32 1) (.inp n!"10psbdd")) (.div (.inp n!"6psbdd") (.rat 2 1)))) (.div (.div (.sqrt (.rat 2 1)) (.par n!"GF")) (.rat 4 1)))),
  (n!"CSRL_bsss", (.div (.mul (.div (.div (.div (.sqrt (.rat 2 1)) (.par n!"GF")) (.mul (.ckm 2 2) (.conj (.ckm 2 1)))) (.rat 4 1)) (.add (.inp n!"5psbss") (.mul (.rat 16 1) (.inp n!"9psbss")))) (.div (.div (.sqrt (.rat 2 1)) (.par n!"GF")) (.rat 4 1)))),
  (n!"CS_sdtaumu", (.div (.mul (.div (.div (.div (.sqrt (.rat 2 1)) (.par n!"GF")) (.mul (.ckm 2 1) (.conj (.ckm 2 0)))) (.rat 4 1)) (.mul (.div (.div (.mul (.rat 16 1) (.mul .pi .pi)) (.mul (.sqrt (.mul (.mul (.rat 4 1) .pi) (.par n!"alpha_e"))) (.sqrt (.mul (.mul (.rat 4 1) .pi) (.par n!"alpha_e"))))) (.par n!"m_s")) (.add (.inp n!"5dsmutau") (.mul (.rat 40 1) (.inp n!"9dsmutau"))))) (.div (.div (.sqrt (.rat 2 1)) (.par n!"GF")) (.rat 4 1)))),
  (n!"C10_bdmue", (.div (.mul (.div (.div (.div (.sqrt (.rat 2 1)) (.par n!"GF")) (.mul (.ckm 2 2) (.conj (.ckm 2 0)))) (.rat 4 1)) (.mul (.div (.mul (.rat 16 1) (.mul .pi .pi)) (.mul (.sqrt (.mul (.mul (.rat 4 1) .pi) (.par n!"alpha_e"))) (.sqrt (.mul (.mul (.rat 4 1) .pi) (.par n!"alpha_e"))))) (.mul (.rat (-6) 1) (.inp n!"3dbemu")))) (.div (.div (.sqrt (.rat 2 1)) (.par n!"GF")) (.rat 4 1)))),
  (n!"CVRR_bsss", (.div (.mul (.div (.div (.div (.sqrt (.rat 2 1)) (.par n!"GF")) (.mul (.ckm 2 2) (.conj (.ckm 2 1)))) (.rat 4 1)) (.add (.inp n!"1psbss") (.mul (.rat 16 1) (.inp n!"3psbss")))) (.div (.div (.sqrt (.rat 2 1)) (.par n!"GF")) (.rat 4 1)))),
  (n!"CVL_dutaunue", (.div (.mul (.div (.div (.div (.neg (.sqrt (.rat 2 1))) (.par n!"GF")) (.ckm 0 0)) (.rat 4 1)) (.inp n!"1udtaue")) (.div (.div (.sqrt (.rat 2 1)) (.par n!"GF")) (.rat 4 1)))),
  (n!"CSL_scenue", (.div (.mul (.div (.div (.div (.neg (.sqrt (.rat 2 1))) (.par n!"GF")) (.ckm 1 1)) (.rat 4 1)) (.inp n!"5pcsee")) (.div (.div (.sqrt (.rat 2 1)) (.par n!"GF")) (.rat 4 1)))),
  (n!"CSLL_bdbd", (.div (.sub (.inp n!"2dbdb") (.mul (.div (.rat 1 1) (.rat 2 1)) (.inp n!"3dbdb"))) (.div (.div (.sqrt (.rat 2 1)) (.par n!"GF")) (.rat 4 1)))),
  (n!"CSLL_sdsd", (.div (.sub (.inp n!"2dsds") (.mul (.div (.rat 1 1) (.rat 2 1)) (.inp n!"3dsds"))) (.div (.div (.sqrt (.rat 2 1)) (.par n!"GF")) (.rat 4 1)))),
  (n!"CTLL_sdcc", (.div (.mul (.div (.div (.div (.sqrt (.rat 2 1)) (.par n!"GF")) (.mul (.ckm 2 1) (.conj (.ckm 2 0)))) (.rat 4 1)) (.sub (.sub (.add (.div (.mul (.rat 8 1) (.inp n!"10pdscc")) (.rat 3 1)) (.inp n!"7pdscc")) (.div (.inp n!"8pdscc") (.rat 6 1))) (.mul (.rat 16 1) (.inp n!"9pdscc")))) (.div (.div (.sqrt (.rat 2 1)) (.par n!"GF")) (.rat 4 1)))),
  (n!"CVLR_bdbd", (.div (.mul (.div (.rat (-1) 1) (.rat 2 1)) (.inp n!"5dbdb")) (.div (.div (.sqrt (.rat 2 1)) (.par n!"GF")) (.rat 4 1)))),
  (n!"CSL_buenue", (.div (.mul (.div (.div (.div (.neg (.sqrt (.rat 2 1))) (.par n!"GF")) (.ckm 0 2)) (.rat 4 1)) (.inp n!"5pubee")) (.div (.div (.sqrt (.rat 2 1)) (.par n!"GF")) (.rat 4 1)))),
  (n!"CTLLt_bduu", (.div (.mul (.div (.div (.div (.sqrt (.rat 2 1)) (.par n!"GF")) (.mul (.ckm 2 2) (.conj (.ckm 2 0)))) (.rat 4 1)) (.add (.mul (.rat (-8) 1) (.inp n!"10pdbuu")) (.div (.inp n!"8pdbuu") (.rat 2 1)))) (.div (.div (.sqrt (.rat 2 1)) (.par n!"GF")) (.rat 4 1)))),
  (n!"CVR_dcenue", (.div (.mul (.div (.div (.div (.neg (.sqrt (.rat 2 1))) (.par n!"GF")) (.ckm 1 0)) (.rat 4 1)) (.inp n!"1pcdee")) (.div (.div (.sqrt (.rat 2 1)) (.par n!"GF")) (.rat 4 1)))),
  (n!"CVLR_sdsd", (.div (.mul (.div (.rat (-1) 1) (.rat 2 1)) (.inp n!"5dsds")) (.div (.div (.sqrt (.rat 2 1)) (.par n!"GF")) (.rat 4 1)))),
  (n!"CT_dcmunumu", (.div (.mul (.div (.div (.div (.neg (.sqrt (.rat 2 1))) (.par n!"GF")) (.ckm 1 0)) (.rat 4 1)) (.inp n!"7pcdmumu")) (.div (.div (.sqrt (.rat 2 1)) (.par n!"GF")) (.rat 4 1)))),
  (n!"CVR_buenutau", (.div (.mul (.div (.div (.div (.neg (.sqrt (.rat 2 1))) (.par n!"GF")) (.ckm 0 2)) (.rat 4 1)) (.inp n!"1pubetau")) (.div (.div (.sqrt (.rat 2 1)) (.par n!"GF")) (.rat 4 1)))),
  (n!"CPp_sdmumu", (.div (.mul (.div (.div (.div (.sqrt (.rat 2 1)) (.par n!"GF")) (.mul (.ckm 2 1) (.conj (.ckm 2 0)))) (.rat 4 1)) (.mul (.div (.div (.mul (.rat 16 1) (.mul .pi .pi)) (.mul (.sqrt (.mul (.mul (.rat 4 1) .pi) (.par n!"alpha_e"))) (.sqrt (.mul (.mul (.rat 4 1) .pi) (.par n!"alpha_e"))))) (.par n!"m_s")) (.mul (.rat (-24) 1) (.inp n!"9pdsmumu")))) (.div (.div (.sqrt (.rat 2 1)) (.par n!"GF")) (.rat 4 1)))),
  (n!"CVLL_sddd", (.div (.mul (.div (.div (.div (.sqrt (.rat 2 1)) (.par n!"GF")) (.mul (.ckm 2 1) (.conj (.ckm 2 0)))) (.rat 4 1)) (.add (.inp n!"1dsdd") (.mul (.rat 16 1) (.inp n!"3dsdd")))) (.div (.div (.sqrt (.rat 2 1)) (.par n!"GF")) (.rat 4 1)))),
  (n!"CTRR_sdss", (.div (.mul (.div (.div (.div (.sqrt (.rat 2 1)) (.par n!"GF")) (.mul (.ckm 2 1) (.conj (.ckm 2 0)))) (.rat 4 1)) (.sub (.inp n!"7dsss") (.mul (.rat 16 1) (.inp n!"9dsss")))) (.div (.div (.sqrt (.rat 2 1)) (.par n!"GF")) (.rat 4 1)))),
  (n!"CSR_dcmunumu", (.div (.mul (.div (.div (.div (.neg (.sqrt (.rat 2 1))) (.par n!"GF")) (.ckm 1 0)) (.rat 4 1)) (.inp n!"5cdmumu")) (.div (.div (.sqrt (.rat 2 1)) (.par n!"GF")) (.rat 4 1)))),
  (n!"CSL_suenumu", (.div (.mul (.div (.div (.div (.neg (.sqrt (.rat 2 1))) (.par n!"GF")) (.ckm 0 1)) (.rat 4 1)) (.inp n!"5pusemu")) (.div (.div (.sqrt (.rat 2 1)) (.par n!"GF")) (.rat 4 1)))),
  (n!"CVLL_bsuu", (.div (.mul (.div (.div (.div (.sqrt (.rat 2 1)) (.par n!"GF")) (.mul (.ckm 2 2) (.conj (.ckm 2 1)))) (.rat 4 1)) (.sub (.add (.sub (.inp n!"1sbuu") (.div (.inp n!"2sbuu") (.rat 6 1))) (.mul (.rat 16 1) (.inp n!"3sbuu"))) (.div (.mul (.rat 8 1) (.inp n!"4sbuu")) (.rat 3 1)))) (.div (.div (.sqrt (.rat 2 1)) (.par n!"GF")) (.rat 4 1)))),
  (n!"CVLLt_bscc", (.div (.mul (.div (.div (.div (.sqrt (.rat 2 1)) (.par n!"GF")) (.mul (.ckm 2 2) (.conj (.ckm 2 1)))) (.rat 4 1)) (.add (.div (.inp n!"2sbcc") (.rat 2 1)) (.mul (.rat 8 1) (.inp n!"4sbcc")))) (.div (.div (.sqrt (.rat 2 1)) (.par n!"GF")) (.rat 4 1)))),
  (n!"C9_bdtaumu", (.div (.mul (.div (.div (.div (.sqrt (.rat 2 1)) (.par n!"GF")) (.mul (.ckm 2 2) (.conj (.ckm 2 0)))) (.rat 4 1)) (.mul (.div (.mul (.rat 16 1) (.mul .pi .pi)) (.mul (.sqrt (.mul (.mul (.rat 4 1) .pi) (.par n!"alpha_e"))) (.sqrt (.mul (.mul (.rat 4 1) .pi) (.par n!"alpha_e"))))) (.add (.inp n!"1dbmutau") (.mul (.rat 10 1) (.inp n!"3dbmutau"))))) (.div (.div (.sqrt (.rat 2 1)) (.par n!"GF")) (.rat 4 1))))]

def Bern_to_flavio_5 : List (ℕ × Sym) := [
  (n!"CL_sdnumunue", (.div (.mul (.div (.div (.div (.sqrt (.rat 2 1)) (.par n!"GF")) (.mul (.ckm 2 1) (.conj (.ckm 2 0)))) (.rat 4 1)) (.mul (.div (.mul (.rat 8 1) (.mul .pi .pi)) (.mul (.sqrt (.mul (.mul (.rat 4 1) .pi) (.par n!"alpha_e"))) (.sqrt (.mul (.mul (.rat 4 1) .pi) (.par n!"alpha_e"))))) (.inp n!"nu1dsemu"))) (.div (.div (.sqrt (.rat 2 1)) (.par n!"GF")) (.rat 4 1)))),
  (n!"CT_sumunumu", (.div (.mul (.div (.div (.div (.neg (.sqrt (.rat 2 1))) (.par n!"GF")) (.ckm 0 1)) (.rat 4 1)) (.inp n!"7pusmumu")) (.div (.div (.sqrt (.rat 2 1)) (.par n!"GF")) (.rat 4 1)))),
  (n!"CSLR_sdss", (.div (.mul (.div (.div (.div (.sqrt (.rat 2 1)) (.par n!"GF")) (.mul (.ckm 2 1) (.conj (.ckm 2 0)))) (.rat 4 1)) (.add (.inp n!"5pdsss") (.mul (.rat 16 1) (.inp n!"9pdsss")))) (.div (.div (.sqrt (.rat 2 1)) (.par n!"GF")) (.rat 4 1)))),
  (n!"CSR_dumunue", (.div (.mul (.div (.div (.div (.neg (.sqrt (.rat 2 1))) (.par n!"GF")) (.ckm 0 0)) (.rat 4 1)) (.inp n!"5udmue")) (.div (.div (.sqrt (.rat 2 1)) (.par n!"GF")) (.rat 4 1)))),
  (n!"CSL_dctaunue", (.div (.mul (.div (.div (.div (.neg (.sqrt (.rat 2 1))) (.par n!"GF")) (.ckm 1 0)) (.rat 4 1)) (.inp n!"5pcdtaue")) (.div (.div (.sqrt (.rat 2 1)) (.par n!"GF")) (.rat 4 1)))),
  (n!"C10_sdmumu", (.div (.mul (.div (.div (.div (.sqrt (.rat 2 1)) (.par n!"GF")) (.mul (.ckm 2 1) (.conj (.ckm 2 0)))) (.rat 4 1)) (.mul (.div (.mul (.rat 16 1) (.mul .pi .pi)) (.mul (.sqrt (.mul (.mul (.rat 4 1) .pi) (.par n!"alpha_e"))) (.sqrt (.mul (.mul (.rat 4 1) .pi) (.par n!"alpha_e"))))) (.mul (.rat (-6) 1) (.inp n!"3dsmumu")))) (.div (.div (.sqrt (.rat 2 1)) (.par n!"GF")) (.rat 4 1)))),
  (n!"CVLL_bdbb", (.div (.mul (.div (.div (.div (.sqrt (.rat 2 1)) (.par n!"GF")) (.mul (.ckm 2 2) (.conj (.ckm 2 0)))) (.rat 4 1)) (.add (.inp n!"1dbbb") (.mul (.rat 16 1) (.inp n!"3dbbb")))) (.div (.div (.sqrt (.rat 2 1)) (.par n!"GF")) (.rat 4 1)))),
  (n!"C10p_bsmumu", (.div (.mul (.div (.div (.div (.sqrt (.rat 2 1)) (.par n!"GF")) (.mul (.ckm 2 2) (.conj (.ckm 2 1)))) (.rat 4 1)) (.mul (.div (.mul (.rat 16 1) (.mul .pi .pi)) (.mul (.sqrt (.mul (.mul (.rat 4 1) .pi) (.par n!"alpha_e"))) (.sqrt (.mul (.mul (.rat 4 1) .pi) (.par n!"alpha_e"))))) (.mul (.rat 6 1) (.inp n!"3psbmumu")))) (.div (.div (.sqrt (.rat 2 1)) (.par n!"GF")) (.rat 4 1)))),
  (n!"CPp_bsee", (.div (.mul (.div (.div (.div (.sqrt (.rat 2 1)) (.par n!"GF")) (.mul (.ckm 2 2) (.conj (.ckm 2 1)))) (.rat 4 1)) (.mul (.div (.div (.mul (.rat 16 1) (.mul .pi .pi)) (.mul (.sqrt (.mul (.mul (.rat 4 1) .pi) (.par n!"alpha_e"))) (.sqrt (.mul (.mul (.rat 4 1) .pi) (.par n!"alpha_e"))))) (.par n!"m_b")) (.mul (.rat (-24) 1) (.inp n!"9psbee")))) (.div (.div (.sqrt (.rat 2 1)) (.par n!"GF")) (.rat 4 1)))),
  (n!"CSR_sumunumu", (.div (.mul (.div (.div (.div (.neg (.sqrt (.rat 2 1))) (.par n!"GF")) (.ckm 0 1)) (.rat 4 1)) (.inp n!"5usmumu")) (.div (.div (.sqrt (.rat 2 1)) (.par n!"GF")) (.rat 4 1)))),
  (n!"CT_bcenutau", (.div (.mul (.div (.div (.div (.neg (.sqrt (.rat 2 1))) (.par n!"GF")) (.ckm 1 2)) (.rat 4 1)) (.inp n!"7pcbetau")) (.div (.div (.sqrt (.rat 2 1)) (.par n!"GF")) (.rat 4 1)))),
  (n!"CSRLt_sdbb", (.div (.mul (.div (.div (.div (.sqrt (.rat 2 1)) (.par n!"GF")) (.mul (.ckm 2 1) (.conj (.ckm 2 0)))) (.rat 4 1)) (.add (.mul (.rat 8 1) (.inp n!"10dsbb")) (.div (.inp n!"6dsbb") (.rat 2 1)))) (.div (.div (.sqrt (.rat 2 1)) (.par n!"GF")) (.rat 4 1)))),
  (n!"CSLLt_bdcc", (.div (.mul (.div (.div (.div (.sqrt (.rat 2 1)) (.par n!"GF")) (.mul (.ckm 2 2) (.conj (.ckm 2 0)))) (.rat 4 1)) (.add (.mul (.rat 32 1) (.inp n!"10pdbcc")) (.div (.inp n!"6pdbcc") (.rat 2 1)))) (.div (.div (.sqrt (.rat 2 1)) (.par n!"GF")) (.rat 4 1)))),
  (n!"CPp_bdemu", (.div (.mul (.div (.div (.div (.sqrt (.rat 2 1)) (.par n!"GF")) (.mul (.ckm 2 2) (.conj (.ckm 2 0)))) (.rat 4 1)) (.mul (.div (.div (.mul (.rat 16 1) (.mul .pi .pi)) (.mul (.sqrt (.mul (.mul (.rat 4 1) .pi) (.par n!"alpha_e"))) (.sqrt (.mul (.mul (.rat 4 1) .pi) (.par n!"alpha_e"))))) (.par n!"m_b")) (.mul (.rat (-24) 1) (.inp n!"9pdbmue")))) (.div (.div (.sqrt (.rat 2 1)) (.par n!"GF")) (.rat 4 1)))),
  (n!"CTLL_sduu", (.div (.mul (.div (.div (.div (.sqrt (.rat 2 1)) (.par n!"GF")) (.mul (.ckm 2 1) (.conj (.ckm 2 0)))) (.rat 4 1)) (.sub (.sub (.add (.div (.mul (.rat 8 1) (.inp n!"10pdsuu")) (.rat 3 1)) (.inp n!"7pdsuu")) (.div (.inp n!"8pdsuu") (.rat 6 1))) (.mul (.rat 16 1) (.inp n!"9pdsuu")))) (.div (.div (.sqrt (.rat 2 1)) (.par n!"GF")) (.rat 4 1)))),
  (n!"CSR_bcenutau", (.div (.mul (.div (.div (.div (.neg (.sqrt (.rat 2 1))) (.par n!"GF")) (.ckm 1 2)) (.rat 4 1)) (.inp n!"5cbetau")) (.div (.div (.sqrt (.rat 2 1)) (.par n!"GF")) (.rat 4 1)))),
  (n!"CSL_sutaunue", (.div (.mul (.div (.div (.div (.neg (.sqrt (.rat 2 1))) (.par n!"GF")) (.ckm 0 1)) (.rat 4 1)) (.inp n!"5pustaue")) (.div (.div (.sqrt (.rat 2 1)) (.par n!"GF")) (.rat 4 1)))),
  (n!"CSR_dumunutau", (.div (.mul (.div (.div (.div (.neg (.sqrt (.rat 2 1))) (.par n!"GF")) (.ckm 0 0)) (.rat 4 1)) (.inp n!"5udmutau")) (.div (.div (.sqrt (.rat 2 1)) (.par n!"GF")) (.rat 4 1)))),
  (n!"CVLLt_bsuu", (.div (.mul (.div (.div (.div (.sqrt (.rat 2 1)) (.par n!"GF")) (.mul (.ckm 2 2) (.conj (.ckm 2 1)))) (.rat 4 1)) (.add (.div (.inp n!"2sbuu") (.rat 2 1)) (.mul (.rat 8 1) (.inp n!"4sbuu")))) (.div (.div (.sqrt (.rat 2 1)) (.par n!"GF")) (.rat 4 1)))),
  (n!"CL_sdnuenutau", (.div (.mul (.div (.div (.div (.sqrt (.rat 2 1)) (.par n!"GF")) (.mul (.ckm 2 1) (.conj (.ckm 2 0)))) (.rat 4 1)) (.mul (.div (.mul (.rat 8 1) (.mul .pi .pi)) (.mul (.sqrt (.mul (.mul (.rat 4 1) .pi) (.par n!"alpha_e"))) (.sqrt (.mul (.mul (.rat 4 1) .pi) (.par n!"alpha_e"))))) (.inp n!"nu1dstaue"))) (.div (.div (.sqrt (.rat 2 1)) (.par n!"GF")) (.rat 4 1)))),
  (n!"CTLL_bdss", (.div (.mul (.div (.div (.div (.sqrt (.rat 2 1)) (.par n!"GF")) (.mul (.ckm 2 2) (.conj (.ckm 2 0)))) (.rat 4 1)) (.sub (.sub (.add (.div (.mul (.rat 8 1) (.inp n!"10pdbss")) (.rat 3 1)) (.inp n!"7pdbss")) (.div (.inp n!"8pdbss") (.rat 6 1))) (.mul (.rat 16 1) (.inp n!"9pdbss")))) (.div (.div (.sqrt (.rat 2 1)) (.par n!"GF")) (.rat 4 1)))),
  (n!"CS_bdmumu", (.div (.mul (.div (.div (.div (.sqrt (.rat 2 1)) (.par n!"GF")) (.mul (.ckm 2 2) (.conj (.ckm 2 0)))) (.rat 4 1)) (.mul (.div (.div (.mul (.rat 16 1) (.mul .pi .pi)) (.mul (.sqrt (.mul (.mul (.rat 4 1) .pi) (.par n!"alpha_e"))) (.sqrt (.mul (.mul (.rat 4 1) .pi) (.par n!"alpha_e"))))) (.par n!"m_b")) (.add (.inp n!"5dbmumu") (.mul (.rat 40 1) (.inp n!"9dbmumu"))))) (.div (.div (.sqrt (.rat 2 1)) (.par n!"GF")) (.rat 4 1)))),
  (n!"C9p_bstaue", (.div (.mul (.div (.div (.div (.sqrt (.rat 2 1)) (.par n!"GF")) (.mul (.ckm 2 2) (.conj (.ckm 2 1)))) (.rat 4 1)) (.mul (.div (.mul (.rat 16 1) (.mul .pi .pi)) (.mul (.sqrt (.mul (.mul (.rat 4 1) .pi) (.par n!"alpha_e"))) (.sqrt (.mul (.mul (.rat 4 1) .pi) (.par n!"alpha_e"))))) (.add (.inp n!"1psbetau") (.mul (.rat 10 1) (.inp n!"3psbetau"))))) (.div (.div (.sqrt (.rat 2 1)) (.par n!"GF")) (.rat 4 1)))),
  (n!"CSL_dctaunumu", (.div (.mul (.div (.div (.div (.neg (.sqrt (.rat 2 1))) (.par n!"GF")) (.ckm 1 0)) (.rat 4 1)) (.inp n!"5pcdtaumu")) (.div (.div (.sqrt (.rat 2 1)) (.par n!"GF")) (.rat 4 1)))),
  (n!"CSp_bdetau", (.div (.mul (.div (.div (.div (.sqrt (.rat 2 1)) (.par n!"GF")) (.mul (.ckm 2 2) (.conj (.ckm 2 0)))) (.rat 4 1)) (.mul (.div (.div (.mul (.rat 16 1) (.mul .pi .pi)) (.mul (.sqrt (.mul (.mul (.rat 4 1) .pi) (.par n!"alpha_e"))) (.sqrt (.mul (.mul (.rat 4 1) .pi) (.par n!"alpha_e"))))) (.par n!"m_b")) (.add (.inp n!"5pdbtaue") (.mul (.rat 40 1) (.inp n!"9pdbtaue"))))) (.div (.div (.sqrt (.rat 2 1)) (.par n!"GF")) (.rat 4 1)))),
  (n!"C10_bdtautau", (.div (.mul (.div (.div (.div (.sqrt (.rat 2 1)) (.par n!"GF")) (.mul (.ckm 2 2) (.conj (.ckm 2 0)))) (.rat 4 1)) (.mul (.div (.mul (.rat 16 1) (.mul .pi .pi)) (.mul (.sqrt (.mul (.mul (.rat 4 1) .pi) (.par n!"alpha_e"))) (.sqrt (.mul (.mul (.rat 4 1) .pi) (.par n!"alpha_e"))))) (.mul (.rat (-6) 1) (.inp n!"3dbtautau")))) (.div (.div (.sqrt (.rat 2 1)) (.par n!"GF")) (.rat 4 1)))),
  (n!"CVLL_ucuc", (.div (.inp n!"1cucu") (.div (.div (.sqrt (.rat 2 1)) (.par n!"GF")) (.rat 4 1)))),
  (n!"CSR_bumunue", (.div (.mul (.div (.div (.div (.neg (.sqrt (.rat 2 1))) (.par n!"GF")) (.ckm 0 2)) (.rat 4 1)) (.inp n!"5ubmue")) (.div (.div (.sqrt (.rat 2 1)) (.par n!"GF")) (.rat 4 1)))),
  (n!"CSL_bctaunutau", (.div (.mul (.div (.div (.div (.neg (.sqrt (.rat 2 1))) (.par n!"GF")) (.ckm 1 2)) (.rat 4 1)) (.inp n!"5pcbtautau")) (.div (.div (.sqrt (.rat 2 1)) (.par n!"GF")) (.rat 4 1)))),
  (n!"C10p_sdtautau", (.div (.mul (.div (.div (.div (.sqrt (.rat 2 1)) (.par n!"GF")) (.mul (.ckm 2 1) (.conj (.ckm 2 0)))) (.rat 4 1)) (.mul (.div (.mul (.rat 16 1) (.mul .pi .pi)) (.mul (.sqrt (.mul (.mul (.rat 4 1) .pi) (.par n!"alpha_e"))) (.sqrt (.mul (.mul (.rat 4 1) .pi) (.par n!"alpha_e"))))) (.mul (.rat 6 1) (.inp n!"3pdstautau")))) (.div (.div (.sqrt (.rat 2 1)) (.par n!"GF")) (.rat 4 1)))),
  (n!"CVR_dcenumu", (.div (.mul (.div (.div (.div (.neg (.sqrt (.rat 2 1))) (.par n!"GF")) (.ckm 1 0)) (.rat 4 1)) (.inp n!"1pcdemu")) (.div (.div (.sqrt (.rat 2 1)) (.par n!"GF")) (.rat 4 1)))),
  (n!"CSLLt_bduu", (.div (.mul (.div (.div (.div (.sqrt (.rat 2 1)) (.par n!"GF")) (.mul (.ckm 2 2) (.conj (.ckm 2 0)))) (.rat 4 1)) (.add (.mul (.rat 32 1) (.inp n!"10pdbuu")) (.div (.inp n!"6pdbuu") (.rat 2 1)))) (.div (.div (.sqrt (.rat 2 1)) (.par n!"GF")) (.rat 4 1)))),
  (n!"CSR_scmunue", (.div (.mul (.div (.div (.div (.neg (.sqrt (.rat 2 1))) (.par n!"GF")) (.ckm 1 1)) (.rat 4 1)) (.inp n!"5csmue")) (.div (.div (.sqrt (.rat 2 1)) (.par n!"GF")) (.rat 4 1)))),
  (n!"CSL_bcenue", (.div (.mul (.div (.div (.div (.neg (.sqrt (.rat 2 1))) (.par n!"GF")) (.ckm 1 2)) (.rat 4 1)) (.inp n!"5pcbee")) (.div (.div (.sqrt (.rat 2 1)) (.par n!"GF")) (.rat 4 1)))),
  (n!"CSp_bstautau", (.div (.mul (.div (.div (.div (.sqrt (.rat 2 1)) (.par n!"GF")) (.mul (.ckm 2 2) (.conj (.ckm 2 1)))) (.rat 4 1)) (.mul (.div (.div (.mul (.rat 16 1) (.mul .pi .pi)) (.mul (.sqrt (.mul (.mul (.rat 4 1) .pi) (.par n!"alpha_e"))) (.sqrt (.mul (.mul (.rat 4 1) .pi) (.par n!"alpha_e"))))) (.par n!"m_b")) (.add (.inp n!"5psbtautau") (.mul (.rat 40 1) (.inp n!"9psbtautau"))))) (.div (.div (.sqrt (.rat 2 1)) (.par n!"GF")) (.rat 4 1)))),
  (n!"C9p_bdemu", (.div (.mul (.div (.div (.div (.sqrt (.rat 2 1)) (.par n!"GF")) (.mul (.ckm 2 2) (.conj (.ckm 2 0)))) (.rat 4 1)) (.mul (.div (.mul (.rat 16 1) (.mul .pi .pi)) (.mul (.sqrt (.mul (.mul (.rat 4 1) .pi) (.par n!"alpha_e"))) (.sqrt (.mul (.mul (.rat 4 1) .pi) (.par n!"alpha_e"))))) (.add (.inp n!"1pdbmue") (.mul (.rat 10 1) (.inp n!"3pdbmue"))))) (.div (.div (.sqrt (.rat 2 1)) (.par n!"GF")) (.rat 4 1)))),
  (n!"CS_bsmutau", (.div (.mul (.div (.div (.div (.sqrt (.rat 2 1)) (.par n!"GF")) (.mul (.ckm 2 2) (.conj (.ckm 2 1)))) (.rat 4 1)) (.mul (.div (.div (.mul (.rat 16 1) (.mul .pi .pi)) (.mul (.sqrt (.mul (.mul (.rat 4 1) .pi) (.par n!"alpha_e"))) (.sqrt (.mul (.mul (.rat 4 1) .pi) (.par n!"alpha_e"))))) (.par n!"m_b")) (.add (.inp n!"5sbtaumu") (.mul (.rat 40 1) (.inp n!"9sbtaumu"))))) (.div (.div (.sqrt (.rat 2 1)) (.par n!"GF")) (.rat 4 1)))),
  (n!"CSRR_bsbs", (.div (.sub (.inp n!"2psbsb") (.mul (.div (.rat 1 1) (.rat 2 1)) (.inp n!"3psbsb"))) (.div (.div (.sqrt (.rat 2 1)) (.par n!"GF")) (.rat 4 1)))),
  (n!"CSp_bdmutau", (.div (.mul (.div (.div (.div (.sqrt (.rat 2 1)) (.par n!"GF")) (.mul (.ckm 2 2) (.conj (.ckm 2 0)))) (.rat 4 1)) (.mul (.div (.div (.mul (.rat 16 1) (.mul .pi .pi)) (.mul (.sqrt (.mul (.mul (.rat 4 1) .pi) (.par n!"alpha_e"))) (.sqrt (.mul (.mul (.rat 4 1) .pi) (.par n!"alpha_e"))))) (.par n!"m_b")) (.add (.inp n!"5pdbtaumu") (.mul (.rat 40 1) (.inp n!"9pdbtaumu"))))) (.div (.div (.sqrt (.rat 2 1)) (.par n!"GF")) (.rat 4 1)))),
  (n!"C9p_sdee", (.div (.mul (.div (.div (.div (.sqrt (.rat 2 1)) (.par n!"GF")) (.mul (.ckm 2 1) (.conj (.ckm 2 0)))) (.rat 4 1)) (.mul (.div (.mul (.rat 16 1) (.mul .pi .pi)) (.mul (.sqrt (.mul (.mul (.rat 4 1) .pi) (.par n!"alpha_e"))) (.sqrt (.mul (.mul (.rat 4 1) .pi) (.par n!"alpha_e"))))) (.add (.inp n!"1pdsee") (.mul (.rat 10 1) (.inp n!"3pdsee"))))) (.div (.div (.sqrt (.rat 2 1)) (.par n!"GF")) (.rat 4 1)))),
  (n!"CVRL_bsbb", (.div (.mul (.div (.div (.div (.sqrt (.rat 2 1)) (.par n!"GF")) (.mul (.ckm 2 2) (.conj (.ckm 2 1)))) (.rat 4 1)) (.add (.inp n!"1psbbb") (.mul (.rat 4 1) (.inp n!"3psbbb")))) (.div (.div (.sqrt (.rat 2 1)) (.par n!"GF")) (.rat 4 1)))),
  (n!"CPp_bdmumu", (.div (.mul (.div (.div (.div (.sqrt (.rat 2 1)) (.par n!"GF")) (.mul (.ckm 2 2) (.conj (.ckm 2 0)))) (.rat 4 1)) (.mul (.div (.div (.mul (.rat 16 1) (.mul .pi .pi)) (.mul (.sqrt (.mul (.mul (.rat 4 1) .pi) (.par n!"alpha_e"))) (.sqrt (.mul (.mul (.rat 4 1) .pi) (.par n!"alpha_e"))))) (.par n!"m_b")) (.mul (.rat (-24) 1) (.inp n!"9pdbmumu")))) (.div (.div (.sqrt (.rat 2 1)) (.par n!"GF")) (.rat 4 1)))),
  (n!"CSL_dumunumu", (.div (.mul (.div (.div (.div (.neg (.sqrt (.rat 2 1))) (.par n!"GF")) (.ckm 0 0)) (.rat 4 1)) (.inp n!"5pudmumu")) (.div (.div (.sqrt (.rat 2 1)) (.par n!"GF")) (.rat 4 1)))),
  (n!"CR_bsnuenumu", (.div (.mul (.div (.div (.div (.sqrt (.rat 2 1)) (.par n!"GF")) (.mul (.ckm 2 2) (.conj (.ckm 2 1)))) (.rat 4 1)) (.mul (.div (.mul (.rat 8 1) (.mul .pi .pi)) (.mul (.sqrt (.mul (.mul (.rat 4 1) .pi) (.par n!"alpha_e"))) (.sqrt (.mul (.mul (.rat 4 1) .pi) (.par n!"alpha_e"))))) (.inp n!"nu1psbmue"))) (.div (.div (.sqrt (.rat 2 1)) (.par n!"GF")) (.rat 4 1)))),
  (n!"CSLRt_bscc", (.div (.mul (.div (.div (.div (.sqrt (.rat 2 1)) (.par n!"GF")) (.mul (.ckm 2 2) (.conj (.ckm 2 1)))) (.rat 4 1)) (.add (.mul (.rat 8 1) (.inp n!"10psbcc")) (.div (.inp n!"6psbcc") (.rat 2 1)))) (.div (.div (.sqrt (.rat 2 1)) (.par n!"GF")) (.rat 4 1)))),
  (n!"CS_bstautau", (.div (.mul (.div (.div (.div (.sqrt (.rat 2 1)) (.par n!"GF")) (.mul (.ckm 2 2) (.conj (.ckm 2 1)))) (.rat 4 1)) (.mul (.div (.div (.mul (.rat 16 1) (.mul .pi .pi)) (.mul (.sqrt (.mul (.mul (.rat 4 1) .pi) (.par n!"alpha_e"))) (.sqrt (.mul (.mul (.rat 4 1) .pi) (.par n!"alpha_e"))))) (.par n!"m_b")) (.add (.inp n!"5sbtautau") (.mul (.rat 40 1) (.inp n!"9sbtautau"))))) (.div (.div (.sqrt (.rat 2 1)) (.par n!"GF")) (.rat 4 1)))),
  (n!"CVL_scenutau", (.div (.mul (.div (.div (.div (.neg (.sqrt (.rat 2 1))) (.par n!"GF")) (.ckm 1 1)) (.rat 4 1)) (.inp n!"1csetau")) (.div (.div (.sqrt (.rat 2 1)) (.par n!"GF")) (.rat 4 1)))),
  (n!"CSL_dcmunue", (.div (.mul (.div (.div (.div (.neg (.sqrt (.rat 2 1))) (.par n!"GF")) (.ckm 1 0)) (.rat 4 1)) (.inp n!"5pcdmue")) (.div (.div (.sqrt (.rat 2 1)) (.par n!"GF")) (.rat 4 1)))),
  (n!"C10_bdmumu", (.div (.mul (.div (.div (.div (.sqrt (.rat 2 1)) (.par n!"GF")) (.mul (.ckm 2 2) (.conj (.ckm 2 0)))) (.rat 4 1)) (.mul (.div (.mul (.rat 16 1) (.mul .pi .pi)) (.mul (.sqrt (.mul (.mul (.rat 4 1) .pi) (.par n!"alpha_e"))) (.sqrt (.mul (.mul (.rat 4 1) .pi) (.par n!"alpha_e"))))) (.mul (.rat (-6) 1) (.inp n!"3dbmumu")))) (.div (.div (.sqrt (.rat 2 1)) (.par n!"GF")) (.rat 4 1)))),
  (n!"CP_sdmutau", (.div (.mul (.div (.div (.div (.sqrt (.rat 2 1)) (.par n!"GF")) (.mul (.ckm 2 1) (.conj (.ckm 2 0)))) (.rat 4 1)) (.mul (.div (.div (.mul (.rat 16 1) (.mul .pi .pi)) (.mul (.sqrt (.mul (.mul (.rat 4 1) .pi) (.par n!"alpha_e"))) (.sqrt (.mul (.mul (.rat 4 1) .pi) (.par n!"alpha_e"))))) (.par n!"m_s")) (.mul (.rat 24 1) (.inp n!"9dstaumu")))) (.div (.div (.sqrt (.rat 2 1)) (.par n!"GF")) (.rat 4 1))))]

def Bern_to_flavio_6 : List (ℕ × Sym) := [
  (n!"C7_sd", (.div (.mul (.div (.div (.div (.sqrt (.rat 2 1)) (.par n!"GF")) (.mul (.ckm 2 1) (.conj (.ckm 2 0)))) (.rat 4 1)) (.mul (.div (.div (.mul (.rat 16 1) (.mul .pi .pi)) (.sqrt (.mul (.mul (.rat 4 1) .pi) (.par n!"alpha_e")))) (.par n!"m_s")) (.div (.inp n!"7gammads") (.div (.div (.mul (.sqrt (.mul (.mul (.rat 4 1) .pi) (.par n!"alpha_s"))) (.sqrt (.mul (.mul (.rat 4 1) .pi) (.par n!"alpha_s")))) (.sqrt (.mul (.mul (.rat 4 1) .pi) (.par n!"alpha_e")))) (.par n!"m_s"))))) (.div (.div (.sqrt (.rat 2 1)) (.par n!"GF")) (.rat 4 1)))),
  (n!"CSL_buenutau", (.div (.mul (.div (.div (.div (.neg (.sqrt (.rat 2 1))) (.par n!"GF")) (.ckm 0 2)) (.rat 4 1)) (.inp n!"5pubetau")) (.div (.div (.sqrt (.rat 2 1)) (.par n!"GF")) (.rat 4 1)))),
  (n!"CSL_bcmunutau", (.div (.mul (.div (.div (.div (.neg (.sqrt (.rat 2 1))) (.par n!"GF")) (.ckm 1 2)) (.rat 4 1)) (.inp n!"5pcbmutau")) (.div (.div (.sqrt (.rat 2 1)) (.par n!"GF")) (.rat 4 1)))),
  (n!"CSLL_sdbb", (.div (.mul (.div (.div (.div (.sqrt (.rat 2 1)) (.par n!"GF")) (.mul (.ckm 2 1) (.conj (.ckm 2 0)))) (.rat 4 1)) (.add (.sub (.add (.neg (.div (.mul (.rat 32 1) (.inp n!"10pdsbb")) (.rat 3 1))) (.inp n!"5pdsbb")) (.div (.inp n!"6pdsbb") (.rat 6 1))) (.mul (.rat 64 1) (.inp n!"9pdsbb")))) (.div (.div (.sqrt (.rat 2 1)) (.par n!"GF")) (.rat 4 1)))),
  (n!"CVR_bcenumu", (.div (.mul (.div (.div (.div (.neg (.sqrt (.rat 2 1))) (.par n!"GF")) (.ckm 1 2)) (.rat 4 1)) (.inp n!"1pcbemu")) (.div (.div (.sqrt (.rat 2 1)) (.par n!"GF")) (.rat 4 1)))),
  (n!"CVRL_sdcc", (.div (.mul (.div (.div (.div (.sqrt (.rat 2 1)) (.par n!"GF")) (.mul (.ckm 2 1) (.conj (.ckm 2 0)))) (.rat 4 1)) (.sub (.add (.sub (.inp n!"1pdscc") (.div (.inp n!"2pdscc") (.rat 6 1))) (.mul (.rat 4 1) (.inp n!"3pdscc"))) (.div (.mul (.rat 2 1) (.inp n!"4pdscc")) (.rat 3 1)))) (.div (.div (.sqrt (.rat 2 1)) (.par n!"GF")) (.rat 4 1)))),
  (n!"CP_sdmue", (.div (.mul (.div (.div (.div (.sqrt (.rat 2 1)) (.par n!"GF")) (.mul (.ckm 2 1) (.conj (.ckm 2 0)))) (.rat 4 1)) (.mul (.div (.div (.mul (.rat 16 1) (.mul .pi .pi)) (.mul (.sqrt (.mul (.mul (.rat 4 1) .pi) (.par n!"alpha_e"))) (.sqrt (.mul (.mul (.rat 4 1) .pi) (.par n!"alpha_e"))))) (.par n!"m_s")) (.mul (.rat 24 1) (.inp n!"9dsemu")))) (.div (.div (.sqrt (.rat 2 1)) (.par n!"GF")) (.rat 4 1)))),
  (n!"CVLR_sdbb", (.div (.mul (.div (.div (.div (.sqrt (.rat 2 1)) (.par n!"GF")) (.mul (.ckm 2 1) (.conj (.ckm 2 0)))) (.rat 4 1)) (.sub (.add (.sub (.inp n!"1dsbb") (.div (.inp n!"2dsbb") (.rat 6 1))) (.mul (.rat 4 1) (.inp n!"3dsbb"))) (.div (.mul (.rat 2 1) (.inp n!"4dsbb")) (.rat 3 1)))) (.div (.div (.sqrt (.rat 2 1)) (.par n!"GF")) (.rat 4 1)))),
  (n!"CTLL_bdbd", (.div (.mul (.div (.rat (-1) 1) (.rat 8 1)) (.inp n!"3dbdb")) (.div (.div (.sqrt (.rat 2 1)) (.par n!"GF")) (.rat 4 1)))),
  (n!"CS_bdmue", (.div (.mul (.div (.div (.div (.sqrt (.rat 2 1)) (.par n!"GF")) (.mul (.ckm 2 2) (.conj (.ckm 2 0)))) (.rat 4 1)) (.mul (.div (.div (.mul (.rat 16 1) (.mul .pi .pi)) (.mul (.sqrt (.mul (.mul (.rat 4 1) .pi) (.par n!"alpha_e"))) (.sqrt (.mul (.mul (.rat 4 1) .pi) (.par n!"alpha_e"))))) (.par n!"m_b")) (.add (.inp n!"5dbemu") (.mul (.rat 40 1) (.inp n!"9dbemu"))))) (.div (.div (.sqrt (.rat 2 1)) (.par n!"GF")) (.rat 4 1)))),
  (n!"CSLL_bsss", (.div (.mul (.div (.div (.div (.sqrt (.rat 2 1)) (.par n!"GF")) (.mul (.ckm 2 2) (.conj (.ckm 2 1)))) (.rat 4 1)) (.add (.inp n!"5sbss") (.mul (.rat 64 1) (.inp n!"9sbss")))) (.div (.div (.sqrt (.rat 2 1)) (.par n!"GF")) (.rat 4 1)))),
  (n!"CT_dcmunutau", (.div (.mul (.div (.div (.div (.neg (.sqrt (.rat 2 1))) (.par n!"GF")) (.ckm 1 0)) (.rat 4 1)) (.inp n!"7pcdmutau")) (.div (.div (.sqrt (.rat 2 1)) (.par n!"GF")) (.rat 4 1)))),
  (n!"CSRR_bddd", (.div (.mul (.div (.div (.div (.sqrt (.rat 2 1)) (.par n!"GF")) (.mul (.ckm 2 2) (.conj (.ckm 2 0)))) (.rat 4 1)) (.add (.inp n!"5pdbdd") (.mul (.rat 64 1) (.inp n!"9pdbdd")))) (.div (.div (.sqrt (.rat 2 1)) (.par n!"GF")) (.rat 4 1)))),
  (n!"CTLL_sdsd", (.div (.mul (.div (.rat (-1) 1) (.rat 8 1)) (.inp n!"3dsds")) (.div (.div (.sqrt (.rat 2 1)) (.par n!"GF")) (.rat 4 1)))),
  (n!"CVLR_bsss", (.div (.mul (.div (.div (.div (.sqrt (.rat 2 1)) (.par n!"GF")) (.mul (.ckm 2 2) (.conj (.ckm 2 1)))) (.rat 4 1)) (.add (.inp n!"1sbss") (.mul (.rat 4 1) (.inp n!"3sbss")))) (.div (.div (.sqrt (.rat 2 1)) (.par n!"GF")) (.rat 4 1)))),
  (n!"CSLRt_bsuu", (.div (.mul (.div (.div (.div (.sqrt (.rat 2 1)) (.par n!"GF")) (.mul (.ckm 2 2) (.conj (.ckm 2 1)))) (.rat 4 1)) (.add (.mul (.rat 8 1) (.inp n!"10psbuu")) (.div (.inp n!"6psbuu") (.rat 2 1)))) (.div (.div (.sqrt (.rat 2 1)) (.par n!"GF")) (.rat 4 1)))),
  (n!"CSR_dutaunumu", (.div (.mul (.div (.div (.div (.neg (.sqrt (.rat 2 1))) (.par n!"GF")) (.ckm 0 0)) (.rat 4 1)) (.inp n!"5udtaumu")) (.div (.div (.sqrt (.rat 2 1)) (.par n!"GF")) (.rat 4 1)))),
  (n!"CVR_bcmunumu", (.div (.mul (.div (.div (.div (.neg (.sqrt (.rat 2 1))) (.par n!"GF")) (.ckm 1 2)) (.rat 4 1)) (.inp n!"1pcbmumu")) (.div (.div (.sqrt (.rat 2 1)) (.par n!"GF")) (.rat 4 1)))),
  (n!"CSR_duenue", (.div (.mul (.div (.div (.div (.neg (.sqrt (.rat 2 1))) (.par n!"GF")) (.ckm 0 0)) (.rat 4 1)) (.inp n!"5udee")) (.div (.div (.sqrt (.rat 2 1)) (.par n!"GF")) (.rat 4 1)))),
  (n!"CSL_bcmunue", (.div (.mul (.div (.div (.div (.neg (.sqrt (.rat 2 1))) (.par n!"GF")) (.ckm 1 2)) (.rat 4 1)) (.inp n!"5pcbmue")) (.div (.div (.sqrt (.rat 2 1)) (.par n!"GF")) (.rat 4 1)))),
  (n!"C7p_sd", (.div (.mul (.div (.div (.div (.sqrt (.rat 2 1)) (.par n!"GF")) (.mul (.ckm 2 1) (.conj (.ckm 2 0)))) (.rat 4 1)) (.mul (.div (.div (.mul (.rat 16 1) (.mul .pi .pi)) (.sqrt (.mul (.mul (.rat 4 1) .pi) (.par n!"alpha_e")))) (.par n!"m_s")) (.div (.inp n!"7pgammads") (.div (.div (.mul (.sqrt (.mul (.mul (.rat 4 1) .pi) (.par n!"alpha_s"))) (.sqrt (.mul (.mul (.rat 4 1) .pi) (.par n!"alpha_s")))) (.sqrt (.mul (.mul (.rat 4 1) .pi) (.par n!"alpha_e")))) (.par n!"m_s"))))) (.div (.div (.sqrt (.rat 2 1)) (.par n!"GF")) (.rat 4 1)))),
  (n!"CVL_bctaunue", (.div (.mul (.div (.div (.div (.neg (.sqrt (.rat 2 1))) (.par n!"GF")) (.ckm 1 2)) (.rat 4 1)) (.inp n!"1cbtaue")) (.div (.div (.sqrt (.rat 2 1)) (.par n!"GF")) (.rat 4 1)))),
  (n!"CVRL_sduu", (.div (.mul (.div (.div (.div (.sqrt (.rat 2 1)) (.par n!"GF")) (.mul (.ckm 2 1) (.conj (.ckm 2 0)))) (.rat 4 1)) (.sub (.add (.sub (.inp n!"1pdsuu") (.div (.inp n!"2pdsuu") (.rat 6 1))) (.mul (.rat 4 1) (.inp n!"3pdsuu"))) (.div (.mul (.rat 2 1) (.inp n!"4pdsuu")) (.rat 3 1)))) (.div (.div (.sqrt (.rat 2 1)) (.par n!"GF")) (.rat 4 1)))),
  (n!"CVLRt_sdcc", (.div (.mul (.div (.div (.div (.sqrt (.rat 2 1)) (.par n!"GF")) (.mul (.ckm 2 1) (.conj (.ckm 2 0)))) (.rat 4 1)) (.add (.div (.inp n!"2dscc") (.rat 2 1)) (.mul (.rat 2 1) (.inp n!"4dscc")))) (.div (.div (.sqrt (.rat 2 1)) (.par n!"GF")) (.rat 4 1)))),
  (n!"C9_bsee", (.div (.mul (.div (.div (.div (.sqrt (.rat 2 1)) (.par n!"GF")) (.mul (.ckm 2 2) (.conj (.ckm 2 1)))) (.rat 4 1)) (.mul (.div (.mul (.rat 16 1) (.mul .pi .pi)) (.mul (.sqrt (.mul (.mul (.rat 4 1) .pi) (.par n!"alpha_e"))) (.sqrt (.mul (.mul (.rat 4 1) .pi) (.par n!"alpha_e"))))) (.add (.inp n!"1sbee") (.mul (.rat 10 1) (.inp n!"3sbee"))))) (.div (.div (.sqrt (.rat 2 1)) (.par n!"GF")) (.rat 4 1)))),
  (n!"CR_sdnumunumu", (.div (.mul (.div (.div (.div (.sqrt (.rat 2 1)) (.par n!"GF")) (.mul (.ckm 2 1) (.conj (.ckm 2 0)))) (.rat 4 1)) (.mul (.div (.mul (.rat 8 1) (.mul .pi .pi)) (.mul (.sqrt (.mul (.mul (.rat 4 1) .pi) (.par n!"alpha_e"))) (.sqrt (.mul (.mul (.rat 4 1) .pi) (.par n!"alpha_e"))))) (.inp n!"nu1pdsmumu"))) (.div (.div (.sqrt (.rat 2 1)) (.par n!"GF")) (.rat 4 1)))),
  (n!"CTLLt_bscc", (.div (.mul (.div (.div (.div (.sqrt (.rat 2 1)) (.par n!"GF")) (.mul (.ckm 2 2) (.conj (.ckm 2 1)))) (.rat 4 1)) (.add (.mul (.rat (-8) 1) (.inp n!"10psbcc")) (.div (.inp n!"8psbcc") (.rat 2 1)))) (.div (.div (.sqrt (.rat 2 1)) (.par n!"GF")) (.rat 4 1)))),
  (n!"CVL_dcmunutau", (.div (.mul (.div (.div (.div (.neg (.sqrt (.rat 2 1))) (.par n!"GF")) (.ckm 1 0)) (.rat 4 1)) (.inp n!"1cdmutau")) (.div (.div (.sqrt (.rat 2 1)) (.par n!"GF")) (.rat 4 1)))),
  (n!"CS_sdetau", (.div (.mul (.div (.div (.div (.sqrt (.rat 2 1)) (.par n!"GF")) (.mul (.ckm 2 1) (.conj (.ckm 2 0)))) (.rat 4 1)) (.mul (.div (.div (.mul (.rat 16 1) (.mul .pi .pi)) (.mul (.sqrt (.mul (.mul (.rat 4 1) .pi) (.par n!"alpha_e"))) (.sqrt (.mul (.mul (.rat 4 1) .pi) (.par n!"alpha_e"))))) (.par n!"m_s")) (.add (.inp n!"5dstaue") (.mul (.rat 40 1) (.inp n!"9dstaue"))))) (.div (.div (.sqrt (.rat 2 1)) (.par n!"GF")) (.rat 4 1)))),
  (n!"CVRL_bdss", (.div (.mul (.div (.div (.div (.sqrt (.rat 2 1)) (.par n!"GF")) (.mul (.ckm 2 2) (.conj (.ckm 2 0)))) (.rat 4 1)) (.sub (.add (.sub (.inp n!"1pdbss") (.div (.inp n!"2pdbss") (.rat 6 1))) (.mul (.rat 4 1) (.inp n!"3pdbss"))) (.div (.mul (.rat 2 1) (.inp n!"4pdbss")) (.rat 3 1)))) (.div (.div (.sqrt (.rat 2 1)) (.par n!"GF")) (.rat 4 1)))),
  (n!"C8_bd", (.div (.mul (.div (.div (.div (.sqrt (.rat 2 1)) (.par n!"GF")) (.mul (.ckm 2 2) (.conj (.ckm 2 0)))) (.rat 4 1)) (.mul (.div (.div (.mul (.rat 16 1) (.mul .pi .pi)) (.sqrt (.mul (.mul (.rat 4 1) .pi) (.par n!"alpha_s")))) (.par n!"m_b")) (.div (.inp n!"8gdb") (.div (.sqrt (.mul (.mul (.rat 4 1) .pi) (.par n!"alpha_s"))) (.par n!"m_b"))))) (.div (.div (.sqrt (.rat 2 1)) (.par n!"GF")) (.rat 4 1)))),
  (n!"CS_bstaumu", (.div (.mul (.div (.div (.div (.sqrt (.rat 2 1)) (.par n!"GF")) (.mul (.ckm 2 2) (.conj (.ckm 2 1)))) (.rat 4 1)) (.mul (.div (.div (.mul (.rat 16 1) (.mul .pi .pi)) (.mul (.sqrt (.mul (.mul (.rat 4 1) .pi) (.par n!"alpha_e"))) (.sqrt (.mul (.mul (.rat 4 1) .pi) (.par n!"alpha_e"))))) (.par n!"m_b")) (.add (.inp n!"5sbmutau") (.mul (.rat 40 1) (.inp n!"9sbmutau"))))) (.div (.div (.sqrt (.rat 2 1)) (.par n!"GF")) (.rat 4 1)))),
  (n!"C9p_sdmumu", (.div (.mul (.div (.div (.div (.sqrt (.rat 2 1)) (.par n!"GF")) (.mul (.ckm 2 1) (.conj (.ckm 2 0)))) (.rat 4 1)) (.mul (.div (.mul (.rat 16 1) (.mul .pi .pi)) (.mul (.sqrt (.mul (.mul (.rat 4 1) .pi) (.par n!"alpha_e"))) (.sqrt (.mul (.mul (.rat 4 1) .pi) (.par n!"alpha_e"))))) (.add (.inp n!"1pdsmumu") (.mul (.rat 10 1) (.inp n!"3pdsmumu"))))) (.div (.div (.sqrt (.rat 2 1)) (.par n!"GF")) (.rat 4 1)))),
  (n!"CSp_bdtaumu", (.div (.mul (.div (.div (.div (.sqrt (.rat 2 1)) (.par n!"GF")) (.mul (.ckm 2 2) (.conj (.ckm 2 0)))) (.rat 4 1)) (.mul (.div (.div (.mul (.rat 16 1) (.mul .pi .pi)) (.mul (.sqrt (.mul (.mul (.rat 4 1) .pi) (.par n!"alpha_e"))) (.sqrt (.mul (.mul (.rat 4 1) .pi) (.par n!"alpha_e"))))) (.par n!"m_b")) (.add (.inp n!"5pdbmutau") (.mul (.rat 40 1) (.inp n!"9pdbmutau"))))) (.div (.div (.sqrt (.rat 2 1)) (.par n!"GF")) (.rat 4 1)))),
  (n!"CL_bdnutaunue", (.div (.mul (.div (.div (.div (.sqrt (.rat 2 1)) (.par n!"GF")) (.mul (.ckm 2 2) (.conj (.ckm 2 0)))) (.rat 4 1)) (.mul (.div (.mul (.rat 8 1) (.mul .pi .pi)) (.mul (.sqrt (.mul (.mul (.rat 4 1) .pi) (.par n!"alpha_e"))) (.sqrt (.mul (.mul (.rat 4 1) .pi) (.par n!"alpha_e"))))) (.inp n!"nu1dbetau"))) (.div (.div (.sqrt (.rat 2 1)) (.par n!"GF")) (.rat 4 1)))),
  (n!"CL_bsnumunue", (.div (.mul (.div (.div (.div (.sqrt (.rat 2 1)) (.par n!"GF")) (.mul (.ckm 2 2) (.conj (.ckm 2 1)))) (.rat 4 1)) (.mul (.div (.mul (.rat 8 1) (.mul .pi .pi)) (.mul (.sqrt (.mul (.mul (.rat 4 1) .pi) (.par n!"alpha_e"))) (.sqrt (.mul (.mul (.rat 4 1) .pi) (.par n!"alpha_e"))))) (.inp n!"nu1sbemu"))) (.div (.div (.sqrt (.rat 2 1)) (.par n!"GF")) (.rat 4 1)))),
  (n!"CVR_sumunue", (.div (.mul (.div (.div (.div (.neg (.sqrt (.rat 2 1))) (.par n!"GF")) (.ckm 0 1)) (.rat 4 1)) (.inp n!"1pusmue")) (.div (.div (.sqrt (.rat 2 1)) (.par n!"GF")) (.rat 4 1)))),
  (n!"CPp_sdmue", (.div (.mul (.div (.div (.div (.sqrt (.rat 2 1)) (.par n!"GF")) (.mul (.ckm 2 1) (.conj (.ckm 2 0)))) (.rat 4 1)) (.mul (.div (.div (.mul (.rat 16 1) (.mul .pi .pi)) (.mul (.sqrt (.mul (.mul (.rat 4 1) .pi) (.par n!"alpha_e"))) (.sqrt (.mul (.mul (.rat 4 1) .pi) (.par n!"alpha_e"))))) (.par n!"m_s")) (.mul (.rat (-24) 1) (.inp n!"9pdsemu")))) (.div (.div (.sqrt (.rat 2 1)) (.par n!"GF")) (.rat 4 1)))),
  (n!"CVLRt_sduu", (.div (.mul (.div (.div (.div (.sqrt (.rat 2 1)) (.par n!"GF")) (.mul (.ckm 2 1) (.conj (.ckm 2 0)))) (.rat 4 1)) (.add (.div (.inp n!"2dsuu") (.rat 2 1)) (.mul (.rat 2 1) (.inp n!"4dsuu")))) (.div (.div (.sqrt (.rat 2 1)) (.par n!"GF")) (.rat 4 1)))),
  (n!"CSR_bumunutau", (.div (.mul (.div (.div (.div (.neg (.sqrt (.rat 2 1))) (.par n!"GF")) (.ckm 0 2)) (.rat 4 1)) (.inp n!"5ubmutau")) (.div (.div (.sqrt (.rat 2 1)) (.par n!"GF")) (.rat 4 1)))),
  (n!"CTLLt_bsuu", (.div (.mul (.div (.div (.div (.sqrt (.rat 2 1)) (.par n!"GF")) (.mul (.ckm 2 2) (.conj (.ckm 2 1)))) (.rat 4 1)) (.add (.mul (.rat (-8) 1) (.inp n!"10psbuu")) (.div (.inp n!"8psbuu") (.rat 2 1)))) (.div (.div (.sqrt (.rat 2 1)) (.par n!"GF")) (.rat 4 1)))),
  (n!"CPp_sdetau", (.div (.mul (.div (.div (.div (.sqrt (.rat 2 1)) (.par n!"GF")) (.mul (.ckm 2 1) (.conj (.ckm 2 0)))) (.rat 4 1)) (.mul (.div (.div (.mul (.rat 16 1) (.mul .pi .pi)) (.mul (.sqrt (.mul (.mul (.rat 4 1) .pi) (.par n!"alpha_e"))) (.sqrt (.mul (.mul (.rat 4 1) .pi) (.par n!"alpha_e"))))) (.par n!"m_s")) (.mul (.rat (-24) 1) (.inp n!"9pdstaue")))) (.div (.div (.sqrt (.rat 2 1)) (.par n!"GF")) (.rat 4 1)))),
  (n!"CP_sdtaue", (.div (.mul (.div (.div (.div (.sqrt (.rat 2 1)) (.par n!"GF")) (.mul (.ckm 2 1) (.conj (.ckm 2 0)))) (.rat 4 1)) (.mul (.div (.div (.mul (.rat 16 1) (.mul .pi .pi)) (.mul (.sqrt (.mul (.mul (.rat 4 1) .pi) (.par n!"alpha_e"))) (.sqrt (.mul (.mul (.rat 4 1) .pi) (.par n!"alpha_e"))))) (.par n!"m_s")) (.mul (.rat 24 1) (.inp n!"9dsetau")))) (.div (.div (.sqrt (.rat 2 1)) (.par n!"GF")) (.rat 4 1)))),
  (n!"C9p_bdmutau", (.div (.mul (.div (.div (.div (.sqrt (.rat 2 1)) (.par n!"GF")) (.mul (.ckm 2 2) (.conj (.ckm 2 0)))) (.rat 4 1)) (.mul (.div (.mul (.rat 16 1) (.mul .pi .pi)) (.mul (.sqrt (.mul (.mul (.rat 4 1) .pi) (.par n!"alpha_e"))) (.sqrt (.mul (.mul (.rat 4 1) .pi) (.par n!"alpha_e"))))) (.add (.inp n!"1pdbtaumu") (.mul (.rat 10 1) (.inp n!"3pdbtaumu"))))) (.div (.div (.sqrt (.rat 2 1)) (.par n!"GF")) (.rat 4 1)))),
  (n!"CVL_bctaunutau", (.div (.mul (.div (.div (.div (.neg (.sqrt (.rat 2 1))) (.par n!"GF")) (.ckm 1 2)) (.rat 4 1)) (.inp n!"1cbtautau")) (.div (.div (.sqrt (.rat 2 1)) (.par n!"GF")) (.rat 4 1)))),
  (n!"CSL_bctaunumu", (.div (.mul (.div (.div (.div (.neg (.sqrt (.rat 2 1))) (.par n!"GF")) (.ckm 1 2)) (.rat 4 1)) (.inp n!"5pcbtaumu")) (.div (.div (.sqrt (.rat 2 1)) (.par n!"GF")) (.rat 4 1)))),
  (n!"CP_sdtaumu", (.div (.mul (.div (.div (.div (.sqrt (.rat 2 1)) (.par n!"GF")) (.mul (.ckm 2 1) (.conj (.ckm 2 0)))) (.rat 4 1)) (.mul (.div (.div (.mul (.rat 16 1) (.mul .pi .pi)) (.mul (.sqrt (.mul (.mul (.rat 4 1) .pi) (.par n!"alpha_e"))) (.sqrt (.mul (.mul (.rat 4 1) .pi) (.par n!"alpha_e"))))) (.par n!"m_s")) (.mul (.rat 24 1) (.inp n!"9dsmutau")))) (.div (.div (.sqrt (.rat 2 1)) (.par n!"GF")) (.rat 4 1)))),
  (n!"CTRR_bsbs", (.div (.mul (.div (.rat (-1) 1) (.rat 8 1)) (.inp n!"3psbsb")) (.div (.div (.sqrt (.rat 2 1)) (.par n!"GF")) (.rat 4 1)))),
  (n!"CT_dctaunumu", (.div (.mul (.div (.div (.div (.neg (.sqrt (.rat 2 1))) (.par n!"GF")) (.ckm 1 0)) (.rat 4 1)) (.inp n!"7pcdtaumu")) (.div (.div (.sqrt (.rat 2 1)) (.par n!"GF")) (.rat 4 1)))),
  (n!"CVLRt_bdss", (.div (.mul (.div (.div (.div (.sqrt (.rat 2 1)) (.par n!"GF")) (.mul (.ckm 2 2) (.conj (.ckm 2 0)))) (.rat 4 1)) (.add (.div (.inp n!"2dbss") (.rat 2 1)) (.mul (.rat 2 1) (.inp n!"4dbss")))) (.div (.div (.sqrt (.rat 2 1)) (.par n!"GF")) (.rat 4 1))))]

def Bern_to_flavio_7 : List (ℕ × Sym) := [
  (n!"CVL_dumunue", (.div (.mul (.div (.div (.div (.neg (.sqrt (.rat 2 1))) (.par n!"GF")) (.ckm 0 0)) (.rat 4 1)) (.inp n!"1udmue")) (.div (.div (.sqrt (.rat 2 1)) (.par n!"GF")) (.rat 4 1)))),
  (n!"CVL_bumunumu", (.div (.mul (.div (.div (.div (.neg (.sqrt (.rat 2 1))) (.par n!"GF")) (.ckm 0 2)) (.rat 4 1)) (.inp n!"1ubmumu")) (.div (.div (.sqrt (.rat 2 1)) (.par n!"GF")) (.rat 4 1)))),
  (n!"C9_bstautau", (.div (.mul (.div (.div (.div (.sqrt (.rat 2 1)) (.par n!"GF")) (.mul (.ckm 2 2) (.conj (.ckm 2 1)))) (.rat 4 1)) (.mul (.div (.mul (.rat 16 1) (.mul .pi .pi)) (.mul (.sqrt (.mul (.mul (.rat 4 1) .pi) (.par n!"alpha_e"))) (.sqrt (.mul (.mul (.rat 4 1) .pi) (.par n!"alpha_e"))))) (.add (.inp n!"1sbtautau") (.mul (.rat 10 1) (.inp n!"3sbtautau"))))) (.div (.div (.sqrt (.rat 2 1)) (.par n!"GF")) (.rat 4 1)))),
  (n!"C10_sdetau", (.div (.mul (.div (.div (.div (.sqrt (.rat 2 1)) (.par n!"GF")) (.mul (.ckm 2 1) (.conj (.ckm 2 0)))) (.rat 4 1)) (.mul (.div (.mul (.rat 16 1) (.mul .pi .pi)) (.mul (.sqrt (.mul (.mul (.rat 4 1) .pi) (.par n!"alpha_e"))) (.sqrt (.mul (.mul (.rat 4 1) .pi) (.par n!"alpha_e"))))) (.mul (.rat (-6) 1) (.inp n!"3dstaue")))) (.div (.div (.sqrt (.rat 2 1)) (.par n!"GF")) (.rat 4 1)))),
  (n!"C10p_bsetau", (.div (.mul (.div (.div (.div (.sqrt (.rat 2 1)) (.par n!"GF")) (.mul (.ckm 2 2) (.conj (.ckm 2 1)))) (.rat 4 1)) (.mul (.div (.mul (.rat 16 1) (.mul .pi .pi)) (.mul (.sqrt (.mul (.mul (.rat 4 1) .pi) (.par n!"alpha_e"))) (.sqrt (.mul (.mul (.rat 4 1) .pi) (.par n!"alpha_e"))))) (.mul (.rat 6 1) (.inp n!"3psbtaue")))) (.div (.div (.sqrt (.rat 2 1)) (.par n!"GF")) (.rat 4 1)))),
  (n!"CSLR_bsbs", (.div (.inp n!"4sbsb") (.div (.div (.sqrt (.rat 2 1)) (.par n!"GF")) (.rat 4 1)))),
  (n!"CSR_dcenue", (.div (.mul (.div (.div (.div (.neg (.sqrt (.rat 2 1))) (.par n!"GF")) (.ckm 1 0)) (.rat 4 1)) (.inp n!"5cdee")) (.div (.div (.sqrt (.rat 2 1)) (.par n!"GF")) (.rat 4 1)))),
  (n!"CT_dumunue", (.div (.mul (.div (.div (.div (.neg (.sqrt (.rat 2 1))) (.par n!"GF")) (.ckm 0 0)) (.rat 4 1)) (.inp n!"7pudmue")) (.div (.div (.sqrt (.rat 2 1)) (.par n!"GF")) (.rat 4 1)))),
  (n!"CSp_bsemu", (.div (.mul (.div (.div (.div (.sqrt (.rat 2 1)) (.par n!"GF")) (.mul (.ckm 2 2) (.conj (.ckm 2 1)))) (.rat 4 1)) (.mul (.div (.div (.mul (.rat 16 1) (.mul .pi .pi)) (.mul (.sqrt (.mul (.mul (.rat 4 1) .pi) (.par n!"alpha_e"))) (.sqrt (.mul (.mul (.rat 4 1) .pi) (.par n!"alpha_e"))))) (.par n!"m_b")) (.add (.inp n!"5psbmue") (.mul (.rat 40 1) (.inp n!"9psbmue"))))) (.div (.div (.sqrt (.rat 2 1)) (.par n!"GF")) (.rat 4 1)))),
  (n!"CVLL_bsbb", (.div (.mul (.div (.div (.div (.sqrt (.rat 2 1)) (.par n!"GF")) (.mul (.ckm 2 2) (.conj (.ckm 2 1)))) (.rat 4 1)) (.add (.inp n!"1sbbb") (.mul (.rat 16 1) (.inp n!"3sbbb")))) (.div (.div (.sqrt (.rat 2 1)) (.par n!"GF")) (.rat 4 1)))),
  (n!"C9p_sdmue", (.div (.mul (.div (.div (.div (.sqrt (.rat 2 1)) (.par n!"GF")) (.mul (.ckm 2 1) (.conj (.ckm 2 0)))) (.rat 4 1)) (.mul (.div (.mul (.rat 16 1) (.mul .pi .pi)) (.mul (.sqrt (.mul (.mul (.rat 4 1) .pi) (.par n!"alpha_e"))) (.sqrt (.mul (.mul (.rat 4 1) .pi) (.par n!"alpha_e"))))) (.add (.inp n!"1pdsemu") (.mul (.rat 10 1) (.inp n!"3pdsemu"))))) (.div (.div (.sqrt (.rat 2 1)) (.par n!"GF")) (.rat 4 1)))),
  (n!"CSLLt_bscc", (.div (.mul (.div (.div (.div (.sqrt (.rat 2 1)) (.par n!"GF")) (.mul (.ckm 2 2) (.conj (.ckm 2 1)))) (.rat 4 1)) (.add (.mul (.rat 32 1) (.inp n!"10psbcc")) (.div (.inp n!"6psbcc") (.rat 2 1)))) (.div (.div (.sqrt (.rat 2 1)) (.par n!"GF")) (.rat 4 1)))),
  (n!"CR_bdnutaunutau", (.div (.mul (.div (.div (.div (.sqrt (.rat 2 1)) (.par n!"GF")) (.mul (.ckm 2 2) (.conj (.ckm 2 0)))) (.rat 4 1)) (.mul (.div (.mul (.rat 8 1) (.mul .pi .pi)) (.mul (.sqrt (.mul (.mul (.rat 4 1) .pi) (.par n!"alpha_e"))) (.sqrt (.mul (.mul (.rat 4 1) .pi) (.par n!"alpha_e"))))) (.inp n!"nu1pdbtautau"))) (.div (.div (.sqrt (.rat 2 1)) (.par n!"GF")) (.rat 4 1)))),
  (n!"CR_bsnuenutau", (.div (.mul (.div (.div (.div (.sqrt (.rat 2 1)) (.par n!"GF")) (.mul (.ckm 2 2) (.conj (.ckm 2 1)))) (.rat 4 1)) (.mul (.div (.mul (.rat 8 1) (.mul .pi .pi)) (.mul (.sqrt (.mul (.mul (.rat 4 1) .pi) (.par n!"alpha_e"))) (.sqrt (.mul (.mul (.rat 4 1) .pi) (.par n!"alpha_e"))))) (.inp n!"nu1psbtaue"))) (.div (.div (.sqrt (.rat 2 1)) (.par n!"GF")) (.rat 4 1)))),
  (n!"C9_sdtaue", (.div (.mul (.div (.div (.div (.sqrt (.rat 2 1)) (.par n!"GF")) (.mul (.ckm 2 1) (.conj (.ckm 2 0)))) (.rat 4 1)) (.mul (.div (.mul (.rat 16 1) (.mul .pi .pi)) (.mul (.sqrt (.mul (.mul (.rat 4 1) .pi) (.par n!"alpha_e"))) (.sqrt (.mul (.mul (.rat 4 1) .pi) (.par n!"alpha_e"))))) (.add (.inp n!"1dsetau") (.mul (.rat 10 1) (.inp n!"3dsetau"))))) (.div (.div (.sqrt (.rat 2 1)) (.par n!"GF")) (.rat 4 1)))),
  (n!"CT_bctaunutau", (.div (.mul (.div (.div (.div (.neg (.sqrt (.rat 2 1))) (.par n!"GF")) (.ckm 1 2)) (.rat 4 1)) (.inp n!"7pcbtautau")) (.div (.div (.sqrt (.rat 2 1)) (.par n!"GF")) (.rat 4 1)))),
  (n!"CL_sdnuenue", (.div (.mul (.div (.div (.div (.sqrt (.rat 2 1)) (.par n!"GF")) (.mul (.ckm 2 1) (.conj (.ckm 2 0)))) (.rat 4 1)) (.mul (.div (.mul (.rat 8 1) (.mul .pi .pi)) (.mul (.sqrt (.mul (.mul (.rat 4 1) .pi) (.par n!"alpha_e"))) (.sqrt (.mul (.mul (.rat 4 1) .pi) (.par n!"alpha_e"))))) (.inp n!"nu1dsee"))) (.div (.div (.sqrt (.rat 2 1)) (.par n!"GF")) (.rat 4 1)))),
  (n!"CVR_dumunutau", (.div (.mul (.div (.div (.div (.neg (.sqrt (.rat 2 1))) (.par n!"GF")) (.ckm 0 0)) (.rat 4 1)) (.inp n!"1pudmutau")) (.div (.div (.sqrt (.rat 2 1)) (.par n!"GF")) (.rat 4 1)))),
  (n!"CSL_bcmunumu", (.div (.mul (.div (.div (.div (.neg (.sqrt (.rat 2 1))) (.par n!"GF")) (.ckm 1 2)) (.rat 4 1)) (.inp n!"5pcbmumu")) (.div (.div (.sqrt (.rat 2 1)) (.par n!"GF")) (.rat 4 1)))),
  (n!"CTLL_sdbb", (.div (.mul (.div (.div (.div (.sqrt (.rat 2 1)) (.par n!"GF")) (.mul (.ckm 2 1) (.conj (.ckm 2 0)))) (.rat 4 1)) (.sub (.sub (.add (.div (.mul (.rat 8 1) (.inp n!"10pdsbb")) (.rat 3 1)) (.inp n!"7pdsbb")) (.div (.inp n!"8pdsbb") (.rat 6 1))) (.mul (.rat 16 1) (.inp n!"9pdsbb")))) (.div (.div (.sqrt (.rat 2 1)) (.par n!"GF")) (.rat 4 1)))),
  (n!"CS_bdetau", (.div (.mul (.div (.div (.div (.sqrt (.rat 2 1)) (.par n!"GF")) (.mul (.ckm 2 2) (.conj (.ckm 2 0)))) (.rat 4 1)) (.mul (.div (.div (.mul (.rat 16 1) (.mul .pi .pi)) (.mul (.sqrt (.mul (.mul (.rat 4 1) .pi) (.par n!"alpha_e"))) (.sqrt (.mul (.mul (.rat 4 1) .pi) (.par n!"alpha_e"))))) (.par n!"m_b")) (.add (.inp n!"5dbtaue") (.mul (.rat 40 1) (.inp n!"9dbtaue"))))) (.div (.div (.sqrt (.rat 2 1)) (.par n!"GF")) (.rat 4 1)))),
  (n!"CVL_dctaunumu", (.div (.mul (.div (.div (.div (.neg (.sqrt (.rat 2 1))) (.par n!"GF")) (.ckm 1 0)) (.rat 4 1)) (.inp n!"1cdtaumu")) (.div (.div (.sqrt (.rat 2 1)) (.par n!"GF")) (.rat 4 1)))),
  (n!"CTLL_bsss", (.div (.mul (.div (.div (.div (.sqrt (.rat 2 1)) (.par n!"GF")) (.mul (.ckm 2 2) (.conj (.ckm 2 1)))) (.rat 4 1)) (.sub (.inp n!"7sbss") (.mul (.rat 16 1) (.inp n!"9sbss")))) (.div (.div (.sqrt (.rat 2 1)) (.par n!"GF")) (.rat 4 1)))),
  (n!"CTRR_bddd", (.div (.mul (.div (.div (.div (.sqrt (.rat 2 1)) (.par n!"GF")) (.mul (.ckm 2 2) (.conj (.ckm 2 0)))) (.rat 4 1)) (.sub (.inp n!"7pdbdd") (.mul (.rat 16 1) (.inp n!"9pdbdd")))) (.div (.div (.sqrt (.rat 2 1)) (.par n!"GF")) (.rat 4 1)))),
  (n!"CVLL_sdcc", (.div (.mul (.div (.div (.div (.sqrt (.rat 2 1)) (.par n!"GF")) (.mul (.ckm 2 1) (.conj (.ckm 2 0)))) (.rat 4 1)) (.sub (.add (.sub (.inp n!"1dscc") (.div (.inp n!"2dscc") (.rat 6 1))) (.mul (.rat 16 1) (.inp n!"3dscc"))) (.div (.mul (.rat 8 1) (.inp n!"4dscc")) (.rat 3 1)))) (.div (.div (.sqrt (.rat 2 1)) (.par n!"GF")) (.rat 4 1)))),
  (n!"C9p_bdmumu", (.div (.mul (.div (.div (.div (.sqrt (.rat 2 1)) (.par n!"GF")) (.mul (.ckm 2 2) (.conj (.ckm 2 0)))) (.rat 4 1)) (.mul (.div (.mul (.rat 16 1) (.mul .pi .pi)) (.mul (.sqrt (.mul (.mul (.rat 4 1) .pi) (.par n!"alpha_e"))) (.sqrt (.mul (.mul (.rat 4 1) .pi) (.par n!"alpha_e"))))) (.add (.inp n!"1pdbmumu") (.mul (.rat 10 1) (.inp n!"3pdbmumu"))))) (.div (.div (.sqrt (.rat 2 1)) (.par n!"GF")) (.rat 4 1)))),
  (n!"CVL_bumunue", (.div (.mul (.div (.div (.div (.neg (.sqrt (.rat 2 1))) (.par n!"GF")) (.ckm 0 2)) (.rat 4 1)) (.inp n!"1ubmue")) (.div (.div (.sqrt (.rat 2 1)) (.par n!"GF")) (.rat 4 1)))),
  (n!"CSL_butaunutau", (.div (.mul (.div (.div (.div (.neg (.sqrt (.rat 2 1))) (.par n!"GF")) (.ckm 0 2)) (.rat 4 1)) (.inp n!"5pubtautau")) (.div (.div (.sqrt (.rat 2 1)) (.par n!"GF")) (.rat 4 1)))),
  (n!"CSLR_bddd", (.div (.mul (.div (.div (.div (.sqrt (.rat 2 1)) (.par n!"GF")) (.mul (.ckm 2 2) (.conj (.ckm 2 0)))) (.rat 4 1)) (.add (.inp n!"5dbdd") (.mul (.rat 16 1) (.inp n!"9dbdd")))) (.div (.div (.sqrt (.rat 2 1)) (.par n!"GF")) (.rat 4 1)))),
  (n!"CVL_scmunue", (.div (.mul (.div (.div (.div (.neg (.sqrt (.rat 2 1))) (.par n!"GF")) (.ckm 1 1)) (.rat 4 1)) (.inp n!"1csmue")) (.div (.div (.sqrt (.rat 2 1)) (.par n!"GF")) (.rat 4 1)))),
  (n!"CVR_duenutau", (.div (.mul (.div (.div (.div (.neg (.sqrt (.rat 2 1))) (.par n!"GF")) (.ckm 0 0)) (.rat 4 1)) (.inp n!"1pudetau")) (.div (.div (.sqrt (.rat 2 1)) (.par n!"GF")) (.rat 4 1)))),
  (n!"CSRL_sdss", (.div (.mul (.div (.div (.div (.sqrt (.rat 2 1)) (.par n!"GF")) (.mul (.ckm 2 1) (.conj (.ckm 2 0)))) (.rat 4 1)) (.add (.inp n!"5dsss") (.mul (.rat 16 1) (.inp n!"9dsss")))) (.div (.div (.sqrt (.rat 2 1)) (.par n!"GF")) (.rat 4 1)))),
  (n!"CT_bumunue", (.div (.mul (.div (.div (.div (.neg (.sqrt (.rat 2 1))) (.par n!"GF")) (.ckm 0 2)) (.rat 4 1)) (.inp n!"7pubmue")) (.div (.div (.sqrt (.rat 2 1)) (.par n!"GF")) (.rat 4 1)))),
  (n!"CT_bcmunutau", (.div (.mul (.div (.div (.div (.neg (.sqrt (.rat 2 1))) (.par n!"GF")) (.ckm 1 2)) (.rat 4 1)) (.inp n!"7pcbmutau")) (.div (.div (.sqrt (.rat 2 1)) (.par n!"GF")) (.rat 4 1)))),
  (n!"CVRR_sdss", (.div (.mul (.div (.div (.div (.sqrt (.rat 2 1)) (.par n!"GF")) (.mul (.ckm 2 1) (.conj (.ckm 2 0)))) (.rat 4 1)) (.add (.inp n!"1pdsss") (.mul (.rat 16 1) (.inp n!"3pdsss")))) (.div (.div (.sqrt (.rat 2 1)) (.par n!"GF")) (.rat 4 1)))),
  (n!"CSLLt_bsuu", (.div (.mul (.div (.div (.div (.sqrt (.rat 2 1)) (.par n!"GF")) (.mul (.ckm 2 2) (.conj (.ckm 2 1)))) (.rat 4 1)) (.add (.mul (.rat 32 1) (.inp n!"10psbuu")) (.div (.inp n!"6psbuu") (.rat 2 1)))) (.div (.div (.sqrt (.rat 2 1)) (.par n!"GF")) (.rat 4 1)))),
  (n!"CT_scmunue", (.div (.mul (.div (.div (.div (.neg (.sqrt (.rat 2 1))) (.par n!"GF")) (.ckm 1 1)) (.rat 4 1)) (.inp n!"7pcsmue")) (.div (.div (.sqrt (.rat 2 1)) (.par n!"GF")) (.rat 4 1)))),
  (n!"C8p_bs", (.div (.mul (.div (.div (.div (.sqrt (.rat 2 1)) (.par n!"GF")) (.mul (.ckm 2 2) (.conj (.ckm 2 1)))) (.rat 4 1)) (.mul (.div (.div (.mul (.rat 16 1) (.mul .pi .pi)) (.sqrt (.mul (.mul (.rat 4 1) .pi) (.par n!"alpha_s")))) (.par n!"m_b")) (.div (.inp n!"8pgsb") (.div (.sqrt (.mul (.mul (.rat 4 1) .pi) (.par n!"alpha_s"))) (.par n!"m_b"))))) (.div (.div (.sqrt (.rat 2 1)) (.par n!"GF")) (.rat 4 1)))),
  (n!"C10p_bsemu", (.div (.mul (.div (.div (.div (.sqrt (.rat 2 1)) (.par n!"GF")) (.mul (.ckm 2 2) (.conj (.ckm 2 1)))) (.rat 4 1)) (.mul (.div (.mul (.rat 16 1) (.mul .pi .pi)) (.mul (.sqrt (.mul (.mul (.rat 4 1) .pi) (.par n!"alpha_e"))) (.sqrt (.mul (.mul (.rat 4 1) .pi) (.par n!"alpha_e"))))) (.mul (.rat 6 1) (.inp n!"3psbmue")))) (.div (.div (.sqrt (.rat 2 1)) (.par n!"GF")) (.rat 4 1)))),
  (n!"C9_sdmutau", (.div (.mul (.div (.div (.div (.sqrt (.rat 2 1)) (.par n!"GF")) (.mul (.ckm 2 1) (.conj (.ckm 2 0)))) (.rat 4 1)) (.mul (.div (.mul (.rat 16 1) (.mul .pi .pi)) (.mul (.sqrt (.mul (.mul (.rat 4 1) .pi) (.par n!"alpha_e"))) (.sqrt (.mul (.mul (.rat 4 1) .pi) (.par n!"alpha_e"))))) (.add (.inp n!"1dstaumu") (.mul (.rat 10 1) (.inp n!"3dstaumu"))))) (.div (.div (.sqrt (.rat 2 1)) (.par n!"GF")) (.rat 4 1)))),
  (n!"CPp_bdetau", (.div (.mul (.div (.div (.div (.sqrt (.rat 2 1)) (.par n!"GF")) (.mul (.ckm 2 2) (.conj (.ckm 2 0)))) (.rat 4 1)) (.mul (.div (.div (.mul (.rat 16 1) (.mul .pi .pi)) (.mul (.sqrt (.mul (.mul (.rat 4 1) .pi) (.par n!"alpha_e"))) (.sqrt (.mul (.mul (.rat 4 1) .pi) (.par n!"alpha_e"))))) (.par n!"m_b")) (.mul (.rat (-24) 1) (.inp n!"9pdbtaue")))) (.div (.div (.sqrt (.rat 2 1)) (.par n!"GF")) (.rat 4 1)))),
  (n!"CP_bdtaue", (.div (.mul (.div (.div (.div (.sqrt (.rat 2 1)) (.par n!"GF")) (.mul (.ckm 2 2) (.conj (.ckm 2 0)))) (.rat 4 1)) (.mul (.div (.div (.mul (.rat 16 1) (.mul .pi .pi)) (.mul (.sqrt (.mul (.mul (.rat 4 1) .pi) (.par n!"alpha_e"))) (.sqrt (.mul (.mul (.rat 4 1) .pi) (.par n!"alpha_e"))))) (.par n!"m_b")) (.mul (.rat 24 1) (.inp n!"9dbetau")))) (.div (.div (.sqrt (.rat 2 1)) (.par n!"GF")) (.rat 4 1)))),
  (n!"CSR_butaunumu", (.div (.mul (.div (.div (.div (.neg (.sqrt (.rat 2 1))) (.par n!"GF")) (.ckm 0 2)) (.rat 4 1)) (.inp n!"5ubtaumu")) (.div (.div (.sqrt (.rat 2 1)) (.par n!"GF")) (.rat 4 1)))),
  (n!"CT_dcenutau", (.div (.mul (.div (.div (.div (.neg (.sqrt (.rat 2 1))) (.par n!"GF")) (.ckm 1 0)) (.rat 4 1)) (.inp n!"7pcdetau")) (.div (.div (.sqrt (.rat 2 1)) (.par n!"GF")) (.rat 4 1)))),
  (n!"CVLL_sduu", (.div (.mul (.div (.div (.div (.sqrt (.rat 2 1)) (.par n!"GF")) (.mul (.ckm 2 1) (.conj (.ckm 2 0)))) (.rat 4 1)) (.sub (.add (.sub (.inp n!"1dsuu") (.div (.inp n!"2dsuu") (.rat 6 1))) (.mul (.rat 16 1) (.inp n!"3dsuu"))) (.div (.mul (.rat 8 1) (.inp n!"4dsuu")) (.rat 3 1)))) (.div (.div (.sqrt (.rat 2 1)) (.par n!"GF")) (.rat 4 1)))),
  (n!"CVLLt_sdcc", (.div (.mul (.div (.div (.div (.sqrt (.rat 2 1)) (.par n!"GF")) (.mul (.ckm 2 1) (.conj (.ckm 2 0)))) (.rat 4 1)) (.add (.div (.inp n!"2dscc") (.rat 2 1)) (.mul (.rat 8 1) (.inp n!"4dscc")))) (.div (.div (.sqrt (.rat 2 1)) (.par n!"GF")) (.rat 4 1)))),
  (n!"CSR_dcenutau", (.div (.mul (.div (.div (.div (.neg (.sqrt (.rat 2 1))) (.par n!"GF")) (.ckm 1 0)) (.rat 4 1)) (.inp n!"5cdetau")) (.div (.div (.sqrt (.rat 2 1)) (.par n!"GF")) (.rat 4 1)))),
  (n!"CP_bsmutau", (.div (.mul (.div (.div (.div (.sqrt (.rat 2 1)) (.par n!"GF")) (.mul (.ckm 2 2) (.conj (.ckm 2 1)))) (.rat 4 1)) (.mul (.div (.div (.mul (.rat 16 1) (.mul .pi .pi)) (.mul (.sqrt (.mul (.mul (.rat 4 1) .pi) (.par n!"alpha_e"))) (.sqrt (.mul (.mul (.rat 4 1) .pi) (.par n!"alpha_e"))))) (.par n!"m_b")) (.mul (.rat 24 1) (.inp n!"9sbtaumu")))) (.div (.div (.sqrt (.rat 2 1)) (.par n!"GF")) (.rat 4 1)))),
  (n!"C10_bdetau", (.div (.mul (.div (.div (.div (.sqrt (.rat 2 1)) (.par n!"GF")) (.mul (.ckm 2 2) (.conj (.ckm 2 0)))) (.rat 4 1)) (.mul (.div (.mul (.rat 16 1) (.mul .pi .pi)) (.mul (.sqrt (.mul (.mul (.rat 4 1) .pi) (.par n!"alpha_e"))) (.sqrt (.mul (.mul (.rat 4 1) .pi) (.par n!"alpha_e"))))) (.mul (.rat (-6) 1) (.inp n!"3dbtaue")))) (.div (.div (.sqrt (.rat 2 1)) (.par n!"GF")) (.rat 4 1)))),
  (n!"C9p_bdtaumu", (.div (.mul (.div (.div (.div (.sqrt (.rat 2 1)) (.par n!"GF")) (.mul (.ckm 2 2) (.conj (.ckm 2 0)))) (.rat 4 1)) (.mul (.div (.mul (.rat 16 1) (.mul .pi .pi)) (.mul (.sqrt (.mul (.mul (.rat 4 1) .pi) (.par n!"alpha_e"))) (.sqrt (.mul (.mul (.rat 4 1) .pi) (.par n!"alpha_e"))))) (.add (.inp n!"1pdbmutau") (.mul (.rat 10 1) (.inp n!"3pdbmutau"))))) (.div (.div (.sqrt (.rat 2 1)) (.par n!"GF")) (.rat 4 1))))]

def Bern_to_flavio_8 : List (ℕ × Sym) := [
  (n!"CT_suenutau", (.div (.mul (.div (.div (.div (.neg (.sqrt (.rat 2 1))) (.par n!"GF")) (.ckm 0 1)) (.rat 4 1)) (.inp n!"7pusetau")) (.div (.div (.sqrt (.rat 2 1)) (.par n!"GF")) (.rat 4 1)))),
  (n!"CPp_sdee", (.div (.mul (.div (.div (.div (.sqrt (.rat 2 1)) (.par n!"GF")) (.mul (.ckm 2 1) (.conj (.ckm 2 0)))) (.rat 4 1)) (.mul (.div (.div (.mul (.rat 16 1) (.mul .pi .pi)) (.mul (.sqrt (.mul (.mul (.rat 4 1) .pi) (.par n!"alpha_e"))) (.sqrt (.mul (.mul (.rat 4 1) .pi) (.par n!"alpha_e"))))) (.par n!"m_s")) (.mul (.rat (-24) 1) (.inp n!"9pdsee")))) (.div (.div (.sqrt (.rat 2 1)) (.par n!"GF")) (.rat 4 1)))),
  (n!"CVL_bcmunutau", (.div (.mul (.div (.div (.div (.neg (.sqrt (.rat 2 1))) (.par n!"GF")) (.ckm 1 2)) (.rat 4 1)) (.inp n!"1cbmutau")) (.div (.div (.sqrt (.rat 2 1)) (.par n!"GF")) (.rat 4 1)))),
  (n!"CVLL_bdss", (.div (.mul (.div (.div (.div (.sqrt (.rat 2 1)) (.par n!"GF")) (.mul (.ckm 2 2) (.conj (.ckm 2 0)))) (.rat 4 1)) (.sub (.add (.sub (.inp n!"1dbss") (.div (.inp n!"2dbss") (.rat 6 1))) (.mul (.rat 16 1) (.inp n!"3dbss"))) (.div (.mul (.rat 8 1) (.inp n!"4dbss")) (.rat 3 1)))) (.div (.div (.sqrt (.rat 2 1)) (.par n!"GF")) (.rat 4 1)))),
  (n!"CSR_suenutau", (.div (.mul (.div (.div (.div (.neg (.sqrt (.rat 2 1))) (.par n!"GF")) (.ckm 0 1)) (.rat 4 1)) (.inp n!"5usetau")) (.div (.div (.sqrt (.rat 2 1)) (.par n!"GF")) (.rat 4 1)))),
  (n!"CSR_dcenumu", (.div (.mul (.div (.div (.div (.neg (.sqrt (.rat 2 1))) (.par n!"GF")) (.ckm 1 0)) (.rat 4 1)) (.inp n!"5cdemu")) (.div (.div (.sqrt (.rat 2 1)) (.par n!"GF")) (.rat 4 1)))),
  (n!"C10_bsemu", (.div (.mul (.div (.div (.div (.sqrt (.rat 2 1)) (.par n!"GF")) (.mul (.ckm 2 2) (.conj (.ckm 2 1)))) (.rat 4 1)) (.mul (.div (.mul (.rat 16 1) (.mul .pi .pi)) (.mul (.sqrt (.mul (.mul (.rat 4 1) .pi) (.par n!"alpha_e"))) (.sqrt (.mul (.mul (.rat 4 1) .pi) (.par n!"alpha_e"))))) (.mul (.rat (-6) 1) (.inp n!"3sbmue")))) (.div (.div (.sqrt (.rat 2 1)) (.par n!"GF")) (.rat 4 1)))),
  (n!"C9_bdtaue", (.div (.mul (.div (.div (.div (.sqrt (.rat 2 1)) (.par n!"GF")) (.mul (.ckm 2 2) (.conj (.ckm 2 0)))) (.rat 4 1)) (.mul (.div (.mul (.rat 16 1) (.mul .pi .pi)) (.mul (.sqrt (.mul (.mul (.rat 4 1) .pi) (.par n!"alpha_e"))) (.sqrt (.mul (.mul (.rat 4 1) .pi) (.par n!"alpha_e"))))) (.add (.inp n!"1dbetau") (.mul (.rat 10 1) (.inp n!"3dbetau"))))) (.div (.div (.sqrt (.rat 2 1)) (.par n!"GF")) (.rat 4 1)))),
  (n!"CSRR_bsdd", (.div (.mul (.div (.div (.div (.sqrt (.rat 2 1)) (.par n!"GF")) (.mul (.ckm 2 2) (.conj (.ckm 2 1)))) (.rat 4 1)) (.add (.sub (.add (.neg (.div (.mul (.rat 32 1) (.inp n!"10sbdd")) (.rat 3 1))) (.inp n!"5sbdd")) (.div (.inp n!"6sbdd") (.rat 6 1))) (.mul (.rat 64 1) (.inp n!"9sbdd")))) (.div (.div (.sqrt (.rat 2 1)) (.par n!"GF")) (.rat 4 1)))),
  (n!"CPp_bdmutau", (.div (.mul (.div (.div (.div (.sqrt (.rat 2 1)) (.par n!"GF")) (.mul (.ckm 2 2) (.conj (.ckm 2 0)))) (.rat 4 1)) (.mul (.div (.div (.mul (.rat 16 1) (.mul .pi .pi)) (.mul (.sqrt (.mul (.mul (.rat 4 1) .pi) (.par n!"alpha_e"))) (.sqrt (.mul (.mul (.rat 4 1) .pi) (.par n!"alpha_e"))))) (.par n!"m_b")) (.mul (.rat (-24) 1) (.inp n!"9pdbtaumu")))) (.div (.div (.sqrt (.rat 2 1)) (.par n!"GF")) (.rat 4 1)))),
  (n!"CVLLt_sduu", (.div (.mul (.div (.div (.div (.sqrt (.rat 2 1)) (.par n!"GF")) (.mul (.ckm 2 1) (.conj (.ckm 2 0)))) (.rat 4 1)) (.add (.div (.inp n!"2dsuu") (.rat 2 1)) (.mul (.rat 8 1) (.inp n!"4dsuu")))) (.div (.div (.sqrt (.rat 2 1)) (.par n!"GF")) (.rat 4 1)))),
  (n!"CVR_dutaunumu", (.div (.mul (.div (.div (.div (.neg (.sqrt (.rat 2 1))) (.par n!"GF")) (.ckm 0 0)) (.rat 4 1)) (.inp n!"1pudtaumu")) (.div (.div (.sqrt (.rat 2 1)) (.par n!"GF")) (.rat 4 1)))),
  (n!"CP_bstautau", (.div (.mul (.div (.div (.div (.sqrt (.rat 2 1)) (.par n!"GF")) (.mul (.ckm 2 2) (.conj (.ckm 2 1)))) (.rat 4 1)) (.mul (.div (.div (.mul (.rat 16 1) (.mul .pi .pi)) (.mul (.sqrt (.mul (.mul (.rat 4 1) .pi) (.par n!"alpha_e"))) (.sqrt (.mul (.mul (.rat 4 1) .pi) (.par n!"alpha_e"))))) (.par n!"m_b")) (.mul (.rat 24 1) (.inp n!"9sbtautau")))) (.div (.div (.sqrt (.rat 2 1)) (.par n!"GF")) (.rat 4 1)))),
  (n!"CVR_sctaunue", (.div (.mul (.div (.div (.div (.neg (.sqrt (.rat 2 1))) (.par n!"GF")) (.ckm 1 1)) (.rat 4 1)) (.inp n!"1pcstaue")) (.div (.div (.sqrt (.rat 2 1)) (.par n!"GF")) (.rat 4 1)))),
  (n!"CVLLt_bdss", (.div (.mul (.div (.div (.div (.sqrt (.rat 2 1)) (.par n!"GF")) (.mul (.ckm 2 2) (.conj (.ckm 2 0)))) (.rat 4 1)) (.add (.div (.inp n!"2dbss") (.rat 2 1)) (.mul (.rat 8 1) (.inp n!"4dbss")))) (.div (.div (.sqrt (.rat 2 1)) (.par n!"GF")) (.rat 4 1)))),
  (n!"CSp_sdtautau", (.div (.mul (.div (.div (.div (.sqrt (.rat 2 1)) (.par n!"GF")) (.mul (.ckm 2 1) (.conj (.ckm 2 0)))) (.rat 4 1)) (.mul (.div (.div (.mul (.rat 16 1) (.mul .pi .pi)) (.mul (.sqrt (.mul (.mul (.rat 4 1) .pi) (.par n!"alpha_e"))) (.sqrt (.mul (.mul (.rat 4 1) .pi) (.par n!"alpha_e"))))) (.par n!"m_s")) (.add (.inp n!"5pdstautau") (.mul (.rat 40 1) (.inp n!"9pdstautau"))))) (.div (.div (.sqrt (.rat 2 1)) (.par n!"GF")) (.rat 4 1)))),
  (n!"CT_butaunue", (.div (.mul (.div (.div (.div (.neg (.sqrt (.rat 2 1))) (.par n!"GF")) (.ckm 0 2)) (.rat 4 1)) (.inp n!"7pubtaue")) (.div (.div (.sqrt (.rat 2 1)) (.par n!"GF")) (.rat 4 1)))),
  (n!"CT_bctaunumu", (.div (.mul (.div (.div (.div (.neg (.sqrt (.rat 2 1))) (.par n!"GF")) (.ckm 1 2)) (.rat 4 1)) (.inp n!"7pcbtaumu")) (.div (.div (.sqrt (.rat 2 1)) (.par n!"GF")) (.rat 4 1)))),
  (n!"CP_bsmumu", (.div (.mul (.div (.div (.div (.sqrt (.rat 2 1)) (.par n!"GF")) (.mul (.ckm 2 2) (.conj (.ckm 2 1)))) (.rat 4 1)) (.mul (.div (.div (.mul (.rat 16 1) (.mul .pi .pi)) (.mul (.sqrt (.mul (.mul (.rat 4 1) .pi) (.par n!"alpha_e"))) (.sqrt (.mul (.mul (.rat 4 1) .pi) (.par n!"alpha_e"))))) (.par n!"m_b")) (.mul (.rat 24 1) (.inp n!"9sbmumu")))) (.div (.div (.sqrt (.rat 2 1)) (.par n!"GF")) (.rat 4 1)))),
  (n!"C10_bdee", (.div (.mul (.div (.div (.div (.sqrt (.rat 2 1)) (.par n!"GF")) (.mul (.ckm 2 2) (.conj (.ckm 2 0)))) (.rat 4 1)) (.mul (.div (.mul (.rat 16 1) (.mul .pi .pi)) (.mul (.sqrt (.mul (.mul (.rat 4 1) .pi) (.par n!"alpha_e"))) (.sqrt (.mul (.mul (.rat 4 1) .pi) (.par n!"alpha_e"))))) (.mul (.rat (-6) 1) (.inp n!"3dbee")))) (.div (.div (.sqrt (.rat 2 1)) (.par n!"GF")) (.rat 4 1)))),
  (n!"CSR_bcenumu", (.div (.mul (.div (.div (.div (.neg (.sqrt (.rat 2 1))) (.par n!"GF")) (.ckm 1 2)) (.rat 4 1)) (.inp n!"5cbemu")) (.div (.div (.sqrt (.rat 2 1)) (.par n!"GF")) (.rat 4 1)))),
  (n!"C9p_bdtautau", (.div (.mul (.div (.div (.div (.sqrt (.rat 2 1)) (.par n!"GF")) (.mul (.ckm 2 2) (.conj (.ckm 2 0)))) (.rat 4 1)) (.mul (.div (.mul (.rat 16 1) (.mul .pi .pi)) (.mul (.sqrt (.mul (.mul (.rat 4 1) .pi) (.par n!"alpha_e"))) (.sqrt (.mul (.mul (.rat 4 1) .pi) (.par n!"alpha_e"))))) (.add (.inp n!"1pdbtautau") (.mul (.rat 10 1) (.inp n!"3pdbtautau"))))) (.div (.div (.sqrt (.rat 2 1)) (.par n!"GF")) (.rat 4 1)))),
  (n!"CT_suenue", (.div (.mul (.div (.div (.div (.neg (.sqrt (.rat 2 1))) (.par n!"GF")) (.ckm 0 1)) (.rat 4 1)) (.inp n!"7pusee")) (.div (.div (.sqrt (.rat 2 1)) (.par n!"GF")) (.rat 4 1)))),
  (n!"CSR_butaunue", (.div (.mul (.div (.div (.div (.neg (.sqrt (.rat 2 1))) (.par n!"GF")) (.ckm 0 2)) (.rat 4 1)) (.inp n!"5ubtaue")) (.div (.div (.sqrt (.rat 2 1)) (.par n!"GF")) (.rat 4 1)))),
  (n!"CVRL_sdbb", (.div (.mul (.div (.div (.div (.sqrt (.rat 2 1)) (.par n!"GF")) (.mul (.ckm 2 1) (.conj (.ckm 2 0)))) (.rat 4 1)) (.sub (.add (.sub (.inp n!"1pdsbb") (.div (.inp n!"2pdsbb") (.rat 6 1))) (.mul (.rat 4 1) (.inp n!"3pdsbb"))) (.div (.mul (.rat 2 1) (.inp n!"4pdsbb")) (.rat 3 1)))) (.div (.div (.sqrt (.rat 2 1)) (.par n!"GF")) (.rat 4 1)))),
  (n!"C9p_sdetau", (.div (.mul (.div (.div (.div (.sqrt (.rat 2 1)) (.par n!"GF")) (.mul (.ckm 2 1) (.conj (.ckm 2 0)))) (.rat 4 1)) (.mul (.div (.mul (.rat 16 1) (.mul .pi .pi)) (.mul (.sqrt (.mul (.mul (.rat 4 1) .pi) (.par n!"alpha_e"))) (.sqrt (.mul (.mul (.rat 4 1) .pi) (.par n!"alpha_e"))))) (.add (.inp n!"1pdstaue") (.mul (.rat 10 1) (.inp n!"3pdstaue"))))) (.div (.div (.sqrt (.rat 2 1)) (.par n!"GF")) (.rat 4 1)))),
  (n!"CSL_duenutau", (.div (.mul (.div (.div (.div (.neg (.sqrt (.rat 2 1))) (.par n!"GF")) (.ckm 0 0)) (.rat 4 1)) (.inp n!"5pudetau")) (.div (.div (.sqrt (.rat 2 1)) (.par n!"GF")) (.rat 4 1)))),
  (n!"CVRL_bsss", (.div (.mul (.div (.div (.div (.sqrt (.rat 2 1)) (.par n!"GF")) (.mul (.ckm 2 2) (.conj (.ckm 2 1)))) (.rat 4 1)) (.add (.inp n!"1psbss") (.mul (.rat 4 1) (.inp n!"3psbss")))) (.div (.div (.sqrt (.rat 2 1)) (.par n!"GF")) (.rat 4 1)))),
  (n!"CSRR_bdcc", (.div (.mul (.div (.div (.div (.sqrt (.rat 2 1)) (.par n!"GF")) (.mul (.ckm 2 2) (.conj (.ckm 2 0)))) (.rat 4 1)) (.add (.sub (.add (.neg (.div (.mul (.rat 32 1) (.inp n!"10dbcc")) (.rat 3 1))) (.inp n!"5dbcc")) (.div (.inp n!"6dbcc") (.rat 6 1))) (.mul (.rat 64 1) (.inp n!"9dbcc")))) (.div (.div (.sqrt (.rat 2 1)) (.par n!"GF")) (.rat 4 1)))),
  (n!"CSLRt_sdcc", (.div (.mul (.div (.div (.div (.sqrt (.rat 2 1)) (.par n!"GF")) (.mul (.ckm 2 1) (.conj (.ckm 2 0)))) (.rat 4 1)) (.add (.mul (.rat 8 1) (.inp n!"10pdscc")) (.div (.inp n!"6pdscc") (.rat 2 1)))) (.div (.div (.sqrt (.rat 2 1)) (.par n!"GF")) (.rat 4 1)))),
  (n!"CS_sdtautau", (.div (.mul (.div (.div (.div (.sqrt (.rat 2 1)) (.par n!"GF")) (.mul (.ckm 2 1) (.conj (.ckm 2 0)))) (.rat 4 1)) (.mul (.div (.div (.mul (.rat 16 1) (.mul .pi .pi)) (.mul (.sqrt (.mul (.mul (.rat 4 1) .pi) (.par n!"alpha_e"))) (.sqrt (.mul (.mul (.rat 4 1) .pi) (.par n!"alpha_e"))))) (.par n!"m_s")) (.add (.inp n!"5dstautau") (.mul (.rat 40 1) (.inp n!"9dstautau"))))) (.div (.div (.sqrt (.rat 2 1)) (.par n!"GF")) (.rat 4 1)))),
  (n!"C9_sdtaumu", (.div (.mul (.div (.div (.div (.sqrt (.rat 2 1)) (.par n!"GF")) (.mul (.ckm 2 1) (.conj (.ckm 2 0)))) (.rat 4 1)) (.mul (.div (.mul (.rat 16 1) (.mul .pi .pi)) (.mul (.sqrt (.mul (.mul (.rat 4 1) .pi) (.par n!"alpha_e"))) (.sqrt (.mul (.mul (.rat 4 1) .pi) (.par n!"alpha_e"))))) (.add (.inp n!"1dsmutau") (.mul (.rat 10 1) (.inp n!"3dsmutau"))))) (.div (.div (.sqrt (.rat 2 1)) (.par n!"GF")) (.rat 4 1)))),
  (n!"C10p_bdee", (.div (.mul (.div (.div (.div (.sqrt (.rat 2 1)) (.par n!"GF")) (.mul (.ckm 2 2) (.conj (.ckm 2 0)))) (.rat 4 1)) (.mul (.div (.mul (.rat 16 1) (.mul .pi .pi)) (.mul (.sqrt (.mul (.mul (.rat 4 1) .pi) (.par n!"alpha_e"))) (.sqrt (.mul (.mul (.rat 4 1) .pi) (.par n!"alpha_e"))))) (.mul (.rat 6 1) (.inp n!"3pdbee")))) (.div (.div (.sqrt (.rat 2 1)) (.par n!"GF")) (.rat 4 1)))),
  (n!"CVLL_bdbd", (.div (.inp n!"1dbdb") (.div (.div (.sqrt (.rat 2 1)) (.par n!"GF")) (.rat 4 1)))),
  (n!"CSL_scmunutau", (.div (.mul (.div (.div (.div (.neg (.sqrt (.rat 2 1))) (.par n!"GF")) (.ckm 1 1)) (.rat 4 1)) (.inp n!"5pcsmutau")) (.div (.div (.sqrt (.rat 2 1)) (.par n!"GF")) (.rat 4 1)))),
  (n!"CVLL_sdsd", (.div (.inp n!"1dsds") (.div (.div (.sqrt (.rat 2 1)) (.par n!"GF")) (.rat 4 1)))),
  (n!"CVR_bumunutau", (.div (.mul (.div (.div (.div (.neg (.sqrt (.rat 2 1))) (.par n!"GF")) (.ckm 0 2)) (.rat 4 1)) (.inp n!"1pubmutau")) (.div (.div (.sqrt (.rat 2 1)) (.par n!"GF")) (.rat 4 1)))),
  (n!"CP_bstaumu", (.div (.mul (.div (.div (.div (.sqrt (.rat 2 1)) (.par n!"GF")) (.mul (.ckm 2 2) (.conj (.ckm 2 1)))) (.rat 4 1)) (.mul (.div (.div (.mul (.rat 16 1) (.mul .pi .pi)) (.mul (.sqrt (.mul (.mul (.rat 4 1) .pi) (.par n!"alpha_e"))) (.sqrt (.mul (.mul (.rat 4 1) .pi) (.par n!"alpha_e"))))) (.par n!"m_b")) (.mul (.rat 24 1) (.inp n!"9sbmutau")))) (.div (.div (.sqrt (.rat 2 1)) (.par n!"GF")) (.rat 4 1)))),
  (n!"CVR_dcmunumu", (.div (.mul (.div (.div (.div (.neg (.sqrt (.rat 2 1))) (.par n!"GF")) (.ckm 1 0)) (.rat 4 1)) (.inp n!"1pcdmumu")) (.div (.div (.sqrt (.rat 2 1)) (.par n!"GF")) (.rat 4 1)))),
  (n!"CVL_butaunutau", (.div (.mul (.div (.div (.div (.neg (.sqrt (.rat 2 1))) (.par n!"GF")) (.ckm 0 2)) (.rat 4 1)) (.inp n!"1ubtautau")) (.div (.div (.sqrt (.rat 2 1)) (.par n!"GF")) (.rat 4 1)))),
  (n!"CVL_bctaunumu", (.div (.mul (.div (.div (.div (.neg (.sqrt (.rat 2 1))) (.par n!"GF")) (.ckm 1 2)) (.rat 4 1)) (.inp n!"1cbtaumu")) (.div (.div (.sqrt (.rat 2 1)) (.par n!"GF")) (.rat 4 1)))),
  (n!"C9_bsmumu", (.div (.mul (.div (.div (.div (.sqrt (.rat 2 1)) (.par n!"GF")) (.mul (.ckm 2 2) (.conj (.ckm 2 1)))) (.rat 4 1)) (.mul (.div (.mul (.rat 16 1) (.mul .pi .pi)) (.mul (.sqrt (.mul (.mul (.rat 4 1) .pi) (.par n!"alpha_e"))) (.sqrt (.mul (.mul (.rat 4 1) .pi) (.par n!"alpha_e"))))) (.add (.inp n!"1sbmumu") (.mul (.rat 10 1) (.inp n!"3sbmumu"))))) (.div (.div (.sqrt (.rat 2 1)) (.par n!"GF")) (.rat 4 1)))),
  (n!"CVRRt_bsdd", (.div (.mul (.div (.div (.div (.sqrt (.rat 2 1)) (.par n!"GF")) (.mul (.ckm 2 2) (.conj (.ckm 2 1)))) (.rat 4 1)) (.add (.div (.inp n!"2psbdd") (.rat 2 1)) (.mul (.rat 8 1) (.inp n!"4psbdd")))) (.div (.div (.sqrt (.rat 2 1)) (.par n!"GF")) (.rat 4 1)))),
  (n!"CSp_sdtaue", (.div (.mul (.div (.div (.div (.sqrt (.rat 2 1)) (.par n!"GF")) (.mul (.ckm 2 1) (.conj (.ckm 2 0)))) (.rat 4 1)) (.mul (.div (.div (.mul (.rat 16 1) (.mul .pi .pi)) (.mul (.sqrt (.mul (.mul (.rat 4 1) .pi) (.par n!"alpha_e"))) (.sqrt (.mul (.mul (.rat 4 1) .pi) (.par n!"alpha_e"))))) (.par n!"m_s")) (.add (.inp n!"5pdsetau") (.mul (.rat 40 1) (.inp n!"9pdsetau"))))) (.div (.div (.sqrt (.rat 2 1)) (.par n!"GF")) (.rat 4 1)))),
  (n!"CL_bdnuenumu", (.div (.mul (.div (.div (.div (.sqrt (.rat 2 1)) (.par n!"GF")) (.mul (.ckm 2 2) (.conj (.ckm 2 0)))) (.rat 4 1)) (.mul (.div (.mul (.rat 8 1) (.mul .pi .pi)) (.mul (.sqrt (.mul (.mul (.rat 4 1) .pi) (.par n!"alpha_e"))) (.sqrt (.mul (.mul (.rat 4 1) .pi) (.par n!"alpha_e"))))) (.inp n!"nu1dbmue"))) (.div (.div (.sqrt (.rat 2 1)) (.par n!"GF")) (.rat 4 1)))),
  (n!"CSLL_sdss", (.div (.mul (.div (.div (.div (.sqrt (.rat 2 1)) (.par n!"GF")) (.mul (.ckm 2 1) (.conj (.ckm 2 0)))) (.rat 4 1)) (.add (.inp n!"5pdsss") (.mul (.rat 64 1) (.inp n!"9pdsss")))) (.div (.div (.sqrt (.rat 2 1)) (.par n!"GF")) (.rat 4 1)))),
  (n!"CVLRt_sdbb", (.div (.mul (.div (.div (.div (.sqrt (.rat 2 1)) (.par n!"GF")) (.mul (.ckm 2 1) (.conj (.ckm 2 0)))) (.rat 4 1)) (.add (.div (.inp n!"2dsbb") (.rat 2 1)) (.mul (.rat 2 1) (.inp n!"4dsbb")))) (.div (.div (.sqrt (.rat 2 1)) (.par n!"GF")) (.rat 4 1)))),
  (n!"CVL_dctaunue", (.div (.mul (.div (.div (.div (.neg (.sqrt (.rat 2 1))) (.par n!"GF")) (.ckm 1 0)) (.rat 4 1)) (.inp n!"1cdtaue")) (.div (.div (.sqrt (.rat 2 1)) (.par n!"GF")) (.rat 4 1)))),
  (n!"CSL_dctaunutau", (.div (.mul (.div (.div (.div (.neg (.sqrt (.rat 2 1))) (.par n!"GF")) (.ckm 1 0)) (.rat 4 1)) (.inp n!"5pcdtautau")) (.div (.div (.sqrt (.rat 2 1)) (.par n!"GF")) (.rat 4 1)))),
  (n!"CVLR_sdss", (.div (.mul (.div (.div (.div (.sqrt (.rat 2 1)) (.par n!"GF")) (.mul (.ckm 2 1) (.conj (.ckm 2 0)))) (.rat 4 1)) (.add (.inp n!"1dsss") (.mul (.rat 4 1) (.inp n!"3dsss")))) (.div (.div (.sqrt (.rat 2 1)) (.par n!"GF")) (.rat 4 1))))]

def Bern_to_flavio_9 : List (ℕ × Sym) := [
  (n!"CSRR_bduu", (.div (.mul (.div (.div (.div (.sqrt (.rat 2 1)) (.par n!"GF")) (.mul (.ckm 2 2) (.conj (.ckm 2 0)))) (.rat 4 1)) (.add (.sub (.add (.neg (.div (.mul (.rat 32 1) (.inp n!"10dbuu")) (.rat 3 1))) (.inp n!"5dbuu")) (.div (.inp n!"6dbuu") (.rat 6 1))) (.mul (.rat 64 1) (.inp n!"9dbuu")))) (.div (.div (.sqrt (.rat 2 1)) (.par n!"GF")) (.rat 4 1)))),
  (n!"CSLRt_sduu", (.div (.mul (.div (.div (.div (.sqrt (.rat 2 1)) (.par n!"GF")) (.mul (.ckm 2 1) (.conj (.ckm 2 0)))) (.rat 4 1)) (.add (.mul (.rat 8 1) (.inp n!"10pdsuu")) (.div (.inp n!"6pdsuu") (.rat 2 1)))) (.div (.div (.sqrt (.rat 2 1)) (.par n!"GF")) (.rat 4 1)))),
  (n!"CVR_sumunumu", (.div (.mul (.div (.div (.div (.neg (.sqrt (.rat 2 1))) (.par n!"GF")) (.ckm 0 1)) (.rat 4 1)) (.inp n!"1pusmumu")) (.div (.div (.sqrt (.rat 2 1)) (.par n!"GF")) (.rat 4 1)))),
  (n!"CVR_bcenutau", (.div (.mul (.div (.div (.div (.neg (.sqrt (.rat 2 1))) (.par n!"GF")) (.ckm 1 2)) (.rat 4 1)) (.inp n!"1pcbetau")) (.div (.div (.sqrt (.rat 2 1)) (.par n!"GF")) (.rat 4 1)))),
  (n!"CSp_bdemu", (.div (.mul (.div (.div (.div (.sqrt (.rat 2 1)) (.par n!"GF")) (.mul (.ckm 2 2) (.conj (.ckm 2 0)))) (.rat 4 1)) (.mul (.div (.div (.mul (.rat 16 1) (.mul .pi .pi)) (.mul (.sqrt (.mul (.mul (.rat 4 1) .pi) (.par n!"alpha_e"))) (.sqrt (.mul (.mul (.rat 4 1) .pi) (.par n!"alpha_e"))))) (.par n!"m_b")) (.add (.inp n!"5pdbmue") (.mul (.rat 40 1) (.inp n!"9pdbmue"))))) (.div (.div (.sqrt (.rat 2 1)) (.par n!"GF")) (.rat 4 1)))),
  (n!"CL_sdnumunutau", (.div (.mul (.div (.div (.div (.sqrt (.rat 2 1)) (.par n!"GF")) (.mul (.ckm 2 1) (.conj (.ckm 2 0)))) (.rat 4 1)) (.mul (.div (.mul (.rat 8 1) (.mul .pi .pi)) (.mul (.sqrt (.mul (.mul (.rat 4 1) .pi) (.par n!"alpha_e"))) (.sqrt (.mul (.mul (.rat 4 1) .pi) (.par n!"alpha_e"))))) (.inp n!"nu1dstaumu"))) (.div (.div (.sqrt (.rat 2 1)) (.par n!"GF")) (.rat 4 1)))),
  (n!"CVL_sutaunue", (.div (.mul (.div (.div (.div (.neg (.sqrt (.rat 2 1))) (.par n!"GF")) (.ckm 0 1)) (.rat 4 1)) (.inp n!"1ustaue")) (.div (.div (.sqrt (.rat 2 1)) (.par n!"GF")) (.rat 4 1)))),
  (n!"CPp_bdtaumu", (.div (.mul (.div (.div (.div (.sqrt (.rat 2 1)) (.par n!"GF")) (.mul (.ckm 2 2) (.conj (.ckm 2 0)))) (.rat 4 1)) (.mul (.div (.div (.mul (.rat 16 1) (.mul .pi .pi)) (.mul (.sqrt (.mul (.mul (.rat 4 1) .pi) (.par n!"alpha_e"))) (.sqrt (.mul (.mul (.rat 4 1) .pi) (.par n!"alpha_e"))))) (.par n!"m_b")) (.mul (.rat (-24) 1) (.inp n!"9pdbmutau")))) (.div (.div (.sqrt (.rat 2 1)) (.par n!"GF")) (.rat 4 1)))),
  (n!"C9_sdemu", (.div (.mul (.div (.div (.div (.sqrt (.rat 2 1)) (.par n!"GF")) (.mul (.ckm 2 1) (.conj (.ckm 2 0)))) (.rat 4 1)) (.mul (.div (.mul (.rat 16 1) (.mul .pi .pi)) (.mul (.sqrt (.mul (.mul (.rat 4 1) .pi) (.par n!"alpha_e"))) (.sqrt (.mul (.mul (.rat 4 1) .pi) (.par n!"alpha_e"))))) (.add (.inp n!"1dsmue") (.mul (.rat 10 1) (.inp n!"3dsmue"))))) (.div (.div (.sqrt (.rat 2 1)) (.par n!"GF")) (.rat 4 1)))),
  (n!"CVR_duenumu", (.div (.mul (.div (.div (.div (.neg (.sqrt (.rat 2 1))) (.par n!"GF")) (.ckm 0 0)) (.rat 4 1)) (.inp n!"1pudemu")) (.div (.div (.sqrt (.rat 2 1)) (.par n!"GF")) (.rat 4 1)))),
  (n!"CSR_sumunue", (.div (.mul (.div (.div (.div (.neg (.sqrt (.rat 2 1))) (.par n!"GF")) (.ckm 0 1)) (.rat 4 1)) (.inp n!"5usmue")) (.div (.div (.sqrt (.rat 2 1)) (.par n!"GF")) (.rat 4 1)))),
  (n!"CSLRt_bdss", (.div (.mul (.div (.div (.div (.sqrt (.rat 2 1)) (.par n!"GF")) (.mul (.ckm 2 2) (.conj (.ckm 2 0)))) (.rat 4 1)) (.add (.mul (.rat 8 1) (.inp n!"10pdbss")) (.div (.inp n!"6pdbss") (.rat 2 1)))) (.div (.div (.sqrt (.rat 2 1)) (.par n!"GF")) (.rat 4 1)))),
  (n!"CT_scmunumu", (.div (.mul (.div (.div (.div (.neg (.sqrt (.rat 2 1))) (.par n!"GF")) (.ckm 1 1)) (.rat 4 1)) (.inp n!"7pcsmumu")) (.div (.div (.sqrt (.rat 2 1)) (.par n!"GF")) (.rat 4 1)))),
  (n!"C9_sdee", (.div (.mul (.div (.div (.div (.sqrt (.rat 2 1)) (.par n!"GF")) (.mul (.ckm 2 1) (.conj (.ckm 2 0)))) (.rat 4 1)) (.mul (.div (.mul (.rat 16 1) (.mul .pi .pi)) (.mul (.sqrt (.mul (.mul (.rat 4 1) .pi) (.par n!"alpha_e"))) (.sqrt (.mul (.mul (.rat 4 1) .pi) (.par n!"alpha_e"))))) (.add (.inp n!"1dsee") (.mul (.rat 10 1) (.inp n!"3dsee"))))) (.div (.div (.sqrt (.rat 2 1)) (.par n!"GF")) (.rat 4 1)))),
  (n!"CT_butaunutau", (.div (.mul (.div (.div (.div (.neg (.sqrt (.rat 2 1))) (.par n!"GF")) (.ckm 0 2)) (.rat 4 1)) (.inp n!"7pubtautau")) (.div (.div (.sqrt (.rat 2 1)) (.par n!"GF")) (.rat 4 1)))),
  (n!"CT_scenue", (.div (.mul (.div (.div (.div (.neg (.sqrt (.rat 2 1))) (.par n!"GF")) (.ckm 1 1)) (.rat 4 1)) (.inp n!"7pcsee")) (.div (.div (.sqrt (.rat 2 1)) (.par n!"GF")) (.rat 4 1)))),
  (n!"CTLLt_sdcc", (.div (.mul (.div (.div (.div (.sqrt (.rat 2 1)) (.par n!"GF")) (.mul (.ckm 2 1) (.conj (.ckm 2 0)))) (.rat 4 1)) (.add (.mul (.rat (-8) 1) (.inp n!"10pdscc")) (.div (.inp n!"8pdscc") (.rat 2 1)))) (.div (.div (.sqrt (.rat 2 1)) (.par n!"GF")) (.rat 4 1)))),
  (n!"CR_sdnuenutau", (.div (.mul (.div (.div (.div (.sqrt (.rat 2 1)) (.par n!"GF")) (.mul (.ckm 2 1) (.conj (.ckm 2 0)))) (.rat 4 1)) (.mul (.div (.mul (.rat 8 1) (.mul .pi .pi)) (.mul (.sqrt (.mul (.mul (.rat 4 1) .pi) (.par n!"alpha_e"))) (.sqrt (.mul (.mul (.rat 4 1) .pi) (.par n!"alpha_e"))))) (.inp n!"nu1pdstaue"))) (.div (.div (.sqrt (.rat 2 1)) (.par n!"GF")) (.rat 4 1)))),
  (n!"CSp_sdmutau", (.div (.mul (.div (.div (.div (.sqrt (.rat 2 1)) (.par n!"GF")) (.mul (.ckm 2 1) (.conj (.ckm 2 0)))) (.rat 4 1)) (.mul (.div (.div (.mul (.rat 16 1) (.mul .pi .pi)) (.mul (.sqrt (.mul (.mul (.rat 4 1) .pi) (.par n!"alpha_e"))) (.sqrt (.mul (.mul (.rat 4 1) .pi) (.par n!"alpha_e"))))) (.par n!"m_s")) (.add (.inp n!"5pdstaumu") (.mul (.rat 40 1) (.inp n!"9pdstaumu"))))) (.div (.div (.sqrt (.rat 2 1)) (.par n!"GF")) (.rat 4 1)))),
  (n!"CSR_scmunumu", (.div (.mul (.div (.div (.div (.neg (.sqrt (.rat 2 1))) (.par n!"GF")) (.ckm 1 1)) (.rat 4 1)) (.inp n!"5csmumu")) (.div (.div (.sqrt (.rat 2 1)) (.par n!"GF")) (.rat 4 1)))),
  (n!"CT_buenue", (.div (.mul (.div (.div (.div (.neg (.sqrt (.rat 2 1))) (.par n!"GF")) (.ckm 0 2)) (.rat 4 1)) (.inp n!"7pubee")) (.div (.div (.sqrt (.rat 2 1)) (.par n!"GF")) (.rat 4 1)))),
  (n!"C9p_bdetau", (.div (.mul (.div (.div (.div (.sqrt (.rat 2 1)) (.par n!"GF")) (.mul (.ckm 2 2) (.conj (.ckm 2 0)))) (.rat 4 1)) (.mul (.div (.mul (.rat 16 1) (.mul .pi .pi)) (.mul (.sqrt (.mul (.mul (.rat 4 1) .pi) (.par n!"alpha_e"))) (.sqrt (.mul (.mul (.rat 4 1) .pi) (.par n!"alpha_e"))))) (.add (.inp n!"1pdbtaue") (.mul (.rat 10 1) (.inp n!"3pdbtaue"))))) (.div (.div (.sqrt (.rat 2 1)) (.par n!"GF")) (.rat 4 1)))),
  (n!"CVRRt_bdcc", (.div (.mul (.div (.div (.div (.sqrt (.rat 2 1)) (.par n!"GF")) (.mul (.ckm 2 2) (.conj (.ckm 2 0)))) (.rat 4 1)) (.add (.div (.inp n!"2pdbcc") (.rat 2 1)) (.mul (.rat 8 1) (.inp n!"4pdbcc")))) (.div (.div (.sqrt (.rat 2 1)) (.par n!"GF")) (.rat 4 1)))),
  (n!"CTRR_bsdd", (.div (.mul (.div (.div (.div (.sqrt (.rat 2 1)) (.par n!"GF")) (.mul (.ckm 2 2) (.conj (.ckm 2 1)))) (.rat 4 1)) (.sub (.sub (.add (.div (.mul (.rat 8 1) (.inp n!"10sbdd")) (.rat 3 1)) (.inp n!"7sbdd")) (.div (.inp n!"8sbdd") (.rat 6 1))) (.mul (.rat 16 1) (.inp n!"9sbdd")))) (.div (.div (.sqrt (.rat 2 1)) (.par n!"GF")) (.rat 4 1)))),
  (n!"CSL_sctaunue", (.div (.mul (.div (.div (.div (.neg (.sqrt (.rat 2 1))) (.par n!"GF")) (.ckm 1 1)) (.rat 4 1)) (.inp n!"5pcstaue")) (.div (.div (.sqrt (.rat 2 1)) (.par n!"GF")) (.rat 4 1)))),
  (n!"CS_bsemu", (.div (.mul (.div (.div (.div (.sqrt (.rat 2 1)) (.par n!"GF")) (.mul (.ckm 2 2) (.conj (.ckm 2 1)))) (.rat 4 1)) (.mul (.div (.div (.mul (.rat 16 1) (.mul .pi .pi)) (.mul (.sqrt (.mul (.mul (.rat 4 1) .pi) (.par n!"alpha_e"))) (.sqrt (.mul (.mul (.rat 4 1) .pi) (.par n!"alpha_e"))))) (.par n!"m_b")) (.add (.inp n!"5sbmue") (.mul (.rat 40 1) (.inp n!"9sbmue"))))) (.div (.div (.sqrt (.rat 2 1)) (.par n!"GF")) (.rat 4 1)))),
  (n!"C10p_bdmutau", (.div (.mul (.div (.div (.div (.sqrt (.rat 2 1)) (.par n!"GF")) (.mul (.ckm 2 2) (.conj (.ckm 2 0)))) (.rat 4 1)) (.mul (.div (.mul (.rat 16 1) (.mul .pi .pi)) (.mul (.sqrt (.mul (.mul (.rat 4 1) .pi) (.par n!"alpha_e"))) (.sqrt (.mul (.mul (.rat 4 1) .pi) (.par n!"alpha_e"))))) (.mul (.rat 6 1) (.inp n!"3pdbtaumu")))) (.div (.div (.sqrt (.rat 2 1)) (.par n!"GF")) (.rat 4 1)))),
  (n!"CSR_bctaunutau", (.div (.mul (.div (.div (.div (.neg (.sqrt (.rat 2 1))) (.par n!"GF")) (.ckm 1 2)) (.rat 4 1)) (.inp n!"5cbtautau")) (.div (.div (.sqrt (.rat 2 1)) (.par n!"GF")) (.rat 4 1)))),
  (n!"CSL_dumunue", (.div (.mul (.div (.div (.div (.neg (.sqrt (.rat 2 1))) (.par n!"GF")) (.ckm 0 0)) (.rat 4 1)) (.inp n!"5pudmue")) (.div (.div (.sqrt (.rat 2 1)) (.par n!"GF")) (.rat 4 1)))),
  (n!"CSR_sumunutau", (.div (.mul (.div (.div (.div (.neg (.sqrt (.rat 2 1))) (.par n!"GF")) (.ckm 0 1)) (.rat 4 1)) (.inp n!"5usmutau")) (.div (.div (.sqrt (.rat 2 1)) (.par n!"GF")) (.rat 4 1)))),
  (n!"CSLR_bsdd", (.div (.mul (.div (.div (.div (.sqrt (.rat 2 1)) (.par n!"GF")) (.mul (.ckm 2 2) (.conj (.ckm 2 1)))) (.rat 4 1)) (.add (.sub (.add (.neg (.div (.mul (.rat 8 1) (.inp n!"10psbdd")) (.rat 3 1))) (.inp n!"5psbdd")) (.div (.inp n!"6psbdd") (.rat 6 1))) (.mul (.rat 16 1) (.inp n!"9psbdd")))) (.div (.div (.sqrt (.rat 2 1)) (.par n!"GF")) (.rat 4 1)))),
  (n!"C9_bsmutau", (.div (.mul (.div (.div (.div (.sqrt (.rat 2 1)) (.par n!"GF")) (.mul (.ckm 2 2) (.conj (.ckm 2 1)))) (.rat 4 1)) (.mul (.div (.mul (.rat 16 1) (.mul .pi .pi)) (.mul (.sqrt (.mul (.mul (.rat 4 1) .pi) (.par n!"alpha_e"))) (.sqrt (.mul (.mul (.rat 4 1) .pi) (.par n!"alpha_e"))))) (.add (.inp n!"1sbtaumu") (.mul (.rat 10 1) (.inp n!"3sbtaumu"))))) (.div (.div (.sqrt (.rat 2 1)) (.par n!"GF")) (.rat 4 1)))),
  (n!"CVRR_bsbs", (.div (.inp n!"1psbsb") (.div (.div (.sqrt (.rat 2 1)) (.par n!"GF")) (.rat 4 1)))),
  (n!"C10_bstautau", (.div (.mul (.div (.div (.div (.sqrt (.rat 2 1)) (.par n!"GF")) (.mul (.ckm 2 2) (.conj (.ckm 2 1)))) (.rat 4 1)) (.mul (.div (.mul (.rat 16 1) (.mul .pi .pi)) (.mul (.sqrt (.mul (.mul (.rat 4 1) .pi) (.par n!"alpha_e"))) (.sqrt (.mul (.mul (.rat 4 1) .pi) (.par n!"alpha_e"))))) (.mul (.rat (-6) 1) (.inp n!"3sbtautau")))) (.div (.div (.sqrt (.rat 2 1)) (.par n!"GF")) (.rat 4 1)))),
  (n!"CSL_sctaunumu", (.div (.mul (.div (.div (.div (.neg (.sqrt (.rat 2 1))) (.par n!"GF")) (.ckm 1 1)) (.rat 4 1)) (.inp n!"5pcstaumu")) (.div (.div (.sqrt (.rat 2 1)) (.par n!"GF")) (.rat 4 1)))),
  (n!"CVL_dumunumu", (.div (.mul (.div (.div (.div (.neg (.sqrt (.rat 2 1))) (.par n!"GF")) (.ckm 0 0)) (.rat 4 1)) (.inp n!"1udmumu")) (.div (.div (.sqrt (.rat 2 1)) (.par n!"GF")) (.rat 4 1)))),
  (n!"C10p_bdemu", (.div (.mul (.div (.div (.div (.sqrt (.rat 2 1)) (.par n!"GF")) (.mul (.ckm 2 2) (.conj (.ckm 2 0)))) (.rat 4 1)) (.mul (.div (.mul (.rat 16 1) (.mul .pi .pi)) (.mul (.sqrt (.mul (.mul (.rat 4 1) .pi) (.par n!"alpha_e"))) (.sqrt (.mul (.mul (.rat 4 1) .pi) (.par n!"alpha_e"))))) (.mul (.rat 6 1) (.inp n!"3pdbmue")))) (.div (.div (.sqrt (.rat 2 1)) (.par n!"GF")) (.rat 4 1)))),
  (n!"CVR_suenue", (.div (.mul (.div (.div (.div (.neg (.sqrt (.rat 2 1))) (.par n!"GF")) (.ckm 0 1)) (.rat 4 1)) (.inp n!"1pusee")) (.div (.div (.sqrt (.rat 2 1)) (.par n!"GF")) (.rat 4 1)))),
  (n!"CVR_buenumu", (.div (.mul (.div (.div (.div (.neg (.sqrt (.rat 2 1))) (.par n!"GF")) (.ckm 0 2)) (.rat 4 1)) (.inp n!"1pubemu")) (.div (.div (.sqrt (.rat 2 1)) (.par n!"GF")) (.rat 4 1)))),
  (n!"CTLLt_sduu", (.div (.mul (.div (.div (.div (.sqrt (.rat 2 1)) (.par n!"GF")) (.mul (.ckm 2 1) (.conj (.ckm 2 0)))) (.rat 4 1)) (.add (.mul (.rat (-8) 1) (.inp n!"10pdsuu")) (.div (.inp n!"8pdsuu") (.rat 2 1)))) (.div (.div (.sqrt (.rat 2 1)) (.par n!"GF")) (.rat 4 1)))),
  (n!"CVR_butaunumu", (.div (.mul (.div (.div (.div (.neg (.sqrt (.rat 2 1))) (.par n!"GF")) (.ckm 0 2)) (.rat 4 1)) (.inp n!"1pubtaumu")) (.div (.div (.sqrt (.rat 2 1)) (.par n!"GF")) (.rat 4 1)))),
  (n!"CVR_scenumu", (.div (.mul (.div (.div (.div (.neg (.sqrt (.rat 2 1))) (.par n!"GF")) (.ckm 1 1)) (.rat 4 1)) (.inp n!"1pcsemu")) (.div (.div (.sqrt (.rat 2 1)) (.par n!"GF")) (.rat 4 1)))),
  (n!"CSp_bdtaue", (.div (.mul (.div (.div (.div (.sqrt (.rat 2 1)) (.par n!"GF")) (.mul (.ckm 2 2) (.conj (.ckm 2 0)))) (.rat 4 1)) (.mul (.div (.div (.mul (.rat 16 1) (.mul .pi .pi)) (.mul (.sqrt (.mul (.mul (.rat 4 1) .pi) (.par n!"alpha_e"))) (.sqrt (.mul (.mul (.rat 4 1) .pi) (.par n!"alpha_e"))))) (.par n!"m_b")) (.add (.inp n!"5pdbetau") (.mul (.rat 40 1) (.inp n!"9pdbetau"))))) (.div (.div (.sqrt (.rat 2 1)) (.par n!"GF")) (.rat 4 1)))),
  (n!"CVRRt_bduu", (.div (.mul (.div (.div (.div (.sqrt (.rat 2 1)) (.par n!"GF")) (.mul (.ckm 2 2) (.conj (.ckm 2 0)))) (.rat 4 1)) (.add (.div (.inp n!"2pdbuu") (.rat 2 1)) (.mul (.rat 8 1) (.inp n!"4pdbuu")))) (.div (.div (.sqrt (.rat 2 1)) (.par n!"GF")) (.rat 4 1)))),
  (n!"CTLLt_bdss", (.div (.mul (.div (.div (.div (.sqrt (.rat 2 1)) (.par n!"GF")) (.mul (.ckm 2 2) (.conj (.ckm 2 0)))) (.rat 4 1)) (.add (.mul (.rat (-8) 1) (.inp n!"10pdbss")) (.div (.inp n!"8pdbss") (.rat 2 1)))) (.div (.div (.sqrt (.rat 2 1)) (.par n!"GF")) (.rat 4 1)))),
  (n!"C9_sdtautau", (.div (.mul (.div (.div (.div (.sqrt (.rat 2 1)) (.par n!"GF")) (.mul (.ckm 2 1) (.conj (.ckm 2 0)))) (.rat 4 1)) (.mul (.div (.mul (.rat 16 1) (.mul .pi .pi)) (.mul (.sqrt (.mul (.mul (.rat 4 1) .pi) (.par n!"alpha_e"))) (.sqrt (.mul (.mul (.rat 4 1) .pi) (.par n!"alpha_e"))))) (.add (.inp n!"1dstautau") (.mul (.rat 10 1) (.inp n!"3dstautau"))))) (.div (.div (.sqrt (.rat 2 1)) (.par n!"GF")) (.rat 4 1)))),
  (n!"CVL_buenutau", (.div (.mul (.div (.div (.div (.neg (.sqrt (.rat 2 1))) (.par n!"GF")) (.ckm 0 2)) (.rat 4 1)) (.inp n!"1ubetau")) (.div (.div (.sqrt (.rat 2 1)) (.par n!"GF")) (.rat 4 1)))),
  (n!"C10_bdmutau", (.div (.mul (.div (.div (.div (.sqrt (.rat 2 1)) (.par n!"GF")) (.mul (.ckm 2 2) (.conj (.ckm 2 0)))) (.rat 4 1)) (.mul (.div (.mul (.rat 16 1) (.mul .pi .pi)) (.mul (.sqrt (.mul (.mul (.rat 4 1) .pi) (.par n!"alpha_e"))) (.sqrt (.mul (.mul (.rat 4 1) .pi) (.par n!"alpha_e"))))) (.mul (.rat (-6) 1) (.inp n!"3dbtaumu")))) (.div (.div (.sqrt (.rat 2 1)) (.par n!"GF")) (.rat 4 1)))),
  (n!"CTRR_bdcc", (.div (.mul (.div (.div (.div (.sqrt (.rat 2 1)) (.par n!"GF")) (.mul (.ckm 2 2) (.conj (.ckm 2 0)))) (.rat 4 1)) (.sub (.sub (.add (.div (.mul (.rat 8 1) (.inp n!"10dbcc")) (.rat 3 1)) (.inp n!"7dbcc")) (.div (.inp n!"8dbcc") (.rat 6 1))) (.mul (.rat 16 1) (.inp n!"9dbcc")))) (.div (.div (.sqrt (.rat 2 1)) (.par n!"GF")) (.rat 4 1)))),
  (n!"CSL_dcmunumu", (.div (.mul (.div (.div (.div (.neg (.sqrt (.rat 2 1))) (.par n!"GF")) (.ckm 1 0)) (.rat 4 1)) (.inp n!"5pcdmumu")) (.div (.div (.sqrt (.rat 2 1)) (.par n!"GF")) (.rat 4 1))))]

def Bern_to_flavio_10 : List (ℕ × Sym) := [
  (n!"CVLL_sdbb", (.div (.mul (.div (.div (.div (.sqrt (.rat 2 1)) (.par n!"GF")) (.mul (.ckm 2 1) (.conj (.ckm 2 0)))) (.rat 4 1)) (.sub (.add (.sub (.inp n!"1dsbb") (.div (.inp n!"2dsbb") (.rat 6 1))) (.mul (.rat 16 1) (.inp n!"3dsbb"))) (.div (.mul (.rat 8 1) (.inp n!"4dsbb")) (.rat 3 1)))) (.div (.div (.sqrt (.rat 2 1)) (.par n!"GF")) (.rat 4 1)))),
  (n!"CSL_bumunue", (.div (.mul (.div (.div (.div (.neg (.sqrt (.rat 2 1))) (.par n!"GF")) (.ckm 0 2)) (.rat 4 1)) (.inp n!"5pubmue")) (.div (.div (.sqrt (.rat 2 1)) (.par n!"GF")) (.rat 4 1)))),
  (n!"CSRL_bddd", (.div (.mul (.div (.div (.div (.sqrt (.rat 2 1)) (.par n!"GF")) (.mul (.ckm 2 2) (.conj (.ckm 2 0)))) (.rat 4 1)) (.add (.inp n!"5pdbdd") (.mul (.rat 16 1) (.inp n!"9pdbdd")))) (.div (.div (.sqrt (.rat 2 1)) (.par n!"GF")) (.rat 4 1)))),
  (n!"CVL_dcenumu", (.div (.mul (.div (.div (.div (.neg (.sqrt (.rat 2 1))) (.par n!"GF")) (.ckm 1 0)) (.rat 4 1)) (.inp n!"1cdemu")) (.div (.div (.sqrt (.rat 2 1)) (.par n!"GF")) (.rat 4 1)))),
  (n!"CSL_scmunue", (.div (.mul (.div (.div (.div (.neg (.sqrt (.rat 2 1))) (.par n!"GF")) (.ckm 1 1)) (.rat 4 1)) (.inp n!"5pcsmue")) (.div (.div (.sqrt (.rat 2 1)) (.par n!"GF")) (.rat 4 1)))),
  (n!"CL_sdnutaunumu", (.div (.mul (.div (.div (.div (.sqrt (.rat 2 1)) (.par n!"GF")) (.mul (.ckm 2 1) (.conj (.ckm 2 0)))) (.rat 4 1)) (.mul (.div (.mul (.rat 8 1) (.mul .pi .pi)) (.mul (.sqrt (.mul (.mul (.rat 4 1) .pi) (.par n!"alpha_e"))) (.sqrt (.mul (.mul (.rat 4 1) .pi) (.par n!"alpha_e"))))) (.inp n!"nu1dsmutau"))) (.div (.div (.sqrt (.rat 2 1)) (.par n!"GF")) (.rat 4 1)))),
  (n!"CVLL_bsss", (.div (.mul (.div (.div (.div (.sqrt (.rat 2 1)) (.par n!"GF")) (.mul (.ckm 2 2) (.conj (.ckm 2 1)))) (.rat 4 1)) (.add (.inp n!"1sbss") (.mul (.rat 16 1) (.inp n!"3sbss")))) (.div (.div (.sqrt (.rat 2 1)) (.par n!"GF")) (.rat 4 1)))),
  (n!"CSLR_bdcc", (.div (.mul (.div (.div (.div (.sqrt (.rat 2 1)) (.par n!"GF")) (.mul (.ckm 2 2) (.conj (.ckm 2 0)))) (.rat 4 1)) (.add (.sub (.add (.neg (.div (.mul (.rat 8 1) (.inp n!"10pdbcc")) (.rat 3 1))) (.inp n!"5pdbcc")) (.div (.inp n!"6pdbcc") (.rat 6 1))) (.mul (.rat 16 1) (.inp n!"9pdbcc")))) (.div (.div (.sqrt (.rat 2 1)) (.par n!"GF")) (.rat 4 1)))),
  (n!"CSLLt_sdcc", (.div (.mul (.div (.div (.div (.sqrt (.rat 2 1)) (.par n!"GF")) (.mul (.ckm 2 1) (.conj (.ckm 2 0)))) (.rat 4 1)) (.add (.mul (.rat 32 1) (.inp n!"10pdscc")) (.div (.inp n!"6pdscc") (.rat 2 1)))) (.div (.div (.sqrt (.rat 2 1)) (.par n!"GF")) (.rat 4 1)))),
  (n!"CVRR_bddd", (.div (.mul (.div (.div (.div (.sqrt (.rat 2 1)) (.par n!"GF")) (.mul (.ckm 2 2) (.conj (.ckm 2 0)))) (.rat 4 1)) (.add (.inp n!"1pdbdd") (.mul (.rat 16 1) (.inp n!"3pdbdd")))) (.div (.div (.sqrt (.rat 2 1)) (.par n!"GF")) (.rat 4 1)))),
  (n!"CSp_bdee", (.div (.mul (.div (.div (.div (.sqrt (.rat 2 1)) (.par n!"GF")) (.mul (.ckm 2 2) (.conj (.ckm 2 0)))) (.rat 4 1)) (.mul (.div (.div (.mul (.rat 16 1) (.mul .pi .pi)) (.mul (.sqrt (.mul (.mul (.rat 4 1) .pi) (.par n!"alpha_e"))) (.sqrt (.mul (.mul (.rat 4 1) .pi) (.par n!"alpha_e"))))) (.par n!"m_b")) (.add (.inp n!"5pdbee") (.mul (.rat 40 1) (.inp n!"9pdbee"))))) (.div (.div (.sqrt (.rat 2 1)) (.par n!"GF")) (.rat 4 1)))),
  (n!"CR_bdnumunue", (.div (.mul (.div (.div (.div (.sqrt (.rat 2 1)) (.par n!"GF")) (.mul (.ckm 2 2) (.conj (.ckm 2 0)))) (.rat 4 1)) (.mul (.div (.mul (.rat 8 1) (.mul .pi .pi)) (.mul (.sqrt (.mul (.mul (.rat 4 1) .pi) (.par n!"alpha_e"))) (.sqrt (.mul (.mul (.rat 4 1) .pi) (.par n!"alpha_e"))))) (.inp n!"nu1pdbemu"))) (.div (.div (.sqrt (.rat 2 1)) (.par n!"GF")) (.rat 4 1)))),
  (n!"CT_dcenumu", (.div (.mul (.div (.div (.div (.neg (.sqrt (.rat 2 1))) (.par n!"GF")) (.ckm 1 0)) (.rat 4 1)) (.inp n!"7pcdemu")) (.div (.div (.sqrt (.rat 2 1)) (.par n!"GF")) (.rat 4 1)))),
  (n!"C10_bdemu", (.div (.mul (.div (.div (.div (.sqrt (.rat 2 1)) (.par n!"GF")) (.mul (.ckm 2 2) (.conj (.ckm 2 0)))) (.rat 4 1)) (.mul (.div (.mul (.rat 16 1) (.mul .pi .pi)) (.mul (.sqrt (.mul (.mul (.rat 4 1) .pi) (.par n!"alpha_e"))) (.sqrt (.mul (.mul (.rat 4 1) .pi) (.par n!"alpha_e"))))) (.mul (.rat (-6) 1) (.inp n!"3dbmue")))) (.div (.div (.sqrt (.rat 2 1)) (.par n!"GF")) (.rat 4 1)))),
  (n!"CT_bcenue", (.div (.mul (.div (.div (.div (.neg (.sqrt (.rat 2 1))) (.par n!"GF")) (.ckm 1 2)) (.rat 4 1)) (.inp n!"7pcbee")) (.div (.div (.sqrt (.rat 2 1)) (.par n!"GF")) (.rat 4 1)))),
  (n!"CSL_sumunumu", (.div (.mul (.div (.div (.div (.neg (.sqrt (.rat 2 1))) (.par n!"GF")) (.ckm 0 1)) (.rat 4 1)) (.inp n!"5pusmumu")) (.div (.div (.sqrt (.rat 2 1)) (.par n!"GF")) (.rat 4 1)))),
  (n!"C9_bsmue", (.div (.mul (.div (.div (.div (.sqrt (.rat 2 1)) (.par n!"GF")) (.mul (.ckm 2 2) (.conj (.ckm 2 1)))) (.rat 4 1)) (.mul (.div (.mul (.rat 16 1) (.mul .pi .pi)) (.mul (.sqrt (.mul (.mul (.rat 4 1) .pi) (.par n!"alpha_e"))) (.sqrt (.mul (.mul (.rat 4 1) .pi) (.par n!"alpha_e"))))) (.add (.inp n!"1sbemu") (.mul (.rat 10 1) (.inp n!"3sbemu"))))) (.div (.div (.sqrt (.rat 2 1)) (.par n!"GF")) (.rat 4 1)))),
  (n!"CSL_bcenutau", (.div (.mul (.div (.div (.div (.neg (.sqrt (.rat 2 1))) (.par n!"GF")) (.ckm 1 2)) (.rat 4 1)) (.inp n!"5pcbetau")) (.div (.div (.sqrt (.rat 2 1)) (.par n!"GF")) (.rat 4 1)))),
  (n!"CTLL_sdss", (.div (.mul (.div (.div (.div (.sqrt (.rat 2 1)) (.par n!"GF")) (.mul (.ckm 2 1) (.conj (.ckm 2 0)))) (.rat 4 1)) (.sub (.inp n!"7pdsss") (.mul (.rat 16 1) (.inp n!"9pdsss")))) (.div (.div (.sqrt (.rat 2 1)) (.par n!"GF")) (.rat 4 1)))),
  (n!"CT_scmunutau", (.div (.mul (.div (.div (.div (.neg (.sqrt (.rat 2 1))) (.par n!"GF")) (.ckm 1 1)) (.rat 4 1)) (.inp n!"7pcsmutau")) (.div (.div (.sqrt (.rat 2 1)) (.par n!"GF")) (.rat 4 1)))),
  (n!"CVRLt_bsdd", (.div (.mul (.div (.div (.div (.sqrt (.rat 2 1)) (.par n!"GF")) (.mul (.ckm 2 2) (.conj (.ckm 2 1)))) (.rat 4 1)) (.add (.div (.inp n!"2psbdd") (.rat 2 1)) (.mul (.rat 2 1) (.inp n!"4psbdd")))) (.div (.div (.sqrt (.rat 2 1)) (.par n!"GF")) (.rat 4 1)))),
  (n!"CVL_dctaunutau", (.div (.mul (.div (.div (.div (.neg (.sqrt (.rat 2 1))) (.par n!"GF")) (.ckm 1 0)) (.rat 4 1)) (.inp n!"1cdtautau")) (.div (.div (.sqrt (.rat 2 1)) (.par n!"GF")) (.rat 4 1)))),
  (n!"CSp_sdtaumu", (.div (.mul (.div (.div (.div (.sqrt (.rat 2 1)) (.par n!"GF")) (.mul (.ckm 2 1) (.conj (.ckm 2 0)))) (.rat 4 1)) (.mul (.div (.div (.mul (.rat 16 1) (.mul .pi .pi)) (.mul (.sqrt (.mul (.mul (.rat 4 1) .pi) (.par n!"alpha_e"))) (.sqrt (.mul (.mul (.rat 4 1) .pi) (.par n!"alpha_e"))))) (.par n!"m_s")) (.add (.inp n!"5pdsmutau") (.mul (.rat 40 1) (.inp n!"9pdsmutau"))))) (.div (.div (.sqrt (.rat 2 1)) (.par n!"GF")) (.rat 4 1)))),
  (n!"CTRR_bduu", (.div (.mul (.div (.div (.div (.sqrt (.rat 2 1)) (.par n!"GF")) (.mul (.ckm 2 2) (.conj (.ckm 2 0)))) (.rat 4 1)) (.sub (.sub (.add (.div (.mul (.rat 8 1) (.inp n!"10dbuu")) (.rat 3 1)) (.inp n!"7dbuu")) (.div (.inp n!"8dbuu") (.rat 6 1))) (.mul (.rat 16 1) (.inp n!"9dbuu")))) (.div (.div (.sqrt (.rat 2 1)) (.par n!"GF")) (.rat 4 1)))),
  (n!"CVLLt_sdbb", (.div (.mul (.div (.div (.div (.sqrt (.rat 2 1)) (.par n!"GF")) (.mul (.ckm 2 1) (.conj (.ckm 2 0)))) (.rat 4 1)) (.add (.div (.inp n!"2dsbb") (.rat 2 1)) (.mul (.rat 8 1) (.inp n!"4dsbb")))) (.div (.div (.sqrt (.rat 2 1)) (.par n!"GF")) (.rat 4 1)))),
  (n!"CTRRt_bsdd", (.div (.mul (.div (.div (.div (.sqrt (.rat 2 1)) (.par n!"GF")) (.mul (.ckm 2 2) (.conj (.ckm 2 1)))) (.rat 4 1)) (.add (.mul (.rat (-8) 1) (.inp n!"10sbdd")) (.div (.inp n!"8sbdd") (.rat 2 1)))) (.div (.div (.sqrt (.rat 2 1)) (.par n!"GF")) (.rat 4 1)))),
  (n!"CVR_scenue", (.div (.mul (.div (.div (.div (.neg (.sqrt (.rat 2 1))) (.par n!"GF")) (.ckm 1 1)) (.rat 4 1)) (.inp n!"1pcsee")) (.div (.div (.sqrt (.rat 2 1)) (.par n!"GF")) (.rat 4 1)))),
  (n!"CP_bsetau", (.div (.mul (.div (.div (.div (.sqrt (.rat 2 1)) (.par n!"GF")) (.mul (.ckm 2 2) (.conj (.ckm 2 1)))) (.rat 4 1)) (.mul (.div (.div (.mul (.rat 16 1) (.mul .pi .pi)) (.mul (.sqrt (.mul (.mul (.rat 4 1) .pi) (.par n!"alpha_e"))) (.sqrt (.mul (.mul (.rat 4 1) .pi) (.par n!"alpha_e"))))) (.par n!"m_b")) (.mul (.rat 24 1) (.inp n!"9sbtaue")))) (.div (.div (.sqrt (.rat 2 1)) (.par n!"GF")) (.rat 4 1)))),
  (n!"CSR_sutaunumu", (.div (.mul (.div (.div (.div (.neg (.sqrt (.rat 2 1))) (.par n!"GF")) (.ckm 0 1)) (.rat 4 1)) (.inp n!"5ustaumu")) (.div (.div (.sqrt (.rat 2 1)) (.par n!"GF")) (.rat 4 1)))),
  (n!"CSLR_bduu", (.div (.mul (.div (.div (.div (.sqrt (.rat 2 1)) (.par n!"GF")) (.mul (.ckm 2 2) (.conj (.ckm 2 0)))) (.rat 4 1)) (.add (.sub (.add (.neg (.div (.mul (.rat 8 1) (.inp n!"10pdbuu")) (.rat 3 1))) (.inp n!"5pdbuu")) (.div (.inp n!"6pdbuu") (.rat 6 1))) (.mul (.rat 16 1) (.inp n!"9pdbuu")))) (.div (.div (.sqrt (.rat 2 1)) (.par n!"GF")) (.rat 4 1)))),
  (n!"CSLLt_sduu", (.div (.mul (.div (.div (.div (.sqrt (.rat 2 1)) (.par n!"GF")) (.mul (.ckm 2 1) (.conj (.ckm 2 0)))) (.rat 4 1)) (.add (.mul (.rat 32 1) (.inp n!"10pdsuu")) (.div (.inp n!"6pdsuu") (.rat 2 1)))) (.div (.div (.sqrt (.rat 2 1)) (.par n!"GF")) (.rat 4 1)))),
  (n!"CVR_buenue", (.div (.mul (.div (.div (.div (.neg (.sqrt (.rat 2 1))) (.par n!"GF")) (.ckm 0 2)) (.rat 4 1)) (.inp n!"1pubee")) (.div (.div (.sqrt (.rat 2 1)) (.par n!"GF")) (.rat 4 1)))),
  (n!"C10p_bdtaumu", (.div (.mul (.div (.div (.div (.sqrt (.rat 2 1)) (.par n!"GF")) (.mul (.ckm 2 2) (.conj (.ckm 2 0)))) (.rat 4 1)) (.mul (.div (.mul (.rat 16 1) (.mul .pi .pi)) (.mul (.sqrt (.mul (.mul (.rat 4 1) .pi) (.par n!"alpha_e"))) (.sqrt (.mul (.mul (.rat 4 1) .pi) (.par n!"alpha_e"))))) (.mul (.rat 6 1) (.inp n!"3pdbmutau")))) (.div (.div (.sqrt (.rat 2 1)) (.par n!"GF")) (.rat 4 1)))),
  (n!"CVL_bcenumu", (.div (.mul (.div (.div (.div (.neg (.sqrt (.rat 2 1))) (.par n!"GF")) (.ckm 1 2)) (.rat 4 1)) (.inp n!"1cbemu")) (.div (.div (.sqrt (.rat 2 1)) (.par n!"GF")) (.rat 4 1)))),
  (n!"CSp_bsmumu", (.div (.mul (.div (.div (.div (.sqrt (.rat 2 1)) (.par n!"GF")) (.mul (.ckm 2 2) (.conj (.ckm 2 1)))) (.rat 4 1)) (.mul (.div (.div (.mul (.rat 16 1) (.mul .pi .pi)) (.mul (.sqrt (.mul (.mul (.rat 4 1) .pi) (.par n!"alpha_e"))) (.sqrt (.mul (.mul (.rat 4 1) .pi) (.par n!"alpha_e"))))) (.par n!"m_b")) (.add (.inp n!"5psbmumu") (.mul (.rat 40 1) (.inp n!"9psbmumu"))))) (.div (.div (.sqrt (.rat 2 1)) (.par n!"GF")) (.rat 4 1)))),
  (n!"C10_bsee", (.div (.mul (.div (.div (.div (.sqrt (.rat 2 1)) (.par n!"GF")) (.mul (.ckm 2 2) (.conj (.ckm 2 1)))) (.rat 4 1)) (.mul (.div (.mul (.rat 16 1) (.mul .pi .pi)) (.mul (.sqrt (.mul (.mul (.rat 4 1) .pi) (.par n!"alpha_e"))) (.sqrt (.mul (.mul (.rat 4 1) .pi) (.par n!"alpha_e"))))) (.mul (.rat (-6) 1) (.inp n!"3sbee")))) (.div (.div (.sqrt (.rat 2 1)) (.par n!"GF")) (.rat 4 1)))),
  (n!"CT_bcenumu", (.div (.mul (.div (.div (.div (.neg (.sqrt (.rat 2 1))) (.par n!"GF")) (.ckm 1 2)) (.rat 4 1)) (.inp n!"7pcbemu")) (.div (.div (.sqrt (.rat 2 1)) (.par n!"GF")) (.rat 4 1)))),
  (n!"C9_bstaumu", (.div (.mul (.div (.div (.div (.sqrt (.rat 2 1)) (.par n!"GF")) (.mul (.ckm 2 2) (.conj (.ckm 2 1)))) (.rat 4 1)) (.mul (.div (.mul (.rat 16 1) (.mul .pi .pi)) (.mul (.sqrt (.mul (.mul (.rat 4 1) .pi) (.par n!"alpha_e"))) (.sqrt (.mul (.mul (.rat 4 1) .pi) (.par n!"alpha_e"))))) (.add (.inp n!"1sbmutau") (.mul (.rat 10 1) (.inp n!"3sbmutau"))))) (.div (.div (.sqrt (.rat 2 1)) (.par n!"GF")) (.rat 4 1)))),
  (n!"C9p_sdmutau", (.div (.mul (.div (.div (.div (.sqrt (.rat 2 1)) (.par n!"GF")) (.mul (.ckm 2 1) (.conj (.ckm 2 0)))) (.rat 4 1)) (.mul (.div (.mul (.rat 16 1) (.mul .pi .pi)) (.mul (.sqrt (.mul (.mul (.rat 4 1) .pi) (.par n!"alpha_e"))) (.sqrt (.mul (.mul (.rat 4 1) .pi) (.par n!"alpha_e"))))) (.add (.inp n!"1pdstaumu") (.mul (.rat 10 1) (.inp n!"3pdstaumu"))))) (.div (.div (.sqrt (.rat 2 1)) (.par n!"GF")) (.rat 4 1)))),
  (n!"CR_bdnutaunue", (.div (.mul (.div (.div (.div (.sqrt (.rat 2 1)) (.par n!"GF")) (.mul (.ckm 2 2) (.conj (.ckm 2 0)))) (.rat 4 1)) (.mul (.div (.mul (.rat 8 1) (.mul .pi .pi)) (.mul (.sqrt (.mul (.mul (.rat 4 1) .pi) (.par n!"alpha_e"))) (.sqrt (.mul (.mul (.rat 4 1) .pi) (.par n!"alpha_e"))))) (.inp n!"nu1pdbetau"))) (.div (.div (.sqrt (.rat 2 1)) (.par n!"GF")) (.rat 4 1)))),
  (n!"CR_bdnuenue", (.div (.mul (.div (.div (.div (.sqrt (.rat 2 1)) (.par n!"GF")) (.mul (.ckm 2 2) (.conj (.ckm 2 0)))) (.rat 4 1)) (.mul (.div (.mul (.rat 8 1) (.mul .pi .pi)) (.mul (.sqrt (.mul (.mul (.rat 4 1) .pi) (.par n!"alpha_e"))) (.sqrt (.mul (.mul (.rat 4 1) .pi) (.par n!"alpha_e"))))) (.inp n!"nu1pdbee"))) (.div (.div (.sqrt (.rat 2 1)) (.par n!"GF")) (.rat 4 1)))),
  (n!"CSLLt_bdss", (.div (.mul (.div (.div (.div (.sqrt (.rat 2 1)) (.par n!"GF")) (.mul (.ckm 2 2) (.conj (.ckm 2 0)))) (.rat 4 1)) (.add (.mul (.rat 32 1) (.inp n!"10pdbss")) (.div (.inp n!"6pdbss") (.rat 2 1)))) (.div (.div (.sqrt (.rat 2 1)) (.par n!"GF")) (.rat 4 1)))),
  (n!"CSRR_bscc", (.div (.mul (.div (.div (.div (.sqrt (.rat 2 1)) (.par n!"GF")) (.mul (.ckm 2 2) (.conj (.ckm 2 1)))) (.rat 4 1)) (.add (.sub (.add (.neg (.div (.mul (.rat 32 1) (.inp n!"10sbcc")) (.rat 3 1))) (.inp n!"5sbcc")) (.div (.inp n!"6sbcc") (.rat 6 1))) (.mul (.rat 64 1) (.inp n!"9sbcc")))) (.div (.div (.sqrt (.rat 2 1)) (.par n!"GF")) (.rat 4 1)))),
  (n!"CSp_sdmue", (.div (.mul (.div (.div (.div (.sqrt (.rat 2 1)) (.par n!"GF")) (.mul (.ckm 2 1) (.conj (.ckm 2 0)))) (.rat 4 1)) (.mul (.div (.div (.mul (.rat 16 1) (.mul .pi .pi)) (.mul (.sqrt (.mul (.mul (.rat 4 1) .pi) (.par n!"alpha_e"))) (.sqrt (.mul (.mul (.rat 4 1) .pi) (.par n!"alpha_e"))))) (.par n!"m_s")) (.add (.inp n!"5pdsemu") (.mul (.rat 40 1) (.inp n!"9pdsemu"))))) (.div (.div (.sqrt (.rat 2 1)) (.par n!"GF")) (.rat 4 1)))),
  (n!"C10p_bsee", (.div (.mul (.div (.div (.div (.sqrt (.rat 2 1)) (.par n!"GF")) (.mul (.ckm 2 2) (.conj (.ckm 2 1)))) (.rat 4 1)) (.mul (.div (.mul (.rat 16 1) (.mul .pi .pi)) (.mul (.sqrt (.mul (.mul (.rat 4 1) .pi) (.par n!"alpha_e"))) (.sqrt (.mul (.mul (.rat 4 1) .pi) (.par n!"alpha_e"))))) (.mul (.rat 6 1) (.inp n!"3psbee")))) (.div (.div (.sqrt (.rat 2 1)) (.par n!"GF")) (.rat 4 1)))),
  (n!"CVL_scmunutau", (.div (.mul (.div (.div (.div (.neg (.sqrt (.rat 2 1))) (.par n!"GF")) (.ckm 1 1)) (.rat 4 1)) (.inp n!"1csmutau")) (.div (.div (.sqrt (.rat 2 1)) (.par n!"GF")) (.rat 4 1)))),
  (n!"CT_dctaunutau", (.div (.mul (.div (.div (.div (.neg (.sqrt (.rat 2 1))) (.par n!"GF")) (.ckm 1 0)) (.rat 4 1)) (.inp n!"7pcdtautau")) (.div (.div (.sqrt (.rat 2 1)) (.par n!"GF")) (.rat 4 1)))),
  (n!"C8_bs", (.div (.mul (.div (.div (.div (.sqrt (.rat 2 1)) (.par n!"GF")) (.mul (.ckm 2 2) (.conj (.ckm 2 1)))) (.rat 4 1)) (.mul (.div (.div (.mul (.rat 16 1) (.mul .pi .pi)) (.sqrt (.mul (.mul (.rat 4 1) .pi) (.par n!"alpha_s")))) (.par n!"m_b")) (.div (.inp n!"8gsb") (.div (.sqrt (.mul (.mul (.rat 4 1) .pi) (.par n!"alpha_s"))) (.par n!"m_b"))))) (.div (.div (.sqrt (.rat 2 1)) (.par n!"GF")) (.rat 4 1)))),
  (n!"CS_sdtaue", (.div (.mul (.div (.div (.div (.sqrt (.rat 2 1)) (.par n!"GF")) (.mul (.ckm 2 1) (.conj (.ckm 2 0)))) (.rat 4 1)) (.mul (.div (.div (.mul (.rat 16 1) (.mul .pi .pi)) (.mul (.sqrt (.mul (.mul (.rat 4 1) .pi) (.par n!"alpha_e"))) (.sqrt (.mul (.mul (.rat 4 1) .pi) (.par n!"alpha_e"))))) (.par n!"m_s")) (.add (.inp n!"5dsetau") (.mul (.rat 40 1) (.inp n!"9dsetau"))))) (.div (.div (.sqrt (.rat 2 1)) (.par n!"GF")) (.rat 4 1)))),
  (n!"C7_bd", (.div (.mul (.div (.div (.div (.sqrt (.rat 2 1)) (.par n!"GF")) (.mul (.ckm 2 2) (.conj (.ckm 2 0)))) (.rat 4 1)) (.mul (.div (.div (.mul (.rat 16 1) (.mul .pi .pi)) (.sqrt (.mul (.mul (.rat 4 1) .pi) (.par n!"alpha_e")))) (.par n!"m_b")) (.div (.inp n!"7gammadb") (.div (.div (.mul (.sqrt (.mul (.mul (.rat 4 1) .pi) (.par n!"alpha_s"))) (.sqrt (.mul (.mul (.rat 4 1) .pi) (.par n!"alpha_s")))) (.sqrt (.mul (.mul (.rat 4 1) .pi) (.par n!"alpha_e")))) (.par n!"m_b"))))) (.div (.div (.sqrt (.rat 2 1)) (.par n!"GF")) (.rat 4 1))))]

def Bern_to_flavio_11 : List (ℕ × Sym) := [
  (n!"CVRLt_bdcc", (.div (.mul (.div (.div (.div (.sqrt (.rat 2 1)) (.par n!"GF")) (.mul (.ckm 2 2) (.conj (.ckm 2 0)))) (.rat 4 1)) (.add (.div (.inp n!"2pdbcc") (.rat 2 1)) (.mul (.rat 2 1) (.inp n!"4pdbcc")))) (.div (.div (.sqrt (.rat 2 1)) (.par n!"GF")) (.rat 4 1)))),
  (n!"C9_bsetau", (.div (.mul (.div (.div (.div (.sqrt (.rat 2 1)) (.par n!"GF")) (.mul (.ckm 2 2) (.conj (.ckm 2 1)))) (.rat 4 1)) (.mul (.div (.mul (.rat 16 1) (.mul .pi .pi)) (.mul (.sqrt (.mul (.mul (.rat 4 1) .pi) (.par n!"alpha_e"))) (.sqrt (.mul (.mul (.rat 4 1) .pi) (.par n!"alpha_e"))))) (.add (.inp n!"1sbtaue") (.mul (.rat 10 1) (.inp n!"3sbtaue"))))) (.div (.div (.sqrt (.rat 2 1)) (.par n!"GF")) (.rat 4 1)))),
  (n!"CVR_bctaunutau", (.div (.mul (.div (.div (.div (.neg (.sqrt (.rat 2 1))) (.par n!"GF")) (.ckm 1 2)) (.rat 4 1)) (.inp n!"1pcbtautau")) (.div (.div (.sqrt (.rat 2 1)) (.par n!"GF")) (.rat 4 1)))),
  (n!"CL_bsnutaunue", (.div (.mul (.div (.div (.div (.sqrt (.rat 2 1)) (.par n!"GF")) (.mul (.ckm 2 2) (.conj (.ckm 2 1)))) (.rat 4 1)) (.mul (.div (.mul (.rat 8 1) (.mul .pi .pi)) (.mul (.sqrt (.mul (.mul (.rat 4 1) .pi) (.par n!"alpha_e"))) (.sqrt (.mul (.mul (.rat 4 1) .pi) (.par n!"alpha_e"))))) (.inp n!"nu1sbetau"))) (.div (.div (.sqrt (.rat 2 1)) (.par n!"GF")) (.rat 4 1)))),
  (n!"CTRRt_bdcc", (.div (.mul (.div (.div (.div (.sqrt (.rat 2 1)) (.par n!"GF")) (.mul (.ckm 2 2) (.conj (.ckm 2 0)))) (.rat 4 1)) (.add (.mul (.rat (-8) 1) (.inp n!"10dbcc")) (.div (.inp n!"8dbcc") (.rat 2 1)))) (.div (.div (.sqrt (.rat 2 1)) (.par n!"GF")) (.rat 4 1)))),
  (n!"C10_bdtaumu", (.div (.mul (.div (.div (.div (.sqrt (.rat 2 1)) (.par n!"GF")) (.mul (.ckm 2 2) (.conj (.ckm 2 0)))) (.rat 4 1)) (.mul (.div (.mul (.rat 16 1) (.mul .pi .pi)) (.mul (.sqrt (.mul (.mul (.rat 4 1) .pi) (.par n!"alpha_e"))) (.sqrt (.mul (.mul (.rat 4 1) .pi) (.par n!"alpha_e"))))) (.mul (.rat (-6) 1) (.inp n!"3dbmutau")))) (.div (.div (.sqrt (.rat 2 1)) (.par n!"GF")) (.rat 4 1)))),
  (n!"CSLL_bsbs", (.div (.sub (.inp n!"2sbsb") (.mul (.div (.rat 1 1) (.rat 2 1)) (.inp n!"3sbsb"))) (.div (.div (.sqrt (.rat 2 1)) (.par n!"GF")) (.rat 4 1)))),
  (n!"CSL_dutaunutau", (.div (.mul (.div (.div (.div (.neg (.sqrt (.rat 2 1))) (.par n!"GF")) (.ckm 0 0)) (.rat 4 1)) (.inp n!"5pudtautau")) (.div (.div (.sqrt (.rat 2 1)) (.par n!"GF")) (.rat 4 1)))),
  (n!"CSRR_sddd", (.div (.mul (.div (.div (.div (.sqrt (.rat 2 1)) (.par n!"GF")) (.mul (.ckm 2 1) (.conj (.ckm 2 0)))) (.rat 4 1)) (.add (.inp n!"5pdsdd") (.mul (.rat 64 1) (.inp n!"9pdsdd")))) (.div (.div (.sqrt (.rat 2 1)) (.par n!"GF")) (.rat 4 1)))),
  (n!"CVLR_bsbs", (.div (.mul (.div (.rat (-1) 1) (.rat 2 1)) (.inp n!"5sbsb")) (.div (.div (.sqrt (.rat 2 1)) (.par n!"GF")) (.rat 4 1)))),
  (n!"CSRR_bsuu", (.div (.mul (.div (.div (.div (.sqrt (.rat 2 1)) (.par n!"GF")) (.mul (.ckm 2 2) (.conj (.ckm 2 1)))) (.rat 4 1)) (.add (.sub (.add (.neg (.div (.mul (.rat 32 1) (.inp n!"10sbuu")) (.rat 3 1))) (.inp n!"5sbuu")) (.div (.inp n!"6sbuu") (.rat 6 1))) (.mul (.rat 64 1) (.inp n!"9sbuu")))) (.div (.div (.sqrt (.rat 2 1)) (.par n!"GF")) (.rat 4 1)))),
  (n!"CT_dutaunue", (.div (.mul (.div (.div (.div (.neg (.sqrt (.rat 2 1))) (.par n!"GF")) (.ckm 0 0)) (.rat 4 1)) (.inp n!"7pudtaue")) (.div (.div (.sqrt (.rat 2 1)) (.par n!"GF")) (.rat 4 1)))),
  (n!"CSRRt_bsdd", (.div (.mul (.div (.div (.div (.sqrt (.rat 2 1)) (.par n!"GF")) (.mul (.ckm 2 2) (.conj (.ckm 2 1)))) (.rat 4 1)) (.add (.mul (.rat 32 1) (.inp n!"10sbdd")) (.div (.inp n!"6sbdd") (.rat 2 1)))) (.div (.div (.sqrt (.rat 2 1)) (.par n!"GF")) (.rat 4 1)))),
  (n!"CPp_sdtaue", (.div (.mul (.div (.div (.div (.sqrt (.rat 2 1)) (.par n!"GF")) (.mul (.ckm 2 1) (.conj (.ckm 2 0)))) (.rat 4 1)) (.mul (.div (.div (.mul (.rat 16 1) (.mul .pi .pi)) (.mul (.sqrt (.mul (.mul (.rat 4 1) .pi) (.par n!"alpha_e"))) (.sqrt (.mul (.mul (.rat 4 1) .pi) (.par n!"alpha_e"))))) (.par n!"m_s")) (.mul (.rat (-24) 1) (.inp n!"9pdsetau")))) (.div (.div (.sqrt (.rat 2 1)) (.par n!"GF")) (.rat 4 1)))),
  (n!"CVL_sumunue", (.div (.mul (.div (.div (.div (.neg (.sqrt (.rat 2 1))) (.par n!"GF")) (.ckm 0 1)) (.rat 4 1)) (.inp n!"1usmue")) (.div (.div (.sqrt (.rat 2 1)) (.par n!"GF")) (.rat 4 1)))),
  (n!"CP_sdtautau", (.div (.mul (.div (.div (.div (.sqrt (.rat 2 1)) (.par n!"GF")) (.mul (.ckm 2 1) (.conj (.ckm 2 0)))) (.rat 4 1)) (.mul (.div (.div (.mul (.rat 16 1) (.mul .pi .pi)) (.mul (.sqrt (.mul (.mul (.rat 4 1) .pi) (.par n!"alpha_e"))) (.sqrt (.mul (.mul (.rat 4 1) .pi) (.par n!"alpha_e"))))) (.par n!"m_s")) (.mul (.rat 24 1) (.inp n!"9dstautau")))) (.div (.div (.sqrt (.rat 2 1)) (.par n!"GF")) (.rat 4 1)))),
  (n!"CSRR_bdbb", (.div (.mul (.div (.div (.div (.sqrt (.rat 2 1)) (.par n!"GF")) (.mul (.ckm 2 2) (.conj (.ckm 2 0)))) (.rat 4 1)) (.add (.inp n!"5dbbb") (.mul (.rat 64 1) (.inp n!"9dbbb")))) (.div (.div (.sqrt (.rat 2 1)) (.par n!"GF")) (.rat 4 1)))),
  (n!"CSLRt_sdbb", (.div (.mul (.div (.div (.div (.sqrt (.rat 2 1)) (.par n!"GF")) (.mul (.ckm 2 1) (.conj (.ckm 2 0)))) (.rat 4 1)) (.add (.mul (.rat 8 1) (.inp n!"10pdsbb")) (.div (.inp n!"6pdsbb") (.rat 2 1)))) (.div (.div (.sqrt (.rat 2 1)) (.par n!"GF")) (.rat 4 1)))),
  (n!"CSR_dutaunue", (.div (.mul (.div (.div (.div (.neg (.sqrt (.rat 2 1))) (.par n!"GF")) (.ckm 0 0)) (.rat 4 1)) (.inp n!"5udtaue")) (.div (.div (.sqrt (.rat 2 1)) (.par n!"GF")) (.rat 4 1)))),
  (n!"C7p_bd", (.div (.mul (.div (.div (.div (.sqrt (.rat 2 1)) (.par n!"GF")) (.mul (.ckm 2 2) (.conj (.ckm 2 0)))) (.rat 4 1)) (.mul (.div (.div (.mul (.rat 16 1) (.mul .pi .pi)) (.sqrt (.mul (.mul (.rat 4 1) .pi) (.par n!"alpha_e")))) (.par n!"m_b")) (.div (.inp n!"7pgammadb") (.div (.div (.mul (.sqrt (.mul (.mul (.rat 4 1) .pi) (.par n!"alpha_s"))) (.sqrt (.mul (.mul (.rat 4 1) .pi) (.par n!"alpha_s")))) (.sqrt (.mul (.mul (.rat 4 1) .pi) (.par n!"alpha_e")))) (.par n!"m_b"))))) (.div (.div (.sqrt (.rat 2 1)) (.par n!"GF")) (.rat 4 1)))),
  (n!"CT_sctaunumu", (.div (.mul (.div (.div (.div (.neg (.sqrt (.rat 2 1))) (.par n!"GF")) (.ckm 1 1)) (.rat 4 1)) (.inp n!"7pcstaumu")) (.div (.div (.sqrt (.rat 2 1)) (.par n!"GF")) (.rat 4 1)))),
  (n!"C10p_sdmue", (.div (.mul (.div (.div (.div (.sqrt (.rat 2 1)) (.par n!"GF")) (.mul (.ckm 2 1) (.conj (.ckm 2 0)))) (.rat 4 1)) (.mul (.div (.mul (.rat 16 1) (.mul .pi .pi)) (.mul (.sqrt (.mul (.mul (.rat 4 1) .pi) (.par n!"alpha_e"))) (.sqrt (.mul (.mul (.rat 4 1) .pi) (.par n!"alpha_e"))))) (.mul (.rat 6 1) (.inp n!"3pdsemu")))) (.div (.div (.sqrt (.rat 2 1)) (.par n!"GF")) (.rat 4 1)))),
  (n!"CVRLt_bduu", (.div (.mul (.div (.div (.div (.sqrt (.rat 2 1)) (.par n!"GF")) (.mul (.ckm 2 2) (.conj (.ckm 2 0)))) (.rat 4 1)) (.add (.div (.inp n!"2pdbuu") (.rat 2 1)) (.mul (.rat 2 1) (.inp n!"4pdbuu")))) (.div (.div (.sqrt (.rat 2 1)) (.par n!"GF")) (.rat 4 1)))),
  (n!"CVL_bcmunumu", (.div (.mul (.div (.div (.div (.neg (.sqrt (.rat 2 1))) (.par n!"GF")) (.ckm 1 2)) (.rat 4 1)) (.inp n!"1cbmumu")) (.div (.div (.sqrt (.rat 2 1)) (.par n!"GF")) (.rat 4 1)))),
  (n!"CT_sumunue", (.div (.mul (.div (.div (.div (.neg (.sqrt (.rat 2 1))) (.par n!"GF")) (.ckm 0 1)) (.rat 4 1)) (.inp n!"7pusmue")) (.div (.div (.sqrt (.rat 2 1)) (.par n!"GF")) (.rat 4 1)))),
  (n!"CVR_bcenue", (.div (.mul (.div (.div (.div (.neg (.sqrt (.rat 2 1))) (.par n!"GF")) (.ckm 1 2)) (.rat 4 1)) (.inp n!"1pcbee")) (.div (.div (.sqrt (.rat 2 1)) (.par n!"GF")) (.rat 4 1)))),
  (n!"CSp_bsmutau", (.div (.mul (.div (.div (.div (.sqrt (.rat 2 1)) (.par n!"GF")) (.mul (.ckm 2 2) (.conj (.ckm 2 1)))) (.rat 4 1)) (.mul (.div (.div (.mul (.rat 16 1) (.mul .pi .pi)) (.mul (.sqrt (.mul (.mul (.rat 4 1) .pi) (.par n!"alpha_e"))) (.sqrt (.mul (.mul (.rat 4 1) .pi) (.par n!"alpha_e"))))) (.par n!"m_b")) (.add (.inp n!"5psbtaumu") (.mul (.rat 40 1) (.inp n!"9psbtaumu"))))) (.div (.div (.sqrt (.rat 2 1)) (.par n!"GF")) (.rat 4 1)))),
  (n!"CTRRt_bduu", (.div (.mul (.div (.div (.div (.sqrt (.rat 2 1)) (.par n!"GF")) (.mul (.ckm 2 2) (.conj (.ckm 2 0)))) (.rat 4 1)) (.add (.mul (.rat (-8) 1) (.inp n!"10dbuu")) (.div (.inp n!"8dbuu") (.rat 2 1)))) (.div (.div (.sqrt (.rat 2 1)) (.par n!"GF")) (.rat 4 1)))),
  (n!"C10_sdtaue", (.div (.mul (.div (.div (.div (.sqrt (.rat 2 1)) (.par n!"GF")) (.mul (.ckm 2 1) (.conj (.ckm 2 0)))) (.rat 4 1)) (.mul (.div (.mul (.rat 16 1) (.mul .pi .pi)) (.mul (.sqrt (.mul (.mul (.rat 4 1) .pi) (.par n!"alpha_e"))) (.sqrt (.mul (.mul (.rat 4 1) .pi) (.par n!"alpha_e"))))) (.mul (.rat (-6) 1) (.inp n!"3dsetau")))) (.div (.div (.sqrt (.rat 2 1)) (.par n!"GF")) (.rat 4 1)))),
  (n!"C10p_bstaue", (.div (.mul (.div (.div (.div (.sqrt (.rat 2 1)) (.par n!"GF")) (.mul (.ckm 2 2) (.conj (.ckm 2 1)))) (.rat 4 1)) (.mul (.div (.mul (.rat 16 1) (.mul .pi .pi)) (.mul (.sqrt (.mul (.mul (.rat 4 1) .pi) (.par n!"alpha_e"))) (.sqrt (.mul (.mul (.rat 4 1) .pi) (.par n!"alpha_e"))))) (.mul (.rat 6 1) (.inp n!"3psbetau")))) (.div (.div (.sqrt (.rat 2 1)) (.par n!"GF")) (.rat 4 1)))),
  (n!"CR_bsnutaunutau", (.div (.mul (.div (.div (.div (.sqrt (.rat 2 1)) (.par n!"GF")) (.mul (.ckm 2 2) (.conj (.ckm 2 1)))) (.rat 4 1)) (.mul (.div (.mul (.rat 8 1) (.mul .pi .pi)) (.mul (.sqrt (.mul (.mul (.rat 4 1) .pi) (.par n!"alpha_e"))) (.sqrt (.mul (.mul (.rat 4 1) .pi) (.par n!"alpha_e"))))) (.inp n!"nu1psbtautau"))) (.div (.div (.sqrt (.rat 2 1)) (.par n!"GF")) (.rat 4 1)))),
  (n!"CSLL_bddd", (.div (.mul (.div (.div (.div (.sqrt (.rat 2 1)) (.par n!"GF")) (.mul (.ckm 2 2) (.conj (.ckm 2 0)))) (.rat 4 1)) (.add (.inp n!"5dbdd") (.mul (.rat 64 1) (.inp n!"9dbdd")))) (.div (.div (.sqrt (.rat 2 1)) (.par n!"GF")) (.rat 4 1)))),
  (n!"CP_sdemu", (.div (.mul (.div (.div (.div (.sqrt (.rat 2 1)) (.par n!"GF")) (.mul (.ckm 2 1) (.conj (.ckm 2 0)))) (.rat 4 1)) (.mul (.div (.div (.mul (.rat 16 1) (.mul .pi .pi)) (.mul (.sqrt (.mul (.mul (.rat 4 1) .pi) (.par n!"alpha_e"))) (.sqrt (.mul (.mul (.rat 4 1) .pi) (.par n!"alpha_e"))))) (.par n!"m_s")) (.mul (.rat 24 1) (.inp n!"9dsmue")))) (.div (.div (.sqrt (.rat 2 1)) (.par n!"GF")) (.rat 4 1)))),
  (n!"CVRRt_bscc", (.div (.mul (.div (.div (.div (.sqrt (.rat 2 1)) (.par n!"GF")) (.mul (.ckm 2 2) (.conj (.ckm 2 1)))) (.rat 4 1)) (.add (.div (.inp n!"2psbcc") (.rat 2 1)) (.mul (.rat 8 1) (.inp n!"4psbcc")))) (.div (.div (.sqrt (.rat 2 1)) (.par n!"GF")) (.rat 4 1)))),
  (n!"CVLR_bddd", (.div (.mul (.div (.div (.div (.sqrt (.rat 2 1)) (.par n!"GF")) (.mul (.ckm 2 2) (.conj (.ckm 2 0)))) (.rat 4 1)) (.add (.inp n!"1dbdd") (.mul (.rat 4 1) (.inp n!"3dbdd")))) (.div (.div (.sqrt (.rat 2 1)) (.par n!"GF")) (.rat 4 1)))),
  (n!"CSR_butaunutau", (.div (.mul (.div (.div (.div (.neg (.sqrt (.rat 2 1))) (.par n!"GF")) (.ckm 0 2)) (.rat 4 1)) (.inp n!"5ubtautau")) (.div (.div (.sqrt (.rat 2 1)) (.par n!"GF")) (.rat 4 1)))),
  (n!"CS_bdemu", (.div (.mul (.div (.div (.div (.sqrt (.rat 2 1)) (.par n!"GF")) (.mul (.ckm 2 2) (.conj (.ckm 2 0)))) (.rat 4 1)) (.mul (.div (.div (.mul (.rat 16 1) (.mul .pi .pi)) (.mul (.sqrt (.mul (.mul (.rat 4 1) .pi) (.par n!"alpha_e"))) (.sqrt (.mul (.mul (.rat 4 1) .pi) (.par n!"alpha_e"))))) (.par n!"m_b")) (.add (.inp n!"5dbmue") (.mul (.rat 40 1) (.inp n!"9dbmue"))))) (.div (.div (.sqrt (.rat 2 1)) (.par n!"GF")) (.rat 4 1)))),
  (n!"CVRL_sdss", (.div (.mul (.div (.div (.div (.sqrt (.rat 2 1)) (.par n!"GF")) (.mul (.ckm 2 1) (.conj (.ckm 2 0)))) (.rat 4 1)) (.add (.inp n!"1pdsss") (.mul (.rat 4 1) (.inp n!"3pdsss")))) (.div (.div (.sqrt (.rat 2 1)) (.par n!"GF")) (.rat 4 1)))),
  (n!"CVL_duenue", (.div (.mul (.div (.div (.div (.neg (.sqrt (.rat 2 1))) (.par n!"GF")) (.ckm 0 0)) (.rat 4 1)) (.inp n!"1udee")) (.div (.div (.sqrt (.rat 2 1)) (.par n!"GF")) (.rat 4 1)))),
  (n!"CVR_sumunutau", (.div (.mul (.div (.div (.div (.neg (.sqrt (.rat 2 1))) (.par n!"GF")) (.ckm 0 1)) (.rat 4 1)) (.inp n!"1pusmutau")) (.div (.div (.sqrt (.rat 2 1)) (.par n!"GF")) (.rat 4 1)))),
  (n!"CL_bdnumunumu", (.div (.mul (.div (.div (.div (.sqrt (.rat 2 1)) (.par n!"GF")) (.mul (.ckm 2 2) (.conj (.ckm 2 0)))) (.rat 4 1)) (.mul (.div (.mul (.rat 8 1) (.mul .pi .pi)) (.mul (.sqrt (.mul (.mul (.rat 4 1) .pi) (.par n!"alpha_e"))) (.sqrt (.mul (.mul (.rat 4 1) .pi) (.par n!"alpha_e"))))) (.inp n!"nu1dbmumu"))) (.div (.div (.sqrt (.rat 2 1)) (.par n!"GF")) (.rat 4 1)))),
  (n!"C9p_sdtaumu", (.div (.mul (.div (.div (.div (.sqrt (.rat 2 1)) (.par n!"GF")) (.mul (.ckm 2 1) (.conj (.ckm 2 0)))) (.rat 4 1)) (.mul (.div (.mul (.rat 16 1) (.mul .pi .pi)) (.mul (.sqrt (.mul (.mul (.rat 4 1) .pi) (.par n!"alpha_e"))) (.sqrt (.mul (.mul (.rat 4 1) .pi) (.par n!"alpha_e"))))) (.add (.inp n!"1pdsmutau") (.mul (.rat 10 1) (.inp n!"3pdsmutau"))))) (.div (.div (.sqrt (.rat 2 1)) (.par n!"GF")) (.rat 4 1)))),
  (n!"CSRR_ucuc", (.div (.sub (.inp n!"2pcucu") (.mul (.div (.rat 1 1) (.rat 2 1)) (.inp n!"3pcucu"))) (.div (.div (.sqrt (.rat 2 1)) (.par n!"GF")) (.rat 4 1)))),
  (n!"CVL_sctaunumu", (.div (.mul (.div (.div (.div (.neg (.sqrt (.rat 2 1))) (.par n!"GF")) (.ckm 1 1)) (.rat 4 1)) (.inp n!"1cstaumu")) (.div (.div (.sqrt (.rat 2 1)) (.par n!"GF")) (.rat 4 1)))),
  (n!"CS_bdtaue", (.div (.mul (.div (.div (.div (.sqrt (.rat 2 1)) (.par n!"GF")) (.mul (.ckm 2 2) (.conj (.ckm 2 0)))) (.rat 4 1)) (.mul (.div (.div (.mul (.rat 16 1) (.mul .pi .pi)) (.mul (.sqrt (.mul (.mul (.rat 4 1) .pi) (.par n!"alpha_e"))) (.sqrt (.mul (.mul (.rat 4 1) .pi) (.par n!"alpha_e"))))) (.par n!"m_b")) (.add (.inp n!"5dbetau") (.mul (.rat 40 1) (.inp n!"9dbetau"))))) (.div (.div (.sqrt (.rat 2 1)) (.par n!"GF")) (.rat 4 1)))),
  (n!"CL_sdnuenumu", (.div (.mul (.div (.div (.div (.sqrt (.rat 2 1)) (.par n!"GF")) (.mul (.ckm 2 1) (.conj (.ckm 2 0)))) (.rat 4 1)) (.mul (.div (.mul (.rat 8 1) (.mul .pi .pi)) (.mul (.sqrt (.mul (.mul (.rat 4 1) .pi) (.par n!"alpha_e"))) (.sqrt (.mul (.mul (.rat 4 1) .pi) (.par n!"alpha_e"))))) (.inp n!"nu1dsmue"))) (.div (.div (.sqrt (.rat 2 1)) (.par n!"GF")) (.rat 4 1)))),
  (n!"CSRRt_bdcc", (.div (.mul (.div (.div (.div (.sqrt (.rat 2 1)) (.par n!"GF")) (.mul (.ckm 2 2) (.conj (.ckm 2 0)))) (.rat 4 1)) (.add (.mul (.rat 32 1) (.inp n!"10dbcc")) (.div (.inp n!"6dbcc") (.rat 2 1)))) (.div (.div (.sqrt (.rat 2 1)) (.par n!"GF")) (.rat 4 1)))),
  (n!"C10_sdmue", (.div (.mul (.div (.div (.div (.sqrt (.rat 2 1)) (.par n!"GF")) (.mul (.ckm 2 1) (.conj (.ckm 2 0)))) (.rat 4 1)) (.mul (.div (.mul (.rat 16 1) (.mul .pi .pi)) (.mul (.sqrt (.mul (.mul (.rat 4 1) .pi) (.par n!"alpha_e"))) (.sqrt (.mul (.mul (.rat 4 1) .pi) (.par n!"alpha_e"))))) (.mul (.rat (-6) 1) (.inp n!"3dsemu")))) (.div (.div (.sqrt (.rat 2 1)) (.par n!"GF")) (.rat 4 1)))),
  (n!"CSR_duenumu", (.div (.mul (.div (.div (.div (.neg (.sqrt (.rat 2 1))) (.par n!"GF")) (.ckm 0 0)) (.rat 4 1)) (.inp n!"5udemu")) (.div (.div (.sqrt (.rat 2 1)) (.par n!"GF")) (.rat 4 1)))),
  (n!"CVR_dcenutau", (.div (.mul (.div (.div (.div (.neg (.sqrt (.rat 2 1))) (.par n!"GF")) (.ckm 1 0)) (.rat 4 1)) (.inp n!"1pcdetau")) (.div (.div (.sqrt (.rat 2 1)) (.par n!"GF")) (.rat 4 1))))]

def Bern_to_flavio_12 : List (ℕ × Sym) := [
  (n!"CSL_sctaunutau", (.div (.mul (.div (.div (.div (.neg (.sqrt (.rat 2 1))) (.par n!"GF")) (.ckm 1 1)) (.rat 4 1)) (.inp n!"5pcstautau")) (.div (.div (.sqrt (.rat 2 1)) (.par n!"GF")) (.rat 4 1)))),
  (n!"CTLLt_sdbb", (.div (.mul (.div (.div (.div (.sqrt (.rat 2 1)) (.par n!"GF")) (.mul (.ckm 2 1) (.conj (.ckm 2 0)))) (.rat 4 1)) (.add (.mul (.rat (-8) 1) (.inp n!"10pdsbb")) (.div (.inp n!"8pdsbb") (.rat 2 1)))) (.div (.div (.sqrt (.rat 2 1)) (.par n!"GF")) (.rat 4 1)))),
  (n!"CVRRt_bsuu", (.div (.mul (.div (.div (.div (.sqrt (.rat 2 1)) (.par n!"GF")) (.mul (.ckm 2 2) (.conj (.ckm 2 1)))) (.rat 4 1)) (.add (.div (.inp n!"2psbuu") (.rat 2 1)) (.mul (.rat 8 1) (.inp n!"4psbuu")))) (.div (.div (.sqrt (.rat 2 1)) (.par n!"GF")) (.rat 4 1)))),
  (n!"CPp_sdmutau", (.div (.mul (.div (.div (.div (.sqrt (.rat 2 1)) (.par n!"GF")) (.mul (.ckm 2 1) (.conj (.ckm 2 0)))) (.rat 4 1)) (.mul (.div (.div (.mul (.rat 16 1) (.mul .pi .pi)) (.mul (.sqrt (.mul (.mul (.rat 4 1) .pi) (.par n!"alpha_e"))) (.sqrt (.mul (.mul (.rat 4 1) .pi) (.par n!"alpha_e"))))) (.par n!"m_s")) (.mul (.rat (-24) 1) (.inp n!"9pdstaumu")))) (.div (.div (.sqrt (.rat 2 1)) (.par n!"GF")) (.rat 4 1)))),
  (n!"CR_sdnumunutau", (.div (.mul (.div (.div (.div (.sqrt (.rat 2 1)) (.par n!"GF")) (.mul (.ckm 2 1) (.conj (.ckm 2 0)))) (.rat 4 1)) (.mul (.div (.mul (.rat 8 1) (.mul .pi .pi)) (.mul (.sqrt (.mul (.mul (.rat 4 1) .pi) (.par n!"alpha_e"))) (.sqrt (.mul (.mul (.rat 4 1) .pi) (.par n!"alpha_e"))))) (.inp n!"nu1pdstaumu"))) (.div (.div (.sqrt (.rat 2 1)) (.par n!"GF")) (.rat 4 1)))),
  (n!"CSR_suenue", (.div (.mul (.div (.div (.div (.neg (.sqrt (.rat 2 1))) (.par n!"GF")) (.ckm 0 1)) (.rat 4 1)) (.inp n!"5usee")) (.div (.div (.sqrt (.rat 2 1)) (.par n!"GF")) (.rat 4 1)))),
  (n!"CVR_suenutau", (.div (.mul (.div (.div (.div (.neg (.sqrt (.rat 2 1))) (.par n!"GF")) (.ckm 0 1)) (.rat 4 1)) (.inp n!"1pusetau")) (.div (.div (.sqrt (.rat 2 1)) (.par n!"GF")) (.rat 4 1)))),
  (n!"CPp_bdtaue", (.div (.mul (.div (.div (.div (.sqrt (.rat 2 1)) (.par n!"GF")) (.mul (.ckm 2 2) (.conj (.ckm 2 0)))) (.rat 4 1)) (.mul (.div (.div (.mul (.rat 16 1) (.mul .pi .pi)) (.mul (.sqrt (.mul (.mul (.rat 4 1) .pi) (.par n!"alpha_e"))) (.sqrt (.mul (.mul (.rat 4 1) .pi) (.par n!"alpha_e"))))) (.par n!"m_b")) (.mul (.rat (-24) 1) (.inp n!"9pdbetau")))) (.div (.div (.sqrt (.rat 2 1)) (.par n!"GF")) (.rat 4 1)))),
  (n!"CTRR_bscc", (.div (.mul (.div (.div (.div (.sqrt (.rat 2 1)) (.par n!"GF")) (.mul (.ckm 2 2) (.conj (.ckm 2 1)))) (.rat 4 1)) (.sub (.sub (.add (.div (.mul (.rat 8 1) (.inp n!"10sbcc")) (.rat 3 1)) (.inp n!"7sbcc")) (.div (.inp n!"8sbcc") (.rat 6 1))) (.mul (.rat 16 1) (.inp n!"9sbcc")))) (.div (.div (.sqrt (.rat 2 1)) (.par n!"GF")) (.rat 4 1)))),
  (n!"CSRL_bsdd", (.div (.mul (.div (.div (.div (.sqrt (.rat 2 1)) (.par n!"GF")) (.mul (.ckm 2 2) (.conj (.ckm 2 1)))) (.rat 4 1)) (.add (.sub (.add (.neg (.div (.mul (.rat 8 1) (.inp n!"10sbdd")) (.rat 3 1))) (.inp n!"5sbdd")) (.div (.inp n!"6sbdd") (.rat 6 1))) (.mul (.rat 16 1) (.inp n!"9sbdd")))) (.div (.div (.sqrt (.rat 2 1)) (.par n!"GF")) (.rat 4 1)))),
  (n!"CSRRt_bduu", (.div (.mul (.div (.div (.div (.sqrt (.rat 2 1)) (.par n!"GF")) (.mul (.ckm 2 2) (.conj (.ckm 2 0)))) (.rat 4 1)) (.add (.mul (.rat 32 1) (.inp n!"10dbuu")) (.div (.inp n!"6dbuu") (.rat 2 1)))) (.div (.div (.sqrt (.rat 2 1)) (.par n!"GF")) (.rat 4 1)))),
  (n!"CSLR_bscc", (.div (.mul (.div (.div (.div (.sqrt (.rat 2 1)) (.par n!"GF")) (.mul (.ckm 2 2) (.conj (.ckm 2 1)))) (.rat 4 1)) (.add (.sub (.add (.neg (.div (.mul (.rat 8 1) (.inp n!"10psbcc")) (.rat 3 1))) (.inp n!"5psbcc")) (.div (.inp n!"6psbcc") (.rat 6 1))) (.mul (.rat 16 1) (.inp n!"9psbcc")))) (.div (.div (.sqrt (.rat 2 1)) (.par n!"GF")) (.rat 4 1)))),
  (n!"CVRR_bsdd", (.div (.mul (.div (.div (.div (.sqrt (.rat 2 1)) (.par n!"GF")) (.mul (.ckm 2 2) (.conj (.ckm 2 1)))) (.rat 4 1)) (.sub (.add (.sub (.inp n!"1psbdd") (.div (.inp n!"2psbdd") (.rat 6 1))) (.mul (.rat 16 1) (.inp n!"3psbdd"))) (.div (.mul (.rat 8 1) (.inp n!"4psbdd")) (.rat 3 1)))) (.div (.div (.sqrt (.rat 2 1)) (.par n!"GF")) (.rat 4 1)))),
  (n!"CSp_bsee", (.div (.mul (.div (.div (.div (.sqrt (.rat 2 1)) (.par n!"GF")) (.mul (.ckm 2 2) (.conj (.ckm 2 1)))) (.rat 4 1)) (.mul (.div (.div (.mul (.rat 16 1) (.mul .pi .pi)) (.mul (.sqrt (.mul (.mul (.rat 4 1) .pi) (.par n!"alpha_e"))) (.sqrt (.mul (.mul (.rat 4 1) .pi) (.par n!"alpha_e"))))) (.par n!"m_b")) (.add (.inp n!"5psbee") (.mul (.rat 40 1) (.inp n!"9psbee"))))) (.div (.div (.sqrt (.rat 2 1)) (.par n!"GF")) (.rat 4 1)))),
  (n!"CPp_sdemu", (.div (.mul (.div (.div (.div (.sqrt (.rat 2 1)) (.par n!"GF")) (.mul (.ckm 2 1) (.conj (.ckm 2 0)))) (.rat 4 1)) (.mul (.div (.div (.mul (.rat 16 1) (.mul .pi .pi)) (.mul (.sqrt (.mul (.mul (.rat 4 1) .pi) (.par n!"alpha_e"))) (.sqrt (.mul (.mul (.rat 4 1) .pi) (.par n!"alpha_e"))))) (.par n!"m_s")) (.mul (.rat (-24) 1) (.inp n!"9pdsmue")))) (.div (.div (.sqrt (.rat 2 1)) (.par n!"GF")) (.rat 4 1)))),
  (n!"CT_scenutau", (.div (.mul (.div (.div (.div (.neg (.sqrt (.rat 2 1))) (.par n!"GF")) (.ckm 1 1)) (.rat 4 1)) (.inp n!"7pcsetau")) (.div (.div (.sqrt (.rat 2 1)) (.par n!"GF")) (.rat 4 1)))),
  (n!"C10_bdtaue", (.div (.mul (.div (.div (.div (.sqrt (.rat 2 1)) (.par n!"GF")) (.mul (.ckm 2 2) (.conj (.ckm 2 0)))) (.rat 4 1)) (.mul (.div (.mul (.rat 16 1) (.mul .pi .pi)) (.mul (.sqrt (.mul (.mul (.rat 4 1) .pi) (.par n!"alpha_e"))) (.sqrt (.mul (.mul (.rat 4 1) .pi) (.par n!"alpha_e"))))) (.mul (.rat (-6) 1) (.inp n!"3dbetau")))) (.div (.div (.sqrt (.rat 2 1)) (.par n!"GF")) (.rat 4 1)))),
  (n!"CSR_buenumu", (.div (.mul (.div (.div (.div (.neg (.sqrt (.rat 2 1))) (.par n!"GF")) (.ckm 0 2)) (.rat 4 1)) (.inp n!"5ubemu")) (.div (.div (.sqrt (.rat 2 1)) (.par n!"GF")) (.rat 4 1)))),
  (n!"C9_bdmue", (.div (.mul (.div (.div (.div (.sqrt (.rat 2 1)) (.par n!"GF")) (.mul (.ckm 2 2) (.conj (.ckm 2 0)))) (.rat 4 1)) (.mul (.div (.mul (.rat 16 1) (.mul .pi .pi)) (.mul (.sqrt (.mul (.mul (.rat 4 1) .pi) (.par n!"alpha_e"))) (.sqrt (.mul (.mul (.rat 4 1) .pi) (.par n!"alpha_e"))))) (.add (.inp n!"1dbemu") (.mul (.rat 10 1) (.inp n!"3dbemu"))))) (.div (.div (.sqrt (.rat 2 1)) (.par n!"GF")) (.rat 4 1)))),
  (n!"CSR_scenumu", (.div (.mul (.div (.div (.div (.neg (.sqrt (.rat 2 1))) (.par n!"GF")) (.ckm 1 1)) (.rat 4 1)) (.inp n!"5csemu")) (.div (.div (.sqrt (.rat 2 1)) (.par n!"GF")) (.rat 4 1)))),
  (n!"CSR_scenutau", (.div (.mul (.div (.div (.div (.neg (.sqrt (.rat 2 1))) (.par n!"GF")) (.ckm 1 1)) (.rat 4 1)) (.inp n!"5csetau")) (.div (.div (.sqrt (.rat 2 1)) (.par n!"GF")) (.rat 4 1)))),
  (n!"CSp_bstaumu", (.div (.mul (.div (.div (.div (.sqrt (.rat 2 1)) (.par n!"GF")) (.mul (.ckm 2 2) (.conj (.ckm 2 1)))) (.rat 4 1)) (.mul (.div (.div (.mul (.rat 16 1) (.mul .pi .pi)) (.mul (.sqrt (.mul (.mul (.rat 4 1) .pi) (.par n!"alpha_e"))) (.sqrt (.mul (.mul (.rat 4 1) .pi) (.par n!"alpha_e"))))) (.par n!"m_b")) (.add (.inp n!"5psbmutau") (.mul (.rat 40 1) (.inp n!"9psbmutau"))))) (.div (.div (.sqrt (.rat 2 1)) (.par n!"GF")) (.rat 4 1)))),
  (n!"CTLL_bsbs", (.div (.mul (.div (.rat (-1) 1) (.rat 8 1)) (.inp n!"3sbsb")) (.div (.div (.sqrt (.rat 2 1)) (.par n!"GF")) (.rat 4 1)))),
  (n!"CVL_dcenue", (.div (.mul (.div (.div (.div (.neg (.sqrt (.rat 2 1))) (.par n!"GF")) (.ckm 1 0)) (.rat 4 1)) (.inp n!"1cdee")) (.div (.div (.sqrt (.rat 2 1)) (.par n!"GF")) (.rat 4 1)))),
  (n!"CTRR_sddd", (.div (.mul (.div (.div (.div (.sqrt (.rat 2 1)) (.par n!"GF")) (.mul (.ckm 2 1) (.conj (.ckm 2 0)))) (.rat 4 1)) (.sub (.inp n!"7pdsdd") (.mul (.rat 16 1) (.inp n!"9pdsdd")))) (.div (.div (.sqrt (.rat 2 1)) (.par n!"GF")) (.rat 4 1)))),
  (n!"CVL_dutaunutau", (.div (.mul (.div (.div (.div (.neg (.sqrt (.rat 2 1))) (.par n!"GF")) (.ckm 0 0)) (.rat 4 1)) (.inp n!"1udtautau")) (.div (.div (.sqrt (.rat 2 1)) (.par n!"GF")) (.rat 4 1)))),
  (n!"CSR_dcmunutau", (.div (.mul (.div (.div (.div (.neg (.sqrt (.rat 2 1))) (.par n!"GF")) (.ckm 1 0)) (.rat 4 1)) (.inp n!"5cdmutau")) (.div (.div (.sqrt (.rat 2 1)) (.par n!"GF")) (.rat 4 1)))),
  (n!"CTRR_bsuu", (.div (.mul (.div (.div (.div (.sqrt (.rat 2 1)) (.par n!"GF")) (.mul (.ckm 2 2) (.conj (.ckm 2 1)))) (.rat 4 1)) (.sub (.sub (.add (.div (.mul (.rat 8 1) (.inp n!"10sbuu")) (.rat 3 1)) (.inp n!"7sbuu")) (.div (.inp n!"8sbuu") (.rat 6 1))) (.mul (.rat 16 1) (.inp n!"9sbuu")))) (.div (.div (.sqrt (.rat 2 1)) (.par n!"GF")) (.rat 4 1)))),
  (n!"CSLR_sddd", (.div (.mul (.div (.div (.div (.sqrt (.rat 2 1)) (.par n!"GF")) (.mul (.ckm 2 1) (.conj (.ckm 2 0)))) (.rat 4 1)) (.add (.inp n!"5dsdd") (.mul (.rat 16 1) (.inp n!"9dsdd")))) (.div (.div (.sqrt (.rat 2 1)) (.par n!"GF")) (.rat 4 1)))),
  (n!"CVR_sutaunumu", (.div (.mul (.div (.div (.div (.neg (.sqrt (.rat 2 1))) (.par n!"GF")) (.ckm 0 1)) (.rat 4 1)) (.inp n!"1pustaumu")) (.div (.div (.sqrt (.rat 2 1)) (.par n!"GF")) (.rat 4 1)))),
  (n!"CS_bsmumu", (.div (.mul (.div (.div (.div (.sqrt (.rat 2 1)) (.par n!"GF")) (.mul (.ckm 2 2) (.conj (.ckm 2 1)))) (.rat 4 1)) (.mul (.div (.div (.mul (.rat 16 1) (.mul .pi .pi)) (.mul (.sqrt (.mul (.mul (.rat 4 1) .pi) (.par n!"alpha_e"))) (.sqrt (.mul (.mul (.rat 4 1) .pi) (.par n!"alpha_e"))))) (.par n!"m_b")) (.add (.inp n!"5sbmumu") (.mul (.rat 40 1) (.inp n!"9sbmumu"))))) (.div (.div (.sqrt (.rat 2 1)) (.par n!"GF")) (.rat 4 1)))),
  (n!"CP_bsmue", (.div (.mul (.div (.div (.div (.sqrt (.rat 2 1)) (.par n!"GF")) (.mul (.ckm 2 2) (.conj (.ckm 2 1)))) (.rat 4 1)) (.mul (.div (.div (.mul (.rat 16 1) (.mul .pi .pi)) (.mul (.sqrt (.mul (.mul (.rat 4 1) .pi) (.par n!"alpha_e"))) (.sqrt (.mul (.mul (.rat 4 1) .pi) (.par n!"alpha_e"))))) (.par n!"m_b")) (.mul (.rat 24 1) (.inp n!"9sbemu")))) (.div (.div (.sqrt (.rat 2 1)) (.par n!"GF")) (.rat 4 1)))),
  (n!"CVR_butaunue", (.div (.mul (.div (.div (.div (.neg (.sqrt (.rat 2 1))) (.par n!"GF")) (.ckm 0 2)) (.rat 4 1)) (.inp n!"1pubtaue")) (.div (.div (.sqrt (.rat 2 1)) (.par n!"GF")) (.rat 4 1)))),
  (n!"CSLR_bsuu", (.div (.mul (.div (.div (.div (.sqrt (.rat 2 1)) (.par n!"GF")) (.mul (.ckm 2 2) (.conj (.ckm 2 1)))) (.rat 4 1)) (.add (.sub (.add (.neg (.div (.mul (.rat 8 1) (.inp n!"10psbuu")) (.rat 3 1))) (.inp n!"5psbuu")) (.div (.inp n!"6psbuu") (.rat 6 1))) (.mul (.rat 16 1) (.inp n!"9psbuu")))) (.div (.div (.sqrt (.rat 2 1)) (.par n!"GF")) (.rat 4 1)))),
  (n!"C9p_bsmutau", (.div (.mul (.div (.div (.div (.sqrt (.rat 2 1)) (.par n!"GF")) (.mul (.ckm 2 2) (.conj (.ckm 2 1)))) (.rat 4 1)) (.mul (.div (.mul (.rat 16 1) (.mul .pi .pi)) (.mul (.sqrt (.mul (.mul (.rat 4 1) .pi) (.par n!"alpha_e"))) (.sqrt (.mul (.mul (.rat 4 1) .pi) (.par n!"alpha_e"))))) (.add (.inp n!"1psbtaumu") (.mul (.rat 10 1) (.inp n!"3psbtaumu"))))) (.div (.div (.sqrt (.rat 2 1)) (.par n!"GF")) (.rat 4 1)))),
  (n!"CSp_bsetau", (.div (.mul (.div (.div (.div (.sqrt (.rat 2 1)) (.par n!"GF")) (.mul (.ckm 2 2) (.conj (.ckm 2 1)))) (.rat 4 1)) (.mul (.div (.div (.mul (.rat 16 1) (.mul .pi .pi)) (.mul (.sqrt (.mul (.mul (.rat 4 1) .pi) (.par n!"alpha_e"))) (.sqrt (.mul (.mul (.rat 4 1) .pi) (.par n!"alpha_e"))))) (.par n!"m_b")) (.add (.inp n!"5psbtaue") (.mul (.rat 40 1) (.inp n!"9psbtaue"))))) (.div (.div (.sqrt (.rat 2 1)) (.par n!"GF")) (.rat 4 1)))),
  (n!"C10_sdtautau", (.div (.mul (.div (.div (.div (.sqrt (.rat 2 1)) (.par n!"GF")) (.mul (.ckm 2 1) (.conj (.ckm 2 0)))) (.rat 4 1)) (.mul (.div (.mul (.rat 16 1) (.mul .pi .pi)) (.mul (.sqrt (.mul (.mul (.rat 4 1) .pi) (.par n!"alpha_e"))) (.sqrt (.mul (.mul (.rat 4 1) .pi) (.par n!"alpha_e"))))) (.mul (.rat (-6) 1) (.inp n!"3dstautau")))) (.div (.div (.sqrt (.rat 2 1)) (.par n!"GF")) (.rat 4 1)))),
  (n!"CTRR_bdbb", (.div (.mul (.div (.div (.div (.sqrt (.rat 2 1)) (.par n!"GF")) (.mul (.ckm 2 2) (.conj (.ckm 2 0)))) (.rat 4 1)) (.sub (.inp n!"7dbbb") (.mul (.rat 16 1) (.inp n!"9dbbb")))) (.div (.div (.sqrt (.rat 2 1)) (.par n!"GF")) (.rat 4 1)))),
  (n!"CSL_dcenumu", (.div (.mul (.div (.div (.div (.neg (.sqrt (.rat 2 1))) (.par n!"GF")) (.ckm 1 0)) (.rat 4 1)) (.inp n!"5pcdemu")) (.div (.div (.sqrt (.rat 2 1)) (.par n!"GF")) (.rat 4 1)))),
  (n!"CVL_duenutau", (.div (.mul (.div (.div (.div (.neg (.sqrt (.rat 2 1))) (.par n!"GF")) (.ckm 0 0)) (.rat 4 1)) (.inp n!"1udetau")) (.div (.div (.sqrt (.rat 2 1)) (.par n!"GF")) (.rat 4 1)))),
  (n!"CSRL_bdcc", (.div (.mul (.div (.div (.div (.sqrt (.rat 2 1)) (.par n!"GF")) (.mul (.ckm 2 2) (.conj (.ckm 2 0)))) (.rat 4 1)) (.add (.sub (.add (.neg (.div (.mul (.rat 8 1) (.inp n!"10dbcc")) (.rat 3 1))) (.inp n!"5dbcc")) (.div (.inp n!"6dbcc") (.rat 6 1))) (.mul (.rat 16 1) (.inp n!"9dbcc")))) (.div (.div (.sqrt (.rat 2 1)) (.par n!"GF")) (.rat 4 1)))),
  (n!"C9p_sdemu", (.div (.mul (.div (.div (.div (.sqrt (.rat 2 1)) (.par n!"GF")) (.mul (.ckm 2 1) (.conj (.ckm 2 0)))) (.rat 4 1)) (.mul (.div (.mul (.rat 16 1) (.mul .pi .pi)) (.mul (.sqrt (.mul (.mul (.rat 4 1) .pi) (.par n!"alpha_e"))) (.sqrt (.mul (.mul (.rat 4 1) .pi) (.par n!"alpha_e"))))) (.add (.inp n!"1pdsmue") (.mul (.rat 10 1) (.inp n!"3pdsmue"))))) (.div (.div (.sqrt (.rat 2 1)) (.par n!"GF")) (.rat 4 1)))),
  (n!"CSRLt_bsdd", (.div (.mul (.div (.div (.div (.sqrt (.rat 2 1)) (.par n!"GF")) (.mul (.ckm 2 2) (.conj (.ckm 2 1)))) (.rat 4 1)) (.add (.mul (.rat 8 1) (.inp n!"10sbdd")) (.div (.inp n!"6sbdd") (.rat 2 1)))) (.div (.div (.sqrt (.rat 2 1)) (.par n!"GF")) (.rat 4 1)))),
  (n!"C10p_sdmumu", (.div (.mul (.div (.div (.div (.sqrt (.rat 2 1)) (.par n!"GF")) (.mul (.ckm 2 1) (.conj (.ckm 2 0)))) (.rat 4 1)) (.mul (.div (.mul (.rat 16 1) (.mul .pi .pi)) (.mul (.sqrt (.mul (.mul (.rat 4 1) .pi) (.par n!"alpha_e"))) (.sqrt (.mul (.mul (.rat 4 1) .pi) (.par n!"alpha_e"))))) (.mul (.rat 6 1) (.inp n!"3pdsmumu")))) (.div (.div (.sqrt (.rat 2 1)) (.par n!"GF")) (.rat 4 1)))),
  (n!"CL_bdnumunutau", (.div (.mul (.div (.div (.div (.sqrt (.rat 2 1)) (.par n!"GF")) (.mul (.ckm 2 2) (.conj (.ckm 2 0)))) (.rat 4 1)) (.mul (.div (.mul (.rat 8 1) (.mul .pi .pi)) (.mul (.sqrt (.mul (.mul (.rat 4 1) .pi) (.par n!"alpha_e"))) (.sqrt (.mul (.mul (.rat 4 1) .pi) (.par n!"alpha_e"))))) (.inp n!"nu1dbtaumu"))) (.div (.div (.sqrt (.rat 2 1)) (.par n!"GF")) (.rat 4 1)))),
  (n!"CSLR_bdbb", (.div (.mul (.div (.div (.div (.sqrt (.rat 2 1)) (.par n!"GF")) (.mul (.ckm 2 2) (.conj (.ckm 2 0)))) (.rat 4 1)) (.add (.inp n!"5pdbbb") (.mul (.rat 16 1) (.inp n!"9pdbbb")))) (.div (.div (.sqrt (.rat 2 1)) (.par n!"GF")) (.rat 4 1)))),
  (n!"CSLLt_sdbb", (.div (.mul (.div (.div (.div (.sqrt (.rat 2 1)) (.par n!"GF")) (.mul (.ckm 2 1) (.conj (.ckm 2 0)))) (.rat 4 1)) (.add (.mul (.rat 32 1) (.inp n!"10pdsbb")) (.div (.inp n!"6pdsbb") (.rat 2 1)))) (.div (.div (.sqrt (.rat 2 1)) (.par n!"GF")) (.rat 4 1)))),
  (n!"CVRR_bdcc", (.div (.mul (.div (.div (.div (.sqrt (.rat 2 1)) (.par n!"GF")) (.mul (.ckm 2 2) (.conj (.ckm 2 0)))) (.rat 4 1)) (.sub (.add (.sub (.inp n!"1pdbcc") (.div (.inp n!"2pdbcc") (.rat 6 1))) (.mul (.rat 16 1) (.inp n!"3pdbcc"))) (.div (.mul (.rat 8 1) (.inp n!"4pdbcc")) (.rat 3 1)))) (.div (.div (.sqrt (.rat 2 1)) (.par n!"GF")) (.rat 4 1)))),
  (n!"CSR_scenue", (.div (.mul (.div (.div (.div (.neg (.sqrt (.rat 2 1))) (.par n!"GF")) (.ckm 1 1)) (.rat 4 1)) (.inp n!"5csee")) (.div (.div (.sqrt (.rat 2 1)) (.par n!"GF")) (.rat 4 1)))),
  (n!"C9p_bstautau", (.div (.mul (.div (.div (.div (.sqrt (.rat 2 1)) (.par n!"GF")) (.mul (.ckm 2 2) (.conj (.ckm 2 1)))) (.rat 4 1)) (.mul (.div (.mul (.rat 16 1) (.mul .pi .pi)) (.mul (.sqrt (.mul (.mul (.rat 4 1) .pi) (.par n!"alpha_e"))) (.sqrt (.mul (.mul (.rat 4 1) .pi) (.par n!"alpha_e"))))) (.add (.inp n!"1psbtautau") (.mul (.rat 10 1) (.inp n!"3psbtautau"))))) (.div (.div (.sqrt (.rat 2 1)) (.par n!"GF")) (.rat 4 1))))]

def Bern_to_flavio_13 : List (ℕ × Sym) := [
  (n!"CT_bctaunue", (.div (.mul (.div (.div (.div (.neg (.sqrt (.rat 2 1))) (.par n!"GF")) (.ckm 1 2)) (.rat 4 1)) (.inp n!"7pcbtaue")) (.div (.div (.sqrt (.rat 2 1)) (.par n!"GF")) (.rat 4 1)))),
  (n!"CSR_buenue", (.div (.mul (.div (.div (.div (.neg (.sqrt (.rat 2 1))) (.par n!"GF")) (.ckm 0 2)) (.rat 4 1)) (.inp n!"5ubee")) (.div (.div (.sqrt (.rat 2 1)) (.par n!"GF")) (.rat 4 1)))),
  (n!"CTLL_bddd", (.div (.mul (.div (.div (.div (.sqrt (.rat 2 1)) (.par n!"GF")) (.mul (.ckm 2 2) (.conj (.ckm 2 0)))) (.rat 4 1)) (.sub (.inp n!"7dbdd") (.mul (.rat 16 1) (.inp n!"9dbdd")))) (.div (.div (.sqrt (.rat 2 1)) (.par n!"GF")) (.rat 4 1)))),
  (n!"CT_dutaunutau", (.div (.mul (.div (.div (.div (.neg (.sqrt (.rat 2 1))) (.par n!"GF")) (.ckm 0 0)) (.rat 4 1)) (.inp n!"7pudtautau")) (.div (.div (.sqrt (.rat 2 1)) (.par n!"GF")) (.rat 4 1)))),
  (n!"CR_sdnutaunumu", (.div (.mul (.div (.div (.div (.sqrt (.rat 2 1)) (.par n!"GF")) (.mul (.ckm 2 1) (.conj (.ckm 2 0)))) (.rat 4 1)) (.mul (.div (.mul (.rat 8 1) (.mul .pi .pi)) (.mul (.sqrt (.mul (.mul (.rat 4 1) .pi) (.par n!"alpha_e"))) (.sqrt (.mul (.mul (.rat 4 1) .pi) (.par n!"alpha_e"))))) (.inp n!"nu1pdsmutau"))) (.div (.div (.sqrt (.rat 2 1)) (.par n!"GF")) (.rat 4 1)))),
  (n!"CPp_bsmumu", (.div (.mul (.div (.div (.div (.sqrt (.rat 2 1)) (.par n!"GF")) (.mul (.ckm 2 2) (.conj (.ckm 2 1)))) (.rat 4 1)) (.mul (.div (.div (.mul (.rat 16 1) (.mul .pi .pi)) (.mul (.sqrt (.mul (.mul (.rat 4 1) .pi) (.par n!"alpha_e"))) (.sqrt (.mul (.mul (.rat 4 1) .pi) (.par n!"alpha_e"))))) (.par n!"m_b")) (.mul (.rat (-24) 1) (.inp n!"9psbmumu")))) (.div (.div (.sqrt (.rat 2 1)) (.par n!"GF")) (.rat 4 1)))),
  (n!"CSR_bctaunue", (.div (.mul (.div (.div (.div (.neg (.sqrt (.rat 2 1))) (.par n!"GF")) (.ckm 1 2)) (.rat 4 1)) (.inp n!"5cbtaue")) (.div (.div (.sqrt (.rat 2 1)) (.par n!"GF")) (.rat 4 1)))),
  (n!"CR_sdnumunue", (.div (.mul (.div (.div (.div (.sqrt (.rat 2 1)) (.par n!"GF")) (.mul (.ckm 2 1) (.conj (.ckm 2 0)))) (.rat 4 1)) (.mul (.div (.mul (.rat 8 1) (.mul .pi .pi)) (.mul (.sqrt (.mul (.mul (.rat 4 1) .pi) (.par n!"alpha_e"))) (.sqrt (.mul (.mul (.rat 4 1) .pi) (.par n!"alpha_e"))))) (.inp n!"nu1pdsemu"))) (.div (.div (.sqrt (.rat 2 1)) (.par n!"GF")) (.rat 4 1)))),
  (n!"CVR_butaunutau", (.div (.mul (.div (.div (.div (.neg (.sqrt (.rat 2 1))) (.par n!"GF")) (.ckm 0 2)) (.rat 4 1)) (.inp n!"1pubtautau")) (.div (.div (.sqrt (.rat 2 1)) (.par n!"GF")) (.rat 4 1)))),
  (n!"CPp_sdtaumu", (.div (.mul (.div (.div (.div (.sqrt (.rat 2 1)) (.par n!"GF")) (.mul (.ckm 2 1) (.conj (.ckm 2 0)))) (.rat 4 1)) (.mul (.div (.div (.mul (.rat 16 1) (.mul .pi .pi)) (.mul (.sqrt (.mul (.mul (.rat 4 1) .pi) (.par n!"alpha_e"))) (.sqrt (.mul (.mul (.rat 4 1) .pi) (.par n!"alpha_e"))))) (.par n!"m_s")) (.mul (.rat (-24) 1) (.inp n!"9pdsmutau")))) (.div (.div (.sqrt (.rat 2 1)) (.par n!"GF")) (.rat 4 1)))),
  (n!"CSL_dcenutau", (.div (.mul (.div (.div (.div (.neg (.sqrt (.rat 2 1))) (.par n!"GF")) (.ckm 1 0)) (.rat 4 1)) (.inp n!"5pcdetau")) (.div (.div (.sqrt (.rat 2 1)) (.par n!"GF")) (.rat 4 1)))),
  (n!"CVRLt_bscc", (.div (.mul (.div (.div (.div (.sqrt (.rat 2 1)) (.par n!"GF")) (.mul (.ckm 2 2) (.conj (.ckm 2 1)))) (.rat 4 1)) (.add (.div (.inp n!"2psbcc") (.rat 2 1)) (.mul (.rat 2 1) (.inp n!"4psbcc")))) (.div (.div (.sqrt (.rat 2 1)) (.par n!"GF")) (.rat 4 1)))),
  (n!"CSL_dumunutau", (.div (.mul (.div (.div (.div (.neg (.sqrt (.rat 2 1))) (.par n!"GF")) (.ckm 0 0)) (.rat 4 1)) (.inp n!"5pudmutau")) (.div (.div (.sqrt (.rat 2 1)) (.par n!"GF")) (.rat 4 1)))),
  (n!"C9p_sdtaue", (.div (.mul (.div (.div (.div (.sqrt (.rat 2 1)) (.par n!"GF")) (.mul (.ckm 2 1) (.conj (.ckm 2 0)))) (.rat 4 1)) (.mul (.div (.mul (.rat 16 1) (.mul .pi .pi)) (.mul (.sqrt (.mul (.mul (.rat 4 1) .pi) (.par n!"alpha_e"))) (.sqrt (.mul (.mul (.rat 4 1) .pi) (.par n!"alpha_e"))))) (.add (.inp n!"1pdsetau") (.mul (.rat 10 1) (.inp n!"3pdsetau"))))) (.div (.div (.sqrt (.rat 2 1)) (.par n!"GF")) (.rat 4 1)))),
  (n!"CPp_bdtautau", (.div (.mul (.div (.div (.div (.sqrt (.rat 2 1)) (.par n!"GF")) (.mul (.ckm 2 2) (.conj (.ckm 2 0)))) (.rat 4 1)) (.mul (.div (.div (.mul (.rat 16 1) (.mul .pi .pi)) (.mul (.sqrt (.mul (.mul (.rat 4 1) .pi) (.par n!"alpha_e"))) (.sqrt (.mul (.mul (.rat 4 1) .pi) (.par n!"alpha_e"))))) (.par n!"m_b")) (.mul (.rat (-24) 1) (.inp n!"9pdbtautau")))) (.div (.div (.sqrt (.rat 2 1)) (.par n!"GF")) (.rat 4 1)))),
  (n!"CVLL_sdss", (.div (.mul (.div (.div (.div (.sqrt (.rat 2 1)) (.par n!"GF")) (.mul (.ckm 2 1) (.conj (.ckm 2 0)))) (.rat 4 1)) (.add (.inp n!"1dsss") (.mul (.rat 16 1) (.inp n!"3dsss")))) (.div (.div (.sqrt (.rat 2 1)) (.par n!"GF")) (.rat 4 1)))),
  (n!"CTRR_ucuc", (.div (.mul (.div (.rat (-1) 1) (.rat 8 1)) (.inp n!"3pcucu")) (.div (.div (.sqrt (.rat 2 1)) (.par n!"GF")) (.rat 4 1)))),
  (n!"CSRL_bduu", (.div (.mul (.div (.div (.div (.sqrt (.rat 2 1)) (.par n!"GF")) (.mul (.ckm 2 2) (.conj (.ckm 2 0)))) (.rat 4 1)) (.add (.sub (.add (.neg (.div (.mul (.rat 8 1) (.inp n!"10dbuu")) (.rat 3 1))) (.inp n!"5dbuu")) (.div (.inp n!"6dbuu") (.rat 6 1))) (.mul (.rat 16 1) (.inp n!"9dbuu")))) (.div (.div (.sqrt (.rat 2 1)) (.par n!"GF")) (.rat 4 1)))),
  (n!"CL_sdnutaunue", (.div (.mul (.div (.div (.div (.sqrt (.rat 2 1)) (.par n!"GF")) (.mul (.ckm 2 1) (.conj (.ckm 2 0)))) (.rat 4 1)) (.mul (.div (.mul (.rat 8 1) (.mul .pi .pi)) (.mul (.sqrt (.mul (.mul (.rat 4 1) .pi) (.par n!"alpha_e"))) (.sqrt (.mul (.mul (.rat 4 1) .pi) (.par n!"alpha_e"))))) (.inp n!"nu1dsetau"))) (.div (.div (.sqrt (.rat 2 1)) (.par n!"GF")) (.rat 4 1)))),
  (n!"CSR_dctaunutau", (.div (.mul (.div (.div (.div (.neg (.sqrt (.rat 2 1))) (.par n!"GF")) (.ckm 1 0)) (.rat 4 1)) (.inp n!"5cdtautau")) (.div (.div (.sqrt (.rat 2 1)) (.par n!"GF")) (.rat 4 1)))),
  (n!"C10_bsmumu", (.div (.mul (.div (.div (.div (.sqrt (.rat 2 1)) (.par n!"GF")) (.mul (.ckm 2 2) (.conj (.ckm 2 1)))) (.rat 4 1)) (.mul (.div (.mul (.rat 16 1) (.mul .pi .pi)) (.mul (.sqrt (.mul (.mul (.rat 4 1) .pi) (.par n!"alpha_e"))) (.sqrt (.mul (.mul (.rat 4 1) .pi) (.par n!"alpha_e"))))) (.mul (.rat (-6) 1) (.inp n!"3sbmumu")))) (.div (.div (.sqrt (.rat 2 1)) (.par n!"GF")) (.rat 4 1)))),
  (n!"CTRRt_bscc", (.div (.mul (.div (.div (.div (.sqrt (.rat 2 1)) (.par n!"GF")) (.mul (.ckm 2 2) (.conj (.ckm 2 1)))) (.rat 4 1)) (.add (.mul (.rat (-8) 1) (.inp n!"10sbcc")) (.div (.inp n!"8sbcc") (.rat 2 1)))) (.div (.div (.sqrt (.rat 2 1)) (.par n!"GF")) (.rat 4 1)))),
  (n!"CVRR_bduu", (.div (.mul (.div (.div (.div (.sqrt (.rat 2 1)) (.par n!"GF")) (.mul (.ckm 2 2) (.conj (.ckm 2 0)))) (.rat 4 1)) (.sub (.add (.sub (.inp n!"1pdbuu") (.div (.inp n!"2pdbuu") (.rat 6 1))) (.mul (.rat 16 1) (.inp n!"3pdbuu"))) (.div (.mul (.rat 8 1) (.inp n!"4pdbuu")) (.rat 3 1)))) (.div (.div (.sqrt (.rat 2 1)) (.par n!"GF")) (.rat 4 1)))),
  (n!"CSL_bcenumu", (.div (.mul (.div (.div (.div (.neg (.sqrt (.rat 2 1))) (.par n!"GF")) (.ckm 1 2)) (.rat 4 1)) (.inp n!"5pcbemu")) (.div (.div (.sqrt (.rat 2 1)) (.par n!"GF")) (.rat 4 1)))),
  (n!"CSLR_ucuc", (.div (.inp n!"4cucu") (.div (.div (.sqrt (.rat 2 1)) (.par n!"GF")) (.rat 4 1)))),
  (n!"CSL_suenutau", (.div (.mul (.div (.div (.div (.neg (.sqrt (.rat 2 1))) (.par n!"GF")) (.ckm 0 1)) (.rat 4 1)) (.inp n!"5pusetau")) (.div (.div (.sqrt (.rat 2 1)) (.par n!"GF")) (.rat 4 1)))),
  (n!"CS_sdmue", (.div (.mul (.div (.div (.div (.sqrt (.rat 2 1)) (.par n!"GF")) (.mul (.ckm 2 1) (.conj (.ckm 2 0)))) (.rat 4 1)) (.mul (.div (.div (.mul (.rat 16 1) (.mul .pi .pi)) (.mul (.sqrt (.mul (.mul (.rat 4 1) .pi) (.par n!"alpha_e"))) (.sqrt (.mul (.mul (.rat 4 1) .pi) (.par n!"alpha_e"))))) (.par n!"m_s")) (.add (.inp n!"5dsemu") (.mul (.rat 40 1) (.inp n!"9dsemu"))))) (.div (.div (.sqrt (.rat 2 1)) (.par n!"GF")) (.rat 4 1)))),
  (n!"CS_bdee", (.div (.mul (.div (.div (.div (.sqrt (.rat 2 1)) (.par n!"GF")) (.mul (.ckm 2 2) (.conj (.ckm 2 0)))) (.rat 4 1)) (.mul (.div (.div (.mul (.rat 16 1) (.mul .pi .pi)) (.mul (.sqrt (.mul (.mul (.rat 4 1) .pi) (.par n!"alpha_e"))) (.sqrt (.mul (.mul (.rat 4 1) .pi) (.par n!"alpha_e"))))) (.par n!"m_b")) (.add (.inp n!"5dbee") (.mul (.rat 40 1) (.inp n!"9dbee"))))) (.div (.div (.sqrt (.rat 2 1)) (.par n!"GF")) (.rat 4 1)))),
  (n!"CSRLt_bdcc", (.div (.mul (.div (.div (.div (.sqrt (.rat 2 1)) (.par n!"GF")) (.mul (.ckm 2 2) (.conj (.ckm 2 0)))) (.rat 4 1)) (.add (.mul (.rat 8 1) (.inp n!"10dbcc")) (.div (.inp n!"6dbcc") (.rat 2 1)))) (.div (.div (.sqrt (.rat 2 1)) (.par n!"GF")) (.rat 4 1)))),
  (n!"CPp_bsmue", (.div (.mul (.div (.div (.div (.sqrt (.rat 2 1)) (.par n!"GF")) (.mul (.ckm 2 2) (.conj (.ckm 2 1)))) (.rat 4 1)) (.mul (.div (.div (.mul (.rat 16 1) (.mul .pi .pi)) (.mul (.sqrt (.mul (.mul (.rat 4 1) .pi) (.par n!"alpha_e"))) (.sqrt (.mul (.mul (.rat 4 1) .pi) (.par n!"alpha_e"))))) (.par n!"m_b")) (.mul (.rat (-24) 1) (.inp n!"9psbemu")))) (.div (.div (.sqrt (.rat 2 1)) (.par n!"GF")) (.rat 4 1)))),
  (n!"CVL_sctaunutau", (.div (.mul (.div (.div (.div (.neg (.sqrt (.rat 2 1))) (.par n!"GF")) (.ckm 1 1)) (.rat 4 1)) (.inp n!"1cstautau")) (.div (.div (.sqrt (.rat 2 1)) (.par n!"GF")) (.rat 4 1)))),
  (n!"C10p_sdmutau", (.div (.mul (.div (.div (.div (.sqrt (.rat 2 1)) (.par n!"GF")) (.mul (.ckm 2 1) (.conj (.ckm 2 0)))) (.rat 4 1)) (.mul (.div (.mul (.rat 16 1) (.mul .pi .pi)) (.mul (.sqrt (.mul (.mul (.rat 4 1) .pi) (.par n!"alpha_e"))) (.sqrt (.mul (.mul (.rat 4 1) .pi) (.par n!"alpha_e"))))) (.mul (.rat 6 1) (.inp n!"3pdstaumu")))) (.div (.div (.sqrt (.rat 2 1)) (.par n!"GF")) (.rat 4 1)))),
  (n!"CSRR_bsbb", (.div (.mul (.div (.div (.div (.sqrt (.rat 2 1)) (.par n!"GF")) (.mul (.ckm 2 2) (.conj (.ckm 2 1)))) (.rat 4 1)) (.add (.inp n!"5sbbb") (.mul (.rat 64 1) (.inp n!"9sbbb")))) (.div (.div (.sqrt (.rat 2 1)) (.par n!"GF")) (.rat 4 1)))),
  (n!"CSR_dctaunumu", (.div (.mul (.div (.div (.div (.neg (.sqrt (.rat 2 1))) (.par n!"GF")) (.ckm 1 0)) (.rat 4 1)) (.inp n!"5cdtaumu")) (.div (.div (.sqrt (.rat 2 1)) (.par n!"GF")) (.rat 4 1)))),
  (n!"CVRLt_bsuu", (.div (.mul (.div (.div (.div (.sqrt (.rat 2 1)) (.par n!"GF")) (.mul (.ckm 2 2) (.conj (.ckm 2 1)))) (.rat 4 1)) (.add (.div (.inp n!"2psbuu") (.rat 2 1)) (.mul (.rat 2 1) (.inp n!"4psbuu")))) (.div (.div (.sqrt (.rat 2 1)) (.par n!"GF")) (.rat 4 1)))),
  (n!"CVR_scmunumu", (.div (.mul (.div (.div (.div (.neg (.sqrt (.rat 2 1))) (.par n!"GF")) (.ckm 1 1)) (.rat 4 1)) (.inp n!"1pcsmumu")) (.div (.div (.sqrt (.rat 2 1)) (.par n!"GF")) (.rat 4 1)))),
  (n!"CL_bsnuenumu", (.div (.mul (.div (.div (.div (.sqrt (.rat 2 1)) (.par n!"GF")) (.mul (.ckm 2 2) (.conj (.ckm 2 1)))) (.rat 4 1)) (.mul (.div (.mul (.rat 8 1) (.mul .pi .pi)) (.mul (.sqrt (.mul (.mul (.rat 4 1) .pi) (.par n!"alpha_e"))) (.sqrt (.mul (.mul (.rat 4 1) .pi) (.par n!"alpha_e"))))) (.inp n!"nu1sbmue"))) (.div (.div (.sqrt (.rat 2 1)) (.par n!"GF")) (.rat 4 1)))),
  (n!"CTRRt_bsuu", (.div (.mul (.div (.div (.div (.sqrt (.rat 2 1)) (.par n!"GF")) (.mul (.ckm 2 2) (.conj (.ckm 2 1)))) (.rat 4 1)) (.add (.mul (.rat (-8) 1) (.inp n!"10sbuu")) (.div (.inp n!"8sbuu") (.rat 2 1)))) (.div (.div (.sqrt (.rat 2 1)) (.par n!"GF")) (.rat 4 1)))),
  (n!"CR_sdnutaunutau", (.div (.mul (.div (.div (.div (.sqrt (.rat 2 1)) (.par n!"GF")) (.mul (.ckm 2 1) (.conj (.ckm 2 0)))) (.rat 4 1)) (.mul (.div (.mul (.rat 8 1) (.mul .pi .pi)) (.mul (.sqrt (.mul (.mul (.rat 4 1) .pi) (.par n!"alpha_e"))) (.sqrt (.mul (.mul (.rat 4 1) .pi) (.par n!"alpha_e"))))) (.inp n!"nu1pdstautau"))) (.div (.div (.sqrt (.rat 2 1)) (.par n!"GF")) (.rat 4 1)))),
  (n!"CVR_suenumu", (.div (.mul (.div (.div (.div (.neg (.sqrt (.rat 2 1))) (.par n!"GF")) (.ckm 0 1)) (.rat 4 1)) (.inp n!"1pusemu")) (.div (.div (.sqrt (.rat 2 1)) (.par n!"GF")) (.rat 4 1)))),
  (n!"CVL_sctaunue", (.div (.mul (.div (.div (.div (.neg (.sqrt (.rat 2 1))) (.par n!"GF")) (.ckm 1 1)) (.rat 4 1)) (.inp n!"1cstaue")) (.div (.div (.sqrt (.rat 2 1)) (.par n!"GF")) (.rat 4 1)))),
  (n!"CT_bumunumu", (.div (.mul (.div (.div (.div (.neg (.sqrt (.rat 2 1))) (.par n!"GF")) (.ckm 0 2)) (.rat 4 1)) (.inp n!"7pubmumu")) (.div (.div (.sqrt (.rat 2 1)) (.par n!"GF")) (.rat 4 1)))),
  (n!"C10_sdee", (.div (.mul (.div (.div (.div (.sqrt (.rat 2 1)) (.par n!"GF")) (.mul (.ckm 2 1) (.conj (.ckm 2 0)))) (.rat 4 1)) (.mul (.div (.mul (.rat 16 1) (.mul .pi .pi)) (.mul (.sqrt (.mul (.mul (.rat 4 1) .pi) (.par n!"alpha_e"))) (.sqrt (.mul (.mul (.rat 4 1) .pi) (.par n!"alpha_e"))))) (.mul (.rat (-6) 1) (.inp n!"3dsee")))) (.div (.div (.sqrt (.rat 2 1)) (.par n!"GF")) (.rat 4 1)))),
  (n!"C10p_bdmumu", (.div (.mul (.div (.div (.div (.sqrt (.rat 2 1)) (.par n!"GF")) (.mul (.ckm 2 2) (.conj (.ckm 2 0)))) (.rat 4 1)) (.mul (.div (.mul (.rat 16 1) (.mul .pi .pi)) (.mul (.sqrt (.mul (.mul (.rat 4 1) .pi) (.par n!"alpha_e"))) (.sqrt (.mul (.mul (.rat 4 1) .pi) (.par n!"alpha_e"))))) (.mul (.rat 6 1) (.inp n!"3pdbmumu")))) (.div (.div (.sqrt (.rat 2 1)) (.par n!"GF")) (.rat 4 1)))),
  (n!"CSLL_bsdd", (.div (.mul (.div (.div (.div (.sqrt (.rat 2 1)) (.par n!"GF")) (.mul (.ckm 2 2) (.conj (.ckm 2 1)))) (.rat 4 1)) (.add (.sub (.add (.neg (.div (.mul (.rat 32 1) (.inp n!"10psbdd")) (.rat 3 1))) (.inp n!"5psbdd")) (.div (.inp n!"6psbdd") (.rat 6 1))) (.mul (.rat 64 1) (.inp n!"9psbdd")))) (.div (.div (.sqrt (.rat 2 1)) (.par n!"GF")) (.rat 4 1)))),
  (n!"CSR_bumunumu", (.div (.mul (.div (.div (.div (.neg (.sqrt (.rat 2 1))) (.par n!"GF")) (.ckm 0 2)) (.rat 4 1)) (.inp n!"5ubmumu")) (.div (.div (.sqrt (.rat 2 1)) (.par n!"GF")) (.rat 4 1)))),
  (n!"CSRLt_bduu", (.div (.mul (.div (.div (.div (.sqrt (.rat 2 1)) (.par n!"GF")) (.mul (.ckm 2 2) (.conj (.ckm 2 0)))) (.rat 4 1)) (.add (.mul (.rat 8 1) (.inp n!"10dbuu")) (.div (.inp n!"6dbuu") (.rat 2 1)))) (.div (.div (.sqrt (.rat 2 1)) (.par n!"GF")) (.rat 4 1)))),
  (n!"CSR_bcenue", (.div (.mul (.div (.div (.div (.neg (.sqrt (.rat 2 1))) (.par n!"GF")) (.ckm 1 2)) (.rat 4 1)) (.inp n!"5cbee")) (.div (.div (.sqrt (.rat 2 1)) (.par n!"GF")) (.rat 4 1)))),
  (n!"C9p_bstaumu", (.div (.mul (.div (.div (.div (.sqrt (.rat 2 1)) (.par n!"GF")) (.mul (.ckm 2 2) (.conj (.ckm 2 1)))) (.rat 4 1)) (.mul (.div (.mul (.rat 16 1) (.mul .pi .pi)) (.mul (.sqrt (.mul (.mul (.rat 4 1) .pi) (.par n!"alpha_e"))) (.sqrt (.mul (.mul (.rat 4 1) .pi) (.par n!"alpha_e"))))) (.add (.inp n!"1psbmutau") (.mul (.rat 10 1) (.inp n!"3psbmutau"))))) (.div (.div (.sqrt (.rat 2 1)) (.par n!"GF")) (.rat 4 1)))),
  (n!"CL_bdnutaunumu", (.div (.mul (.div (.div (.div (.sqrt (.rat 2 1)) (.par n!"GF")) (.mul (.ckm 2 2) (.conj (.ckm 2 0)))) (.rat 4 1)) (.mul (.div (.mul (.rat 8 1) (.mul .pi .pi)) (.mul (.sqrt (.mul (.mul (.rat 4 1) .pi) (.par n!"alpha_e"))) (.sqrt (.mul (.mul (.rat 4 1) .pi) (.par n!"alpha_e"))))) (.inp n!"nu1dbmutau"))) (.div (.div (.sqrt (.rat 2 1)) (.par n!"GF")) (.rat 4 1))))]

def Bern_to_flavio_14 : List (ℕ × Sym) := [
  (n!"CVLR_bsdd", (.div (.mul (.div (.div (.div (.sqrt (.rat 2 1)) (.par n!"GF")) (.mul (.ckm 2 2) (.conj (.ckm 2 1)))) (.rat 4 1)) (.sub (.add (.sub (.inp n!"1sbdd") (.div (.inp n!"2sbdd") (.rat 6 1))) (.mul (.rat 4 1) (.inp n!"3sbdd"))) (.div (.mul (.rat 2 1) (.inp n!"4sbdd")) (.rat 3 1)))) (.div (.div (.sqrt (.rat 2 1)) (.par n!"GF")) (.rat 4 1)))),
  (n!"CSRR_sdcc", (.div (.mul (.div (.div (.div (.sqrt (.rat 2 1)) (.par n!"GF")) (.mul (.ckm 2 1) (.conj (.ckm 2 0)))) (.rat 4 1)) (.add (.sub (.add (.neg (.div (.mul (.rat 32 1) (.inp n!"10dscc")) (.rat 3 1))) (.inp n!"5dscc")) (.div (.inp n!"6dscc") (.rat 6 1))) (.mul (.rat 64 1) (.inp n!"9dscc")))) (.div (.div (.sqrt (.rat 2 1)) (.par n!"GF")) (.rat 4 1)))),
  (n!"C9p_bsmue", (.div (.mul (.div (.div (.div (.sqrt (.rat 2 1)) (.par n!"GF")) (.mul (.ckm 2 2) (.conj (.ckm 2 1)))) (.rat 4 1)) (.mul (.div (.mul (.rat 16 1) (.mul .pi .pi)) (.mul (.sqrt (.mul (.mul (.rat 4 1) .pi) (.par n!"alpha_e"))) (.sqrt (.mul (.mul (.rat 4 1) .pi) (.par n!"alpha_e"))))) (.add (.inp n!"1psbemu") (.mul (.rat 10 1) (.inp n!"3psbemu"))))) (.div (.div (.sqrt (.rat 2 1)) (.par n!"GF")) (.rat 4 1)))),
  (n!"CSL_butaunue", (.div (.mul (.div (.div (.div (.neg (.sqrt (.rat 2 1))) (.par n!"GF")) (.ckm 0 2)) (.rat 4 1)) (.inp n!"5pubtaue")) (.div (.div (.sqrt (.rat 2 1)) (.par n!"GF")) (.rat 4 1)))),
  (n!"C10p_sdee", (.div (.mul (.div (.div (.div (.sqrt (.rat 2 1)) (.par n!"GF")) (.mul (.ckm 2 1) (.conj (.ckm 2 0)))) (.rat 4 1)) (.mul (.div (.mul (.rat 16 1) (.mul .pi .pi)) (.mul (.sqrt (.mul (.mul (.rat 4 1) .pi) (.par n!"alpha_e"))) (.sqrt (.mul (.mul (.rat 4 1) .pi) (.par n!"alpha_e"))))) (.mul (.rat 6 1) (.inp n!"3pdsee")))) (.div (.div (.sqrt (.rat 2 1)) (.par n!"GF")) (.rat 4 1)))),
  (n!"CT_sctaunutau", (.div (.mul (.div (.div (.div (.neg (.sqrt (.rat 2 1))) (.par n!"GF")) (.ckm 1 1)) (.rat 4 1)) (.inp n!"7pcstautau")) (.div (.div (.sqrt (.rat 2 1)) (.par n!"GF")) (.rat 4 1)))),
  (n!"C10_sdmutau", (.div (.mul (.div (.div (.div (.sqrt (.rat 2 1)) (.par n!"GF")) (.mul (.ckm 2 1) (.conj (.ckm 2 0)))) (.rat 4 1)) (.mul (.div (.mul (.rat 16 1) (.mul .pi .pi)) (.mul (.sqrt (.mul (.mul (.rat 4 1) .pi) (.par n!"alpha_e"))) (.sqrt (.mul (.mul (.rat 4 1) .pi) (.par n!"alpha_e"))))) (.mul (.rat (-6) 1) (.inp n!"3dstaumu")))) (.div (.div (.sqrt (.rat 2 1)) (.par n!"GF")) (.rat 4 1)))),
  (n!"CVL_duenumu", (.div (.mul (.div (.div (.div (.neg (.sqrt (.rat 2 1))) (.par n!"GF")) (.ckm 0 0)) (.rat 4 1)) (.inp n!"1udemu")) (.div (.div (.sqrt (.rat 2 1)) (.par n!"GF")) (.rat 4 1)))),
  (n!"CSL_sumunue", (.div (.mul (.div (.div (.div (.neg (.sqrt (.rat 2 1))) (.par n!"GF")) (.ckm 0 1)) (.rat 4 1)) (.inp n!"5pusmue")) (.div (.div (.sqrt (.rat 2 1)) (.par n!"GF")) (.rat 4 1)))),
  (n!"CSRRt_bscc", (.div (.mul (.div (.div (.div (.sqrt (.rat 2 1)) (.par n!"GF")) (.mul (.ckm 2 2) (.conj (.ckm 2 1)))) (.rat 4 1)) (.add (.mul (.rat 32 1) (.inp n!"10sbcc")) (.div (.inp n!"6sbcc") (.rat 2 1)))) (.div (.div (.sqrt (.rat 2 1)) (.par n!"GF")) (.rat 4 1)))),
  (n!"C9p_bdtaue", (.div (.mul (.div (.div (.div (.sqrt (.rat 2 1)) (.par n!"GF")) (.mul (.ckm 2 2) (.conj (.ckm 2 0)))) (.rat 4 1)) (.mul (.div (.mul (.rat 16 1) (.mul .pi .pi)) (.mul (.sqrt (.mul (.mul (.rat 4 1) .pi) (.par n!"alpha_e"))) (.sqrt (.mul (.mul (.rat 4 1) .pi) (.par n!"alpha_e"))))) (.add (.inp n!"1pdbetau") (.mul (.rat 10 1) (.inp n!"3pdbetau"))))) (.div (.div (.sqrt (.rat 2 1)) (.par n!"GF")) (.rat 4 1)))),
  (n!"CT_duenumu", (.div (.mul (.div (.div (.div (.neg (.sqrt (.rat 2 1))) (.par n!"GF")) (.ckm 0 0)) (.rat 4 1)) (.inp n!"7pudemu")) (.div (.div (.sqrt (.rat 2 1)) (.par n!"GF")) (.rat 4 1)))),
  (n!"CSL_duenue", (.div (.mul (.div (.div (.div (.neg (.sqrt (.rat 2 1))) (.par n!"GF")) (.ckm 0 0)) (.rat 4 1)) (.inp n!"5pudee")) (.div (.div (.sqrt (.rat 2 1)) (.par n!"GF")) (.rat 4 1)))),
  (n!"CPp_bsmutau", (.div (.mul (.div (.div (.div (.sqrt (.rat 2 1)) (.par n!"GF")) (.mul (.ckm 2 2) (.conj (.ckm 2 1)))) (.rat 4 1)) (.mul (.div (.div (.mul (.rat 16 1) (.mul .pi .pi)) (.mul (.sqrt (.mul (.mul (.rat 4 1) .pi) (.par n!"alpha_e"))) (.sqrt (.mul (.mul (.rat 4 1) .pi) (.par n!"alpha_e"))))) (.par n!"m_b")) (.mul (.rat (-24) 1) (.inp n!"9psbtaumu")))) (.div (.div (.sqrt (.rat 2 1)) (.par n!"GF")) (.rat 4 1)))),
  (n!"CL_bdnutaunutau", (.div (.mul (.div (.div (.div (.sqrt (.rat 2 1)) (.par n!"GF")) (.mul (.ckm 2 2) (.conj (.ckm 2 0)))) (.rat 4 1)) (.mul (.div (.mul (.rat 8 1) (.mul .pi .pi)) (.mul (.sqrt (.mul (.mul (.rat 4 1) .pi) (.par n!"alpha_e"))) (.sqrt (.mul (.mul (.rat 4 1) .pi) (.par n!"alpha_e"))))) (.inp n!"nu1dbtautau"))) (.div (.div (.sqrt (.rat 2 1)) (.par n!"GF")) (.rat 4 1)))),
  (n!"CSL_dutaunumu", (.div (.mul (.div (.div (.div (.neg (.sqrt (.rat 2 1))) (.par n!"GF")) (.ckm 0 0)) (.rat 4 1)) (.inp n!"5pudtaumu")) (.div (.div (.sqrt (.rat 2 1)) (.par n!"GF")) (.rat 4 1)))),
  (n!"CSL_sutaunutau", (.div (.mul (.div (.div (.div (.neg (.sqrt (.rat 2 1))) (.par n!"GF")) (.ckm 0 1)) (.rat 4 1)) (.inp n!"5pustautau")) (.div (.div (.sqrt (.rat 2 1)) (.par n!"GF")) (.rat 4 1)))),
  (n!"CSR_bcmunutau", (.div (.mul (.div (.div (.div (.neg (.sqrt (.rat 2 1))) (.par n!"GF")) (.ckm 1 2)) (.rat 4 1)) (.inp n!"5cbmutau")) (.div (.div (.sqrt (.rat 2 1)) (.par n!"GF")) (.rat 4 1)))),
  (n!"CVL_dcmunumu", (.div (.mul (.div (.div (.div (.neg (.sqrt (.rat 2 1))) (.par n!"GF")) (.ckm 1 0)) (.rat 4 1)) (.inp n!"1cdmumu")) (.div (.div (.sqrt (.rat 2 1)) (.par n!"GF")) (.rat 4 1)))),
  (n!"C10p_bdtautau", (.div (.mul (.div (.div (.div (.sqrt (.rat 2 1)) (.par n!"GF")) (.mul (.ckm 2 2) (.conj (.ckm 2 0)))) (.rat 4 1)) (.mul (.div (.mul (.rat 16 1) (.mul .pi .pi)) (.mul (.sqrt (.mul (.mul (.rat 4 1) .pi) (.par n!"alpha_e"))) (.sqrt (.mul (.mul (.rat 4 1) .pi) (.par n!"alpha_e"))))) (.mul (.rat 6 1) (.inp n!"3pdbtautau")))) (.div (.div (.sqrt (.rat 2 1)) (.par n!"GF")) (.rat 4 1)))),
  (n!"CSRR_sduu", (.div (.mul (.div (.div (.div (.sqrt (.rat 2 1)) (.par n!"GF")) (.mul (.ckm 2 1) (.conj (.ckm 2 0)))) (.rat 4 1)) (.add (.sub (.add (.neg (.div (.mul (.rat 32 1) (.inp n!"10dsuu")) (.rat 3 1))) (.inp n!"5dsuu")) (.div (.inp n!"6dsuu") (.rat 6 1))) (.mul (.rat 64 1) (.inp n!"9dsuu")))) (.div (.div (.sqrt (.rat 2 1)) (.par n!"GF")) (.rat 4 1)))),
  (n!"CSLL_bdcc", (.div (.mul (.div (.div (.div (.sqrt (.rat 2 1)) (.par n!"GF")) (.mul (.ckm 2 2) (.conj (.ckm 2 0)))) (.rat 4 1)) (.add (.sub (.add (.neg (.div (.mul (.rat 32 1) (.inp n!"10pdbcc")) (.rat 3 1))) (.inp n!"5pdbcc")) (.div (.inp n!"6pdbcc") (.rat 6 1))) (.mul (.rat 64 1) (.inp n!"9pdbcc")))) (.div (.div (.sqrt (.rat 2 1)) (.par n!"GF")) (.rat 4 1)))),
  (n!"CVRL_bddd", (.div (.mul (.div (.div (.div (.sqrt (.rat 2 1)) (.par n!"GF")) (.mul (.ckm 2 2) (.conj (.ckm 2 0)))) (.rat 4 1)) (.add (.inp n!"1pdbdd") (.mul (.rat 4 1) (.inp n!"3pdbdd")))) (.div (.div (.sqrt (.rat 2 1)) (.par n!"GF")) (.rat 4 1)))),
  (n!"C8p_sd", (.div (.mul (.div (.div (.div (.sqrt (.rat 2 1)) (.par n!"GF")) (.mul (.ckm 2 1) (.conj (.ckm 2 0)))) (.rat 4 1)) (.mul (.div (.div (.mul (.rat 16 1) (.mul .pi .pi)) (.sqrt (.mul (.mul (.rat 4 1) .pi) (.par n!"alpha_s")))) (.par n!"m_s")) (.div (.inp n!"8pgds") (.div (.sqrt (.mul (.mul (.rat 4 1) .pi) (.par n!"alpha_s"))) (.par n!"m_s"))))) (.div (.div (.sqrt (.rat 2 1)) (.par n!"GF")) (.rat 4 1)))),
  (n!"CVLR_bdcc", (.div (.mul (.div (.div (.div (.sqrt (.rat 2 1)) (.par n!"GF")) (.mul (.ckm 2 2) (.conj (.ckm 2 0)))) (.rat 4 1)) (.sub (.add (.sub (.inp n!"1dbcc") (.div (.inp n!"2dbcc") (.rat 6 1))) (.mul (.rat 4 1) (.inp n!"3dbcc"))) (.div (.mul (.rat 2 1) (.inp n!"4dbcc")) (.rat 3 1)))) (.div (.div (.sqrt (.rat 2 1)) (.par n!"GF")) (.rat 4 1)))),
  (n!"CVL_sumunumu", (.div (.mul (.div (.div (.div (.neg (.sqrt (.rat 2 1))) (.par n!"GF")) (.ckm 0 1)) (.rat 4 1)) (.inp n!"1usmumu")) (.div (.div (.sqrt (.rat 2 1)) (.par n!"GF")) (.rat 4 1)))),
  (n!"CSRRt_bsuu", (.div (.mul (.div (.div (.div (.sqrt (.rat 2 1)) (.par n!"GF")) (.mul (.ckm 2 2) (.conj (.ckm 2 1)))) (.rat 4 1)) (.add (.mul (.rat 32 1) (.inp n!"10sbuu")) (.div (.inp n!"6sbuu") (.rat 2 1)))) (.div (.div (.sqrt (.rat 2 1)) (.par n!"GF")) (.rat 4 1)))),
  (n!"CSRR_bdss", (.div (.mul (.div (.div (.div (.sqrt (.rat 2 1)) (.par n!"GF")) (.mul (.ckm 2 2) (.conj (.ckm 2 0)))) (.rat 4 1)) (.add (.sub (.add (.neg (.div (.mul (.rat 32 1) (.inp n!"10dbss")) (.rat 3 1))) (.inp n!"5dbss")) (.div (.inp n!"6dbss") (.rat 6 1))) (.mul (.rat 64 1) (.inp n!"9dbss")))) (.div (.div (.sqrt (.rat 2 1)) (.par n!"GF")) (.rat 4 1)))),
  (n!"CVL_buenumu", (.div (.mul (.div (.div (.div (.neg (.sqrt (.rat 2 1))) (.par n!"GF")) (.ckm 0 2)) (.rat 4 1)) (.inp n!"1ubemu")) (.div (.div (.sqrt (.rat 2 1)) (.par n!"GF")) (.rat 4 1)))),
  (n!"CVL_bcenutau", (.div (.mul (.div (.div (.div (.neg (.sqrt (.rat 2 1))) (.par n!"GF")) (.ckm 1 2)) (.rat 4 1)) (.inp n!"1cbetau")) (.div (.div (.sqrt (.rat 2 1)) (.par n!"GF")) (.rat 4 1)))),
  (n!"C10p_sdtaumu", (.div (.mul (.div (.div (.div (.sqrt (.rat 2 1)) (.par n!"GF")) (.mul (.ckm 2 1) (.conj (.ckm 2 0)))) (.rat 4 1)) (.mul (.div (.mul (.rat 16 1) (.mul .pi .pi)) (.mul (.sqrt (.mul (.mul (.rat 4 1) .pi) (.par n!"alpha_e"))) (.sqrt (.mul (.mul (.rat 4 1) .pi) (.par n!"alpha_e"))))) (.mul (.rat 6 1) (.inp n!"3pdsmutau")))) (.div (.div (.sqrt (.rat 2 1)) (.par n!"GF")) (.rat 4 1)))),
  (n!"CVL_scenumu", (.div (.mul (.div (.div (.div (.neg (.sqrt (.rat 2 1))) (.par n!"GF")) (.ckm 1 1)) (.rat 4 1)) (.inp n!"1csemu")) (.div (.div (.sqrt (.rat 2 1)) (.par n!"GF")) (.rat 4 1)))),
  (n!"CT_buenumu", (.div (.mul (.div (.div (.div (.neg (.sqrt (.rat 2 1))) (.par n!"GF")) (.ckm 0 2)) (.rat 4 1)) (.inp n!"7pubemu")) (.div (.div (.sqrt (.rat 2 1)) (.par n!"GF")) (.rat 4 1)))),
  (n!"CT_scenumu", (.div (.mul (.div (.div (.div (.neg (.sqrt (.rat 2 1))) (.par n!"GF")) (.ckm 1 1)) (.rat 4 1)) (.inp n!"7pcsemu")) (.div (.div (.sqrt (.rat 2 1)) (.par n!"GF")) (.rat 4 1)))),
  (n!"CVR_dcmunue", (.div (.mul (.div (.div (.div (.neg (.sqrt (.rat 2 1))) (.par n!"GF")) (.ckm 1 0)) (.rat 4 1)) (.inp n!"1pcdmue")) (.div (.div (.sqrt (.rat 2 1)) (.par n!"GF")) (.rat 4 1)))),
  (n!"CVR_dctaunutau", (.div (.mul (.div (.div (.div (.neg (.sqrt (.rat 2 1))) (.par n!"GF")) (.ckm 1 0)) (.rat 4 1)) (.inp n!"1pcdtautau")) (.div (.div (.sqrt (.rat 2 1)) (.par n!"GF")) (.rat 4 1)))),
  (n!"CVRRt_sdcc", (.div (.mul (.div (.div (.div (.sqrt (.rat 2 1)) (.par n!"GF")) (.mul (.ckm 2 1) (.conj (.ckm 2 0)))) (.rat 4 1)) (.add (.div (.inp n!"2pdscc") (.rat 2 1)) (.mul (.rat 8 1) (.inp n!"4pdscc")))) (.div (.div (.sqrt (.rat 2 1)) (.par n!"GF")) (.rat 4 1)))),
  (n!"CVR_dcmunutau", (.div (.mul (.div (.div (.div (.neg (.sqrt (.rat 2 1))) (.par n!"GF")) (.ckm 1 0)) (.rat 4 1)) (.inp n!"1pcdmutau")) (.div (.div (.sqrt (.rat 2 1)) (.par n!"GF")) (.rat 4 1)))),
  (n!"CSLL_bduu", (.div (.mul (.div (.div (.div (.sqrt (.rat 2 1)) (.par n!"GF")) (.mul (.ckm 2 2) (.conj (.ckm 2 0)))) (.rat 4 1)) (.add (.sub (.add (.neg (.div (.mul (.rat 32 1) (.inp n!"10pdbuu")) (.rat 3 1))) (.inp n!"5pdbuu")) (.div (.inp n!"6pdbuu") (.rat 6 1))) (.mul (.rat 64 1) (.inp n!"9pdbuu")))) (.div (.div (.sqrt (.rat 2 1)) (.par n!"GF")) (.rat 4 1)))),
  (n!"CSL_scmunumu", (.div (.mul (.div (.div (.div (.neg (.sqrt (.rat 2 1))) (.par n!"GF")) (.ckm 1 1)) (.rat 4 1)) (.inp n!"5pcsmumu")) (.div (.div (.sqrt (.rat 2 1)) (.par n!"GF")) (.rat 4 1)))),
  (n!"CSL_bumunutau", (.div (.mul (.div (.div (.div (.neg (.sqrt (.rat 2 1))) (.par n!"GF")) (.ckm 0 2)) (.rat 4 1)) (.inp n!"5pubmutau")) (.div (.div (.sqrt (.rat 2 1)) (.par n!"GF")) (.rat 4 1)))),
  (n!"CS_bsetau", (.div (.mul (.div (.div (.div (.sqrt (.rat 2 1)) (.par n!"GF")) (.mul (.ckm 2 2) (.conj (.ckm 2 1)))) (.rat 4 1)) (.mul (.div (.div (.mul (.rat 16 1) (.mul .pi .pi)) (.mul (.sqrt (.mul (.mul (.rat 4 1) .pi) (.par n!"alpha_e"))) (.sqrt (.mul (.mul (.rat 4 1) .pi) (.par n!"alpha_e"))))) (.par n!"m_b")) (.add (.inp n!"5sbtaue") (.mul (.rat 40 1) (.inp n!"9sbtaue"))))) (.div (.div (.sqrt (.rat 2 1)) (.par n!"GF")) (.rat 4 1)))),
  (n!"CVLR_bduu", (.div (.mul (.div (.div (.div (.sqrt (.rat 2 1)) (.par n!"GF")) (.mul (.ckm 2 2) (.conj (.ckm 2 0)))) (.rat 4 1)) (.sub (.add (.sub (.inp n!"1dbuu") (.div (.inp n!"2dbuu") (.rat 6 1))) (.mul (.rat 4 1) (.inp n!"3dbuu"))) (.div (.mul (.rat 2 1) (.inp n!"4dbuu")) (.rat 3 1)))) (.div (.div (.sqrt (.rat 2 1)) (.par n!"GF")) (.rat 4 1)))),
  (n!"CT_dumunutau", (.div (.mul (.div (.div (.div (.neg (.sqrt (.rat 2 1))) (.par n!"GF")) (.ckm 0 0)) (.rat 4 1)) (.inp n!"7pudmutau")) (.div (.div (.sqrt (.rat 2 1)) (.par n!"GF")) (.rat 4 1)))),
  (n!"CL_bdnuenutau", (.div (.mul (.div (.div (.div (.sqrt (.rat 2 1)) (.par n!"GF")) (.mul (.ckm 2 2) (.conj (.ckm 2 0)))) (.rat 4 1)) (.mul (.div (.mul (.rat 8 1) (.mul .pi .pi)) (.mul (.sqrt (.mul (.mul (.rat 4 1) .pi) (.par n!"alpha_e"))) (.sqrt (.mul (.mul (.rat 4 1) .pi) (.par n!"alpha_e"))))) (.inp n!"nu1dbtaue"))) (.div (.div (.sqrt (.rat 2 1)) (.par n!"GF")) (.rat 4 1)))),
  (n!"CP_bdmue", (.div (.mul (.div (.div (.div (.sqrt (.rat 2 1)) (.par n!"GF")) (.mul (.ckm 2 2) (.conj (.ckm 2 0)))) (.rat 4 1)) (.mul (.div (.div (.mul (.rat 16 1) (.mul .pi .pi)) (.mul (.sqrt (.mul (.mul (.rat 4 1) .pi) (.par n!"alpha_e"))) (.sqrt (.mul (.mul (.rat 4 1) .pi) (.par n!"alpha_e"))))) (.par n!"m_b")) (.mul (.rat 24 1) (.inp n!"9dbemu")))) (.div (.div (.sqrt (.rat 2 1)) (.par n!"GF")) (.rat 4 1)))),
  (n!"CR_bsnumunue", (.div (.mul (.div (.div (.div (.sqrt (.rat 2 1)) (.par n!"GF")) (.mul (.ckm 2 2) (.conj (.ckm 2 1)))) (.rat 4 1)) (.mul (.div (.mul (.rat 8 1) (.mul .pi .pi)) (.mul (.sqrt (.mul (.mul (.rat 4 1) .pi) (.par n!"alpha_e"))) (.sqrt (.mul (.mul (.rat 4 1) .pi) (.par n!"alpha_e"))))) (.inp n!"nu1psbemu"))) (.div (.div (.sqrt (.rat 2 1)) (.par n!"GF")) (.rat 4 1)))),
  (n!"C9p_bsmumu", (.div (.mul (.div (.div (.div (.sqrt (.rat 2 1)) (.par n!"GF")) (.mul (.ckm 2 2) (.conj (.ckm 2 1)))) (.rat 4 1)) (.mul (.div (.mul (.rat 16 1) (.mul .pi .pi)) (.mul (.sqrt (.mul (.mul (.rat 4 1) .pi) (.par n!"alpha_e"))) (.sqrt (.mul (.mul (.rat 4 1) .pi) (.par n!"alpha_e"))))) (.add (.inp n!"1psbmumu") (.mul (.rat 10 1) (.inp n!"3psbmumu"))))) (.div (.div (.sqrt (.rat 2 1)) (.par n!"GF")) (.rat 4 1)))),
  (n!"CSL_dcenue", (.div (.mul (.div (.div (.div (.neg (.sqrt (.rat 2 1))) (.par n!"GF")) (.ckm 1 0)) (.rat 4 1)) (.inp n!"5pcdee")) (.div (.div (.sqrt (.rat 2 1)) (.par n!"GF")) (.rat 4 1)))),
  (n!"CTRR_bsbb", (.div (.mul (.div (.div (.div (.sqrt (.rat 2 1)) (.par n!"GF")) (.mul (.ckm 2 2) (.conj (.ckm 2 1)))) (.rat 4 1)) (.sub (.inp n!"7sbbb") (.mul (.rat 16 1) (.inp n!"9sbbb")))) (.div (.div (.sqrt (.rat 2 1)) (.par n!"GF")) (.rat 4 1))))]

def Bern_to_flavio_15 : List (ℕ × Sym) := [
  (n!"C10p_sdetau", (.div (.mul (.div (.div (.div (.sqrt (.rat 2 1)) (.par n!"GF")) (.mul (.ckm 2 1) (.conj (.ckm 2 0)))) (.rat 4 1)) (.mul (.div (.mul (.rat 16 1) (.mul .pi .pi)) (.mul (.sqrt (.mul (.mul (.rat 4 1) .pi) (.par n!"alpha_e"))) (.sqrt (.mul (.mul (.rat 4 1) .pi) (.par n!"alpha_e"))))) (.mul (.rat 6 1) (.inp n!"3pdstaue")))) (.div (.div (.sqrt (.rat 2 1)) (.par n!"GF")) (.rat 4 1)))),
  (n!"CSRL_bscc", (.div (.mul (.div (.div (.div (.sqrt (.rat 2 1)) (.par n!"GF")) (.mul (.ckm 2 2) (.conj (.ckm 2 1)))) (.rat 4 1)) (.add (.sub (.add (.neg (.div (.mul (.rat 8 1) (.inp n!"10sbcc")) (.rat 3 1))) (.inp n!"5sbcc")) (.div (.inp n!"6sbcc") (.rat 6 1))) (.mul (.rat 16 1) (.inp n!"9sbcc")))) (.div (.div (.sqrt (.rat 2 1)) (.par n!"GF")) (.rat 4 1)))),
  (n!"C10_sdtaumu", (.div (.mul (.div (.div (.div (.sqrt (.rat 2 1)) (.par n!"GF")) (.mul (.ckm 2 1) (.conj (.ckm 2 0)))) (.rat 4 1)) (.mul (.div (.mul (.rat 16 1) (.mul .pi .pi)) (.mul (.sqrt (.mul (.mul (.rat 4 1) .pi) (.par n!"alpha_e"))) (.sqrt (.mul (.mul (.rat 4 1) .pi) (.par n!"alpha_e"))))) (.mul (.rat (-6) 1) (.inp n!"3dsmutau")))) (.div (.div (.sqrt (.rat 2 1)) (.par n!"GF")) (.rat 4 1)))),
  (n!"CSLR_bsbb", (.div (.mul (.div (.div (.div (.sqrt (.rat 2 1)) (.par n!"GF")) (.mul (.ckm 2 2) (.conj (.ckm 2 1)))) (.rat 4 1)) (.add (.inp n!"5psbbb") (.mul (.rat 16 1) (.inp n!"9psbbb")))) (.div (.div (.sqrt (.rat 2 1)) (.par n!"GF")) (.rat 4 1)))),
  (n!"CVRR_bscc", (.div (.mul (.div (.div (.div (.sqrt (.rat 2 1)) (.par n!"GF")) (.mul (.ckm 2 2) (.conj (.ckm 2 1)))) (.rat 4 1)) (.sub (.add (.sub (.inp n!"1psbcc") (.div (.inp n!"2psbcc") (.rat 6 1))) (.mul (.rat 16 1) (.inp n!"3psbcc"))) (.div (.mul (.rat 8 1) (.inp n!"4psbcc")) (.rat 3 1)))) (.div (.div (.sqrt (.rat 2 1)) (.par n!"GF")) (.rat 4 1)))),
  (n!"CVRRt_sduu", (.div (.mul (.div (.div (.div (.sqrt (.rat 2 1)) (.par n!"GF")) (.mul (.ckm 2 1) (.conj (.ckm 2 0)))) (.rat 4 1)) (.add (.div (.inp n!"2pdsuu") (.rat 2 1)) (.mul (.rat 8 1) (.inp n!"4pdsuu")))) (.div (.div (.sqrt (.rat 2 1)) (.par n!"GF")) (.rat 4 1)))),
  (n!"CPp_bsetau", (.div (.mul (.div (.div (.div (.sqrt (.rat 2 1)) (.par n!"GF")) (.mul (.ckm 2 2) (.conj (.ckm 2 1)))) (.rat 4 1)) (.mul (.div (.div (.mul (.rat 16 1) (.mul .pi .pi)) (.mul (.sqrt (.mul (.mul (.rat 4 1) .pi) (.par n!"alpha_e"))) (.sqrt (.mul (.mul (.rat 4 1) .pi) (.par n!"alpha_e"))))) (.par n!"m_b")) (.mul (.rat (-24) 1) (.inp n!"9psbtaue")))) (.div (.div (.sqrt (.rat 2 1)) (.par n!"GF")) (.rat 4 1)))),
  (n!"CSR_bctaunumu", (.div (.mul (.div (.div (.div (.neg (.sqrt (.rat 2 1))) (.par n!"GF")) (.ckm 1 2)) (.rat 4 1)) (.inp n!"5cbtaumu")) (.div (.div (.sqrt (.rat 2 1)) (.par n!"GF")) (.rat 4 1)))),
  (n!"CVR_bcmunue", (.div (.mul (.div (.div (.div (.neg (.sqrt (.rat 2 1))) (.par n!"GF")) (.ckm 1 2)) (.rat 4 1)) (.inp n!"1pcbmue")) (.div (.div (.sqrt (.rat 2 1)) (.par n!"GF")) (.rat 4 1)))),
  (n!"CP_bstaue", (.div (.mul (.div (.div (.div (.sqrt (.rat 2 1)) (.par n!"GF")) (.mul (.ckm 2 2) (.conj (.ckm 2 1)))) (.rat 4 1)) (.mul (.div (.div (.mul (.rat 16 1) (.mul .pi .pi)) (.mul (.sqrt (.mul (.mul (.rat 4 1) .pi) (.par n!"alpha_e"))) (.sqrt (.mul (.mul (.rat 4 1) .pi) (.par n!"alpha_e"))))) (.par n!"m_b")) (.mul (.rat 24 1) (.inp n!"9sbetau")))) (.div (.div (.sqrt (.rat 2 1)) (.par n!"GF")) (.rat 4 1)))),
  (n!"CPp_bstaumu", (.div (.mul (.div (.div (.div (.sqrt (.rat 2 1)) (.par n!"GF")) (.mul (.ckm 2 2) (.conj (.ckm 2 1)))) (.rat 4 1)) (.mul (.div (.div (.mul (.rat 16 1) (.mul .pi .pi)) (.mul (.sqrt (.mul (.mul (.rat 4 1) .pi) (.par n!"alpha_e"))) (.sqrt (.mul (.mul (.rat 4 1) .pi) (.par n!"alpha_e"))))) (.par n!"m_b")) (.mul (.rat (-24) 1) (.inp n!"9psbmutau")))) (.div (.div (.sqrt (.rat 2 1)) (.par n!"GF")) (.rat 4 1)))),
  (n!"CTLL_bsdd", (.div (.mul (.div (.div (.div (.sqrt (.rat 2 1)) (.par n!"GF")) (.mul (.ckm 2 2) (.conj (.ckm 2 1)))) (.rat 4 1)) (.sub (.sub (.add (.div (.mul (.rat 8 1) (.inp n!"10psbdd")) (.rat 3 1)) (.inp n!"7psbdd")) (.div (.inp n!"8psbdd") (.rat 6 1))) (.mul (.rat 16 1) (.inp n!"9psbdd")))) (.div (.div (.sqrt (.rat 2 1)) (.par n!"GF")) (.rat 4 1)))),
  (n!"CR_bsnuenue", (.div (.mul (.div (.div (.div (.sqrt (.rat 2 1)) (.par n!"GF")) (.mul (.ckm 2 2) (.conj (.ckm 2 1)))) (.rat 4 1)) (.mul (.div (.mul (.rat 8 1) (.mul .pi .pi)) (.mul (.sqrt (.mul (.mul (.rat 4 1) .pi) (.par n!"alpha_e"))) (.sqrt (.mul (.mul (.rat 4 1) .pi) (.par n!"alpha_e"))))) (.inp n!"nu1psbee"))) (.div (.div (.sqrt (.rat 2 1)) (.par n!"GF")) (.rat 4 1)))),
  (n!"CSRR_bdbd", (.div (.sub (.inp n!"2pdbdb") (.mul (.div (.rat 1 1) (.rat 2 1)) (.inp n!"3pdbdb"))) (.div (.div (.sqrt (.rat 2 1)) (.par n!"GF")) (.rat 4 1)))),
  (n!"CR_bsnutaunue", (.div (.mul (.div (.div (.div (.sqrt (.rat 2 1)) (.par n!"GF")) (.mul (.ckm 2 2) (.conj (.ckm 2 1)))) (.rat 4 1)) (.mul (.div (.mul (.rat 8 1) (.mul .pi .pi)) (.mul (.sqrt (.mul (.mul (.rat 4 1) .pi) (.par n!"alpha_e"))) (.sqrt (.mul (.mul (.rat 4 1) .pi) (.par n!"alpha_e"))))) (.inp n!"nu1psbetau"))) (.div (.div (.sqrt (.rat 2 1)) (.par n!"GF")) (.rat 4 1)))),
  (n!"CSRR_sdsd", (.div (.sub (.inp n!"2pdsds") (.mul (.div (.rat 1 1) (.rat 2 1)) (.inp n!"3pdsds"))) (.div (.div (.sqrt (.rat 2 1)) (.par n!"GF")) (.rat 4 1)))),
  (n!"CTRR_sdcc", (.div (.mul (.div (.div (.div (.sqrt (.rat 2 1)) (.par n!"GF")) (.mul (.ckm 2 1) (.conj (.ckm 2 0)))) (.rat 4 1)) (.sub (.sub (.add (.div (.mul (.rat 8 1) (.inp n!"10dscc")) (.rat 3 1)) (.inp n!"7dscc")) (.div (.inp n!"8dscc") (.rat 6 1))) (.mul (.rat 16 1) (.inp n!"9dscc")))) (.div (.div (.sqrt (.rat 2 1)) (.par n!"GF")) (.rat 4 1)))),
  (n!"CVL_dumunutau", (.div (.mul (.div (.div (.div (.neg (.sqrt (.rat 2 1))) (.par n!"GF")) (.ckm 0 0)) (.rat 4 1)) (.inp n!"1udmutau")) (.div (.div (.sqrt (.rat 2 1)) (.par n!"GF")) (.rat 4 1)))),
  (n!"CVRRt_bdss", (.div (.mul (.div (.div (.div (.sqrt (.rat 2 1)) (.par n!"GF")) (.mul (.ckm 2 2) (.conj (.ckm 2 0)))) (.rat 4 1)) (.add (.div (.inp n!"2pdbss") (.rat 2 1)) (.mul (.rat 8 1) (.inp n!"4pdbss")))) (.div (.div (.sqrt (.rat 2 1)) (.par n!"GF")) (.rat 4 1)))),
  (n!"CSRL_sddd", (.div (.mul (.div (.div (.div (.sqrt (.rat 2 1)) (.par n!"GF")) (.mul (.ckm 2 1) (.conj (.ckm 2 0)))) (.rat 4 1)) (.add (.inp n!"5pdsdd") (.mul (.rat 16 1) (.inp n!"9pdsdd")))) (.div (.div (.sqrt (.rat 2 1)) (.par n!"GF")) (.rat 4 1)))),
  (n!"CVLL_bsbs", (.div (.inp n!"1sbsb") (.div (.div (.sqrt (.rat 2 1)) (.par n!"GF")) (.rat 4 1)))),
  (n!"C10_bsetau", (.div (.mul (.div (.div (.div (.sqrt (.rat 2 1)) (.par n!"GF")) (.mul (.ckm 2 2) (.conj (.ckm 2 1)))) (.rat 4 1)) (.mul (.div (.mul (.rat 16 1) (.mul .pi .pi)) (.mul (.sqrt (.mul (.mul (.rat 4 1) .pi) (.par n!"alpha_e"))) (.sqrt (.mul (.mul (.rat 4 1) .pi) (.par n!"alpha_e"))))) (.mul (.rat (-6) 1) (.inp n!"3sbtaue")))) (.div (.div (.sqrt (.rat 2 1)) (.par n!"GF")) (.rat 4 1)))),
  (n!"CSR_dutaunutau", (.div (.mul (.div (.div (.div (.neg (.sqrt (.rat 2 1))) (.par n!"GF")) (.ckm 0 0)) (.rat 4 1)) (.inp n!"5udtautau")) (.div (.div (.sqrt (.rat 2 1)) (.par n!"GF")) (.rat 4 1)))),
  (n!"CSLR_sdcc", (.div (.mul (.div (.div (.div (.sqrt (.rat 2 1)) (.par n!"GF")) (.mul (.ckm 2 1) (.conj (.ckm 2 0)))) (.rat 4 1)) (.add (.sub (.add (.neg (.div (.mul (.rat 8 1) (.inp n!"10pdscc")) (.rat 3 1))) (.inp n!"5pdscc")) (.div (.inp n!"6pdscc") (.rat 6 1))) (.mul (.rat 16 1) (.inp n!"9pdscc")))) (.div (.div (.sqrt (.rat 2 1)) (.par n!"GF")) (.rat 4 1)))),
  (n!"CVRR_sddd", (.div (.mul (.div (.div (.div (.sqrt (.rat 2 1)) (.par n!"GF")) (.mul (.ckm 2 1) (.conj (.ckm 2 0)))) (.rat 4 1)) (.add (.inp n!"1pdsdd") (.mul (.rat 16 1) (.inp n!"3pdsdd")))) (.div (.div (.sqrt (.rat 2 1)) (.par n!"GF")) (.rat 4 1)))),
  (n!"CSp_sdee", (.div (.mul (.div (.div (.div (.sqrt (.rat 2 1)) (.par n!"GF")) (.mul (.ckm 2 1) (.conj (.ckm 2 0)))) (.rat 4 1)) (.mul (.div (.div (.mul (.rat 16 1) (.mul .pi .pi)) (.mul (.sqrt (.mul (.mul (.rat 4 1) .pi) (.par n!"alpha_e"))) (.sqrt (.mul (.mul (.rat 4 1) .pi) (.par n!"alpha_e"))))) (.par n!"m_s")) (.add (.inp n!"5pdsee") (.mul (.rat 40 1) (.inp n!"9pdsee"))))) (.div (.div (.sqrt (.rat 2 1)) (.par n!"GF")) (.rat 4 1)))),
  (n!"CSRL_bsuu", (.div (.mul (.div (.div (.div (.sqrt (.rat 2 1)) (.par n!"GF")) (.mul (.ckm 2 2) (.conj (.ckm 2 1)))) (.rat 4 1)) (.add (.sub (.add (.neg (.div (.mul (.rat 8 1) (.inp n!"10sbuu")) (.rat 3 1))) (.inp n!"5sbuu")) (.div (.inp n!"6sbuu") (.rat 6 1))) (.mul (.rat 16 1) (.inp n!"9sbuu")))) (.div (.div (.sqrt (.rat 2 1)) (.par n!"GF")) (.rat 4 1)))),
  (n!"C7_bs", (.div (.mul (.div (.div (.div (.sqrt (.rat 2 1)) (.par n!"GF")) (.mul (.ckm 2 2) (.conj (.ckm 2 1)))) (.rat 4 1)) (.mul (.div (.div (.mul (.rat 16 1) (.mul .pi .pi)) (.sqrt (.mul (.mul (.rat 4 1) .pi) (.par n!"alpha_e")))) (.par n!"m_b")) (.div (.inp n!"7gammasb") (.div (.div (.mul (.sqrt (.mul (.mul (.rat 4 1) .pi) (.par n!"alpha_s"))) (.sqrt (.mul (.mul (.rat 4 1) .pi) (.par n!"alpha_s")))) (.sqrt (.mul (.mul (.rat 4 1) .pi) (.par n!"alpha_e")))) (.par n!"m_b"))))) (.div (.div (.sqrt (.rat 2 1)) (.par n!"GF")) (.rat 4 1)))),
  (n!"CVRR_bsuu", (.div (.mul (.div (.div (.div (.sqrt (.rat 2 1)) (.par n!"GF")) (.mul (.ckm 2 2) (.conj (.ckm 2 1)))) (.rat 4 1)) (.sub (.add (.sub (.inp n!"1psbuu") (.div (.inp n!"2psbuu") (.rat 6 1))) (.mul (.rat 16 1) (.inp n!"3psbuu"))) (.div (.mul (.rat 8 1) (.inp n!"4psbuu")) (.rat 3 1)))) (.div (.div (.sqrt (.rat 2 1)) (.par n!"GF")) (.rat 4 1)))),
  (n!"CP_bdee", (.div (.mul (.div (.div (.div (.sqrt (.rat 2 1)) (.par n!"GF")) (.mul (.ckm 2 2) (.conj (.ckm 2 0)))) (.rat 4 1)) (.mul (.div (.div (.mul (.rat 16 1) (.mul .pi .pi)) (.mul (.sqrt (.mul (.mul (.rat 4 1) .pi) (.par n!"alpha_e"))) (.sqrt (.mul (.mul (.rat 4 1) .pi) (.par n!"alpha_e"))))) (.par n!"m_b")) (.mul (.rat 24 1) (.inp n!"9dbee")))) (.div (.div (.sqrt (.rat 2 1)) (.par n!"GF")) (.rat 4 1)))),
  (n!"CSRL_bdbb", (.div (.mul (.div (.div (.div (.sqrt (.rat 2 1)) (.par n!"GF")) (.mul (.ckm 2 2) (.conj (.ckm 2 0)))) (.rat 4 1)) (.add (.inp n!"5dbbb") (.mul (.rat 16 1) (.inp n!"9dbbb")))) (.div (.div (.sqrt (.rat 2 1)) (.par n!"GF")) (.rat 4 1)))),
  (n!"C10p_bsmutau", (.div (.mul (.div (.div (.div (.sqrt (.rat 2 1)) (.par n!"GF")) (.mul (.ckm 2 2) (.conj (.ckm 2 1)))) (.rat 4 1)) (.mul (.div (.mul (.rat 16 1) (.mul .pi .pi)) (.mul (.sqrt (.mul (.mul (.rat 4 1) .pi) (.par n!"alpha_e"))) (.sqrt (.mul (.mul (.rat 4 1) .pi) (.par n!"alpha_e"))))) (.mul (.rat 6 1) (.inp n!"3psbtaumu")))) (.div (.div (.sqrt (.rat 2 1)) (.par n!"GF")) (.rat 4 1)))),
  (n!"CVR_dutaunue", (.div (.mul (.div (.div (.div (.neg (.sqrt (.rat 2 1))) (.par n!"GF")) (.ckm 0 0)) (.rat 4 1)) (.inp n!"1pudtaue")) (.div (.div (.sqrt (.rat 2 1)) (.par n!"GF")) (.rat 4 1)))),
  (n!"CS_bsee", (.div (.mul (.div (.div (.div (.sqrt (.rat 2 1)) (.par n!"GF")) (.mul (.ckm 2 2) (.conj (.ckm 2 1)))) (.rat 4 1)) (.mul (.div (.div (.mul (.rat 16 1) (.mul .pi .pi)) (.mul (.sqrt (.mul (.mul (.rat 4 1) .pi) (.par n!"alpha_e"))) (.sqrt (.mul (.mul (.rat 4 1) .pi) (.par n!"alpha_e"))))) (.par n!"m_b")) (.add (.inp n!"5sbee") (.mul (.rat 40 1) (.inp n!"9sbee"))))) (.div (.div (.sqrt (.rat 2 1)) (.par n!"GF")) (.rat 4 1)))),
  (n!"CSRLt_bscc", (.div (.mul (.div (.div (.div (.sqrt (.rat 2 1)) (.par n!"GF")) (.mul (.ckm 2 2) (.conj (.ckm 2 1)))) (.rat 4 1)) (.add (.mul (.rat 8 1) (.inp n!"10sbcc")) (.div (.inp n!"6sbcc") (.rat 2 1)))) (.div (.div (.sqrt (.rat 2 1)) (.par n!"GF")) (.rat 4 1)))),
  (n!"CVRR_bdbb", (.div (.mul (.div (.div (.div (.sqrt (.rat 2 1)) (.par n!"GF")) (.mul (.ckm 2 2) (.conj (.ckm 2 0)))) (.rat 4 1)) (.add (.inp n!"1pdbbb") (.mul (.rat 16 1) (.inp n!"3pdbbb")))) (.div (.div (.sqrt (.rat 2 1)) (.par n!"GF")) (.rat 4 1)))),
  (n!"CPp_bdmue", (.div (.mul (.div (.div (.div (.sqrt (.rat 2 1)) (.par n!"GF")) (.mul (.ckm 2 2) (.conj (.ckm 2 0)))) (.rat 4 1)) (.mul (.div (.div (.mul (.rat 16 1) (.mul .pi .pi)) (.mul (.sqrt (.mul (.mul (.rat 4 1) .pi) (.par n!"alpha_e"))) (.sqrt (.mul (.mul (.rat 4 1) .pi) (.par n!"alpha_e"))))) (.par n!"m_b")) (.mul (.rat (-24) 1) (.inp n!"9pdbemu")))) (.div (.div (.sqrt (.rat 2 1)) (.par n!"GF")) (.rat 4 1)))),
  (n!"CVL_sutaunutau", (.div (.mul (.div (.div (.div (.neg (.sqrt (.rat 2 1))) (.par n!"GF")) (.ckm 0 1)) (.rat 4 1)) (.inp n!"1ustautau")) (.div (.div (.sqrt (.rat 2 1)) (.par n!"GF")) (.rat 4 1)))),
  (n!"C9_bstaue", (.div (.mul (.div (.div (.div (.sqrt (.rat 2 1)) (.par n!"GF")) (.mul (.ckm 2 2) (.conj (.ckm 2 1)))) (.rat 4 1)) (.mul (.div (.mul (.rat 16 1) (.mul .pi .pi)) (.mul (.sqrt (.mul (.mul (.rat 4 1) .pi) (.par n!"alpha_e"))) (.sqrt (.mul (.mul (.rat 4 1) .pi) (.par n!"alpha_e"))))) (.add (.inp n!"1sbetau") (.mul (.rat 10 1) (.inp n!"3sbetau"))))) (.div (.div (.sqrt (.rat 2 1)) (.par n!"GF")) (.rat 4 1)))),
  (n!"CVR_dctaunumu", (.div (.mul (.div (.div (.div (.neg (.sqrt (.rat 2 1))) (.par n!"GF")) (.ckm 1 0)) (.rat 4 1)) (.inp n!"1pcdtaumu")) (.div (.div (.sqrt (.rat 2 1)) (.par n!"GF")) (.rat 4 1)))),
  (n!"CTRR_sduu", (.div (.mul (.div (.div (.div (.sqrt (.rat 2 1)) (.par n!"GF")) (.mul (.ckm 2 1) (.conj (.ckm 2 0)))) (.rat 4 1)) (.sub (.sub (.add (.div (.mul (.rat 8 1) (.inp n!"10dsuu")) (.rat 3 1)) (.inp n!"7dsuu")) (.div (.inp n!"8dsuu") (.rat 6 1))) (.mul (.rat 16 1) (.inp n!"9dsuu")))) (.div (.div (.sqrt (.rat 2 1)) (.par n!"GF")) (.rat 4 1)))),
  (n!"CSL_butaunumu", (.div (.mul (.div (.div (.div (.neg (.sqrt (.rat 2 1))) (.par n!"GF")) (.ckm 0 2)) (.rat 4 1)) (.inp n!"5pubtaumu")) (.div (.div (.sqrt (.rat 2 1)) (.par n!"GF")) (.rat 4 1)))),
  (n!"CTLL_bdcc", (.div (.mul (.div (.div (.div (.sqrt (.rat 2 1)) (.par n!"GF")) (.mul (.ckm 2 2) (.conj (.ckm 2 0)))) (.rat 4 1)) (.sub (.sub (.add (.div (.mul (.rat 8 1) (.inp n!"10pdbcc")) (.rat 3 1)) (.inp n!"7pdbcc")) (.div (.inp n!"8pdbcc") (.rat 6 1))) (.mul (.rat 16 1) (.inp n!"9pdbcc")))) (.div (.div (.sqrt (.rat 2 1)) (.par n!"GF")) (.rat 4 1)))),
  (n!"CR_bdnumunutau", (.div (.mul (.div (.div (.div (.sqrt (.rat 2 1)) (.par n!"GF")) (.mul (.ckm 2 2) (.conj (.ckm 2 0)))) (.rat 4 1)) (.mul (.div (.mul (.rat 8 1) (.mul .pi .pi)) (.mul (.sqrt (.mul (.mul (.rat 4 1) .pi) (.par n!"alpha_e"))) (.sqrt (.mul (.mul (.rat 4 1) .pi) (.par n!"alpha_e"))))) (.inp n!"nu1pdbtaumu"))) (.div (.div (.sqrt (.rat 2 1)) (.par n!"GF")) (.rat 4 1)))),
  (n!"CSLR_sduu", (.div (.mul (.div (.div (.div (.sqrt (.rat 2 1)) (.par n!"GF")) (.mul (.ckm 2 1) (.conj (.ckm 2 0)))) (.rat 4 1)) (.add (.sub (.add (.neg (.div (.mul (.rat 8 1) (.inp n!"10pdsuu")) (.rat 3 1))) (.inp n!"5pdsuu")) (.div (.inp n!"6pdsuu") (.rat 6 1))) (.mul (.rat 16 1) (.inp n!"9pdsuu")))) (.div (.div (.sqrt (.rat 2 1)) (.par n!"GF")) (.rat 4 1)))),
  (n!"CT_dctaunue", (.div (.mul (.div (.div (.div (.neg (.sqrt (.rat 2 1))) (.par n!"GF")) (.ckm 1 0)) (.rat 4 1)) (.inp n!"7pcdtaue")) (.div (.div (.sqrt (.rat 2 1)) (.par n!"GF")) (.rat 4 1)))),
  (n!"CT_dutaunumu", (.div (.mul (.div (.div (.div (.neg (.sqrt (.rat 2 1))) (.par n!"GF")) (.ckm 0 0)) (.rat 4 1)) (.inp n!"7pudtaumu")) (.div (.div (.sqrt (.rat 2 1)) (.par n!"GF")) (.rat 4 1)))),
  (n!"C7p_bs", (.div (.mul (.div (.div (.div (.sqrt (.rat 2 1)) (.par n!"GF")) (.mul (.ckm 2 2) (.conj (.ckm 2 1)))) (.rat 4 1)) (.mul (.div (.div (.mul (.rat 16 1) (.mul .pi .pi)) (.sqrt (.mul (.mul (.rat 4 1) .pi) (.par n!"alpha_e")))) (.par n!"m_b")) (.div (.inp n!"7pgammasb") (.div (.div (.mul (.sqrt (.mul (.mul (.rat 4 1) .pi) (.par n!"alpha_s"))) (.sqrt (.mul (.mul (.rat 4 1) .pi) (.par n!"alpha_s")))) (.sqrt (.mul (.mul (.rat 4 1) .pi) (.par n!"alpha_e")))) (.par n!"m_b"))))) (.div (.div (.sqrt (.rat 2 1)) (.par n!"GF")) (.rat 4 1)))),
  (n!"C10p_bdetau", (.div (.mul (.div (.div (.div (.sqrt (.rat 2 1)) (.par n!"GF")) (.mul (.ckm 2 2) (.conj (.ckm 2 0)))) (.rat 4 1)) (.mul (.div (.mul (.rat 16 1) (.mul .pi .pi)) (.mul (.sqrt (.mul (.mul (.rat 4 1) .pi) (.par n!"alpha_e"))) (.sqrt (.mul (.mul (.rat 4 1) .pi) (.par n!"alpha_e"))))) (.mul (.rat 6 1) (.inp n!"3pdbtaue")))) (.div (.div (.sqrt (.rat 2 1)) (.par n!"GF")) (.rat 4 1)))),
  (n!"CVLL_bddd", (.div (.mul (.div (.div (.div (.sqrt (.rat 2 1)) (.par n!"GF")) (.mul (.ckm 2 2) (.conj (.ckm 2 0)))) (.rat 4 1)) (.add (.inp n!"1dbdd") (.mul (.rat 16 1) (.inp n!"3dbdd")))) (.div (.div (.sqrt (.rat 2 1)) (.par n!"GF")) (.rat 4 1))))]

def Bern_to_flavio_16 : List (ℕ × Sym) := [
  (n!"CS_bdmutau", (.div (.mul (.div (.div (.div (.sqrt (.rat 2 1)) (.par n!"GF")) (.mul (.ckm 2 2) (.conj (.ckm 2 0)))) (.rat 4 1)) (.mul (.div (.div (.mul (.rat 16 1) (.mul .pi .pi)) (.mul (.sqrt (.mul (.mul (.rat 4 1) .pi) (.par n!"alpha_e"))) (.sqrt (.mul (.mul (.rat 4 1) .pi) (.par n!"alpha_e"))))) (.par n!"m_b")) (.add (.inp n!"5dbtaumu") (.mul (.rat 40 1) (.inp n!"9dbtaumu"))))) (.div (.div (.sqrt (.rat 2 1)) (.par n!"GF")) (.rat 4 1)))),
  (n!"CSR_dctaunue", (.div (.mul (.div (.div (.div (.neg (.sqrt (.rat 2 1))) (.par n!"GF")) (.ckm 1 0)) (.rat 4 1)) (.inp n!"5cdtaue")) (.div (.div (.sqrt (.rat 2 1)) (.par n!"GF")) (.rat 4 1)))),
  (n!"CTRR_bdss", (.div (.mul (.div (.div (.div (.sqrt (.rat 2 1)) (.par n!"GF")) (.mul (.ckm 2 2) (.conj (.ckm 2 0)))) (.rat 4 1)) (.sub (.sub (.add (.div (.mul (.rat 8 1) (.inp n!"10dbss")) (.rat 3 1)) (.inp n!"7dbss")) (.div (.inp n!"8dbss") (.rat 6 1))) (.mul (.rat 16 1) (.inp n!"9dbss")))) (.div (.div (.sqrt (.rat 2 1)) (.par n!"GF")) (.rat 4 1)))),
  (n!"CL_bsnumunutau", (.div (.mul (.div (.div (.div (.sqrt (.rat 2 1)) (.par n!"GF")) (.mul (.ckm 2 2) (.conj (.ckm 2 1)))) (.rat 4 1)) (.mul (.div (.mul (.rat 8 1) (.mul .pi .pi)) (.mul (.sqrt (.mul (.mul (.rat 4 1) .pi) (.par n!"alpha_e"))) (.sqrt (.mul (.mul (.rat 4 1) .pi) (.par n!"alpha_e"))))) (.inp n!"nu1sbtaumu"))) (.div (.div (.sqrt (.rat 2 1)) (.par n!"GF")) (.rat 4 1)))),
  (n!"CSRLt_bsuu", (.div (.mul (.div (.div (.div (.sqrt (.rat 2 1)) (.par n!"GF")) (.mul (.ckm 2 2) (.conj (.ckm 2 1)))) (.rat 4 1)) (.add (.mul (.rat 8 1) (.inp n!"10sbuu")) (.div (.inp n!"6sbuu") (.rat 2 1)))) (.div (.div (.sqrt (.rat 2 1)) (.par n!"GF")) (.rat 4 1)))),
  (n!"CT_sutaunue", (.div (.mul (.div (.div (.div (.neg (.sqrt (.rat 2 1))) (.par n!"GF")) (.ckm 0 1)) (.rat 4 1)) (.inp n!"7pustaue")) (.div (.div (.sqrt (.rat 2 1)) (.par n!"GF")) (.rat 4 1)))),
  (n!"CSLR_bdss", (.div (.mul (.div (.div (.div (.sqrt (.rat 2 1)) (.par n!"GF")) (.mul (.ckm 2 2) (.conj (.ckm 2 0)))) (.rat 4 1)) (.add (.sub (.add (.neg (.div (.mul (.rat 8 1) (.inp n!"10pdbss")) (.rat 3 1))) (.inp n!"5pdbss")) (.div (.inp n!"6pdbss") (.rat 6 1))) (.mul (.rat 16 1) (.inp n!"9pdbss")))) (.div (.div (.sqrt (.rat 2 1)) (.par n!"GF")) (.rat 4 1)))),
  (n!"CR_bdnumunumu", (.div (.mul (.div (.div (.div (.sqrt (.rat 2 1)) (.par n!"GF")) (.mul (.ckm 2 2) (.conj (.ckm 2 0)))) (.rat 4 1)) (.mul (.div (.mul (.rat 8 1) (.mul .pi .pi)) (.mul (.sqrt (.mul (.mul (.rat 4 1) .pi) (.par n!"alpha_e"))) (.sqrt (.mul (.mul (.rat 4 1) .pi) (.par n!"alpha_e"))))) (.inp n!"nu1pdbmumu"))) (.div (.div (.sqrt (.rat 2 1)) (.par n!"GF")) (.rat 4 1)))),
  (n!"C10_bsmutau", (.div (.mul (.div (.div (.div (.sqrt (.rat 2 1)) (.par n!"GF")) (.mul (.ckm 2 2) (.conj (.ckm 2 1)))) (.rat 4 1)) (.mul (.div (.mul (.rat 16 1) (.mul .pi .pi)) (.mul (.sqrt (.mul (.mul (.rat 4 1) .pi) (.par n!"alpha_e"))) (.sqrt (.mul (.mul (.rat 4 1) .pi) (.par n!"alpha_e"))))) (.mul (.rat (-6) 1) (.inp n!"3sbtaumu")))) (.div (.div (.sqrt (.rat 2 1)) (.par n!"GF")) (.rat 4 1)))),
  (n!"CVRR_ucuc", (.div (.inp n!"1pcucu") (.div (.div (.sqrt (.rat 2 1)) (.par n!"GF")) (.rat 4 1)))),
  (n!"C9p_sdtautau", (.div (.mul (.div (.div (.div (.sqrt (.rat 2 1)) (.par n!"GF")) (.mul (.ckm 2 1) (.conj (.ckm 2 0)))) (.rat 4 1)) (.mul (.div (.mul (.rat 16 1) (.mul .pi .pi)) (.mul (.sqrt (.mul (.mul (.rat 4 1) .pi) (.par n!"alpha_e"))) (.sqrt (.mul (.mul (.rat 4 1) .pi) (.par n!"alpha_e"))))) (.add (.inp n!"1pdstautau") (.mul (.rat 10 1) (.inp n!"3pdstautau"))))) (.div (.div (.sqrt (.rat 2 1)) (.par n!"GF")) (.rat 4 1)))),
  (n!"C9_bsemu", (.div (.mul (.div (.div (.div (.sqrt (.rat 2 1)) (.par n!"GF")) (.mul (.ckm 2 2) (.conj (.ckm 2 1)))) (.rat 4 1)) (.mul (.div (.mul (.rat 16 1) (.mul .pi .pi)) (.mul (.sqrt (.mul (.mul (.rat 4 1) .pi) (.par n!"alpha_e"))) (.sqrt (.mul (.mul (.rat 4 1) .pi) (.par n!"alpha_e"))))) (.add (.inp n!"1sbmue") (.mul (.rat 10 1) (.inp n!"3sbmue"))))) (.div (.div (.sqrt (.rat 2 1)) (.par n!"GF")) (.rat 4 1)))),
  (n!"C9p_bdmue", (.div (.mul (.div (.div (.div (.sqrt (.rat 2 1)) (.par n!"GF")) (.mul (.ckm 2 2) (.conj (.ckm 2 0)))) (.rat 4 1)) (.mul (.div (.mul (.rat 16 1) (.mul .pi .pi)) (.mul (.sqrt (.mul (.mul (.rat 4 1) .pi) (.par n!"alpha_e"))) (.sqrt (.mul (.mul (.rat 4 1) .pi) (.par n!"alpha_e"))))) (.add (.inp n!"1pdbemu") (.mul (.rat 10 1) (.inp n!"3pdbemu"))))) (.div (.div (.sqrt (.rat 2 1)) (.par n!"GF")) (.rat 4 1)))),
  (n!"CT_sutaunutau", (.div (.mul (.div (.div (.div (.neg (.sqrt (.rat 2 1))) (.par n!"GF")) (.ckm 0 1)) (.rat 4 1)) (.inp n!"7pustautau")) (.div (.div (.sqrt (.rat 2 1)) (.par n!"GF")) (.rat 4 1)))),
  (n!"CSR_sutaunue", (.div (.mul (.div (.div (.div (.neg (.sqrt (.rat 2 1))) (.par n!"GF")) (.ckm 0 1)) (.rat 4 1)) (.inp n!"5ustaue")) (.div (.div (.sqrt (.rat 2 1)) (.par n!"GF")) (.rat 4 1)))),
  (n!"CL_bdnuenue", (.div (.mul (.div (.div (.div (.sqrt (.rat 2 1)) (.par n!"GF")) (.mul (.ckm 2 2) (.conj (.ckm 2 0)))) (.rat 4 1)) (.mul (.div (.mul (.rat 8 1) (.mul .pi .pi)) (.mul (.sqrt (.mul (.mul (.rat 4 1) .pi) (.par n!"alpha_e"))) (.sqrt (.mul (.mul (.rat 4 1) .pi) (.par n!"alpha_e"))))) (.inp n!"nu1dbee"))) (.div (.div (.sqrt (.rat 2 1)) (.par n!"GF")) (.rat 4 1)))),
  (n!"CTLL_bduu", (.div (.mul (.div (.div (.div (.sqrt (.rat 2 1)) (.par n!"GF")) (.mul (.ckm 2 2) (.conj (.ckm 2 0)))) (.rat 4 1)) (.sub (.sub (.add (.div (.mul (.rat 8 1) (.inp n!"10pdbuu")) (.rat 3 1)) (.inp n!"7pdbuu")) (.div (.inp n!"8pdbuu") (.rat 6 1))) (.mul (.rat 16 1) (.inp n!"9pdbuu")))) (.div (.div (.sqrt (.rat 2 1)) (.par n!"GF")) (.rat 4 1)))),
  (n!"CVRLt_sdcc", (.div (.mul (.div (.div (.div (.sqrt (.rat 2 1)) (.par n!"GF")) (.mul (.ckm 2 1) (.conj (.ckm 2 0)))) (.rat 4 1)) (.add (.div (.inp n!"2pdscc") (.rat 2 1)) (.mul (.rat 2 1) (.inp n!"4pdscc")))) (.div (.div (.sqrt (.rat 2 1)) (.par n!"GF")) (.rat 4 1)))),
  (n!"CVL_dutaunumu", (.div (.mul (.div (.div (.div (.neg (.sqrt (.rat 2 1))) (.par n!"GF")) (.ckm 0 0)) (.rat 4 1)) (.inp n!"1udtaumu")) (.div (.div (.sqrt (.rat 2 1)) (.par n!"GF")) (.rat 4 1)))),
  (n!"CL_bsnumunumu", (.div (.mul (.div (.div (.div (.sqrt (.rat 2 1)) (.par n!"GF")) (.mul (.ckm 2 2) (.conj (.ckm 2 1)))) (.rat 4 1)) (.mul (.div (.mul (.rat 8 1) (.mul .pi .pi)) (.mul (.sqrt (.mul (.mul (.rat 4 1) .pi) (.par n!"alpha_e"))) (.sqrt (.mul (.mul (.rat 4 1) .pi) (.par n!"alpha_e"))))) (.inp n!"nu1sbmumu"))) (.div (.div (.sqrt (.rat 2 1)) (.par n!"GF")) (.rat 4 1)))),
  (n!"CSR_sctaunutau", (.div (.mul (.div (.div (.div (.neg (.sqrt (.rat 2 1))) (.par n!"GF")) (.ckm 1 1)) (.rat 4 1)) (.inp n!"5cstautau")) (.div (.div (.sqrt (.rat 2 1)) (.par n!"GF")) (.rat 4 1)))),
  (n!"CTRRt_sdcc", (.div (.mul (.div (.div (.div (.sqrt (.rat 2 1)) (.par n!"GF")) (.mul (.ckm 2 1) (.conj (.ckm 2 0)))) (.rat 4 1)) (.add (.mul (.rat (-8) 1) (.inp n!"10dscc")) (.div (.inp n!"8dscc") (.rat 2 1)))) (.div (.div (.sqrt (.rat 2 1)) (.par n!"GF")) (.rat 4 1)))),
  (n!"CVR_bcmunutau", (.div (.mul (.div (.div (.div (.neg (.sqrt (.rat 2 1))) (.par n!"GF")) (.ckm 1 2)) (.rat 4 1)) (.inp n!"1pcbmutau")) (.div (.div (.sqrt (.rat 2 1)) (.par n!"GF")) (.rat 4 1)))),
  (n!"CSR_suenumu", (.div (.mul (.div (.div (.div (.neg (.sqrt (.rat 2 1))) (.par n!"GF")) (.ckm 0 1)) (.rat 4 1)) (.inp n!"5usemu")) (.div (.div (.sqrt (.rat 2 1)) (.par n!"GF")) (.rat 4 1))))]

/-- the items returned by `Bern_to_flavio` (in the order of the search tree of the model) -/
def Bern_to_flavio : List (ℕ × Sym) :=
  Bern_to_flavio_0 ++ (Bern_to_flavio_1 ++ (Bern_to_flavio_2 ++ (Bern_to_flavio_3 ++ (Bern_to_flavio_4 ++ (Bern_to_flavio_5 ++ (Bern_to_flavio_6 ++ (Bern_to_flavio_7 ++ (Bern_to_flavio_8 ++ (Bern_to_flavio_9 ++ (Bern_to_flavio_10 ++ (Bern_to_flavio_11 ++ (Bern_to_flavio_12 ++ (Bern_to_flavio_13 ++ (Bern_to_flavio_14 ++ (Bern_to_flavio_15 ++ (Bern_to_flavio_16))))))))))))))))

end Verif.Gen.WetOut
