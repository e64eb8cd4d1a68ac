import Verif.Lemmas.WetCheck

/-!
# The list of sectors with their matrices is that of the model
-/

set_option autoImplicit false

namespace Verif.WetTab
open Verif Verif.Rotation

/-- the sectors in the order of the classes: `sectors[s] = c` never overwrites -/
theorem sectorTable_eq :
    sectorTable = classes.flatMap fun cs => cs.2.map fun s => (s, cs.1) := by decide +kernel

/-- the entry `S` of `secs` holds the data of the sector `sl.1` -/
def Matches (sl : String × List Coef) (S : Sec) : Prop :=
  S.coefs = sl.2 ∧ ∃ cls, Dict.get? sectorTable sl.1 = some cls ∧
    Dict.get? admETable cls = some S.rE ∧ Dict.get? admSTable cls = some S.rS

theorem getE_I : Dict.get? admETable "I" = some adm_e_I := by simp [Dict.get?, admETable]
theorem getS_I : Dict.get? admSTable "I" = some adm_s_I := by simp [Dict.get?, admSTable]
theorem getE_Ie : Dict.get? admETable "Ie" = some adm_e_Ie := by simp [Dict.get?, admETable]
theorem getS_Ie : Dict.get? admSTable "Ie" = some adm_s_Ie := by simp [Dict.get?, admSTable]
theorem getE_Iu : Dict.get? admETable "Iu" = some adm_e_Iu := by simp [Dict.get?, admETable]
theorem getS_Iu : Dict.get? admSTable "Iu" = some adm_s_Iu := by simp [Dict.get?, admSTable]
theorem getE_II : Dict.get? admETable "II" = some adm_e_II := by simp [Dict.get?, admETable]
theorem getS_II : Dict.get? admSTable "II" = some adm_s_II := by simp [Dict.get?, admSTable]
theorem getE_III : Dict.get? admETable "III" = some adm_e_III := by simp [Dict.get?, admETable]
theorem getS_III : Dict.get? admSTable "III" = some adm_s_III := by simp [Dict.get?, admSTable]
theorem getE_IV : Dict.get? admETable "IV" = some adm_e_IV := by simp [Dict.get?, admETable]
theorem getS_IV : Dict.get? admSTable "IV" = some adm_s_IV := by simp [Dict.get?, admSTable]
theorem getE_Vb : Dict.get? admETable "Vb" = some adm_e_Vb := by simp [Dict.get?, admETable]
theorem getS_Vb : Dict.get? admSTable "Vb" = some adm_s_Vb := by simp [Dict.get?, admSTable]
theorem getE_Vb_c : Dict.get? admETable "Vb_c" = some adm_e_Vb_c := by simp [Dict.get?, admETable]
theorem getS_Vb_c : Dict.get? admSTable "Vb_c" = some adm_s_Vb_c := by simp [Dict.get?, admSTable]
theorem getE_IVe : Dict.get? admETable "IVe" = some adm_e_IVe := by simp [Dict.get?, admETable]
theorem getS_IVe : Dict.get? admSTable "IVe" = some adm_s_IVe := by simp [Dict.get?, admSTable]
theorem getE_inv : Dict.get? admETable "inv" = some adm_e_inv := by simp [Dict.get?, admETable]
theorem getS_inv : Dict.get? admSTable "inv" = some adm_s_inv := by simp [Dict.get?, admSTable]
theorem getE_cu : Dict.get? admETable "cu" = some adm_e_cu := by simp [Dict.get?, admETable]
theorem getS_cu : Dict.get? admSTable "cu" = some adm_s_cu := by simp [Dict.get?, admSTable]
theorem getE_db : Dict.get? admETable "db" = some adm_e_db := by simp [Dict.get?, admETable]
theorem getS_db : Dict.get? admSTable "db" = some adm_s_db := by simp [Dict.get?, admSTable]
theorem getE_sb : Dict.get? admETable "sb" = some adm_e_sb := by simp [Dict.get?, admETable]
theorem getS_sb : Dict.get? admSTable "sb" = some adm_s_sb := by simp [Dict.get?, admSTable]
theorem getE_sd : Dict.get? admETable "sd" = some adm_e_sd := by simp [Dict.get?, admETable]
theorem getS_sd : Dict.get? admSTable "sd" = some adm_s_sd := by simp [Dict.get?, admSTable]
theorem getE_mue : Dict.get? admETable "mue" = some adm_e_mue := by simp [Dict.get?, admETable]
theorem getS_mue : Dict.get? admSTable "mue" = some adm_s_mue := by simp [Dict.get?, admSTable]
theorem getE_mutau : Dict.get? admETable "mutau" = some adm_e_mutau := by simp [Dict.get?, admETable]
theorem getS_mutau : Dict.get? admSTable "mutau" = some adm_s_mutau := by simp [Dict.get?, admSTable]
theorem getE_taue : Dict.get? admETable "taue" = some adm_e_taue := by simp [Dict.get?, admETable]
theorem getS_taue : Dict.get? admSTable "taue" = some adm_s_taue := by simp [Dict.get?, admSTable]
theorem getE_dF0 : Dict.get? admETable "dF0" = some adm_e_dF0 := by simp [Dict.get?, admETable]
theorem getS_dF0 : Dict.get? admSTable "dF0" = some adm_s_dF0 := by simp [Dict.get?, admSTable]
theorem getE_ffnunu : Dict.get? admETable "ffnunu" = some adm_e_ffnunu := by simp [Dict.get?, admETable]
theorem getS_ffnunu : Dict.get? admSTable "ffnunu" = some adm_s_ffnunu := by simp [Dict.get?, admSTable]
theorem getE_uddnu : Dict.get? admETable "uddnu" = some adm_e_uddnu := by simp [Dict.get?, admETable]
theorem getS_uddnu : Dict.get? admSTable "uddnu" = some adm_s_uddnu := by simp [Dict.get?, admSTable]
theorem getE_udsnu : Dict.get? admETable "udsnu" = some adm_e_udsnu := by simp [Dict.get?, admETable]
theorem getS_udsnu : Dict.get? admSTable "udsnu" = some adm_s_udsnu := by simp [Dict.get?, admSTable]
theorem getE_uude : Dict.get? admETable "uude" = some adm_e_uude := by simp [Dict.get?, admETable]
theorem getS_uude : Dict.get? admSTable "uude" = some adm_s_uude := by simp [Dict.get?, admSTable]
theorem getE_ucde : Dict.get? admETable "ucde" = some adm_e_ucde := by simp [Dict.get?, admETable]
theorem getS_ucde : Dict.get? admSTable "ucde" = some adm_s_ucde := by simp [Dict.get?, admSTable]

theorem cls_sbsb : Dict.get? sectorTable "sbsb" = some "I" := by
  rw [sectorTable_eq]; decide +kernel
theorem cls_dbdb : Dict.get? sectorTable "dbdb" = some "I" := by
  rw [sectorTable_eq]; decide +kernel
theorem cls_sdsd : Dict.get? sectorTable "sdsd" = some "I" := by
  rw [sectorTable_eq]; decide +kernel
theorem cls_cucu : Dict.get? sectorTable "cucu" = some "Iu" := by
  rw [sectorTable_eq]; decide +kernel
theorem cls_dbsb : Dict.get? sectorTable "dbsb" = some "IV" := by
  rw [sectorTable_eq]; decide +kernel
theorem cls_sbuc : Dict.get? sectorTable "sbuc" = some "III" := by
  rw [sectorTable_eq]; decide +kernel
theorem cls_sbcu : Dict.get? sectorTable "sbcu" = some "III" := by
  rw [sectorTable_eq]; decide +kernel
theorem cls_dbuc : Dict.get? sectorTable "dbuc" = some "III" := by
  rw [sectorTable_eq]; decide +kernel
theorem cls_dbcu : Dict.get? sectorTable "dbcu" = some "III" := by
  rw [sectorTable_eq]; decide +kernel
theorem cls_sduc : Dict.get? sectorTable "sduc" = some "III" := by
  rw [sectorTable_eq]; decide +kernel
theorem cls_sdcu : Dict.get? sectorTable "sdcu" = some "III" := by
  rw [sectorTable_eq]; decide +kernel
theorem cls_sbsd : Dict.get? sectorTable "sbsd" = some "IV" := by
  rw [sectorTable_eq]; decide +kernel
theorem cls_dbds : Dict.get? sectorTable "dbds" = some "IV" := by
  rw [sectorTable_eq]; decide +kernel
theorem cls_sb : Dict.get? sectorTable "sb" = some "sb" := by
  rw [sectorTable_eq]; decide +kernel
theorem cls_db : Dict.get? sectorTable "db" = some "db" := by
  rw [sectorTable_eq]; decide +kernel
theorem cls_sd : Dict.get? sectorTable "sd" = some "sd" := by
  rw [sectorTable_eq]; decide +kernel
theorem cls_cu : Dict.get? sectorTable "cu" = some "cu" := by
  rw [sectorTable_eq]; decide +kernel
theorem cls_sbemu : Dict.get? sectorTable "sbemu" = some "Vb" := by
  rw [sectorTable_eq]; decide +kernel
theorem cls_sbmue : Dict.get? sectorTable "sbmue" = some "Vb" := by
  rw [sectorTable_eq]; decide +kernel
theorem cls_sbetau : Dict.get? sectorTable "sbetau" = some "Vb" := by
  rw [sectorTable_eq]; decide +kernel
theorem cls_sbtaue : Dict.get? sectorTable "sbtaue" = some "Vb" := by
  rw [sectorTable_eq]; decide +kernel
theorem cls_sbmutau : Dict.get? sectorTable "sbmutau" = some "Vb" := by
  rw [sectorTable_eq]; decide +kernel
theorem cls_sbtaumu : Dict.get? sectorTable "sbtaumu" = some "Vb" := by
  rw [sectorTable_eq]; decide +kernel
theorem cls_dbemu : Dict.get? sectorTable "dbemu" = some "Vb" := by
  rw [sectorTable_eq]; decide +kernel
theorem cls_dbmue : Dict.get? sectorTable "dbmue" = some "Vb" := by
  rw [sectorTable_eq]; decide +kernel
theorem cls_dbetau : Dict.get? sectorTable "dbetau" = some "Vb" := by
  rw [sectorTable_eq]; decide +kernel
theorem cls_dbtaue : Dict.get? sectorTable "dbtaue" = some "Vb" := by
  rw [sectorTable_eq]; decide +kernel
theorem cls_dbmutau : Dict.get? sectorTable "dbmutau" = some "Vb" := by
  rw [sectorTable_eq]; decide +kernel
theorem cls_dbtaumu : Dict.get? sectorTable "dbtaumu" = some "Vb" := by
  rw [sectorTable_eq]; decide +kernel
theorem cls_sdemu : Dict.get? sectorTable "sdemu" = some "Vb" := by
  rw [sectorTable_eq]; decide +kernel
theorem cls_sdmue : Dict.get? sectorTable "sdmue" = some "Vb" := by
  rw [sectorTable_eq]; decide +kernel
theorem cls_sdetau : Dict.get? sectorTable "sdetau" = some "Vb" := by
  rw [sectorTable_eq]; decide +kernel
theorem cls_sdtaue : Dict.get? sectorTable "sdtaue" = some "Vb" := by
  rw [sectorTable_eq]; decide +kernel
theorem cls_sdmutau : Dict.get? sectorTable "sdmutau" = some "Vb" := by
  rw [sectorTable_eq]; decide +kernel
theorem cls_sdtaumu : Dict.get? sectorTable "sdtaumu" = some "Vb" := by
  rw [sectorTable_eq]; decide +kernel
theorem cls_cuemu : Dict.get? sectorTable "cuemu" = some "Vb_c" := by
  rw [sectorTable_eq]; decide +kernel
theorem cls_cumue : Dict.get? sectorTable "cumue" = some "Vb_c" := by
  rw [sectorTable_eq]; decide +kernel
theorem cls_cuetau : Dict.get? sectorTable "cuetau" = some "Vb_c" := by
  rw [sectorTable_eq]; decide +kernel
theorem cls_cutaue : Dict.get? sectorTable "cutaue" = some "Vb_c" := by
  rw [sectorTable_eq]; decide +kernel
theorem cls_cumutau : Dict.get? sectorTable "cumutau" = some "Vb_c" := by
  rw [sectorTable_eq]; decide +kernel
theorem cls_cutaumu : Dict.get? sectorTable "cutaumu" = some "Vb_c" := by
  rw [sectorTable_eq]; decide +kernel
theorem cls_mutau : Dict.get? sectorTable "mutau" = some "mutau" := by
  rw [sectorTable_eq]; decide +kernel
theorem cls_mue : Dict.get? sectorTable "mue" = some "mue" := by
  rw [sectorTable_eq]; decide +kernel
theorem cls_taue : Dict.get? sectorTable "taue" = some "taue" := by
  rw [sectorTable_eq]; decide +kernel
theorem cls_tauetaue : Dict.get? sectorTable "tauetaue" = some "Ie" := by
  rw [sectorTable_eq]; decide +kernel
theorem cls_taumutaumu : Dict.get? sectorTable "taumutaumu" = some "Ie" := by
  rw [sectorTable_eq]; decide +kernel
theorem cls_muemue : Dict.get? sectorTable "muemue" = some "Ie" := by
  rw [sectorTable_eq]; decide +kernel
theorem cls_muemutau : Dict.get? sectorTable "muemutau" = some "IVe" := by
  rw [sectorTable_eq]; decide +kernel
theorem cls_etauemu : Dict.get? sectorTable "etauemu" = some "IVe" := by
  rw [sectorTable_eq]; decide +kernel
theorem cls_tauetaumu : Dict.get? sectorTable "tauetaumu" = some "IVe" := by
  rw [sectorTable_eq]; decide +kernel
theorem cls_nunununu : Dict.get? sectorTable "nunununu" = some "inv" := by
  rw [sectorTable_eq]; decide +kernel
theorem cls_nunumue : Dict.get? sectorTable "nunumue" = some "inv" := by
  rw [sectorTable_eq]; decide +kernel
theorem cls_nunumutau : Dict.get? sectorTable "nunumutau" = some "inv" := by
  rw [sectorTable_eq]; decide +kernel
theorem cls_nunutaue : Dict.get? sectorTable "nunutaue" = some "inv" := by
  rw [sectorTable_eq]; decide +kernel
theorem cls_dF0 : Dict.get? sectorTable "dF=0" = some "dF0" := by
  rw [sectorTable_eq]; decide +kernel
theorem cls_ubenu : Dict.get? sectorTable "ubenu" = some "II" := by
  rw [sectorTable_eq]; decide +kernel
theorem cls_ubmunu : Dict.get? sectorTable "ubmunu" = some "II" := by
  rw [sectorTable_eq]; decide +kernel
theorem cls_ubtaunu : Dict.get? sectorTable "ubtaunu" = some "II" := by
  rw [sectorTable_eq]; decide +kernel
theorem cls_cbenu : Dict.get? sectorTable "cbenu" = some "II" := by
  rw [sectorTable_eq]; decide +kernel
theorem cls_cbmunu : Dict.get? sectorTable "cbmunu" = some "II" := by
  rw [sectorTable_eq]; decide +kernel
theorem cls_cbtaunu : Dict.get? sectorTable "cbtaunu" = some "II" := by
  rw [sectorTable_eq]; decide +kernel
theorem cls_usenu : Dict.get? sectorTable "usenu" = some "II" := by
  rw [sectorTable_eq]; decide +kernel
theorem cls_usmunu : Dict.get? sectorTable "usmunu" = some "II" := by
  rw [sectorTable_eq]; decide +kernel
theorem cls_ustaunu : Dict.get? sectorTable "ustaunu" = some "II" := by
  rw [sectorTable_eq]; decide +kernel
theorem cls_csenu : Dict.get? sectorTable "csenu" = some "II" := by
  rw [sectorTable_eq]; decide +kernel
theorem cls_csmunu : Dict.get? sectorTable "csmunu" = some "II" := by
  rw [sectorTable_eq]; decide +kernel
theorem cls_cstaunu : Dict.get? sectorTable "cstaunu" = some "II" := by
  rw [sectorTable_eq]; decide +kernel
theorem cls_udenu : Dict.get? sectorTable "udenu" = some "II" := by
  rw [sectorTable_eq]; decide +kernel
theorem cls_udmunu : Dict.get? sectorTable "udmunu" = some "II" := by
  rw [sectorTable_eq]; decide +kernel
theorem cls_udtaunu : Dict.get? sectorTable "udtaunu" = some "II" := by
  rw [sectorTable_eq]; decide +kernel
theorem cls_cdenu : Dict.get? sectorTable "cdenu" = some "II" := by
  rw [sectorTable_eq]; decide +kernel
theorem cls_cdmunu : Dict.get? sectorTable "cdmunu" = some "II" := by
  rw [sectorTable_eq]; decide +kernel
theorem cls_cdtaunu : Dict.get? sectorTable "cdtaunu" = some "II" := by
  rw [sectorTable_eq]; decide +kernel
theorem cls_sbnunu : Dict.get? sectorTable "sbnunu" = some "inv" := by
  rw [sectorTable_eq]; decide +kernel
theorem cls_dbnunu : Dict.get? sectorTable "dbnunu" = some "inv" := by
  rw [sectorTable_eq]; decide +kernel
theorem cls_sdnunu : Dict.get? sectorTable "sdnunu" = some "inv" := by
  rw [sectorTable_eq]; decide +kernel
theorem cls_cununu : Dict.get? sectorTable "cununu" = some "inv" := by
  rw [sectorTable_eq]; decide +kernel
theorem cls_ffnunu : Dict.get? sectorTable "ffnunu" = some "ffnunu" := by
  rw [sectorTable_eq]; decide +kernel
theorem cls_uddnu : Dict.get? sectorTable "uddnu" = some "uddnu" := by
  rw [sectorTable_eq]; decide +kernel
theorem cls_udsnu : Dict.get? sectorTable "udsnu" = some "udsnu" := by
  rw [sectorTable_eq]; decide +kernel
theorem cls_udbnu : Dict.get? sectorTable "udbnu" = some "udsnu" := by
  rw [sectorTable_eq]; decide +kernel
theorem cls_ussnu : Dict.get? sectorTable "ussnu" = some "uddnu" := by
  rw [sectorTable_eq]; decide +kernel
theorem cls_usbnu : Dict.get? sectorTable "usbnu" = some "udsnu" := by
  rw [sectorTable_eq]; decide +kernel
theorem cls_ubbnu : Dict.get? sectorTable "ubbnu" = some "uddnu" := by
  rw [sectorTable_eq]; decide +kernel
theorem cls_cddnu : Dict.get? sectorTable "cddnu" = some "uddnu" := by
  rw [sectorTable_eq]; decide +kernel
theorem cls_cdsnu : Dict.get? sectorTable "cdsnu" = some "udsnu" := by
  rw [sectorTable_eq]; decide +kernel
theorem cls_cdbnu : Dict.get? sectorTable "cdbnu" = some "udsnu" := by
  rw [sectorTable_eq]; decide +kernel
theorem cls_cssnu : Dict.get? sectorTable "cssnu" = some "uddnu" := by
  rw [sectorTable_eq]; decide +kernel
theorem cls_csbnu : Dict.get? sectorTable "csbnu" = some "udsnu" := by
  rw [sectorTable_eq]; decide +kernel
theorem cls_cbbnu : Dict.get? sectorTable "cbbnu" = some "uddnu" := by
  rw [sectorTable_eq]; decide +kernel
theorem cls_uude : Dict.get? sectorTable "uude" = some "uude" := by
  rw [sectorTable_eq]; decide +kernel
theorem cls_uudmu : Dict.get? sectorTable "uudmu" = some "uude" := by
  rw [sectorTable_eq]; decide +kernel
theorem cls_uudtau : Dict.get? sectorTable "uudtau" = some "uude" := by
  rw [sectorTable_eq]; decide +kernel
theorem cls_ucde : Dict.get? sectorTable "ucde" = some "ucde" := by
  rw [sectorTable_eq]; decide +kernel
theorem cls_ucdmu : Dict.get? sectorTable "ucdmu" = some "ucde" := by
  rw [sectorTable_eq]; decide +kernel
theorem cls_ucdtau : Dict.get? sectorTable "ucdtau" = some "ucde" := by
  rw [sectorTable_eq]; decide +kernel
theorem cls_ccde : Dict.get? sectorTable "ccde" = some "uude" := by
  rw [sectorTable_eq]; decide +kernel
theorem cls_ccdmu : Dict.get? sectorTable "ccdmu" = some "uude" := by
  rw [sectorTable_eq]; decide +kernel
theorem cls_ccdtau : Dict.get? sectorTable "ccdtau" = some "uude" := by
  rw [sectorTable_eq]; decide +kernel
theorem cls_uuse : Dict.get? sectorTable "uuse" = some "uude" := by
  rw [sectorTable_eq]; decide +kernel
theorem cls_uusmu : Dict.get? sectorTable "uusmu" = some "uude" := by
  rw [sectorTable_eq]; decide +kernel
theorem cls_uustau : Dict.get? sectorTable "uustau" = some "uude" := by
  rw [sectorTable_eq]; decide +kernel
theorem cls_ucse : Dict.get? sectorTable "ucse" = some "ucde" := by
  rw [sectorTable_eq]; decide +kernel
theorem cls_ucsmu : Dict.get? sectorTable "ucsmu" = some "ucde" := by
  rw [sectorTable_eq]; decide +kernel
theorem cls_ucstau : Dict.get? sectorTable "ucstau" = some "ucde" := by
  rw [sectorTable_eq]; decide +kernel
theorem cls_ccse : Dict.get? sectorTable "ccse" = some "uude" := by
  rw [sectorTable_eq]; decide +kernel
theorem cls_ccsmu : Dict.get? sectorTable "ccsmu" = some "uude" := by
  rw [sectorTable_eq]; decide +kernel
theorem cls_ccstau : Dict.get? sectorTable "ccstau" = some "uude" := by
  rw [sectorTable_eq]; decide +kernel
theorem cls_uube : Dict.get? sectorTable "uube" = some "uude" := by
  rw [sectorTable_eq]; decide +kernel
theorem cls_uubmu : Dict.get? sectorTable "uubmu" = some "uude" := by
  rw [sectorTable_eq]; decide +kernel
theorem cls_uubtau : Dict.get? sectorTable "uubtau" = some "uude" := by
  rw [sectorTable_eq]; decide +kernel
theorem cls_ucbe : Dict.get? sectorTable "ucbe" = some "ucde" := by
  rw [sectorTable_eq]; decide +kernel
theorem cls_ucbmu : Dict.get? sectorTable "ucbmu" = some "ucde" := by
  rw [sectorTable_eq]; decide +kernel
theorem cls_ucbtau : Dict.get? sectorTable "ucbtau" = some "ucde" := by
  rw [sectorTable_eq]; decide +kernel
theorem cls_ccbe : Dict.get? sectorTable "ccbe" = some "uude" := by
  rw [sectorTable_eq]; decide +kernel
theorem cls_ccbmu : Dict.get? sectorTable "ccbmu" = some "uude" := by
  rw [sectorTable_eq]; decide +kernel
theorem cls_ccbtau : Dict.get? sectorTable "ccbtau" = some "uude" := by
  rw [sectorTable_eq]; decide +kernel

set_option maxHeartbeats 1000000 in
theorem secs_matches : List.Forall₂ Matches coefTable secs :=
  .cons ⟨rfl, _, cls_sbsb, getE_I, getS_I⟩ <|
  .cons ⟨rfl, _, cls_dbdb, getE_I, getS_I⟩ <|
  .cons ⟨rfl, _, cls_sdsd, getE_I, getS_I⟩ <|
  .cons ⟨rfl, _, cls_cucu, getE_Iu, getS_Iu⟩ <|
  .cons ⟨rfl, _, cls_dbsb, getE_IV, getS_IV⟩ <|
  .cons ⟨rfl, _, cls_sbuc, getE_III, getS_III⟩ <|
  .cons ⟨rfl, _, cls_sbcu, getE_III, getS_III⟩ <|
  .cons ⟨rfl, _, cls_dbuc, getE_III, getS_III⟩ <|
  .cons ⟨rfl, _, cls_dbcu, getE_III, getS_III⟩ <|
  .cons ⟨rfl, _, cls_sduc, getE_III, getS_III⟩ <|
  .cons ⟨rfl, _, cls_sdcu, getE_III, getS_III⟩ <|
  .cons ⟨rfl, _, cls_sbsd, getE_IV, getS_IV⟩ <|
  .cons ⟨rfl, _, cls_dbds, getE_IV, getS_IV⟩ <|
  .cons ⟨rfl, _, cls_sb, getE_sb, getS_sb⟩ <|
  .cons ⟨rfl, _, cls_db, getE_db, getS_db⟩ <|
  .cons ⟨rfl, _, cls_sd, getE_sd, getS_sd⟩ <|
  .cons ⟨rfl, _, cls_cu, getE_cu, getS_cu⟩ <|
  .cons ⟨rfl, _, cls_sbemu, getE_Vb, getS_Vb⟩ <|
  .cons ⟨rfl, _, cls_sbmue, getE_Vb, getS_Vb⟩ <|
  .cons ⟨rfl, _, cls_sbetau, getE_Vb, getS_Vb⟩ <|
  .cons ⟨rfl, _, cls_sbtaue, getE_Vb, getS_Vb⟩ <|
  .cons ⟨rfl, _, cls_sbmutau, getE_Vb, getS_Vb⟩ <|
  .cons ⟨rfl, _, cls_sbtaumu, getE_Vb, getS_Vb⟩ <|
  .cons ⟨rfl, _, cls_dbemu, getE_Vb, getS_Vb⟩ <|
  .cons ⟨rfl, _, cls_dbmue, getE_Vb, getS_Vb⟩ <|
  .cons ⟨rfl, _, cls_dbetau, getE_Vb, getS_Vb⟩ <|
  .cons ⟨rfl, _, cls_dbtaue, getE_Vb, getS_Vb⟩ <|
  .cons ⟨rfl, _, cls_dbmutau, getE_Vb, getS_Vb⟩ <|
  .cons ⟨rfl, _, cls_dbtaumu, getE_Vb, getS_Vb⟩ <|
  .cons ⟨rfl, _, cls_sdemu, getE_Vb, getS_Vb⟩ <|
  .cons ⟨rfl, _, cls_sdmue, getE_Vb, getS_Vb⟩ <|
  .cons ⟨rfl, _, cls_sdetau, getE_Vb, getS_Vb⟩ <|
  .cons ⟨rfl, _, cls_sdtaue, getE_Vb, getS_Vb⟩ <|
  .cons ⟨rfl, _, cls_sdmutau, getE_Vb, getS_Vb⟩ <|
  .cons ⟨rfl, _, cls_sdtaumu, getE_Vb, getS_Vb⟩ <|
  .cons ⟨rfl, _, cls_cuemu, getE_Vb_c, getS_Vb_c⟩ <|
  .cons ⟨rfl, _, cls_cumue, getE_Vb_c, getS_Vb_c⟩ <|
  .cons ⟨rfl, _, cls_cuetau, getE_Vb_c, getS_Vb_c⟩ <|
  .cons ⟨rfl, _, cls_cutaue, getE_Vb_c, getS_Vb_c⟩ <|
  .cons ⟨rfl, _, cls_cumutau, getE_Vb_c, getS_Vb_c⟩ <|
  .cons ⟨rfl, _, cls_cutaumu, getE_Vb_c, getS_Vb_c⟩ <|
  .cons ⟨rfl, _, cls_mutau, getE_mutau, getS_mutau⟩ <|
  .cons ⟨rfl, _, cls_mue, getE_mue, getS_mue⟩ <|
  .cons ⟨rfl, _, cls_taue, getE_taue, getS_taue⟩ <|
  .cons ⟨rfl, _, cls_tauetaue, getE_Ie, getS_Ie⟩ <|
  .cons ⟨rfl, _, cls_taumutaumu, getE_Ie, getS_Ie⟩ <|
  .cons ⟨rfl, _, cls_muemue, getE_Ie, getS_Ie⟩ <|
  .cons ⟨rfl, _, cls_muemutau, getE_IVe, getS_IVe⟩ <|
  .cons ⟨rfl, _, cls_etauemu, getE_IVe, getS_IVe⟩ <|
  .cons ⟨rfl, _, cls_tauetaumu, getE_IVe, getS_IVe⟩ <|
  .cons ⟨rfl, _, cls_nunununu, getE_inv, getS_inv⟩ <|
  .cons ⟨rfl, _, cls_nunumue, getE_inv, getS_inv⟩ <|
  .cons ⟨rfl, _, cls_nunumutau, getE_inv, getS_inv⟩ <|
  .cons ⟨rfl, _, cls_nunutaue, getE_inv, getS_inv⟩ <|
  .cons ⟨rfl, _, cls_dF0, getE_dF0, getS_dF0⟩ <|
  .cons ⟨rfl, _, cls_ubenu, getE_II, getS_II⟩ <|
  .cons ⟨rfl, _, cls_ubmunu, getE_II, getS_II⟩ <|
  .cons ⟨rfl, _, cls_ubtaunu, getE_II, getS_II⟩ <|
  .cons ⟨rfl, _, cls_cbenu, getE_II, getS_II⟩ <|
  .cons ⟨rfl, _, cls_cbmunu, getE_II, getS_II⟩ <|
  .cons ⟨rfl, _, cls_cbtaunu, getE_II, getS_II⟩ <|
  .cons ⟨rfl, _, cls_usenu, getE_II, getS_II⟩ <|
  .cons ⟨rfl, _, cls_usmunu, getE_II, getS_II⟩ <|
  .cons ⟨rfl, _, cls_ustaunu, getE_II, getS_II⟩ <|
  .cons ⟨rfl, _, cls_csenu, getE_II, getS_II⟩ <|
  .cons ⟨rfl, _, cls_csmunu, getE_II, getS_II⟩ <|
  .cons ⟨rfl, _, cls_cstaunu, getE_II, getS_II⟩ <|
  .cons ⟨rfl, _, cls_udenu, getE_II, getS_II⟩ <|
  .cons ⟨rfl, _, cls_udmunu, getE_II, getS_II⟩ <|
  .cons ⟨rfl, _, cls_udtaunu, getE_II, getS_II⟩ <|
  .cons ⟨rfl, _, cls_cdenu, getE_II, getS_II⟩ <|
  .cons ⟨rfl, _, cls_cdmunu, getE_II, getS_II⟩ <|
  .cons ⟨rfl, _, cls_cdtaunu, getE_II, getS_II⟩ <|
  .cons ⟨rfl, _, cls_sbnunu, getE_inv, getS_inv⟩ <|
  .cons ⟨rfl, _, cls_dbnunu, getE_inv, getS_inv⟩ <|
  .cons ⟨rfl, _, cls_sdnunu, getE_inv, getS_inv⟩ <|
  .cons ⟨rfl, _, cls_cununu, getE_inv, getS_inv⟩ <|
  .cons ⟨rfl, _, cls_ffnunu, getE_ffnunu, getS_ffnunu⟩ <|
  .cons ⟨rfl, _, cls_uddnu, getE_uddnu, getS_uddnu⟩ <|
  .cons ⟨rfl, _, cls_udsnu, getE_udsnu, getS_udsnu⟩ <|
  .cons ⟨rfl, _, cls_udbnu, getE_udsnu, getS_udsnu⟩ <|
  .cons ⟨rfl, _, cls_ussnu, getE_uddnu, getS_uddnu⟩ <|
  .cons ⟨rfl, _, cls_usbnu, getE_udsnu, getS_udsnu⟩ <|
  .cons ⟨rfl, _, cls_ubbnu, getE_uddnu, getS_uddnu⟩ <|
  .cons ⟨rfl, _, cls_cddnu, getE_uddnu, getS_uddnu⟩ <|
  .cons ⟨rfl, _, cls_cdsnu, getE_udsnu, getS_udsnu⟩ <|
  .cons ⟨rfl, _, cls_cdbnu, getE_udsnu, getS_udsnu⟩ <|
  .cons ⟨rfl, _, cls_cssnu, getE_uddnu, getS_uddnu⟩ <|
  .cons ⟨rfl, _, cls_csbnu, getE_udsnu, getS_udsnu⟩ <|
  .cons ⟨rfl, _, cls_cbbnu, getE_uddnu, getS_uddnu⟩ <|
  .cons ⟨rfl, _, cls_uude, getE_uude, getS_uude⟩ <|
  .cons ⟨rfl, _, cls_uudmu, getE_uude, getS_uude⟩ <|
  .cons ⟨rfl, _, cls_uudtau, getE_uude, getS_uude⟩ <|
  .cons ⟨rfl, _, cls_ucde, getE_ucde, getS_ucde⟩ <|
  .cons ⟨rfl, _, cls_ucdmu, getE_ucde, getS_ucde⟩ <|
  .cons ⟨rfl, _, cls_ucdtau, getE_ucde, getS_ucde⟩ <|
  .cons ⟨rfl, _, cls_ccde, getE_uude, getS_uude⟩ <|
  .cons ⟨rfl, _, cls_ccdmu, getE_uude, getS_uude⟩ <|
  .cons ⟨rfl, _, cls_ccdtau, getE_uude, getS_uude⟩ <|
  .cons ⟨rfl, _, cls_uuse, getE_uude, getS_uude⟩ <|
  .cons ⟨rfl, _, cls_uusmu, getE_uude, getS_uude⟩ <|
  .cons ⟨rfl, _, cls_uustau, getE_uude, getS_uude⟩ <|
  .cons ⟨rfl, _, cls_ucse, getE_ucde, getS_ucde⟩ <|
  .cons ⟨rfl, _, cls_ucsmu, getE_ucde, getS_ucde⟩ <|
  .cons ⟨rfl, _, cls_ucstau, getE_ucde, getS_ucde⟩ <|
  .cons ⟨rfl, _, cls_ccse, getE_uude, getS_uude⟩ <|
  .cons ⟨rfl, _, cls_ccsmu, getE_uude, getS_uude⟩ <|
  .cons ⟨rfl, _, cls_ccstau, getE_uude, getS_uude⟩ <|
  .cons ⟨rfl, _, cls_uube, getE_uude, getS_uude⟩ <|
  .cons ⟨rfl, _, cls_uubmu, getE_uude, getS_uude⟩ <|
  .cons ⟨rfl, _, cls_uubtau, getE_uude, getS_uude⟩ <|
  .cons ⟨rfl, _, cls_ucbe, getE_ucde, getS_ucde⟩ <|
  .cons ⟨rfl, _, cls_ucbmu, getE_ucde, getS_ucde⟩ <|
  .cons ⟨rfl, _, cls_ucbtau, getE_ucde, getS_ucde⟩ <|
  .cons ⟨rfl, _, cls_ccbe, getE_uude, getS_uude⟩ <|
  .cons ⟨rfl, _, cls_ccbmu, getE_uude, getS_uude⟩ <|
  .cons ⟨rfl, _, cls_ccbtau, getE_uude, getS_uude⟩ <|
  .nil

end Verif.WetTab
