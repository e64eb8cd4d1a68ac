import Verif.Lemmas.WetRestores

/-!
# Translations between the WET bases (C35–C39, C82)

`run f P C` is the dictionary returned by the translator `f` of `/repo/wilson/translate/wet.py` for the
dictionary of coefficients `C` (`Model/WetApply`).
-/

set_option autoImplicit false
set_option maxRecDepth 100000

namespace Verif.WetApply
open Verif.Py Verif.Gen.WetOut Verif.WetNames

/-- a non-trivial case of the hypothesis: the default values of GF, alpha_e, alpha_s, and masses and
mixing angles of the order of the measured ones -/
theorem physical_example : Physical
    ⟨fun k => if k = "GF" then 1.1663787e-5 else if k = "alpha_e" then 0.00781616 else if k = "alpha_s" then 0.2
      else if k = "m_b" then 4.2 else 0.1,
     fun i j => if i = j then 1 else if i = 0 then 0.2 + 0.1 * Complex.I else 0.04⟩ where
  pos := by
    intro k _
    dsimp only
    split_ifs <;> norm_num
  ckm := by
    intro i j _ _
    dsimp only
    split_ifs
    · exact one_ne_zero
    · intro h
      have := congrArg Complex.re h
      norm_num at this
    · norm_num

/-! ## C35: ΔF = 2 -/

theorem C35_JMS_to_Bern_and_back :
    Restores "JMS_to_Bern" "Bern_to_JMS" fun x => ∃ s ∈ ["sbsb", "dbdb", "sdsd", "cucu"], IsCoef s x :=
  restores_JBJ (by intro s hs; simp only [sectorsBern, List.mem_append]; tauto)

theorem C35_Bern_to_JMS_and_back : Restores "Bern_to_JMS" "JMS_to_Bern" (· ∈ bernI) :=
  (restores_BJB (l := [(["1", "1p", "2", "2p", "3", "3p", "4", "5"], ["sbsb", "dbdb", "dsds", "cucu"])])
    (by simp)).mono fun x hx => ⟨_, List.mem_singleton_self _, hx⟩

theorem C35_Bern_to_flavio_and_back : Restores "Bern_to_flavio" "flavio_to_Bern" (· ∈ bernI) :=
  (restores_BFB (l := [(["1", "1p", "2", "2p", "3", "3p", "4", "5"], ["sbsb", "dbdb", "dsds", "cucu"])])
    (by simp)).mono fun x hx => ⟨_, List.mem_singleton_self _, hx⟩

theorem C35_flavio_to_Bern_and_back : Restores "flavio_to_Bern" "Bern_to_flavio" (· ∈ flavioI) :=
  (restores_FBF (l := [(["CVLL_", "CVRR_", "CVLR_", "CSLL_", "CSRR_", "CSLR_", "CTLL_", "CTRR_"],
      ["bsbs", "bdbd", "sdsd", "ucuc"])])
    (by simp)).mono fun x hx => ⟨_, List.mem_singleton_self _, hx⟩

theorem C35_JMS_to_flavio_and_back :
    Restores "JMS_to_flavio" "flavio_to_JMS" fun x => ∃ s ∈ ["sbsb", "dbdb", "sdsd", "cucu"], IsCoef s x :=
  restores_JFJ (by intro s hs; simp only [sectorsFlavio, List.mem_append]; tauto)

theorem C35_flavio_to_JMS_and_back : Restores "flavio_to_JMS" "JMS_to_flavio" (· ∈ flavioI) :=
  (restores_FJF (l := [(["CVLL_", "CVRR_", "CVLR_", "CSLL_", "CSRR_", "CSLR_", "CTLL_", "CTRR_"],
      ["bsbs", "bdbd", "sdsd", "ucuc"])])
    (by simp)).mono fun x hx => ⟨_, List.mem_singleton_self _, hx⟩

/-! ## C36: charged currents -/

theorem C36_JMS_to_Bern_and_back :
    Restores "JMS_to_Bern" "Bern_to_JMS" fun x => ∃ s ∈ sectorsII, IsCoef s x :=
  restores_JBJ (by intro s hs; simp only [sectorsBern, List.mem_append]; tauto)

theorem C36_Bern_to_JMS_and_back : Restores "Bern_to_JMS" "JMS_to_Bern" (· ∈ bernII) :=
  (restores_BJB (l := [(["1", "1p", "5", "5p", "7p"], cat ["ub", "cb", "us", "cs", "ud", "cd"] lepPairs)])
    (by simp)).mono fun x hx => ⟨_, List.mem_singleton_self _, hx⟩

theorem C36_Bern_to_flavio_and_back : Restores "Bern_to_flavio" "flavio_to_Bern" (· ∈ bernII) :=
  (restores_BFB (l := [(["1", "1p", "5", "5p", "7p"], cat ["ub", "cb", "us", "cs", "ud", "cd"] lepPairs)])
    (by simp)).mono fun x hx => ⟨_, List.mem_singleton_self _, hx⟩

theorem C36_flavio_to_Bern_and_back : Restores "flavio_to_Bern" "Bern_to_flavio" (· ∈ flavioII) :=
  (restores_FBF (l := [(["CVL_", "CVR_", "CSL_", "CSR_", "CT_"],
      cat (cat ["bc", "bu", "sc", "su", "dc", "du"] leps) (cat ["nu"] leps))])
    (by simp)).mono fun x hx => ⟨_, List.mem_singleton_self _, hx⟩

theorem C36_JMS_to_flavio_and_back :
    Restores "JMS_to_flavio" "flavio_to_JMS" fun x => ∃ s ∈ sectorsII, IsCoef s x :=
  restores_JFJ (by intro s hs; simp only [sectorsFlavio, List.mem_append]; tauto)

theorem C36_flavio_to_JMS_and_back : Restores "flavio_to_JMS" "JMS_to_flavio" (· ∈ flavioII) :=
  (restores_FJF (l := [(["CVL_", "CVR_", "CSL_", "CSR_", "CT_"],
      cat (cat ["bc", "bu", "sc", "su", "dc", "du"] leps) (cat ["nu"] leps))])
    (by simp)).mono fun x hx => ⟨_, List.mem_singleton_self _, hx⟩

/-! ## C37: four-quark operators

In the JMS basis the four-quark operators in which one flavour changes belong to the sectors `sb`, `db`,
`sd` and `cu`, together with semileptonic and dipole operators. -/

theorem C37_JMS_to_Bern_and_back :
    Restores "JMS_to_Bern" "Bern_to_JMS" fun x => ∃ s ∈ sectorsIII ++ ["sb", "db", "sd"], IsCoef s x :=
  restores_JBJ (by
    intro s hs
    simp only [sectorsBern, sectorsV, List.mem_append] at hs ⊢
    tauto)

theorem C37_Bern_to_JMS_and_back : Restores "Bern_to_JMS" "JMS_to_Bern" (· ∈ bernIII ++ bernV) :=
  (restores_BJB (l := [(bernTwenty, cat ["sb", "db", "ds"] ["uc", "cu"]), (bernTen, ["sbsd", "dbds"]),
     (bernTwenty, cat ["sb", "db", "ds"] ["uu", "cc"] ++ ["sbdd", "dbss", "dsbb"]),
     (bernTen, ["sbss", "sbbb", "dbdd", "dbbb", "dsdd", "dsss"])])
    (by intro p hp; simp only [List.mem_cons, List.not_mem_nil, or_false] at hp ⊢; tauto)).mono fun x hx => by
      simp only [bernIII, bernV, List.mem_append] at hx
      simp only [List.mem_cons, List.not_mem_nil, or_false, exists_eq_or_imp, exists_eq_left]
      tauto

theorem C37_Bern_to_flavio_and_back : Restores "Bern_to_flavio" "flavio_to_Bern" (· ∈ bernV) :=
  (restores_BFB (l := [(bernTwenty, cat ["sb", "db", "ds"] ["uu", "cc"] ++ ["sbdd", "dbss", "dsbb"]),
     (bernTen, ["sbss", "sbbb", "dbdd", "dbbb", "dsdd", "dsss"])])
    (by intro p hp; simp only [List.mem_cons, List.not_mem_nil, or_false] at hp ⊢; tauto)).mono fun x hx => by
      simp only [bernV, List.mem_append] at hx
      simp only [List.mem_cons, List.not_mem_nil, or_false, exists_eq_or_imp, exists_eq_left]
      tauto

theorem C37_flavio_to_Bern_and_back : Restores "flavio_to_Bern" "Bern_to_flavio" (· ∈ flavioV) :=
  (restores_FBF (l := [(flavioTwenty, cat ["bs", "bd", "sd"] ["uu", "cc"] ++ ["bsdd", "bdss", "sdbb"]),
     (flavioTen, ["bsss", "bsbb", "bddd", "bdbb", "sddd", "sdss"])])
    (by intro p hp; simp only [List.mem_cons, List.not_mem_nil, or_false] at hp ⊢; tauto)).mono fun x hx => by
      simp only [flavioV, List.mem_append] at hx
      simp only [List.mem_cons, List.not_mem_nil, or_false, exists_eq_or_imp, exists_eq_left]
      tauto

theorem C37_flavio_to_JMS_and_back : Restores "flavio_to_JMS" "JMS_to_flavio" (· ∈ flavioV ++ flavioVu) :=
  (restores_FJF (l := [(flavioTwenty, cat ["bs", "bd", "sd"] ["uu", "cc"] ++ ["bsdd", "bdss", "sdbb"]),
     (flavioTen, ["bsss", "bsbb", "bddd", "bdbb", "sddd", "sdss"]),
     (flavioTwenty, ["cudd", "cuss", "cubb"]), (flavioTen, ["cuuu", "cucc"])])
    (by intro p hp; simp only [List.mem_cons, List.not_mem_nil, or_false] at hp ⊢; tauto)).mono fun x hx => by
      simp only [flavioV, flavioVu, List.mem_append] at hx
      simp only [List.mem_cons, List.not_mem_nil, or_false, exists_eq_or_imp, exists_eq_left]
      tauto

/-- The four-quark operators of the sectors `sb`, `db`, `sd`, `cu`: all coefficients but the semileptonic
tensor operators. -/
theorem C37_JMS_to_flavio_and_back : Restores "JMS_to_flavio" "flavio_to_JMS" fun x =>
    ∃ s ∈ ["sb", "db", "sd", "cu"], ∃ l, (s, l) ∈ WetTab.coefTable ∧ ∃ a ∈ l,
      a.1 ≠ .TedRR ∧ a.1 ≠ .TeuRR ∧ x = WetTab.nameOf a :=
  restores_JFJ'.mono fun x ⟨s, hs, l, hl, a, ha, h1, h2, h3⟩ =>
    ⟨s, by
      simp only [sectorsFlavio', sectorsV, List.mem_append, List.mem_cons, List.not_mem_nil, or_false] at hs ⊢
      tauto, l, hl, a, ha, h1, h2, h3⟩

/-! ## C38: semileptonic, neutrino and dipole operators

Full statement: all pairs of translators restore all semileptonic, neutrino and dipole coefficients.  It
holds for the translations between the JMS and Bern bases and fails for those involving the flavio basis,
see the violations below. -/

theorem C38_JMS_to_Bern_and_back :
    Restores "JMS_to_Bern" "Bern_to_JMS" fun x => ∃ s ∈ sectorsV ++ sectorsLfv ++ sectorsNu, IsCoef s x :=
  restores_JBJ (by
    intro s hs
    simp only [sectorsBern, List.mem_append] at hs ⊢
    tauto)

theorem C38_Bern_to_JMS_and_back : Restores "Bern_to_JMS" "JMS_to_Bern" (· ∈ bernLep ++ bernNu ++ bernDip) :=
  (restores_BJB (l := [(bernTen, cat ["sb", "db", "ds"] lepPairs), (["nu1", "nu1p"], cat ["sb", "db", "ds"] lepPairs),
     (["7gamma", "7pgamma", "8g", "8pg"], ["sb", "db", "ds"])])
    (by intro p hp; simp only [List.mem_cons, List.not_mem_nil, or_false] at hp ⊢; tauto)).mono fun x hx => by
      simp only [bernLep, bernNu, bernDip, List.mem_append] at hx
      simp only [List.mem_cons, List.not_mem_nil, or_false, exists_eq_or_imp, exists_eq_left]
      tauto

/-- missing: the operators of type 7, and those with `ds` and two different leptons -/
theorem C38_Bern_to_flavio_and_back_partial :
    Restores "Bern_to_flavio" "flavio_to_Bern" (· ∈ bernLep' ++ bernNu ++ bernDip) :=
  (restores_BFB (l := [(bernEight, cat ["sb", "db"] lepPairs ++ ["dsee", "dsmumu", "dstautau"]),
     (["nu1", "nu1p"], cat ["sb", "db", "ds"] lepPairs), (["7gamma", "7pgamma", "8g", "8pg"], ["sb", "db", "ds"])])
    (by intro p hp; simp only [List.mem_cons, List.not_mem_nil, or_false] at hp ⊢; tauto)).mono fun x hx => by
      simp only [bernLep', bernNu, bernDip, List.mem_append] at hx
      simp only [List.mem_cons, List.not_mem_nil, or_false, exists_eq_or_imp, exists_eq_left]
      tauto

/-- missing: the operators with `sd` and two different leptons -/
theorem C38_flavio_to_Bern_and_back_partial :
    Restores "flavio_to_Bern" "Bern_to_flavio" (· ∈ flavioLep' ++ flavioNu ++ flavioDip) :=
  (restores_FBF (l := [(["C9_", "C9p_", "C10_", "C10p_", "CS_", "CSp_", "CP_", "CPp_"],
      cat ["bs", "bd"] lepPairs ++ ["sdee", "sdmumu", "sdtautau"]), (["CL_", "CR_"], cat ["bs", "bd", "sd"] nuPairs),
     (["C7_", "C7p_", "C8_", "C8p_"], ["bs", "bd", "sd"])])
    (by intro p hp; simp only [List.mem_cons, List.not_mem_nil, or_false] at hp ⊢; tauto)).mono fun x hx => by
      simp only [flavioLep', flavioNu, flavioDip, List.mem_append] at hx
      simp only [List.mem_cons, List.not_mem_nil, or_false, exists_eq_or_imp, exists_eq_left]
      tauto

theorem C38_flavio_to_JMS_and_back :
    Restores "flavio_to_JMS" "JMS_to_flavio"
      (· ∈ flavioLep ++ flavioLepU ++ flavioNu ++ flavioDip ++ flavioDipU) :=
  (restores_FJF (l := [(["C9_", "C9p_", "C10_", "C10p_", "CS_", "CSp_", "CP_", "CPp_"], cat ["bs", "bd", "sd"] lepPairs),
     (["C9_", "C9p_", "C10_", "C10p_", "CS_", "CSp_", "CP_", "CPp_"], ["cuee", "cumumu", "cutautau"]),
     (["CL_", "CR_"], cat ["bs", "bd", "sd"] nuPairs),
     (["C7_", "C7p_", "C8_", "C8p_"], ["bs", "bd", "sd"]), (["C7_", "C7p_", "C8_", "C8p_"], ["cu"])])
    (by intro p hp; simp only [List.mem_cons, List.not_mem_nil, or_false] at hp ⊢; tauto)).mono fun x hx => by
      simp only [flavioLep, flavioLepU, flavioNu, flavioDip, flavioDipU, List.mem_append] at hx
      simp only [List.mem_cons, List.not_mem_nil, or_false, exists_eq_or_imp, exists_eq_left]
      tauto

/-- missing: the tensor operators -/
theorem C38_JMS_to_flavio_and_back_partial : Restores "JMS_to_flavio" "flavio_to_JMS" fun x =>
    (∃ s ∈ sectorsV ++ ["cu"] ++ sectorsLfv, ∃ l, (s, l) ∈ WetTab.coefTable ∧ ∃ a ∈ l,
      a.1 ≠ .TedRR ∧ a.1 ≠ .TeuRR ∧ x = WetTab.nameOf a) ∨ ∃ s ∈ sectorsNu, IsCoef s x :=
  (restores_JFJ'.or_same (restores_JFJ (ss := sectorsNu)
    (by intro s hs; simp only [sectorsFlavio, List.mem_append]; tauto))).mono fun x hx => hx

/-- Violation: the tensor operators of the sectors `sb`, `db`, `sd`, `cu`, and `sbemu` etc. come back from the
flavio basis as zero, whatever their value was. -/
theorem C38_tensors_lost_violation (P : Params) (hP : Physical P) (C : Dict String ℂ) :
    ∃ D E, run "JMS_to_flavio" P C = .ok D ∧ run "flavio_to_JMS" P D = .ok E ∧
      ∀ s ∈ sectorsV ++ ["cu"] ++ sectorsLfv, ∀ l, (s, l) ∈ WetTab.coefTable → ∀ a ∈ l,
        a.1 = .TedRR ∨ a.1 = .TeuRR → E.get? (WetTab.nameOf a) = some 0 :=
  lost_JFJ hP C

/-- one of them -/
theorem C38_tensor_example : ("sb", WetTab.c_sb) ∈ WetTab.coefTable ∧ (.TedRR, 2223) ∈ WetTab.c_sb ∧
    WetTab.nameOf (.TedRR, 2223) = "TedRR_2223" := by
  refine ⟨?_, ?_, ?_⟩
  · simp [WetTab.coefTable]
  · simp [WetTab.c_sb]
  · decide +kernel

/-- Violation: the coefficient 7 of the Bern basis comes back from the flavio basis as sixteen times the
coefficient 9. -/
theorem C38_seven_violation (P : Params) (hP : Physical P) (C : Dict String ℂ) :
    ∃ D E, run "Bern_to_flavio" P C = .ok D ∧ run "flavio_to_Bern" P D = .ok E ∧
      E.get? "7sbmumu" = some (16 * C.getD "9sbmumu" 0) := by
  obtain ⟨D, E, h1, h2, h3⟩ := back_BFB hP C
  refine ⟨D, E, h1, h2, ?_⟩
  have hk : (look n!"7sbmumu" flavio_to_Bern).isSome = true := by decide +kernel
  obtain ⟨s, hs⟩ := Option.isSome_iff_exists.1 hk
  have := h3 _ s hs
  rw [show decode n!"7sbmumu" = "7sbmumu" by decide +kernel,
    show look n!"7sbmumu" sevens = some (.mul (.rat 16 1) (.inp n!"9sbmumu")) by decide +kernel] at this
  rw [this]
  show some (((16 : ℤ) : ℂ) / ((1 : ℕ) : ℂ) * C.getD (decode n!"9sbmumu") 0) = _
  rw [show decode n!"9sbmumu" = "9sbmumu" by decide +kernel]
  norm_num

/-- Violation: the operators with s, d and two different leptons come back from the Bern basis as zero. -/
theorem C38_sd_violation (P : Params) (hP : Physical P) (C : Dict String ℂ) :
    ∃ D E, run "flavio_to_Bern" P C = .ok D ∧ run "Bern_to_flavio" P D = .ok E ∧ E.get? "C9_sdemu" = some 0 := by
  obtain ⟨D, E, h1, h2, h3⟩ := back_FBF hP C
  refine ⟨D, E, h1, h2, ?_⟩
  have hk : (look n!"C9_sdemu" Bern_to_flavio).isSome = true := by decide +kernel
  obtain ⟨s, hs⟩ := Option.isSome_iff_exists.1 hk
  have := h3 _ s hs
  rw [show decode n!"C9_sdemu" = "C9_sdemu" by decide +kernel,
    show look n!"C9_sdemu" lostSd = some (.rat 0 1) by decide +kernel] at this
  rw [this]
  show some (((0 : ℤ) : ℂ) / ((1 : ℕ) : ℂ)) = _
  norm_num

/-! ## C39: coefficients that are only renamed -/

/-- the flavour-conserving coefficients -/
theorem C39_flavour_conserving :
    Restores "JMS_to_flavio" "flavio_to_JMS" fun x => ∃ s ∈ ["dF=0", "ffnunu"], IsCoef s x :=
  restores_JFJ (by intro s hs; simp only [sectorsFlavio, List.mem_append]; tauto)

/-- and in the opposite order, for all names in the file `data/flavio_jms_vii.json` -/
theorem C39_flavour_conserving_back : Restores "flavio_to_JMS" "JMS_to_flavio" fun x =>
    ∃ p ∈ Gen.WetPy.tableVII, x = decode p.2 :=
  restores_VII

/-- the coefficients of the lepton flavour violating sectors -/
theorem C39_lfv : Restores "JMS_to_flavio" "flavio_to_JMS" fun x =>
    ∃ s ∈ ["nunumue", "nunumutau", "nunutaue", "mutau", "mue", "taue", "muemutau", "etauemu"], IsCoef s x :=
  restores_tail_JFJ

/-- and in the opposite order -/
theorem C39_lfv_back : Restores "flavio_to_JMS" "JMS_to_flavio" fun x => ∃ j, (j, x) ∈ dlep :=
  restores_tail_FJF

/-! ## C82: translating via a third basis -/

/-- Translating from the JMS basis to the Bern basis and on to the flavio basis gives the same as translating
to the flavio basis directly, for all coefficients the Bern basis has. -/
theorem C82_via_Bern (P : Params) (hP : Physical P) (C : Dict String ℂ) :
    ∃ D E F, run "JMS_to_Bern" P C = .ok D ∧ run "Bern_to_flavio" P D = .ok E ∧ run "JMS_to_flavio" P C = .ok F ∧
      ∀ x ∈ E.keys, E.get? x = F.get? x :=
  via_Bern hP C

/-- the coefficients concerned -/
theorem C82_via_Bern_names (P : Params) (C : Dict String ℂ) :
    ∃ E, run "Bern_to_flavio" P C = .ok E ∧
      ∀ x ∈ flavioI ++ flavioII ++ flavioV ++ flavioLep' ++ flavioNu ++ flavioDip, x ∈ E.keys :=
  names_BF P C

/-- Translating from the JMS basis to the flavio basis and on to the Bern basis gives the same as translating to
the Bern basis directly, for the coefficients that are not lost by the translation from the flavio basis. -/
theorem C82_via_flavio_partial (P : Params) (hP : Physical P) (C : Dict String ℂ) :
    ∃ D E F, run "JMS_to_flavio" P C = .ok D ∧ run "flavio_to_Bern" P D = .ok E ∧ run "JMS_to_Bern" P C = .ok F ∧
      ∀ x ∈ bernI ++ bernII ++ bernV ++ bernLep' ++ bernNu ++ bernDip, E.get? x = F.get? x ∧ x ∈ F.keys :=
  via_flavio hP C

end Verif.WetApply
