{
 "claims": [
  {
   "property": "C01",
   "status": "proved",
   "theorems": [
    "Verif.C01_translate_identity",
    "Verif.C01_translate_result",
    "Verif.C01_translate_raises",
    "Verif.C01_translate_missing"
   ],
   "note": ""
  },
  {
   "property": "C02",
   "status": "proved",
   "theorems": [
    "Verif.C02_match_identity",
    "Verif.C02_match_result",
    "Verif.C02_match_errors"
   ],
   "note": ""
  },
  {
   "property": "C03",
   "status": "proved",
   "theorems": [
    "Verif.C03_dict_roundtrip",
    "Verif.C03_encoding",
    "Verif.C03_getItem",
    "Verif.C03_missing_parts"
   ],
   "note": ""
  },
  {
   "property": "C04",
   "status": "proved",
   "theorems": [
    "Verif.C04_validate_iff"
   ],
   "note": ""
  },
  {
   "property": "C05",
   "status": "proved",
   "theorems": [
    "Verif.C05_last_writer_wins",
    "Verif.C05_other_names"
   ],
   "note": ""
  },
  {
   "property": "C06",
   "status": "partial",
   "theorems": [
    "Verif.C06_inherits",
    "Verif.C06_no_parent",
    "Verif.C06_unknown_parent",
    "Verif.C06_failed_load_violation",
    "Verif.C06_not_atomic"
   ],
   "note": "Inheritance, missing parent and frame proved; the expected atomicity of a failed load is violated by the code (negation proved)."
  },
  {
   "property": "C07",
   "status": "proved",
   "theorems": [
    "Verif.C07_basis_validate_iff"
   ],
   "note": ""
  },
  {
   "property": "C08",
   "status": "proved",
   "theorems": [
    "Verif.C08_dump_load",
    "Verif.C08_private_not_written"
   ],
   "note": ""
  },
  {
   "property": "C09",
   "status": "proved",
   "theorems": [
    "Verif.C09_set_option",
    "Verif.C09_set_option_rejected",
    "Verif.C09_set_default_option",
    "Verif.C09_unknown_key"
   ],
   "note": ""
  },
  {
   "property": "C10",
   "status": "proved",
   "theorems": [
    "Verif.C10_default_at_creation",
    "Verif.C10_last_set"
   ],
   "note": ""
  },
  {
   "property": "C11",
   "status": "proved",
   "theorems": [
    "Verif.C11_delta_renamed"
   ],
   "note": ""
  },
  {
   "property": "C12",
   "status": "proved",
   "theorems": [
    "Verif.C12_effective_parameters",
    "Verif.C12_matching_parameters"
   ],
   "note": ""
  },
  {
   "property": "C13",
   "status": "partial",
   "theorems": [
    "Verif.C13_cache_transparent_partial",
    "Verif.C13_cache_transparent",
    "Verif.C13_sector_violation",
    "Verif.C13_matchingscale_violation"
   ],
   "note": "Proved for all histories without sector-restricted SMEFT-to-SMEFT requests from a non-Warsaw basis, given that WET running to the same scale is the identity; without that hypothesis also excluding requests at the matching scale; the two excluded cases are violated (negations proved)."
  },
  {
   "property": "C14",
   "status": "proved",
   "theorems": [
    "Verif.C14_result_metadata"
   ],
   "note": ""
  },
  {
   "property": "C15",
   "status": "proved",
   "theorems": [
    "Verif.C15_transitions"
   ],
   "note": ""
  },
  {
   "property": "C16",
   "status": "proved",
   "theorems": [
    "Verif.C16_call_trace"
   ],
   "note": ""
  },
  {
   "property": "C17",
   "status": "partial",
   "theorems": [
    "Verif.C17_parameters_reach_partial",
    "Verif.C17_smeft_violation"
   ],
   "note": "Proved for all requests except SMEFT-to-SMEFT running, where the code violates the property (proved)."
  },
  {
   "property": "C18",
   "status": "partial",
   "theorems": [
    "Verif.C18_hash_ignores_option_values",
    "Verif.C18_contract_violation"
   ],
   "note": "The documented contract is violated; the negation is proved for every hash function."
  },
  {
   "property": "C19",
   "status": "partial",
   "theorems": [
    "Verif.Props.C19_class2",
    "Verif.Props.C19_class9",
    "Verif.Props.C19_class4",
    "Verif.Props.C19_class41",
    "Verif.Props.C19_class5",
    "Verif.Props.C19_class6",
    "Verif.Props.C19_class7",
    "Verif.Props.C19_class8",
    "Verif.Props.C19_class71_partial",
    "Verif.Props.C19_class71_violation"
   ],
   "note": "Proved for all classes except the diagonal of class 71 (duuq-type antisymmetric), where the code keeps the input entry (negation proved)."
  },
  {
   "property": "C20",
   "status": "proved",
   "theorems": [
    "Verif.Props.C20_nonred_class2",
    "Verif.Props.C20_nonred_class9",
    "Verif.Props.C20_nonred_class4",
    "Verif.Props.C20_nonred_class41",
    "Verif.Props.C20_nonred_class5",
    "Verif.Props.C20_nonred_class6",
    "Verif.Props.C20_nonred_class7",
    "Verif.Props.C20_nonred_class71",
    "Verif.Props.C20_nonred_class8",
    "Verif.Props.C20_fixed_class2",
    "Verif.Props.C20_fixed_class9",
    "Verif.Props.C20_fixed_class4",
    "Verif.Props.C20_fixed_class41",
    "Verif.Props.C20_fixed_class5",
    "Verif.Props.C20_fixed_class6",
    "Verif.Props.C20_fixed_class7",
    "Verif.Props.C20_fixed_class71",
    "Verif.Props.C20_fixed_class8",
    "Verif.Props.C20_idempotent"
   ],
   "note": ""
  },
  {
   "property": "C21",
   "status": "proved",
   "theorems": [
    "Verif.Props.C21_class4",
    "Verif.Props.C21_class7",
    "Verif.Props.C21_class6",
    "Verif.Props.C21_scale_factor"
   ],
   "note": ""
  },
  {
   "property": "C22",
   "status": "proved",
   "theorems": [
    "Verif.Props.C22_unscale_scale",
    "Verif.Props.C22_scale_unscale",
    "Verif.Props.C22_roundtrip"
   ],
   "note": ""
  },
  {
   "property": "C23",
   "status": "proved",
   "theorems": [
    "Verif.Props.C23_roundtrip",
    "Verif.Props.C23_roundtrip_exact"
   ],
   "note": ""
  },
  {
   "property": "C24",
   "status": "proved",
   "theorems": [
    "Verif.Props.C24_dict_array_dict",
    "Verif.Props.C24_array_dict_array"
   ],
   "note": ""
  },
  {
   "property": "C25",
   "status": "proved",
   "theorems": [
    "Verif.Props.C25_pad_unpad",
    "Verif.Props.C25_pad_entries",
    "Verif.Props.C25_unpad_ignores_padding"
   ],
   "note": ""
  },
  {
   "property": "C26",
   "status": "partial",
   "theorems": [
    "Verif.Props.C26_names_distinct",
    "Verif.Props.C26_entry_found",
    "Verif.Props.C26_read",
    "Verif.Props.C26_arrays_roundtrip",
    "Verif.Props.C26_dict_roundtrip",
    "Verif.Props.C26_unknown_name",
    "Verif.Props.C26_digit_zero_violation"
   ],
   "note": "Round trips proved for all dictionaries whose names use 1-based digits; a digit 0 aliases the last entry (negation proved)."
  },
  {
   "property": "C27",
   "status": "proved",
   "theorems": [
    "Verif.RotationProps.C27_rotates",
    "Verif.RotationProps.C27_method",
    "Verif.RotationProps.C27_method_missing",
    "Verif.RotationProps.C27_identity",
    "Verif.RotationProps.C27_compose",
    "Verif.RotationProps.C27_inverse"
   ],
   "note": ""
  },
  {
   "property": "C28",
   "status": "proved",
   "theorems": [
    "Verif.RotationProps.C28_symmetric"
   ],
   "note": ""
  },
  {
   "property": "C29",
   "status": "proved",
   "theorems": [
    "Verif.Props.C29_up_down",
    "Verif.Props.C29_down_up",
    "Verif.Props.C29_rotates_doublets",
    "Verif.Props.C29_parameters"
   ],
   "note": "Both orders, for every dictionary of Warsaw coefficients; values come back up to the real part of coefficients that are real by hermiticity and dropped zeros. The CKM function is a parameter with unitary value. The full Warsaw basis is shown to satisfy the assumptions."
  },
  {
   "property": "C30",
   "status": "proved",
   "theorems": [
    "Verif.Loop.C30_matched",
    "Verif.RotationProps.C30_rotates",
    "Verif.RotationProps.C30_untouched",
    "Verif.RotationProps.C30_missing",
    "Verif.RotationProps.C30_inverse"
   ],
   "note": ""
  },
  {
   "property": "C31",
   "status": "partial",
   "theorems": [
    "Verif.Jms.C31_completed",
    "Verif.Jms.C31_symmetric",
    "Verif.Jms.C31_class6_violation",
    "Verif.Jms.C31_class71_violation"
   ],
   "note": "Proved for classes 4, 41, 5, 71 for every non-redundant name list and dictionary; class 6 (VeeLL, VeeRR, VnunuLL) is not completed by the code, and the diagonal of class 71, which has to vanish, is left undefined (negations proved)."
  },
  {
   "property": "C32",
   "status": "partial",
   "theorems": [
    "Verif.Jms.C32_maps",
    "Verif.Jms.C32_roundtrip",
    "Verif.Jms.C32_class6_violation"
   ],
   "note": "Proved for classes 4, 41, 5, 71; redundant names of class 6 are silently dropped (negation proved)."
  },
  {
   "property": "C33",
   "status": "proved",
   "theorems": [
    "Verif.Jms.C33_factors",
    "Verif.Jms.C33_inverse",
    "Verif.Jms.C33_rejects"
   ],
   "note": "For every dictionary of the JMS shape; unknown names raise."
  },
  {
   "property": "C34",
   "status": "proved",
   "theorems": [
    "Verif.SmeftHiggs.C34_higgs_to_warsaw_and_back",
    "Verif.SmeftHiggs.C34_warsaw_to_higgs_and_back",
    "Verif.SmeftHiggs.C34_bases_example",
    "Verif.SmeftHiggs.C34_parameters_example",
    "Verif.SmeftHiggs.C34_ckm_example"
   ],
   "note": "Both orders, for every dictionary whose self-conjugate coefficients are real and a unitary CKM matrix. The bases are not in the repository; their coefficients are listed in Spec/SmeftHiggs."
  },
  {
   "property": "C35",
   "status": "proved",
   "theorems": [
    "Verif.WetApply.C35_JMS_to_Bern_and_back",
    "Verif.WetApply.C35_Bern_to_JMS_and_back",
    "Verif.WetApply.C35_Bern_to_flavio_and_back",
    "Verif.WetApply.C35_flavio_to_Bern_and_back",
    "Verif.WetApply.C35_JMS_to_flavio_and_back",
    "Verif.WetApply.C35_flavio_to_JMS_and_back"
   ],
   "note": "All six pairs of translators, for every dictionary; the translators run without restriction of the sectors."
  },
  {
   "property": "C36",
   "status": "proved",
   "theorems": [
    "Verif.WetApply.C36_JMS_to_Bern_and_back",
    "Verif.WetApply.C36_Bern_to_JMS_and_back",
    "Verif.WetApply.C36_Bern_to_flavio_and_back",
    "Verif.WetApply.C36_flavio_to_Bern_and_back",
    "Verif.WetApply.C36_JMS_to_flavio_and_back",
    "Verif.WetApply.C36_flavio_to_JMS_and_back"
   ],
   "note": "All six pairs of translators."
  },
  {
   "property": "C37",
   "status": "proved",
   "theorems": [
    "Verif.WetApply.C37_JMS_to_Bern_and_back",
    "Verif.WetApply.C37_Bern_to_JMS_and_back",
    "Verif.WetApply.C37_Bern_to_flavio_and_back",
    "Verif.WetApply.C37_flavio_to_Bern_and_back",
    "Verif.WetApply.C37_flavio_to_JMS_and_back",
    "Verif.WetApply.C37_JMS_to_flavio_and_back"
   ],
   "note": "All six pairs of translators."
  },
  {
   "property": "C38",
   "status": "partial",
   "theorems": [
    "Verif.WetApply.C38_JMS_to_Bern_and_back",
    "Verif.WetApply.C38_Bern_to_JMS_and_back",
    "Verif.WetApply.C38_Bern_to_flavio_and_back_partial",
    "Verif.WetApply.C38_flavio_to_Bern_and_back_partial",
    "Verif.WetApply.C38_flavio_to_JMS_and_back",
    "Verif.WetApply.C38_JMS_to_flavio_and_back_partial",
    "Verif.WetApply.C38_tensors_lost_violation",
    "Verif.WetApply.C38_tensor_example",
    "Verif.WetApply.C38_seven_violation",
    "Verif.WetApply.C38_sd_violation"
   ],
   "note": "JMS and Bern in both orders and flavio to JMS and back proved completely. From JMS or Bern to flavio and back, tensor coefficients are lost or replaced, and from flavio to Bern and back those with sd and two different leptons (negations proved)."
  },
  {
   "property": "C39",
   "status": "proved",
   "theorems": [
    "Verif.FlavorKit.C39_flavorkit_one_to_one",
    "Verif.FlavorKit.C39_flavorkit_to_JMS_and_back",
    "Verif.FlavorKit.C39_JMS_to_flavorkit_and_back",
    "Verif.FlavorKit.C39_flavorkit_unknown",
    "Verif.FlavorKit.C39_flavorkit_example",
    "Verif.WetApply.C39_flavour_conserving",
    "Verif.WetApply.C39_flavour_conserving_back",
    "Verif.WetApply.C39_lfv",
    "Verif.WetApply.C39_lfv_back"
   ],
   "note": "Flavour-conserving, neutrino and lepton flavour violating tables of the flavio translation and the FlavorKit tables, in both orders."
  },
  {
   "property": "C40",
   "status": "partial",
   "theorems": [
    "Verif.WetEos.C40_parts_partial",
    "Verif.WetEos.C40_complex_prefactor_violation",
    "Verif.WetEos.C40_example"
   ],
   "note": "The number under Re plus i times the number under Im is always the coefficient in EOS normalisation, and they are its real and imaginary part if Vtb Vts* is real. If it is not, no non-zero coefficient is exported as stated (negation proved)."
  },
  {
   "property": "C41",
   "status": "partial",
   "theorems": [
    "Verif.FormFlavor.C41_own_process_only_partial",
    "Verif.FormFlavor.C41_whole_process_partial",
    "Verif.FormFlavor.C41_names",
    "Verif.FormFlavor.C41_mixing_complete",
    "Verif.FormFlavor.C41_dipoles_partial",
    "Verif.FormFlavor.C41_lepton_dipoles_violation",
    "Verif.FormFlavor.C41_sdnn_violation",
    "Verif.FormFlavor.C41_sdnn_example",
    "Verif.FormFlavor.C41_D_mixing_violation",
    "Verif.FormFlavor.C41_example"
   ],
   "note": "Each process depends on its own JMS coefficients only and determines all of them, for every process but sdnn; electromagnetic and chromomagnetic quark dipoles have the stated normalisation. The lepton dipoles are divided by the strong charge, sdnn is computed from the coefficients of b to d, and D mixing conjugates only some coefficients (negations proved)."
  },
  {
   "property": "C42",
   "status": "partial",
   "theorems": [
    "Verif.BetaFlavour.C42_covariance_partial",
    "Verif.BetaFlavour.C42_dphi_partial",
    "Verif.BetaFlavour.C42_dphi_violation"
   ],
   "note": "Proved for every parameter and coefficient with one exception: dphi with new physics, whose beta function contains one non-covariant term (beta.py line 509; negation proved); dphi is covariant when quqd1 vanishes."
  },
  {
   "property": "C43",
   "status": "proved",
   "theorems": [
    "Verif.BetaLinear.C43_linear",
    "Verif.BetaLinear.C43_zero",
    "Verif.BetaLinear.C43_affine"
   ],
   "note": ""
  },
  {
   "property": "C44",
   "status": "proved",
   "theorems": [
    "Verif.BetaFlavour.C44_phase",
    "Verif.BetaFlavour.C44_selection"
   ],
   "note": ""
  },
  {
   "property": "C45",
   "status": "proved",
   "theorems": [
    "Verif.BetaLinear.C45_wc_zero",
    "Verif.BetaLinear.C45_sm_same",
    "Verif.BetaLinear.C45_keys"
   ],
   "note": ""
  },
  {
   "property": "C46",
   "status": "proved",
   "theorems": [
    "Verif.SmeftRun.C46_shift",
    "Verif.SmeftRun.C46_same_scale",
    "Verif.SmeftRun.C46_rate",
    "Verif.SmeftRun.C46_out_and_back",
    "Verif.SmeftRun.C46_linear",
    "Verif.SmeftRun.C46_selection",
    "Verif.SmeftRun.C46_newphys",
    "Verif.SmeftRun.C46_rejects"
   ],
   "note": ""
  },
  {
   "property": "C47",
   "status": "proved",
   "theorems": [
    "Verif.SmPar.C47_there_and_back",
    "Verif.SmPar.C47_positive",
    "Verif.SmPar.C47_domain",
    "Verif.SmPar.C47_back_and_there",
    "Verif.SmPar.C47_minimum",
    "Verif.SmPar.C47_tiny_violation"
   ],
   "note": "Both directions, domain, and the characterisation as stationary point and curvature of the potential, for C_phi = 0 or |C_phi| >= 1e-16 (the branch condition of the code); for smaller nonzero C_phi the deviation of the code is computed exactly in C47_tiny_violation."
  },
  {
   "property": "C48",
   "status": "proved",
   "theorems": [
    "Verif.SmPar.C48_reproduces",
    "Verif.SmPar.C48_electroweak"
   ],
   "note": "All inputs except the Z mass, which is a prediction and agrees with the eigenvalue of the mass matrix to first order, for arbitrary coefficients with invertible normalisations, including phiWB; the singular value decomposition, brentq and ckm_tree are used through their contracts at the matrices that occur."
  },
  {
   "property": "C49",
   "status": "proved",
   "theorems": [
    "Verif.WetRun.C49_sector_closed",
    "Verif.WetRun.C49_sector_names",
    "Verif.WetRun.C49_superposition",
    "Verif.WetRun.C49_sector_of_run",
    "Verif.WetRun.C49_request_independent"
   ],
   "note": ""
  },
  {
   "property": "C50",
   "status": "proved",
   "theorems": [
    "Verif.WetRun.C50_same_scale",
    "Verif.WetRun.C50_run_same_scale",
    "Verif.WetRun.C50_composition"
   ],
   "note": "Identity for all orders; composition for pure QCD when the ADM is the same at both starting scales (it depends on the scale only through mass ratios)."
  },
  {
   "property": "C51",
   "status": "partial",
   "theorems": [
    "Verif.WetRun.C51_no_qed_without_qcd_violation",
    "Verif.WetRun.C51_effect_lost_violation"
   ],
   "note": "The expected property is violated by the code: with qcd_order=0 the QED order has no effect for any input (proved), while it has one when QCD is on (witness proved)."
  },
  {
   "property": "C52",
   "status": "proved",
   "theorems": [
    "Verif.WetRun.C52_alignment"
   ],
   "note": ""
  },
  {
   "property": "C53",
   "status": "proved",
   "theorems": [
    "Verif.WetRun.C53_contract",
    "Verif.WetRun.C53_values",
    "Verif.WetRun.C53_invariant_sectors",
    "Verif.WetRun.C53_rejects"
   ],
   "note": ""
  },
  {
   "property": "C54",
   "status": "proved",
   "theorems": [
    "Verif.Match.C54_tree_zero",
    "Verif.Match.C54_tree_succeeds",
    "Verif.Match.C54_zero",
    "Verif.Match.C54_succeeds",
    "Verif.Loop.C54_one_loop"
   ],
   "note": "The whole matcher from coefficient names to coefficient names. C54_zero holds for arbitrary one-loop matching conditions; success is proved with physical inputs at tree level and with the actual conditions at one loop."
  },
  {
   "property": "C55",
   "status": "proved",
   "theorems": [
    "Verif.Match.C55_symmetric"
   ],
   "note": "For every SMEFT coefficient set with the symmetries of its operators and every parameter set for which the matching succeeds; not even the Fierz identity of ee and the relation of qqql are needed."
  },
  {
   "property": "C56",
   "status": "proved",
   "theorems": [
    "Verif.Match.C56_conserving",
    "Verif.Match.C56_violating",
    "Verif.Match.C56_weinberg"
   ],
   "note": "Both directions for baryon number; the Weinberg coefficient does not contribute at all."
  },
  {
   "property": "C57",
   "status": "proved",
   "theorems": [
    "Verif.C57_restriction",
    "Verif.C57_two_steps",
    "Verif.C57_two_steps_nested",
    "Verif.C57_registered",
    "Verif.C57_all"
   ],
   "note": ""
  },
  {
   "property": "C58",
   "status": "proved",
   "theorems": [
    "Verif.Dsix.C58_lookup",
    "Verif.Dsix.C58_roundtrip",
    "Verif.Dsix.C58_rows",
    "Verif.Dsix.C58_rejects",
    "Verif.Dsix.C58_zero_index_violation"
   ],
   "note": "Round trip, last entry wins, unlisted entries zero, too large indices rejected; index 0 is not rejected but addresses the last entry (C58_zero_index_violation)."
  },
  {
   "property": "C59",
   "status": "proved",
   "theorems": [
    "Verif.Dsix.C59_roundtrip",
    "Verif.Dsix.C59_rejects"
   ],
   "note": "For every helper object of the SMEFT shape, every prior state of the object and every non-zero high scale; coefficients that hermiticity makes real come back with their real part; zero coefficients are not listed in the output."
  },
  {
   "property": "C60",
   "status": "partial",
   "theorems": [
    "Verif.Eos.C60_part",
    "Verif.Eos.C60_direct",
    "Verif.Eos.C60_charged_current",
    "Verif.Eos.C60_absent",
    "Verif.Eos.C60_adds",
    "Verif.Eos.C60_succeeds",
    "Verif.Eos.C60_rejects",
    "Verif.Eos.C60_tau_violation"
   ],
   "note": "Proved for every file, SM dictionary and name; the rejection of non-universal charged currents compares only electron and muon, a different tau coefficient is accepted and ignored (C60_tau_violation)."
  },
  {
   "property": "C61",
   "status": "partial",
   "theorems": [
    "Verif.Qcd.C61_input_point",
    "Verif.Qcd.C61_rejects",
    "Verif.Qcd.C61_six_flavours",
    "Verif.Qcd.C61_never_zero",
    "Verif.Qcd.C61_coupling",
    "Verif.Qcd.C61_bottom",
    "Verif.Qcd.C61_charm",
    "Verif.Qcd.C61_charm_violation",
    "Verif.Qcd.C61_light"
   ],
   "note": "Proved for all scales and flavour numbers, except that the charm mass at scale m_c(m_c) ignores the flavour number (negation proved)."
  },
  {
   "property": "C62",
   "status": "proved",
   "theorems": [
    "Verif.SmeftRun.C62_smeft",
    "Verif.SmeftRun.C62_wet",
    "Verif.SmeftRun.C62_plot_points",
    "Verif.SmeftRun.C62_plot_values"
   ],
   "note": ""
  },
  {
   "property": "C63",
   "status": "partial",
   "theorems": [
    "Verif.BetaSym.C63_beta_partial",
    "Verif.BetaSym.C63_leadinglog_partial",
    "Verif.BetaSym.C63_ee_fierz_violation",
    "Verif.BetaSym.C63_qqql_violation"
   ],
   "note": "Proved for the beta functions and for leading-log running, for every parameter point and all parameters, except the Fierz identity of ee and the flavour relation of qqql, which the beta functions violate (negations proved)."
  },
  {
   "property": "C64",
   "status": "proved",
   "theorems": [
    "Verif.BetaLinear.C64_gauge",
    "Verif.BetaLinear.C64_higgs",
    "Verif.BetaLinear.C64_yukawas"
   ],
   "note": ""
  },
  {
   "property": "C65",
   "status": "partial",
   "theorems": [
    "Verif.C65_at_matching_scale_violation",
    "Verif.C65_other_scales"
   ],
   "note": "The expected property is violated by the code: proved for every backend with the package registrations; success at other scales proved."
  },
  {
   "property": "C66",
   "status": "partial",
   "theorems": [
    "Verif.Props.C66_class2",
    "Verif.Props.C66_class4",
    "Verif.Props.C66_class41",
    "Verif.Props.C66_class5",
    "Verif.Props.C66_class6",
    "Verif.Props.C66_class7",
    "Verif.Props.C66_class71",
    "Verif.Props.C66_class8",
    "Verif.Props.C66_class9_partial",
    "Verif.Props.C66_class9_violation"
   ],
   "note": "Proved for classes 2, 4, 41, 5, 6, 7, 71, 8; for class 9 the code counts off-diagonal entries twice (negation proved, exact relation in the _partial theorem)."
  },
  {
   "property": "C67",
   "status": "proved",
   "theorems": [
    "Verif.Props.C67_constructor",
    "Verif.Props.C67_files_exist",
    "Verif.Props.C67_roundtrip_of_file",
    "Verif.Props.C67_classes_distinct",
    "Verif.Props.C67_only_third_generation_violation"
   ],
   "note": "For every basis listing the non-redundant entries of one class per coefficient with two or three generations; a further theorem shows what happens outside this domain (only third-generation entries listed: taken for a scalar)."
  },
  {
   "property": "C68",
   "status": "proved",
   "theorems": [
    "Verif.WetTab.C68_same_sector_iff",
    "Verif.WetTab.C68_listed_once",
    "Verif.WetTab.C68_example"
   ],
   "note": "For all pairs of the 2257 listed coefficients; flavour charges and neutrino number are computed from the field content of the operator."
  },
  {
   "property": "C69",
   "status": "proved",
   "theorems": [
    "Verif.WetTab.C69_generation_blind",
    "Verif.WetTab.C69_image",
    "Verif.WetTab.C69_example"
   ],
   "note": "Entry by entry, with the sign and conjugation of the naming convention, for both forces and all masses. Covariance of the running of complex coefficients is C81."
  },
  {
   "property": "C70",
   "status": "proved",
   "theorems": [
    "Verif.WetTab.C70_normalisation",
    "Verif.WetTab.C70_running",
    "Verif.WetTab.C70_names",
    "Verif.WetTab.C70_parameters",
    "Verif.WetRun.C70_qcd",
    "Verif.WetRun.C70_qed"
   ],
   "note": ""
  },
  {
   "property": "C71",
   "status": "proved",
   "theorems": [
    "Verif.WetTab.C71_running",
    "Verif.WetTab.C71_parity",
    "Verif.WetTab.C71_parity_covariance",
    "Verif.WetTab.C71_example"
   ],
   "note": "Entry by entry and for the derivatives of complex coefficients."
  },
  {
   "property": "C72",
   "status": "proved",
   "theorems": [
    "Verif.Match.C72_covariance",
    "Verif.Match.C72_quark"
   ],
   "note": "For every JMS coefficient and all unitary rotations; the condition on muon decay is automatic if the lepton doublet is not rotated."
  },
  {
   "property": "C73",
   "status": "proved",
   "theorems": [
    "Verif.CP.C73_beta",
    "Verif.CP.C73_conserving"
   ],
   "note": "All parameters and coefficients, with and without new physics."
  },
  {
   "property": "C74",
   "status": "proved",
   "theorems": [
    "Verif.CP.C74_match"
   ],
   "note": "Tree-level matching."
  },
  {
   "property": "C75",
   "status": "proved",
   "theorems": [
    "Verif.Props.C75_reverse"
   ],
   "note": "The full Warsaw basis is shown to satisfy the assumptions."
  },
  {
   "property": "C76",
   "status": "partial",
   "theorems": [
    "Verif.WetTab.C76_run_partial",
    "Verif.WetTab.C76_running_partial",
    "Verif.WetTab.C76_running_example",
    "Verif.WetTab.C76_rephasing_violation",
    "Verif.WetTab.C76_rephasing_partial",
    "Verif.WetTab.C76_charge_conservation_partial",
    "Verif.WetTab.C76_example"
   ],
   "note": "Proved for all coefficients except VddLL_1231 and VddRR_1231, for which the code violates it (negation proved)."
  },
  {
   "property": "C77",
   "status": "proved",
   "theorems": [
    "Verif.WetTab.C77_represented_once",
    "Verif.WetTab.C77_sign_unique",
    "Verif.WetTab.C77_listed_valid",
    "Verif.WetTab.C77_example"
   ],
   "note": "All 72 operator names."
  },
  {
   "property": "C78",
   "status": "proved",
   "theorems": [
    "Verif.WetTab.C78_run",
    "Verif.WetTab.C78_running",
    "Verif.WetTab.C78_hermitian_stays_real",
    "Verif.WetTab.C78_example"
   ],
   "note": "For the derivatives; with positive masses or not."
  },
  {
   "property": "C79",
   "status": "proved",
   "theorems": [
    "Verif.WetTab.C79_running_succeeds",
    "Verif.WetTab.C79_tables",
    "Verif.WetTab.C79_example"
   ],
   "note": "For 3 and 4 flavours on condition that the JMS basis file lists the sectors (the basis files are not in the checkout)."
  },
  {
   "property": "C80",
   "status": "proved",
   "theorems": [
    "Verif.WetTab.C80_inert_unchanged",
    "Verif.WetTab.C80_inert_anomalous_dimension",
    "Verif.WetTab.C80_example"
   ],
   "note": "For run_sector with the actual tables; the eigendecomposition of numpy is assumed to diagonalise the matrix."
  },
  {
   "property": "C81",
   "status": "partial",
   "theorems": [
    "Verif.WetTab.C81_running_partial",
    "Verif.WetTab.C81_running_real_partial",
    "Verif.WetTab.C81_generation_covariance_violation",
    "Verif.WetTab.C81_fixing_down_partial",
    "Verif.WetTab.C81_real_partial",
    "Verif.WetTab.C81_image_exists"
   ],
   "note": "Proved for relabellings that do not move the down quark and for real coefficients; the general statement is violated by the code (negation proved)."
  },
  {
   "property": "C82",
   "status": "partial",
   "theorems": [
    "Verif.WetApply.C82_via_Bern",
    "Verif.WetApply.C82_via_Bern_names",
    "Verif.WetApply.C82_via_flavio_partial"
   ],
   "note": "Via Bern proved for all coefficients the Bern basis has; via flavio for those that are not lost by the translation from flavio (see C38)."
  },
  {
   "property": "C83",
   "status": "partial",
   "theorems": [
    "Verif.WetEos.C83_charged_current",
    "Verif.WetEos.C83_vector",
    "Verif.WetEos.C83_scalar",
    "Verif.WetEos.C83_radiative",
    "Verif.WetEos.C83_chromomagnetic_violation",
    "Verif.WetEos.C83_array_violation",
    "Verif.WetEos.C83_example"
   ],
   "note": "Charged currents, vector, scalar and radiative coefficients proved. The chromomagnetic coefficient loses its imaginary part and b->s::c5 is an array (negations proved)."
  },
  {
   "property": "C84",
   "status": "proved",
   "theorems": [
    "Verif.Exchange.C84_raw",
    "Verif.Exchange.C84_tree",
    "Verif.Exchange.C84_complete"
   ],
   "note": "All 72 WET coefficients, with and without subtraction of the Standard Model. The conventions are those of arXiv:1709.04486, written down in Spec/TreeExchange."
  },
  {
   "property": "C85",
   "status": "proved",
   "theorems": [
    "Verif.Exchange.C85_muon",
    "Verif.Exchange.C85_muon_tree",
    "Verif.Exchange.C85_electroweak",
    "Verif.Exchange.C85_electroweak_reachable"
   ],
   "note": "Muon decay exactly; electric charge, Z mass and Z couplings up to second order, which is the order the matching is defined at."
  },
  {
   "property": "C86",
   "status": "partial",
   "theorems": [
    "Verif.Dsix.C86_listed",
    "Verif.Dsix.C86_dump_load",
    "Verif.Dsix.C86_theta_violation"
   ],
   "note": "The code violates it for Theta, Thetap and Thetas (C86_theta_violation); proved for all Wilson coefficients and all parameters of the beta functions."
  },
  {
   "property": "C87",
   "status": "proved",
   "theorems": [
    "Verif.Loop.C87_symmetric",
    "Verif.Loop.C87_succeeds"
   ],
   "note": "All 72 conditions as generated from the source; not even the Fierz identity of ee and the relation of qqql are needed."
  },
  {
   "property": "C88",
   "status": "proved",
   "theorems": [
    "Verif.Loop.C88_match",
    "Verif.Loop.C88_conserving",
    "Verif.Loop.C88_names"
   ],
   "note": "Tree level and one loop."
  },
  {
   "property": "C89",
   "status": "proved",
   "theorems": [
    "Verif.Loop.C89_rephasing",
    "Verif.Loop.C89_lepton_family",
    "Verif.Loop.C89_baryon",
    "Verif.Loop.C89_baryon_names",
    "Verif.Loop.C89_family_names"
   ],
   "note": "The phases of quark doublets and right-handed up quarks are equal, and so are those of lepton doublets and right-handed charged leptons: the masses in the conditions are real."
  },
  {
   "property": "C90",
   "status": "proved",
   "theorems": [
    "Verif.Loop.C90_superposition",
    "Verif.Loop.C90_names",
    "Verif.Loop.C90_succeeds"
   ],
   "note": "For all parameters, scales and CKM matrices with which the two sets can be matched."
  },
  {
   "property": "C91",
   "status": "partial",
   "theorems": [
    "Verif.Props.C91_rows_distinct",
    "Verif.Props.C91_card_partial",
    "Verif.Props.C91_determines_partial",
    "Verif.Props.C91_sign_violation",
    "Verif.Props.C91_record_violation"
   ],
   "note": "The code violates it: the sign of 22 (21) real coefficients of model A (B) is lost, and real coefficients given as Re/Im records are printed as complex numbers (negations proved). Proved for all other coefficients, and for these up to the sign; equal cards mean equal coefficients up to these signs."
  },
  {
   "property": "C92",
   "status": "proved",
   "theorems": [
    "Verif.WetTab.C92_run",
    "Verif.WetTab.C92_run_conservation",
    "Verif.WetTab.C92_run_example",
    "Verif.WetTab.C92_cp",
    "Verif.WetTab.C92_running",
    "Verif.WetTab.C92_conservation",
    "Verif.WetTab.C92_example"
   ],
   "note": "For every sector whose QCD anomalous dimension matrix the eigenvalue routine diagonalises correctly."
  },
  {
   "property": "C93",
   "status": "partial",
   "theorems": [
    "Verif.Cli.C93_success",
    "Verif.Cli.C93_failure_partial",
    "Verif.Cli.C93_silent_violation",
    "Verif.Cli.C93_message",
    "Verif.Cli.C93_example",
    "Verif.Cli.C93_violation"
   ],
   "note": "The code violates it: four kinds of failures end with status 0 (proved in general and with examples). Proved: success is status 0 with exactly the result of the API calls; all other failures end with the exception; the message of validate."
  },
  {
   "property": "C94",
   "status": "partial",
   "theorems": [
    "Verif.Cli.C94_wcxf",
    "Verif.Cli.C94_eos",
    "Verif.Cli.C94_wcxf2dsixtools",
    "Verif.Cli.C94_dsixtools2wcxf",
    "Verif.Cli.C94_smeftsim",
    "Verif.Cli.C94_input_kept",
    "Verif.Cli.C94_completed_partial",
    "Verif.Cli.C94_truncated_violation",
    "Verif.Cli.C94_violation",
    "Verif.Cli.C94_example"
   ],
   "note": "The code violates it: failures empty the output file (proved in general), in-place conversion and wcxf2eos lose data (examples). Proved: all other files are kept by all five programs; wcxf2smeftsim keeps the card if the input is invalid or declined; completed requests."
  },
  {
   "property": "C95",
   "status": "proved",
   "theorems": [
    "Verif.Contact.C95_commutes",
    "Verif.Contact.C95_example"
   ],
   "note": "All WET coefficients without closed quark lines; penguin contractions (closed quark lines) are excluded by the statement because the top quark runs in these loops above the matching scale only."
  },
  {
   "property": "C96",
   "status": "proved",
   "theorems": [
    "Verif.Props.C96_values",
    "Verif.Props.C96_agrees_with_warsaw_up",
    "Verif.Props.C96_masses",
    "Verif.Props.C96_names"
   ],
   "note": "The singular value decomposition of ckmutil (outside the checkout) is a parameter; its defining properties are a hypothesis of C96_masses only."
  },
  {
   "property": "C97",
   "status": "proved",
   "theorems": [
    "Verif.TranslateInit.C97_warsaw_and_back",
    "Verif.TranslateInit.C97_higgs_and_back",
    "Verif.TranslateInit.C97_bases_example"
   ],
   "note": "The lists of coefficients of the two bases (outside the checkout) are parameters constrained by IsSmeft and Bases; C97_bases_example gives an instance with the full Warsaw basis."
  },
  {
   "property": "C98",
   "status": "proved",
   "theorems": [
    "Verif.DefaultBasisProps.C98_default_basis",
    "Verif.DefaultBasisProps.C98_weak_basis",
    "Verif.DefaultBasisProps.C98_fixed",
    "Verif.DefaultBasisProps.C98_missing",
    "Verif.DefaultBasisProps.C98_example"
   ],
   "note": "The functions of ckmutil (outside the checkout) are parameters; that they return singular value decompositions and rephase to the standard convention is a hypothesis for the matrices they are called with. C98_example gives an instance."
  }
 ]
}