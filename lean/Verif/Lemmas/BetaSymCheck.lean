import Verif.Lemmas.BetaSym

/-!
# Lemmas: every assignment of `beta` has the symmetry of its left-hand side

One kernel computation per assignment (listed in the order of the programs in
`Verif.Gen.Beta`).
-/

set_option autoImplicit false

namespace Verif.BetaSym
open Verif Verif.Tens Verif.Beta Verif.NF

theorem ok_loc_Eta1 : symOK (.Eta1, loc_Eta1) = true := by decide +kernel
theorem ok_loc_Eta2 : symOK (.Eta2, loc_Eta2) = true := by decide +kernel
theorem ok_loc_Eta3 : symOK (.Eta3, loc_Eta3) = true := by decide +kernel
theorem ok_loc_Eta4 : symOK (.Eta4, loc_Eta4) = true := by decide +kernel
theorem ok_loc_Eta5 : symOK (.Eta5, loc_Eta5) = true := by decide +kernel
theorem ok_loc_GammaH : symOK (.GammaH, loc_GammaH) = true := by decide +kernel
theorem ok_loc_Gammaq : symOK (.Gammaq, loc_Gammaq) = true := by decide +kernel
theorem ok_loc_Gammau : symOK (.Gammau, loc_Gammau) = true := by decide +kernel
theorem ok_loc_Gammad : symOK (.Gammad, loc_Gammad) = true := by decide +kernel
theorem ok_loc_Gammal : symOK (.Gammal, loc_Gammal) = true := by decide +kernel
theorem ok_loc_Gammae : symOK (.Gammae, loc_Gammae) = true := by decide +kernel
theorem ok_sm_g : symOK (.g, sm_g) = true := by decide +kernel
theorem ok_sm_gp : symOK (.gp, sm_gp) = true := by decide +kernel
theorem ok_sm_gs : symOK (.gs, sm_gs) = true := by decide +kernel
theorem ok_sm_Lambda : symOK (.Lambda, sm_Lambda) = true := by decide +kernel
theorem ok_sm_m2 : symOK (.m2, sm_m2) = true := by decide +kernel
theorem ok_sm_Gu : symOK (.Gu, sm_Gu) = true := by decide +kernel
theorem ok_sm_Gd : symOK (.Gd, sm_Gd) = true := by decide +kernel
theorem ok_sm_Ge : symOK (.Ge, sm_Ge) = true := by decide +kernel
theorem ok_loc2_XiB : symOK (.XiB, loc2_XiB) = true := by decide +kernel
theorem ok_loc2_Xie : symOK (.Xie, loc2_Xie) = true := by decide +kernel
theorem ok_loc2_Xid : symOK (.Xid, loc2_Xid) = true := by decide +kernel
theorem ok_loc2_Xiu : symOK (.Xiu, loc2_Xiu) = true := by decide +kernel
theorem ok_np_G : symOK (.G, np_G) = true := by decide +kernel
theorem ok_np_Gtilde : symOK (.Gtilde, np_Gtilde) = true := by decide +kernel
theorem ok_np_W : symOK (.W, np_W) = true := by decide +kernel
theorem ok_np_Wtilde : symOK (.Wtilde, np_Wtilde) = true := by decide +kernel
theorem ok_np_phi : symOK (.phi, np_phi) = true := by decide +kernel
theorem ok_np_phiBox : symOK (.phiBox, np_phiBox) = true := by decide +kernel
theorem ok_np_phiD : symOK (.phiD, np_phiD) = true := by decide +kernel
theorem ok_np_phiG : symOK (.phiG, np_phiG) = true := by decide +kernel
theorem ok_np_phiB : symOK (.phiB, np_phiB) = true := by decide +kernel
theorem ok_np_phiW : symOK (.phiW, np_phiW) = true := by decide +kernel
theorem ok_np_phiWB : symOK (.phiWB, np_phiWB) = true := by decide +kernel
theorem ok_np_phiGtilde : symOK (.phiGtilde, np_phiGtilde) = true := by decide +kernel
theorem ok_np_phiBtilde : symOK (.phiBtilde, np_phiBtilde) = true := by decide +kernel
theorem ok_np_phiWtilde : symOK (.phiWtilde, np_phiWtilde) = true := by decide +kernel
theorem ok_np_phiWtildeB : symOK (.phiWtildeB, np_phiWtildeB) = true := by decide +kernel
theorem ok_np_uphi : symOK (.uphi, np_uphi) = true := by decide +kernel
theorem ok_np_dphi : symOK (.dphi, np_dphi) = true := by decide +kernel
theorem ok_np_ephi : symOK (.ephi, np_ephi) = true := by decide +kernel
theorem ok_np_eW : symOK (.eW, np_eW) = true := by decide +kernel
theorem ok_np_eB : symOK (.eB, np_eB) = true := by decide +kernel
theorem ok_np_uG : symOK (.uG, np_uG) = true := by decide +kernel
theorem ok_np_uW : symOK (.uW, np_uW) = true := by decide +kernel
theorem ok_np_uB : symOK (.uB, np_uB) = true := by decide +kernel
theorem ok_np_dG : symOK (.dG, np_dG) = true := by decide +kernel
theorem ok_np_dW : symOK (.dW, np_dW) = true := by decide +kernel
theorem ok_np_dB : symOK (.dB, np_dB) = true := by decide +kernel
theorem ok_np_phil1 : symOK (.phil1, np_phil1) = true := by decide +kernel
theorem ok_np_phil3 : symOK (.phil3, np_phil3) = true := by decide +kernel
theorem ok_np_phie : symOK (.phie, np_phie) = true := by decide +kernel
theorem ok_np_phiq1 : symOK (.phiq1, np_phiq1) = true := by decide +kernel
theorem ok_np_phiq3 : symOK (.phiq3, np_phiq3) = true := by decide +kernel
theorem ok_np_phiu : symOK (.phiu, np_phiu) = true := by decide +kernel
theorem ok_np_phid : symOK (.phid, np_phid) = true := by decide +kernel
theorem ok_np_phiud : symOK (.phiud, np_phiud) = true := by decide +kernel
theorem ok_np_llphiphi : symOK (.llphiphi, np_llphiphi) = true := by decide +kernel
theorem ok_np_ll : symOK (.ll, np_ll) = true := by decide +kernel
theorem ok_np_qq1 : symOK (.qq1, np_qq1) = true := by decide +kernel
theorem ok_np_qq3 : symOK (.qq3, np_qq3) = true := by decide +kernel
theorem ok_np_lq1 : symOK (.lq1, np_lq1) = true := by decide +kernel
theorem ok_np_lq3 : symOK (.lq3, np_lq3) = true := by decide +kernel
theorem ok_np_ee : symOK (.ee, np_ee) = true := by decide +kernel
theorem ok_np_uu : symOK (.uu, np_uu) = true := by decide +kernel
theorem ok_np_dd : symOK (.dd, np_dd) = true := by decide +kernel
theorem ok_np_eu : symOK (.eu, np_eu) = true := by decide +kernel
theorem ok_np_ed : symOK (.ed, np_ed) = true := by decide +kernel
theorem ok_np_ud1 : symOK (.ud1, np_ud1) = true := by decide +kernel
theorem ok_np_ud8 : symOK (.ud8, np_ud8) = true := by decide +kernel
theorem ok_np_le : symOK (.le, np_le) = true := by decide +kernel
theorem ok_np_lu : symOK (.lu, np_lu) = true := by decide +kernel
theorem ok_np_ld : symOK (.ld, np_ld) = true := by decide +kernel
theorem ok_np_qe : symOK (.qe, np_qe) = true := by decide +kernel
theorem ok_np_qu1 : symOK (.qu1, np_qu1) = true := by decide +kernel
theorem ok_np_qd1 : symOK (.qd1, np_qd1) = true := by decide +kernel
theorem ok_np_qu8 : symOK (.qu8, np_qu8) = true := by decide +kernel
theorem ok_np_qd8 : symOK (.qd8, np_qd8) = true := by decide +kernel
theorem ok_np_ledq : symOK (.ledq, np_ledq) = true := by decide +kernel
theorem ok_np_quqd1 : symOK (.quqd1, np_quqd1) = true := by decide +kernel
theorem ok_np_quqd8 : symOK (.quqd8, np_quqd8) = true := by decide +kernel
theorem ok_np_lequ1 : symOK (.lequ1, np_lequ1) = true := by decide +kernel
theorem ok_np_lequ3 : symOK (.lequ3, np_lequ3) = true := by decide +kernel
theorem ok_np_duql : symOK (.duql, np_duql) = true := by decide +kernel
theorem ok_np_qque : symOK (.qque, np_qque) = true := by decide +kernel
theorem ok_np_qqql : symOK (.qqql, np_qqql) = true := by decide +kernel
theorem ok_np_duue : symOK (.duue, np_duue) = true := by decide +kernel
theorem ok_np_llphiphi_2 : symOK (.llphiphi, np_llphiphi_2) = true := by decide +kernel

theorem ok_locProg : ∀ ke ∈ locProg, symOK ke = true := by
  unfold locProg
  refine List.forall_mem_cons.2 ⟨ok_loc_Eta1, ?_⟩
  refine List.forall_mem_cons.2 ⟨ok_loc_Eta2, ?_⟩
  refine List.forall_mem_cons.2 ⟨ok_loc_Eta3, ?_⟩
  refine List.forall_mem_cons.2 ⟨ok_loc_Eta4, ?_⟩
  refine List.forall_mem_cons.2 ⟨ok_loc_Eta5, ?_⟩
  refine List.forall_mem_cons.2 ⟨ok_loc_GammaH, ?_⟩
  refine List.forall_mem_cons.2 ⟨ok_loc_Gammaq, ?_⟩
  refine List.forall_mem_cons.2 ⟨ok_loc_Gammau, ?_⟩
  refine List.forall_mem_cons.2 ⟨ok_loc_Gammad, ?_⟩
  refine List.forall_mem_cons.2 ⟨ok_loc_Gammal, ?_⟩
  refine List.forall_mem_cons.2 ⟨ok_loc_Gammae, ?_⟩
  exact fun _ h => absurd h List.not_mem_nil

theorem ok_smProg : ∀ ke ∈ smProg, symOK ke = true := by
  unfold smProg
  refine List.forall_mem_cons.2 ⟨ok_sm_g, ?_⟩
  refine List.forall_mem_cons.2 ⟨ok_sm_gp, ?_⟩
  refine List.forall_mem_cons.2 ⟨ok_sm_gs, ?_⟩
  refine List.forall_mem_cons.2 ⟨ok_sm_Lambda, ?_⟩
  refine List.forall_mem_cons.2 ⟨ok_sm_m2, ?_⟩
  refine List.forall_mem_cons.2 ⟨ok_sm_Gu, ?_⟩
  refine List.forall_mem_cons.2 ⟨ok_sm_Gd, ?_⟩
  refine List.forall_mem_cons.2 ⟨ok_sm_Ge, ?_⟩
  exact fun _ h => absurd h List.not_mem_nil

theorem ok_loc2Prog : ∀ ke ∈ loc2Prog, symOK ke = true := by
  unfold loc2Prog
  refine List.forall_mem_cons.2 ⟨ok_loc2_XiB, ?_⟩
  refine List.forall_mem_cons.2 ⟨ok_loc2_Xie, ?_⟩
  refine List.forall_mem_cons.2 ⟨ok_loc2_Xid, ?_⟩
  refine List.forall_mem_cons.2 ⟨ok_loc2_Xiu, ?_⟩
  exact fun _ h => absurd h List.not_mem_nil

theorem ok_npProg : ∀ ke ∈ npProg, symOK ke = true := by
  unfold npProg
  refine List.forall_mem_cons.2 ⟨ok_np_G, ?_⟩
  refine List.forall_mem_cons.2 ⟨ok_np_Gtilde, ?_⟩
  refine List.forall_mem_cons.2 ⟨ok_np_W, ?_⟩
  refine List.forall_mem_cons.2 ⟨ok_np_Wtilde, ?_⟩
  refine List.forall_mem_cons.2 ⟨ok_np_phi, ?_⟩
  refine List.forall_mem_cons.2 ⟨ok_np_phiBox, ?_⟩
  refine List.forall_mem_cons.2 ⟨ok_np_phiD, ?_⟩
  refine List.forall_mem_cons.2 ⟨ok_np_phiG, ?_⟩
  refine List.forall_mem_cons.2 ⟨ok_np_phiB, ?_⟩
  refine List.forall_mem_cons.2 ⟨ok_np_phiW, ?_⟩
  refine List.forall_mem_cons.2 ⟨ok_np_phiWB, ?_⟩
  refine List.forall_mem_cons.2 ⟨ok_np_phiGtilde, ?_⟩
  refine List.forall_mem_cons.2 ⟨ok_np_phiBtilde, ?_⟩
  refine List.forall_mem_cons.2 ⟨ok_np_phiWtilde, ?_⟩
  refine List.forall_mem_cons.2 ⟨ok_np_phiWtildeB, ?_⟩
  refine List.forall_mem_cons.2 ⟨ok_np_uphi, ?_⟩
  refine List.forall_mem_cons.2 ⟨ok_np_dphi, ?_⟩
  refine List.forall_mem_cons.2 ⟨ok_np_ephi, ?_⟩
  refine List.forall_mem_cons.2 ⟨ok_np_eW, ?_⟩
  refine List.forall_mem_cons.2 ⟨ok_np_eB, ?_⟩
  refine List.forall_mem_cons.2 ⟨ok_np_uG, ?_⟩
  refine List.forall_mem_cons.2 ⟨ok_np_uW, ?_⟩
  refine List.forall_mem_cons.2 ⟨ok_np_uB, ?_⟩
  refine List.forall_mem_cons.2 ⟨ok_np_dG, ?_⟩
  refine List.forall_mem_cons.2 ⟨ok_np_dW, ?_⟩
  refine List.forall_mem_cons.2 ⟨ok_np_dB, ?_⟩
  refine List.forall_mem_cons.2 ⟨ok_np_phil1, ?_⟩
  refine List.forall_mem_cons.2 ⟨ok_np_phil3, ?_⟩
  refine List.forall_mem_cons.2 ⟨ok_np_phie, ?_⟩
  refine List.forall_mem_cons.2 ⟨ok_np_phiq1, ?_⟩
  refine List.forall_mem_cons.2 ⟨ok_np_phiq3, ?_⟩
  refine List.forall_mem_cons.2 ⟨ok_np_phiu, ?_⟩
  refine List.forall_mem_cons.2 ⟨ok_np_phid, ?_⟩
  refine List.forall_mem_cons.2 ⟨ok_np_phiud, ?_⟩
  refine List.forall_mem_cons.2 ⟨ok_np_llphiphi, ?_⟩
  refine List.forall_mem_cons.2 ⟨ok_np_ll, ?_⟩
  refine List.forall_mem_cons.2 ⟨ok_np_qq1, ?_⟩
  refine List.forall_mem_cons.2 ⟨ok_np_qq3, ?_⟩
  refine List.forall_mem_cons.2 ⟨ok_np_lq1, ?_⟩
  refine List.forall_mem_cons.2 ⟨ok_np_lq3, ?_⟩
  refine List.forall_mem_cons.2 ⟨ok_np_ee, ?_⟩
  refine List.forall_mem_cons.2 ⟨ok_np_uu, ?_⟩
  refine List.forall_mem_cons.2 ⟨ok_np_dd, ?_⟩
  refine List.forall_mem_cons.2 ⟨ok_np_eu, ?_⟩
  refine List.forall_mem_cons.2 ⟨ok_np_ed, ?_⟩
  refine List.forall_mem_cons.2 ⟨ok_np_ud1, ?_⟩
  refine List.forall_mem_cons.2 ⟨ok_np_ud8, ?_⟩
  refine List.forall_mem_cons.2 ⟨ok_np_le, ?_⟩
  refine List.forall_mem_cons.2 ⟨ok_np_lu, ?_⟩
  refine List.forall_mem_cons.2 ⟨ok_np_ld, ?_⟩
  refine List.forall_mem_cons.2 ⟨ok_np_qe, ?_⟩
  refine List.forall_mem_cons.2 ⟨ok_np_qu1, ?_⟩
  refine List.forall_mem_cons.2 ⟨ok_np_qd1, ?_⟩
  refine List.forall_mem_cons.2 ⟨ok_np_qu8, ?_⟩
  refine List.forall_mem_cons.2 ⟨ok_np_qd8, ?_⟩
  refine List.forall_mem_cons.2 ⟨ok_np_ledq, ?_⟩
  refine List.forall_mem_cons.2 ⟨ok_np_quqd1, ?_⟩
  refine List.forall_mem_cons.2 ⟨ok_np_quqd8, ?_⟩
  refine List.forall_mem_cons.2 ⟨ok_np_lequ1, ?_⟩
  refine List.forall_mem_cons.2 ⟨ok_np_lequ3, ?_⟩
  refine List.forall_mem_cons.2 ⟨ok_np_duql, ?_⟩
  refine List.forall_mem_cons.2 ⟨ok_np_qque, ?_⟩
  refine List.forall_mem_cons.2 ⟨ok_np_qqql, ?_⟩
  refine List.forall_mem_cons.2 ⟨ok_np_duue, ?_⟩
  refine List.forall_mem_cons.2 ⟨ok_np_llphiphi_2, ?_⟩
  exact fun _ h => absurd h List.not_mem_nil

end Verif.BetaSym
