import Verif.Lemmas.Match

/-!
# Lemmas: every matching condition has the symmetry of its JMS coefficient

One kernel computation per condition.
-/

set_option autoImplicit false

namespace Verif.Match
open Verif Verif.Tens Verif.NF

theorem ok_dgamma : symOKW (.dgamma, m_dgamma) = true := by decide +kernel
theorem ok_dG : symOKW (.dG, m_dG) = true := by decide +kernel
theorem ok_egamma : symOKW (.egamma, m_egamma) = true := by decide +kernel
theorem ok_ugamma : symOKW (.ugamma, m_ugamma) = true := by decide +kernel
theorem ok_uG : symOKW (.uG, m_uG) = true := by decide +kernel
theorem ok_Gtilde : symOKW (.Gtilde, m_Gtilde) = true := by decide +kernel
theorem ok_G : symOKW (.G, m_G) = true := by decide +kernel
theorem ok_SduuLL : symOKW (.SduuLL, m_SduuLL) = true := by decide +kernel
theorem ok_SuddLL : symOKW (.SuddLL, m_SuddLL) = true := by decide +kernel
theorem ok_SduuLR : symOKW (.SduuLR, m_SduuLR) = true := by decide +kernel
theorem ok_SuudLR : symOKW (.SuudLR, m_SuudLR) = true := by decide +kernel
theorem ok_SdduRL : symOKW (.SdduRL, m_SdduRL) = true := by decide +kernel
theorem ok_SdudRL : symOKW (.SdudRL, m_SdudRL) = true := by decide +kernel
theorem ok_SduuRL : symOKW (.SduuRL, m_SduuRL) = true := by decide +kernel
theorem ok_SuudRL : symOKW (.SuudRL, m_SuudRL) = true := by decide +kernel
theorem ok_SduuRR : symOKW (.SduuRR, m_SduuRR) = true := by decide +kernel
theorem ok_V1udLL : symOKW (.V1udLL, m_V1udLL) = true := by decide +kernel
theorem ok_V8udLL : symOKW (.V8udLL, m_V8udLL) = true := by decide +kernel
theorem ok_VddLL : symOKW (.VddLL, m_VddLL) = true := by decide +kernel
theorem ok_VedLL : symOKW (.VedLL, m_VedLL) = true := by decide +kernel
theorem ok_VeeLL : symOKW (.VeeLL, m_VeeLL) = true := by decide +kernel
theorem ok_VeuLL : symOKW (.VeuLL, m_VeuLL) = true := by decide +kernel
theorem ok_VnudLL : symOKW (.VnudLL, m_VnudLL) = true := by decide +kernel
theorem ok_VnueduLL : symOKW (.VnueduLL, m_VnueduLL) = true := by decide +kernel
theorem ok_VnueLL : symOKW (.VnueLL, m_VnueLL) = true := by decide +kernel
theorem ok_VnunuLL : symOKW (.VnunuLL, m_VnunuLL) = true := by decide +kernel
theorem ok_VnuuLL : symOKW (.VnuuLL, m_VnuuLL) = true := by decide +kernel
theorem ok_VuuLL : symOKW (.VuuLL, m_VuuLL) = true := by decide +kernel
theorem ok_V1ddLR : symOKW (.V1ddLR, m_V1ddLR) = true := by decide +kernel
theorem ok_V1duLR : symOKW (.V1duLR, m_V1duLR) = true := by decide +kernel
theorem ok_V1udduLR : symOKW (.V1udduLR, m_V1udduLR) = true := by decide +kernel
theorem ok_V1udLR : symOKW (.V1udLR, m_V1udLR) = true := by decide +kernel
theorem ok_V1uuLR : symOKW (.V1uuLR, m_V1uuLR) = true := by decide +kernel
theorem ok_V8ddLR : symOKW (.V8ddLR, m_V8ddLR) = true := by decide +kernel
theorem ok_V8duLR : symOKW (.V8duLR, m_V8duLR) = true := by decide +kernel
theorem ok_V8udduLR : symOKW (.V8udduLR, m_V8udduLR) = true := by decide +kernel
theorem ok_V8udLR : symOKW (.V8udLR, m_V8udLR) = true := by decide +kernel
theorem ok_V8uuLR : symOKW (.V8uuLR, m_V8uuLR) = true := by decide +kernel
theorem ok_VdeLR : symOKW (.VdeLR, m_VdeLR) = true := by decide +kernel
theorem ok_VedLR : symOKW (.VedLR, m_VedLR) = true := by decide +kernel
theorem ok_VeeLR : symOKW (.VeeLR, m_VeeLR) = true := by decide +kernel
theorem ok_VeuLR : symOKW (.VeuLR, m_VeuLR) = true := by decide +kernel
theorem ok_VnudLR : symOKW (.VnudLR, m_VnudLR) = true := by decide +kernel
theorem ok_VnueduLR : symOKW (.VnueduLR, m_VnueduLR) = true := by decide +kernel
theorem ok_VnueLR : symOKW (.VnueLR, m_VnueLR) = true := by decide +kernel
theorem ok_VnuuLR : symOKW (.VnuuLR, m_VnuuLR) = true := by decide +kernel
theorem ok_VueLR : symOKW (.VueLR, m_VueLR) = true := by decide +kernel
theorem ok_S1ddRR : symOKW (.S1ddRR, m_S1ddRR) = true := by decide +kernel
theorem ok_S1udduRR : symOKW (.S1udduRR, m_S1udduRR) = true := by decide +kernel
theorem ok_S1udRR : symOKW (.S1udRR, m_S1udRR) = true := by decide +kernel
theorem ok_S1uuRR : symOKW (.S1uuRR, m_S1uuRR) = true := by decide +kernel
theorem ok_S8ddRR : symOKW (.S8ddRR, m_S8ddRR) = true := by decide +kernel
theorem ok_S8udduRR : symOKW (.S8udduRR, m_S8udduRR) = true := by decide +kernel
theorem ok_S8udRR : symOKW (.S8udRR, m_S8udRR) = true := by decide +kernel
theorem ok_S8uuRR : symOKW (.S8uuRR, m_S8uuRR) = true := by decide +kernel
theorem ok_SedRR : symOKW (.SedRR, m_SedRR) = true := by decide +kernel
theorem ok_SeeRR : symOKW (.SeeRR, m_SeeRR) = true := by decide +kernel
theorem ok_SeuRR : symOKW (.SeuRR, m_SeuRR) = true := by decide +kernel
theorem ok_SnueduRR : symOKW (.SnueduRR, m_SnueduRR) = true := by decide +kernel
theorem ok_TedRR : symOKW (.TedRR, m_TedRR) = true := by decide +kernel
theorem ok_TeuRR : symOKW (.TeuRR, m_TeuRR) = true := by decide +kernel
theorem ok_TnueduRR : symOKW (.TnueduRR, m_TnueduRR) = true := by decide +kernel
theorem ok_SedRL : symOKW (.SedRL, m_SedRL) = true := by decide +kernel
theorem ok_SeuRL : symOKW (.SeuRL, m_SeuRL) = true := by decide +kernel
theorem ok_SnueduRL : symOKW (.SnueduRL, m_SnueduRL) = true := by decide +kernel
theorem ok_V1udRR : symOKW (.V1udRR, m_V1udRR) = true := by decide +kernel
theorem ok_V8udRR : symOKW (.V8udRR, m_V8udRR) = true := by decide +kernel
theorem ok_VddRR : symOKW (.VddRR, m_VddRR) = true := by decide +kernel
theorem ok_VedRR : symOKW (.VedRR, m_VedRR) = true := by decide +kernel
theorem ok_VeeRR : symOKW (.VeeRR, m_VeeRR) = true := by decide +kernel
theorem ok_VeuRR : symOKW (.VeuRR, m_VeuRR) = true := by decide +kernel
theorem ok_VuuRR : symOKW (.VuuRR, m_VuuRR) = true := by decide +kernel

theorem ok_tree : ∀ ke ∈ treeProg, symOKW ke = true := by
  unfold treeProg
  simp only [List.forall_mem_cons]
  exact ⟨ok_dgamma, ok_dG, ok_egamma, ok_ugamma, ok_uG, ok_Gtilde, ok_G, ok_SduuLL, ok_SuddLL,
    ok_SduuLR, ok_SuudLR, ok_SdduRL, ok_SdudRL, ok_SduuRL, ok_SuudRL, ok_SduuRR, ok_V1udLL,
    ok_V8udLL, ok_VddLL, ok_VedLL, ok_VeeLL, ok_VeuLL, ok_VnudLL, ok_VnueduLL, ok_VnueLL,
    ok_VnunuLL, ok_VnuuLL, ok_VuuLL, ok_V1ddLR, ok_V1duLR, ok_V1udduLR, ok_V1udLR, ok_V1uuLR,
    ok_V8ddLR, ok_V8duLR, ok_V8udduLR, ok_V8udLR, ok_V8uuLR, ok_VdeLR, ok_VedLR, ok_VeeLR,
    ok_VeuLR, ok_VnudLR, ok_VnueduLR, ok_VnueLR, ok_VnuuLR, ok_VueLR, ok_S1ddRR, ok_S1udduRR,
    ok_S1udRR, ok_S1uuRR, ok_S8ddRR, ok_S8udduRR, ok_S8udRR, ok_S8uuRR, ok_SedRR, ok_SeeRR,
    ok_SeuRR, ok_SnueduRR, ok_TedRR, ok_TeuRR, ok_TnueduRR, ok_SedRL, ok_SeuRL, ok_SnueduRL,
    ok_V1udRR, ok_V8udRR, ok_VddRR, ok_VedRR, ok_VeeRR, ok_VeuRR, ok_VuuRR, by simp⟩

end Verif.Match
