import Verif.Lemmas.WetCheck

/-!
# Symmetry checks of the WET tables, run by the kernel (part 2)
-/

set_option autoImplicit false

namespace Verif.WetTab

theorem check_d23_1 : symOK (qswap .s .b) (exchImgs .d 2 3) img_d23 0 (secs.take 30) = true := by decide +kernel
theorem check_d23_2 : symOK (qswap .s .b) (exchImgs .d 2 3) img_d23 30 ((secs.drop 30).take 24) = true := by
  decide +kernel
theorem check_d23_3 : symOK (qswap .s .b) (exchImgs .d 2 3) img_d23 54 ((secs.drop 54).take 1) = true := by
  decide +kernel
theorem check_d23_4 : symOK (qswap .s .b) (exchImgs .d 2 3) img_d23 55 (secs.drop 55) = true := by decide +kernel

/-- exchange of the strange and bottom quarks -/
theorem check_d23 : symOK (qswap .s .b) (exchImgs .d 2 3) img_d23 0 secs = true :=
  symOK_pieces check_d23_1 check_d23_2 check_d23_3 check_d23_4

theorem check_e12_1 : symOK (qswap .e .mu) (exchImgs .e 1 2) img_e12 0 (secs.take 30) = true := by decide +kernel
theorem check_e12_2 : symOK (qswap .e .mu) (exchImgs .e 1 2) img_e12 30 ((secs.drop 30).take 24) = true := by
  decide +kernel
theorem check_e12_3 : symOK (qswap .e .mu) (exchImgs .e 1 2) img_e12 54 ((secs.drop 54).take 1) = true := by
  decide +kernel
theorem check_e12_4 : symOK (qswap .e .mu) (exchImgs .e 1 2) img_e12 55 (secs.drop 55) = true := by decide +kernel

/-- exchange of the electron and the muon -/
theorem check_e12 : symOK (qswap .e .mu) (exchImgs .e 1 2) img_e12 0 secs = true :=
  symOK_pieces check_e12_1 check_e12_2 check_e12_3 check_e12_4

end Verif.WetTab
