import Verif.Lemmas.WetCheck

/-!
# Symmetry checks of the WET tables, run by the kernel (part 1)
-/

set_option autoImplicit false

namespace Verif.WetTab

theorem check_u12_1 : symOK (qswap .u .c) (exchImgs .u 1 2) img_u12 0 (secs.take 30) = true := by decide +kernel
theorem check_u12_2 : symOK (qswap .u .c) (exchImgs .u 1 2) img_u12 30 ((secs.drop 30).take 24) = true := by
  decide +kernel
theorem check_u12_3 : symOK (qswap .u .c) (exchImgs .u 1 2) img_u12 54 ((secs.drop 54).take 1) = true := by
  decide +kernel
theorem check_u12_4 : symOK (qswap .u .c) (exchImgs .u 1 2) img_u12 55 (secs.drop 55) = true := by decide +kernel

/-- exchange of the up and charm quarks -/
theorem check_u12 : symOK (qswap .u .c) (exchImgs .u 1 2) img_u12 0 secs = true :=
  symOK_pieces check_u12_1 check_u12_2 check_u12_3 check_u12_4

theorem check_d12_1 : symOK (qswap .d .s) (exchImgs .d 1 2) img_d12 0 (secs.take 30) = true := by decide +kernel
theorem check_d12_2 : symOK (qswap .d .s) (exchImgs .d 1 2) img_d12 30 ((secs.drop 30).take 24) = true := by
  decide +kernel
theorem check_d12_3 : symOK (qswap .d .s) (exchImgs .d 1 2) img_d12 54 ((secs.drop 54).take 1) = true := by
  decide +kernel
theorem check_d12_4 : symOK (qswap .d .s) (exchImgs .d 1 2) img_d12 55 (secs.drop 55) = true := by decide +kernel

/-- exchange of the down and strange quarks -/
theorem check_d12 : symOK (qswap .d .s) (exchImgs .d 1 2) img_d12 0 secs = true :=
  symOK_pieces check_d12_1 check_d12_2 check_d12_3 check_d12_4

end Verif.WetTab
