import Verif.Lemmas.WetCheck

/-!
# Symmetry checks of the WET tables, run by the kernel (part 3)
-/

set_option autoImplicit false

namespace Verif.WetTab

theorem check_e23_1 : symOK (qswap .mu .tau) (exchImgs .e 2 3) img_e23 0 (secs.take 30) = true := by decide +kernel
theorem check_e23_2 : symOK (qswap .mu .tau) (exchImgs .e 2 3) img_e23 30 ((secs.drop 30).take 24) = true := by
  decide +kernel
theorem check_e23_3 : symOK (qswap .mu .tau) (exchImgs .e 2 3) img_e23 54 ((secs.drop 54).take 1) = true := by
  decide +kernel
theorem check_e23_4 : symOK (qswap .mu .tau) (exchImgs .e 2 3) img_e23 55 (secs.drop 55) = true := by decide +kernel

/-- exchange of the muon and the tau -/
theorem check_e23 : symOK (qswap .mu .tau) (exchImgs .e 2 3) img_e23 0 secs = true :=
  symOK_pieces check_e23_1 check_e23_2 check_e23_3 check_e23_4

theorem check_nu12_1 : symOK id (exchImgs .nu 1 2) img_nu12 0 (secs.take 30) = true := by decide +kernel
theorem check_nu12_2 : symOK id (exchImgs .nu 1 2) img_nu12 30 ((secs.drop 30).take 24) = true := by
  decide +kernel
theorem check_nu12_3 : symOK id (exchImgs .nu 1 2) img_nu12 54 ((secs.drop 54).take 1) = true := by
  decide +kernel
theorem check_nu12_4 : symOK id (exchImgs .nu 1 2) img_nu12 55 (secs.drop 55) = true := by decide +kernel

/-- exchange of two neutrinos -/
theorem check_nu12 : symOK id (exchImgs .nu 1 2) img_nu12 0 secs = true :=
  symOK_pieces check_nu12_1 check_nu12_2 check_nu12_3 check_nu12_4

end Verif.WetTab
