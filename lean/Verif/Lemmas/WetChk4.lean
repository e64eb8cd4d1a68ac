import Verif.Lemmas.WetCheck

/-!
# Symmetry checks of the WET tables, run by the kernel (part 4)
-/

set_option autoImplicit false

namespace Verif.WetTab

theorem check_nu23_1 : symOK id (exchImgs .nu 2 3) img_nu23 0 (secs.take 30) = true := by decide +kernel
theorem check_nu23_2 : symOK id (exchImgs .nu 2 3) img_nu23 30 ((secs.drop 30).take 24) = true := by
  decide +kernel
theorem check_nu23_3 : symOK id (exchImgs .nu 2 3) img_nu23 54 ((secs.drop 54).take 1) = true := by
  decide +kernel
theorem check_nu23_4 : symOK id (exchImgs .nu 2 3) img_nu23 55 (secs.drop 55) = true := by decide +kernel

/-- exchange of two neutrinos -/
theorem check_nu23 : symOK id (exchImgs .nu 2 3) img_nu23 0 secs = true :=
  symOK_pieces check_nu23_1 check_nu23_2 check_nu23_3 check_nu23_4

theorem check_parity_1 : symOK id parityImgs img_parity 0 (secs.take 30) = true := by decide +kernel
theorem check_parity_2 : symOK id parityImgs img_parity 30 ((secs.drop 30).take 24) = true := by
  decide +kernel
theorem check_parity_3 : symOK id parityImgs img_parity 54 ((secs.drop 54).take 1) = true := by
  decide +kernel
theorem check_parity_4 : symOK id parityImgs img_parity 55 (secs.drop 55) = true := by decide +kernel

/-- exchange of left- and right-handed fields -/
theorem check_parity : symOK id parityImgs img_parity 0 secs = true :=
  symOK_pieces check_parity_1 check_parity_2 check_parity_3 check_parity_4

end Verif.WetTab
