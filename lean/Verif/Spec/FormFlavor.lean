import Verif.Spec.WetTranslate

/-!
# The processes of the FormFlavor basis
-/

set_option autoImplicit false

namespace Verif.FormFlavor

/-- the names of the operators -/
def labels : List String :=
  ["CVLL", "CVRR", "CVLR", "CVRL", "CSLL", "CSRR", "CSLR", "CSRL", "CTLL", "CTRR", "CAL", "CAR", "CGL", "CGR"]

/-- the processes and the JMS coefficients that contribute to them: meson mixing, b → s μμ and b → d μμ, quark
dipoles and lepton flavour violating dipoles.  The neutrino operators `sdnn` are not listed. -/
def formFlavorProcesses : List (String × List String) := [
  ("bsbs", ["VddLL_2323", "VddRR_2323", "V8ddLR_2323", "V1ddLR_2323", "S8ddRR_2323", "S1ddRR_2323",
    "S8ddRR_3232", "S1ddRR_3232"]),
  ("bdbd", ["VddLL_1313", "VddRR_1313", "V8ddLR_1313", "V1ddLR_1313", "S8ddRR_1313", "S1ddRR_1313",
    "S8ddRR_3131", "S1ddRR_3131"]),
  ("sdsd", ["VddLL_1212", "VddRR_1212", "V8ddLR_1212", "V1ddLR_1212", "S8ddRR_1212", "S1ddRR_1212",
    "S8ddRR_2121", "S1ddRR_2121"]),
  ("cucu", ["VuuLL_1212", "VuuRR_1212", "V8uuLR_1212", "V1uuLR_1212", "S8uuRR_2121", "S1uuRR_2121",
    "S8uuRR_1212", "S1uuRR_1212"]),
  ("bsmm", ["VedLL_2223", "VedRR_2223", "VdeLR_2322", "VedLR_2223", "SedRR_2223", "SedRR_2232", "SedRL_2223",
    "SedRL_2232", "TedRR_2223", "TedRR_2232"]),
  ("bdmm", ["VedLL_2213", "VedRR_2213", "VdeLR_1322", "VedLR_2213", "SedRR_2213", "SedRR_2231", "SedRL_2213",
    "SedRL_2231", "TedRR_2213", "TedRR_2231"]),
  ("sb", ["dgamma_23", "dG_23", "dgamma_32", "dG_32"]),
  ("db", ["dgamma_13", "dG_13", "dgamma_31", "dG_31"]),
  ("uu", ["ugamma_11", "uG_11"]),
  ("dd", ["dgamma_11", "dG_11"]),
  ("em", ["egamma_12", "egamma_21"]),
  ("et", ["egamma_13", "egamma_31"]),
  ("mt", ["egamma_23", "egamma_32"])]

end Verif.FormFlavor
