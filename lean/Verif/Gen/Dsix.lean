import Verif.Model.ArrayProg

/-! Generated by `tools/gen_dsix.py` from `/repo/wilson/wcxf/converters/dsixtools_definitions.py`
and `dsixtools.py`; do not edit. -/

set_option autoImplicit false

namespace Verif.Gen

/-- `redundant_elements`, `wcxf/converters/dsixtools_definitions.py:2-939`. -/
def dsixRedundant : List (List Char × List (List ℕ)) := [
  ("G".toList, []),
  ("Gd".toList, []),
  ("Ge".toList, []),
  ("Gtilde".toList, []),
  ("Gu".toList, []),
  ("Lambda".toList, []),
  ("Theta".toList, []),
  ("Thetap".toList, []),
  ("Thetas".toList, []),
  ("W".toList, []),
  ("Wtilde".toList, []),
  ("dB".toList, []),
  ("dG".toList, []),
  ("dW".toList, []),
  ("dd".toList, [[0,0,1,0], [0,0,2,0], [0,0,2,1], [0,1,0,0], [0,2,0,0], [0,2,0,1], [0,2,1,0], [1,0,0,0], [1,0,0,1], [1,0,0,2], [1,0,1,0], [1,0,1,1], [1,0,1,2], [1,0,2,0], [1,0,2,1], [1,0,2,2], [1,1,0,0], [1,1,0,1], [1,1,0,2], [1,1,1,0], [1,1,2,0], [1,1,2,1], [1,2,0,0], [1,2,0,1], [1,2,0,2], [1,2,1,0], [1,2,1,1], [1,2,2,0], [2,0,0,0], [2,0,0,1], [2,0,0,2], [2,0,1,0], [2,0,1,1], [2,0,1,2], [2,0,2,0], [2,0,2,1], [2,0,2,2], [2,1,0,0], [2,1,0,1], [2,1,0,2], [2,1,1,0], [2,1,1,1], [2,1,1,2], [2,1,2,0], [2,1,2,1], [2,1,2,2], [2,2,0,0], [2,2,0,1], [2,2,0,2], [2,2,1,0], [2,2,1,1], [2,2,1,2], [2,2,2,0], [2,2,2,1]]),
  ("dphi".toList, []),
  ("duql".toList, []),
  ("duue".toList, []),
  ("eB".toList, []),
  ("eW".toList, []),
  ("ed".toList, [[0,0,1,0], [0,0,2,0], [0,0,2,1], [1,0,0,0], [1,0,0,1], [1,0,0,2], [1,0,1,0], [1,0,1,1], [1,0,1,2], [1,0,2,0], [1,0,2,1], [1,0,2,2], [1,1,1,0], [1,1,2,0], [1,1,2,1], [2,0,0,0], [2,0,0,1], [2,0,0,2], [2,0,1,0], [2,0,1,1], [2,0,1,2], [2,0,2,0], [2,0,2,1], [2,0,2,2], [2,1,0,0], [2,1,0,1], [2,1,0,2], [2,1,1,0], [2,1,1,1], [2,1,1,2], [2,1,2,0], [2,1,2,1], [2,1,2,2], [2,2,1,0], [2,2,2,0], [2,2,2,1]]),
  ("ee".toList, [[0,0,1,0], [0,0,2,0], [0,0,2,1], [0,1,0,0], [0,1,1,0], [0,1,2,0], [0,2,0,0], [0,2,0,1], [0,2,1,0], [0,2,1,1], [0,2,2,0], [0,2,2,1], [1,0,0,0], [1,0,0,1], [1,0,0,2], [1,0,1,0], [1,0,1,1], [1,0,1,2], [1,0,2,0], [1,0,2,1], [1,0,2,2], [1,1,0,0], [1,1,0,1], [1,1,0,2], [1,1,1,0], [1,1,2,0], [1,1,2,1], [1,2,0,0], [1,2,0,1], [1,2,0,2], [1,2,1,0], [1,2,1,1], [1,2,2,0], [1,2,2,1], [2,0,0,0], [2,0,0,1], [2,0,0,2], [2,0,1,0], [2,0,1,1], [2,0,1,2], [2,0,2,0], [2,0,2,1], [2,0,2,2], [2,1,0,0], [2,1,0,1], [2,1,0,2], [2,1,1,0], [2,1,1,1], [2,1,1,2], [2,1,2,0], [2,1,2,1], [2,1,2,2], [2,2,0,0], [2,2,0,1], [2,2,0,2], [2,2,1,0], [2,2,1,1], [2,2,1,2], [2,2,2,0], [2,2,2,1]]),
  ("ephi".toList, []),
  ("eu".toList, [[0,0,1,0], [0,0,2,0], [0,0,2,1], [1,0,0,0], [1,0,0,1], [1,0,0,2], [1,0,1,0], [1,0,1,1], [1,0,1,2], [1,0,2,0], [1,0,2,1], [1,0,2,2], [1,1,1,0], [1,1,2,0], [1,1,2,1], [2,0,0,0], [2,0,0,1], [2,0,0,2], [2,0,1,0], [2,0,1,1], [2,0,1,2], [2,0,2,0], [2,0,2,1], [2,0,2,2], [2,1,0,0], [2,1,0,1], [2,1,0,2], [2,1,1,0], [2,1,1,1], [2,1,1,2], [2,1,2,0], [2,1,2,1], [2,1,2,2], [2,2,1,0], [2,2,2,0], [2,2,2,1]]),
  ("g".toList, []),
  ("gp".toList, []),
  ("gs".toList, []),
  ("ld".toList, [[0,0,1,0], [0,0,2,0], [0,0,2,1], [1,0,0,0], [1,0,0,1], [1,0,0,2], [1,0,1,0], [1,0,1,1], [1,0,1,2], [1,0,2,0], [1,0,2,1], [1,0,2,2], [1,1,1,0], [1,1,2,0], [1,1,2,1], [2,0,0,0], [2,0,0,1], [2,0,0,2], [2,0,1,0], [2,0,1,1], [2,0,1,2], [2,0,2,0], [2,0,2,1], [2,0,2,2], [2,1,0,0], [2,1,0,1], [2,1,0,2], [2,1,1,0], [2,1,1,1], [2,1,1,2], [2,1,2,0], [2,1,2,1], [2,1,2,2], [2,2,1,0], [2,2,2,0], [2,2,2,1]]),
  ("le".toList, [[0,0,1,0], [0,0,2,0], [0,0,2,1], [1,0,0,0], [1,0,0,1], [1,0,0,2], [1,0,1,0], [1,0,1,1], [1,0,1,2], [1,0,2,0], [1,0,2,1], [1,0,2,2], [1,1,1,0], [1,1,2,0], [1,1,2,1], [2,0,0,0], [2,0,0,1], [2,0,0,2], [2,0,1,0], [2,0,1,1], [2,0,1,2], [2,0,2,0], [2,0,2,1], [2,0,2,2], [2,1,0,0], [2,1,0,1], [2,1,0,2], [2,1,1,0], [2,1,1,1], [2,1,1,2], [2,1,2,0], [2,1,2,1], [2,1,2,2], [2,2,1,0], [2,2,2,0], [2,2,2,1]]),
  ("ledq".toList, []),
  ("lequ1".toList, []),
  ("lequ3".toList, []),
  ("ll".toList, [[0,0,1,0], [0,0,2,0], [0,0,2,1], [0,1,0,0], [0,2,0,0], [0,2,0,1], [0,2,1,0], [1,0,0,0], [1,0,0,1], [1,0,0,2], [1,0,1,0], [1,0,1,1], [1,0,1,2], [1,0,2,0], [1,0,2,1], [1,0,2,2], [1,1,0,0], [1,1,0,1], [1,1,0,2], [1,1,1,0], [1,1,2,0], [1,1,2,1], [1,2,0,0], [1,2,0,1], [1,2,0,2], [1,2,1,0], [1,2,1,1], [1,2,2,0], [2,0,0,0], [2,0,0,1], [2,0,0,2], [2,0,1,0], [2,0,1,1], [2,0,1,2], [2,0,2,0], [2,0,2,1], [2,0,2,2], [2,1,0,0], [2,1,0,1], [2,1,0,2], [2,1,1,0], [2,1,1,1], [2,1,1,2], [2,1,2,0], [2,1,2,1], [2,1,2,2], [2,2,0,0], [2,2,0,1], [2,2,0,2], [2,2,1,0], [2,2,1,1], [2,2,1,2], [2,2,2,0], [2,2,2,1]]),
  ("llphiphi".toList, [[1,0], [2,0], [2,1]]),
  ("lq1".toList, [[0,0,1,0], [0,0,2,0], [0,0,2,1], [1,0,0,0], [1,0,0,1], [1,0,0,2], [1,0,1,0], [1,0,1,1], [1,0,1,2], [1,0,2,0], [1,0,2,1], [1,0,2,2], [1,1,1,0], [1,1,2,0], [1,1,2,1], [2,0,0,0], [2,0,0,1], [2,0,0,2], [2,0,1,0], [2,0,1,1], [2,0,1,2], [2,0,2,0], [2,0,2,1], [2,0,2,2], [2,1,0,0], [2,1,0,1], [2,1,0,2], [2,1,1,0], [2,1,1,1], [2,1,1,2], [2,1,2,0], [2,1,2,1], [2,1,2,2], [2,2,1,0], [2,2,2,0], [2,2,2,1]]),
  ("lq3".toList, [[0,0,1,0], [0,0,2,0], [0,0,2,1], [1,0,0,0], [1,0,0,1], [1,0,0,2], [1,0,1,0], [1,0,1,1], [1,0,1,2], [1,0,2,0], [1,0,2,1], [1,0,2,2], [1,1,1,0], [1,1,2,0], [1,1,2,1], [2,0,0,0], [2,0,0,1], [2,0,0,2], [2,0,1,0], [2,0,1,1], [2,0,1,2], [2,0,2,0], [2,0,2,1], [2,0,2,2], [2,1,0,0], [2,1,0,1], [2,1,0,2], [2,1,1,0], [2,1,1,1], [2,1,1,2], [2,1,2,0], [2,1,2,1], [2,1,2,2], [2,2,1,0], [2,2,2,0], [2,2,2,1]]),
  ("lu".toList, [[0,0,1,0], [0,0,2,0], [0,0,2,1], [1,0,0,0], [1,0,0,1], [1,0,0,2], [1,0,1,0], [1,0,1,1], [1,0,1,2], [1,0,2,0], [1,0,2,1], [1,0,2,2], [1,1,1,0], [1,1,2,0], [1,1,2,1], [2,0,0,0], [2,0,0,1], [2,0,0,2], [2,0,1,0], [2,0,1,1], [2,0,1,2], [2,0,2,0], [2,0,2,1], [2,0,2,2], [2,1,0,0], [2,1,0,1], [2,1,0,2], [2,1,1,0], [2,1,1,1], [2,1,1,2], [2,1,2,0], [2,1,2,1], [2,1,2,2], [2,2,1,0], [2,2,2,0], [2,2,2,1]]),
  ("m2".toList, []),
  ("phi".toList, []),
  ("phiB".toList, []),
  ("phiBox".toList, []),
  ("phiBtilde".toList, []),
  ("phiD".toList, []),
  ("phiG".toList, []),
  ("phiGtilde".toList, []),
  ("phiW".toList, []),
  ("phiWB".toList, []),
  ("phiWtilde".toList, []),
  ("phiWtildeB".toList, []),
  ("phid".toList, [[1,0], [2,0], [2,1]]),
  ("phie".toList, [[1,0], [2,0], [2,1]]),
  ("phil1".toList, [[1,0], [2,0], [2,1]]),
  ("phil3".toList, [[1,0], [2,0], [2,1]]),
  ("phiq1".toList, [[1,0], [2,0], [2,1]]),
  ("phiq3".toList, [[1,0], [2,0], [2,1]]),
  ("phiu".toList, [[1,0], [2,0], [2,1]]),
  ("phiud".toList, []),
  ("qd1".toList, [[0,0,1,0], [0,0,2,0], [0,0,2,1], [1,0,0,0], [1,0,0,1], [1,0,0,2], [1,0,1,0], [1,0,1,1], [1,0,1,2], [1,0,2,0], [1,0,2,1], [1,0,2,2], [1,1,1,0], [1,1,2,0], [1,1,2,1], [2,0,0,0], [2,0,0,1], [2,0,0,2], [2,0,1,0], [2,0,1,1], [2,0,1,2], [2,0,2,0], [2,0,2,1], [2,0,2,2], [2,1,0,0], [2,1,0,1], [2,1,0,2], [2,1,1,0], [2,1,1,1], [2,1,1,2], [2,1,2,0], [2,1,2,1], [2,1,2,2], [2,2,1,0], [2,2,2,0], [2,2,2,1]]),
  ("qd8".toList, [[0,0,1,0], [0,0,2,0], [0,0,2,1], [1,0,0,0], [1,0,0,1], [1,0,0,2], [1,0,1,0], [1,0,1,1], [1,0,1,2], [1,0,2,0], [1,0,2,1], [1,0,2,2], [1,1,1,0], [1,1,2,0], [1,1,2,1], [2,0,0,0], [2,0,0,1], [2,0,0,2], [2,0,1,0], [2,0,1,1], [2,0,1,2], [2,0,2,0], [2,0,2,1], [2,0,2,2], [2,1,0,0], [2,1,0,1], [2,1,0,2], [2,1,1,0], [2,1,1,1], [2,1,1,2], [2,1,2,0], [2,1,2,1], [2,1,2,2], [2,2,1,0], [2,2,2,0], [2,2,2,1]]),
  ("qe".toList, [[0,0,1,0], [0,0,2,0], [0,0,2,1], [1,0,0,0], [1,0,0,1], [1,0,0,2], [1,0,1,0], [1,0,1,1], [1,0,1,2], [1,0,2,0], [1,0,2,1], [1,0,2,2], [1,1,1,0], [1,1,2,0], [1,1,2,1], [2,0,0,0], [2,0,0,1], [2,0,0,2], [2,0,1,0], [2,0,1,1], [2,0,1,2], [2,0,2,0], [2,0,2,1], [2,0,2,2], [2,1,0,0], [2,1,0,1], [2,1,0,2], [2,1,1,0], [2,1,1,1], [2,1,1,2], [2,1,2,0], [2,1,2,1], [2,1,2,2], [2,2,1,0], [2,2,2,0], [2,2,2,1]]),
  ("qq1".toList, [[0,0,1,0], [0,0,2,0], [0,0,2,1], [0,1,0,0], [0,2,0,0], [0,2,0,1], [0,2,1,0], [1,0,0,0], [1,0,0,1], [1,0,0,2], [1,0,1,0], [1,0,1,1], [1,0,1,2], [1,0,2,0], [1,0,2,1], [1,0,2,2], [1,1,0,0], [1,1,0,1], [1,1,0,2], [1,1,1,0], [1,1,2,0], [1,1,2,1], [1,2,0,0], [1,2,0,1], [1,2,0,2], [1,2,1,0], [1,2,1,1], [1,2,2,0], [2,0,0,0], [2,0,0,1], [2,0,0,2], [2,0,1,0], [2,0,1,1], [2,0,1,2], [2,0,2,0], [2,0,2,1], [2,0,2,2], [2,1,0,0], [2,1,0,1], [2,1,0,2], [2,1,1,0], [2,1,1,1], [2,1,1,2], [2,1,2,0], [2,1,2,1], [2,1,2,2], [2,2,0,0], [2,2,0,1], [2,2,0,2], [2,2,1,0], [2,2,1,1], [2,2,1,2], [2,2,2,0], [2,2,2,1]]),
  ("qq3".toList, [[0,0,1,0], [0,0,2,0], [0,0,2,1], [0,1,0,0], [0,2,0,0], [0,2,0,1], [0,2,1,0], [1,0,0,0], [1,0,0,1], [1,0,0,2], [1,0,1,0], [1,0,1,1], [1,0,1,2], [1,0,2,0], [1,0,2,1], [1,0,2,2], [1,1,0,0], [1,1,0,1], [1,1,0,2], [1,1,1,0], [1,1,2,0], [1,1,2,1], [1,2,0,0], [1,2,0,1], [1,2,0,2], [1,2,1,0], [1,2,1,1], [1,2,2,0], [2,0,0,0], [2,0,0,1], [2,0,0,2], [2,0,1,0], [2,0,1,1], [2,0,1,2], [2,0,2,0], [2,0,2,1], [2,0,2,2], [2,1,0,0], [2,1,0,1], [2,1,0,2], [2,1,1,0], [2,1,1,1], [2,1,1,2], [2,1,2,0], [2,1,2,1], [2,1,2,2], [2,2,0,0], [2,2,0,1], [2,2,0,2], [2,2,1,0], [2,2,1,1], [2,2,1,2], [2,2,2,0], [2,2,2,1]]),
  ("qqql".toList, [[1,0,0,0], [1,0,0,1], [1,0,0,2], [1,1,0,0], [1,1,0,1], [1,1,0,2], [2,0,0,0], [2,0,0,1], [2,0,0,2], [2,0,1,0], [2,0,1,1], [2,0,1,2], [2,1,0,0], [2,1,0,1], [2,1,0,2], [2,1,1,0], [2,1,1,1], [2,1,1,2], [2,2,0,0], [2,2,0,1], [2,2,0,2], [2,2,1,0], [2,2,1,1], [2,2,1,2]]),
  ("qque".toList, [[1,0,0,0], [1,0,0,1], [1,0,0,2], [1,0,1,0], [1,0,1,1], [1,0,1,2], [1,0,2,0], [1,0,2,1], [1,0,2,2], [2,0,0,0], [2,0,0,1], [2,0,0,2], [2,0,1,0], [2,0,1,1], [2,0,1,2], [2,0,2,0], [2,0,2,1], [2,0,2,2], [2,1,0,0], [2,1,0,1], [2,1,0,2], [2,1,1,0], [2,1,1,1], [2,1,1,2], [2,1,2,0], [2,1,2,1], [2,1,2,2]]),
  ("qu1".toList, [[0,0,1,0], [0,0,2,0], [0,0,2,1], [1,0,0,0], [1,0,0,1], [1,0,0,2], [1,0,1,0], [1,0,1,1], [1,0,1,2], [1,0,2,0], [1,0,2,1], [1,0,2,2], [1,1,1,0], [1,1,2,0], [1,1,2,1], [2,0,0,0], [2,0,0,1], [2,0,0,2], [2,0,1,0], [2,0,1,1], [2,0,1,2], [2,0,2,0], [2,0,2,1], [2,0,2,2], [2,1,0,0], [2,1,0,1], [2,1,0,2], [2,1,1,0], [2,1,1,1], [2,1,1,2], [2,1,2,0], [2,1,2,1], [2,1,2,2], [2,2,1,0], [2,2,2,0], [2,2,2,1]]),
  ("qu8".toList, [[0,0,1,0], [0,0,2,0], [0,0,2,1], [1,0,0,0], [1,0,0,1], [1,0,0,2], [1,0,1,0], [1,0,1,1], [1,0,1,2], [1,0,2,0], [1,0,2,1], [1,0,2,2], [1,1,1,0], [1,1,2,0], [1,1,2,1], [2,0,0,0], [2,0,0,1], [2,0,0,2], [2,0,1,0], [2,0,1,1], [2,0,1,2], [2,0,2,0], [2,0,2,1], [2,0,2,2], [2,1,0,0], [2,1,0,1], [2,1,0,2], [2,1,1,0], [2,1,1,1], [2,1,1,2], [2,1,2,0], [2,1,2,1], [2,1,2,2], [2,2,1,0], [2,2,2,0], [2,2,2,1]]),
  ("quqd1".toList, []),
  ("quqd8".toList, []),
  ("uB".toList, []),
  ("uG".toList, []),
  ("uW".toList, []),
  ("ud1".toList, [[0,0,1,0], [0,0,2,0], [0,0,2,1], [1,0,0,0], [1,0,0,1], [1,0,0,2], [1,0,1,0], [1,0,1,1], [1,0,1,2], [1,0,2,0], [1,0,2,1], [1,0,2,2], [1,1,1,0], [1,1,2,0], [1,1,2,1], [2,0,0,0], [2,0,0,1], [2,0,0,2], [2,0,1,0], [2,0,1,1], [2,0,1,2], [2,0,2,0], [2,0,2,1], [2,0,2,2], [2,1,0,0], [2,1,0,1], [2,1,0,2], [2,1,1,0], [2,1,1,1], [2,1,1,2], [2,1,2,0], [2,1,2,1], [2,1,2,2], [2,2,1,0], [2,2,2,0], [2,2,2,1]]),
  ("ud8".toList, [[0,0,1,0], [0,0,2,0], [0,0,2,1], [1,0,0,0], [1,0,0,1], [1,0,0,2], [1,0,1,0], [1,0,1,1], [1,0,1,2], [1,0,2,0], [1,0,2,1], [1,0,2,2], [1,1,1,0], [1,1,2,0], [1,1,2,1], [2,0,0,0], [2,0,0,1], [2,0,0,2], [2,0,1,0], [2,0,1,1], [2,0,1,2], [2,0,2,0], [2,0,2,1], [2,0,2,2], [2,1,0,0], [2,1,0,1], [2,1,0,2], [2,1,1,0], [2,1,1,1], [2,1,1,2], [2,1,2,0], [2,1,2,1], [2,1,2,2], [2,2,1,0], [2,2,2,0], [2,2,2,1]]),
  ("uphi".toList, []),
  ("uu".toList, [[0,0,1,0], [0,0,2,0], [0,0,2,1], [0,1,0,0], [0,2,0,0], [0,2,0,1], [0,2,1,0], [1,0,0,0], [1,0,0,1], [1,0,0,2], [1,0,1,0], [1,0,1,1], [1,0,1,2], [1,0,2,0], [1,0,2,1], [1,0,2,2], [1,1,0,0], [1,1,0,1], [1,1,0,2], [1,1,1,0], [1,1,2,0], [1,1,2,1], [1,2,0,0], [1,2,0,1], [1,2,0,2], [1,2,1,0], [1,2,1,1], [1,2,2,0], [2,0,0,0], [2,0,0,1], [2,0,0,2], [2,0,1,0], [2,0,1,1], [2,0,1,2], [2,0,2,0], [2,0,2,1], [2,0,2,2], [2,1,0,0], [2,1,0,1], [2,1,0,2], [2,1,1,0], [2,1,1,1], [2,1,1,2], [2,1,2,0], [2,1,2,1], [2,1,2,2], [2,2,0,0], [2,2,0,1], [2,2,0,2], [2,2,1,0], [2,2,1,1], [2,2,1,2], [2,2,2,0], [2,2,2,1]])]

/-- `vanishing_im_parts`, `wcxf/converters/dsixtools_definitions.py:943-1174`. -/
def dsixVanishingIm : List (List Char × List (List ℕ)) := [
  ("G".toList, []),
  ("Gd".toList, []),
  ("Ge".toList, []),
  ("Gtilde".toList, []),
  ("Gu".toList, []),
  ("Lambda".toList, []),
  ("Theta".toList, []),
  ("Thetap".toList, []),
  ("Thetas".toList, []),
  ("W".toList, []),
  ("Wtilde".toList, []),
  ("dB".toList, []),
  ("dG".toList, []),
  ("dW".toList, []),
  ("dd".toList, [[1,1,2,2], [2,2,2,2], [1,2,2,1], [1,1,1,1], [0,2,2,0], [0,1,1,0], [0,0,0,0], [0,0,1,1], [0,0,2,2]]),
  ("dphi".toList, []),
  ("duql".toList, []),
  ("duue".toList, []),
  ("eB".toList, []),
  ("eW".toList, []),
  ("ed".toList, [[1,1,2,2], [2,2,1,1], [2,2,2,2], [1,1,0,0], [1,1,1,1], [0,0,0,0], [0,0,1,1], [0,0,2,2], [2,2,0,0]]),
  ("ee".toList, [[1,1,2,2], [2,2,2,2], [1,1,1,1], [0,0,0,0], [0,0,1,1], [0,0,2,2]]),
  ("ephi".toList, []),
  ("eu".toList, [[1,1,2,2], [2,2,1,1], [2,2,2,2], [1,1,0,0], [1,1,1,1], [0,0,0,0], [0,0,1,1], [0,0,2,2], [2,2,0,0]]),
  ("g".toList, []),
  ("gp".toList, []),
  ("gs".toList, []),
  ("ld".toList, [[1,1,2,2], [2,2,1,1], [2,2,2,2], [1,1,0,0], [1,1,1,1], [0,0,0,0], [0,0,1,1], [0,0,2,2], [2,2,0,0]]),
  ("le".toList, [[1,1,2,2], [2,2,1,1], [2,2,2,2], [1,1,0,0], [1,1,1,1], [0,0,0,0], [0,0,1,1], [0,0,2,2], [2,2,0,0]]),
  ("ledq".toList, []),
  ("lequ1".toList, []),
  ("lequ3".toList, []),
  ("ll".toList, [[1,1,2,2], [2,2,2,2], [1,2,2,1], [1,1,1,1], [0,2,2,0], [0,1,1,0], [0,0,0,0], [0,0,1,1], [0,0,2,2]]),
  ("llphiphi".toList, []),
  ("lq1".toList, [[1,1,2,2], [2,2,1,1], [2,2,2,2], [1,1,0,0], [1,1,1,1], [0,0,0,0], [0,0,1,1], [0,0,2,2], [2,2,0,0]]),
  ("lq3".toList, [[1,1,2,2], [2,2,1,1], [2,2,2,2], [1,1,0,0], [1,1,1,1], [0,0,0,0], [0,0,1,1], [0,0,2,2], [2,2,0,0]]),
  ("lu".toList, [[1,1,2,2], [2,2,1,1], [2,2,2,2], [1,1,0,0], [1,1,1,1], [0,0,0,0], [0,0,1,1], [0,0,2,2], [2,2,0,0]]),
  ("m2".toList, []),
  ("phi".toList, []),
  ("phiB".toList, []),
  ("phiBox".toList, []),
  ("phiBtilde".toList, []),
  ("phiD".toList, []),
  ("phiG".toList, []),
  ("phiGtilde".toList, []),
  ("phiW".toList, []),
  ("phiWB".toList, []),
  ("phiWtilde".toList, []),
  ("phiWtildeB".toList, []),
  ("phid".toList, [[0,0], [1,1], [2,2]]),
  ("phie".toList, [[0,0], [1,1], [2,2]]),
  ("phil1".toList, [[0,0], [1,1], [2,2]]),
  ("phil3".toList, [[0,0], [1,1], [2,2]]),
  ("phiq1".toList, [[0,0], [1,1], [2,2]]),
  ("phiq3".toList, [[0,0], [1,1], [2,2]]),
  ("phiu".toList, [[0,0], [1,1], [2,2]]),
  ("phiud".toList, []),
  ("qd1".toList, [[1,1,2,2], [2,2,1,1], [2,2,2,2], [1,1,0,0], [1,1,1,1], [0,0,0,0], [0,0,1,1], [0,0,2,2], [2,2,0,0]]),
  ("qd8".toList, [[1,1,2,2], [2,2,1,1], [2,2,2,2], [1,1,0,0], [1,1,1,1], [0,0,0,0], [0,0,1,1], [0,0,2,2], [2,2,0,0]]),
  ("qe".toList, [[1,1,2,2], [2,2,1,1], [2,2,2,2], [1,1,0,0], [1,1,1,1], [0,0,0,0], [0,0,1,1], [0,0,2,2], [2,2,0,0]]),
  ("qq1".toList, [[1,1,2,2], [2,2,2,2], [1,2,2,1], [1,1,1,1], [0,2,2,0], [0,1,1,0], [0,0,0,0], [0,0,1,1], [0,0,2,2]]),
  ("qq3".toList, [[1,1,2,2], [2,2,2,2], [1,2,2,1], [1,1,1,1], [0,2,2,0], [0,1,1,0], [0,0,0,0], [0,0,1,1], [0,0,2,2]]),
  ("qqql".toList, []),
  ("qque".toList, []),
  ("qu1".toList, [[1,1,2,2], [2,2,1,1], [2,2,2,2], [1,1,0,0], [1,1,1,1], [0,0,0,0], [0,0,1,1], [0,0,2,2], [2,2,0,0]]),
  ("qu8".toList, [[1,1,2,2], [2,2,1,1], [2,2,2,2], [1,1,0,0], [1,1,1,1], [0,0,0,0], [0,0,1,1], [0,0,2,2], [2,2,0,0]]),
  ("quqd1".toList, []),
  ("quqd8".toList, []),
  ("uB".toList, []),
  ("uG".toList, []),
  ("uW".toList, []),
  ("ud1".toList, [[1,1,2,2], [2,2,1,1], [2,2,2,2], [1,1,0,0], [1,1,1,1], [0,0,0,0], [0,0,1,1], [0,0,2,2], [2,2,0,0]]),
  ("ud8".toList, [[1,1,2,2], [2,2,1,1], [2,2,2,2], [1,1,0,0], [1,1,1,1], [0,0,0,0], [0,0,1,1], [0,0,2,2], [2,2,0,0]]),
  ("uphi".toList, []),
  ("uu".toList, [[1,1,2,2], [2,2,2,2], [1,2,2,1], [1,1,1,1], [0,2,2,0], [0,1,1,0], [0,0,0,0], [0,0,1,1], [0,0,2,2]])]

/-- `WC_dict_0f`, `wcxf/converters/dsixtools.py:94-110`. -/
def dsixWC0f : List (List Char × List Char × ℕ) := [
  ("G".toList, "WC1".toList, 1),
  ("Gtilde".toList, "WC1".toList, 2),
  ("W".toList, "WC1".toList, 3),
  ("Wtilde".toList, "WC1".toList, 4),
  ("phi".toList, "WC2".toList, 1),
  ("phiBox".toList, "WC3".toList, 1),
  ("phiD".toList, "WC3".toList, 2),
  ("phiG".toList, "WC4".toList, 1),
  ("phiB".toList, "WC4".toList, 2),
  ("phiW".toList, "WC4".toList, 3),
  ("phiWB".toList, "WC4".toList, 4),
  ("phiGtilde".toList, "WC4".toList, 5),
  ("phiBtilde".toList, "WC4".toList, 6),
  ("phiWtilde".toList, "WC4".toList, 7),
  ("phiWtildeB".toList, "WC4".toList, 8)]

end Verif.Gen
