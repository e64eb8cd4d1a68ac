import Verif.Model.Py

/-!
# The dictionary returned by `JMS_to_FormFlavor`

GENERATED by tools/gen_wetout.lean; that this is what the translator returns is proved in
`Lemmas/WetRunsFF`.
-/

set_option autoImplicit false
set_option maxRecDepth 20000

namespace Verif.Gen.WetOut
open Verif.Py

def JMS_to_FormFlavor_0 : List (ℕ × Sym) := [
  (n!"CSRR_bsmm", (.inp n!"SedRR_2223")),
  (n!"CGL_sb", (.div (.conj (.inp n!"dG_32")) (.sqrt (.mul (.mul (.rat 4 1) .pi) (.par n!"alpha_s"))))),
  (n!"CAL_dd", (.div (.conj (.inp n!"dgamma_11")) (.sqrt (.mul (.mul (.rat 4 1) .pi) (.par n!"alpha_e"))))),
  (n!"CTRR_bdbd", (.mul (.div (.rat (-1) 1) (.rat 8 1)) (.div (.inp n!"S8ddRR_1313") (.rat 2 1)))),
  (n!"CTRR_sdsd", (.mul (.div (.rat (-1) 1) (.rat 8 1)) (.div (.inp n!"S8ddRR_1212") (.rat 2 1)))),
  (n!"CSLR_bdbd", (.neg (.inp n!"V8ddLR_1313"))),
  (n!"CSLR_sdsd", (.neg (.inp n!"V8ddLR_1212"))),
  (n!"CAL_sb", (.div (.conj (.inp n!"dgamma_32")) (.sqrt (.mul (.mul (.rat 4 1) .pi) (.par n!"alpha_e"))))),
  (n!"CVLL_cucu", (.conj (.conj (.inp n!"VuuLL_1212")))),
  (n!"CTRR_bsmm", (.inp n!"TedRR_2223")),
  (n!"CSLR_bsmm", (.inp n!"SedRL_2223")),
  (n!"CGR_db", (.div (.inp n!"dG_13") (.sqrt (.mul (.mul (.rat 4 1) .pi) (.par n!"alpha_s"))))),
  (n!"CAL_et", (.div (.conj (.inp n!"egamma_31")) (.sqrt (.mul (.mul (.rat 4 1) .pi) (.par n!"alpha_s"))))),
  (n!"CAR_db", (.div (.inp n!"dgamma_13") (.sqrt (.mul (.mul (.rat 4 1) .pi) (.par n!"alpha_e"))))),
  (n!"CSRL_bdmm", (.conj (.inp n!"SedRL_2231"))),
  (n!"CVRR_bdmm", (.inp n!"VedRR_2213")),
  (n!"CAR_em", (.div (.inp n!"egamma_12") (.sqrt (.mul (.mul (.rat 4 1) .pi) (.par n!"alpha_e"))))),
  (n!"CVRR_bdbd", (.inp n!"VddRR_1313")),
  (n!"CGL_uu", (.div (.conj (.inp n!"uG_11")) (.sqrt (.mul (.mul (.rat 4 1) .pi) (.par n!"alpha_s"))))),
  (n!"CVRR_sdsd", (.inp n!"VddRR_1212")),
  (n!"CAR_mt", (.div (.inp n!"egamma_23") (.sqrt (.mul (.mul (.rat 4 1) .pi) (.par n!"alpha_e"))))),
  (n!"CAL_uu", (.div (.conj (.inp n!"ugamma_11")) (.sqrt (.mul (.mul (.rat 4 1) .pi) (.par n!"alpha_e"))))),
  (n!"CSLL_bdmm", (.conj (.inp n!"SedRR_2231"))),
  (n!"CVLR_bdmm", (.inp n!"VdeLR_1322")),
  (n!"CSRL_bsmm", (.conj (.inp n!"SedRL_2232"))),
  (n!"CVRR_bsmm", (.inp n!"VedRR_2223")),
  (n!"CSLL_bdbd", (.add (.sub (.conj (.inp n!"S1ddRR_3131")) (.div (.conj (.inp n!"S8ddRR_3131")) (.mul (.rat 2 1) (.rat 3 1)))) (.mul (.div (.rat 1 1) (.rat 2 1)) (.div (.conj (.inp n!"S8ddRR_3131")) (.rat 2 1))))),
  (n!"CSLL_sdsd", (.add (.sub (.conj (.inp n!"S1ddRR_2121")) (.div (.conj (.inp n!"S8ddRR_2121")) (.mul (.rat 2 1) (.rat 3 1)))) (.mul (.div (.rat 1 1) (.rat 2 1)) (.div (.conj (.inp n!"S8ddRR_2121")) (.rat 2 1))))),
  (n!"CVLR_bdbd", (.mul (.div (.rat (-1) 1) (.rat 2 1)) (.add (.mul (.rat (-2) 1) (.inp n!"V1ddLR_1313")) (.div (.inp n!"V8ddLR_1313") (.rat 3 1))))),
  (n!"CVLR_sdsd", (.mul (.div (.rat (-1) 1) (.rat 2 1)) (.add (.mul (.rat (-2) 1) (.inp n!"V1ddLR_1212")) (.div (.inp n!"V8ddLR_1212") (.rat 3 1))))),
  (n!"CTLL_bdmm", (.conj (.inp n!"TedRR_2231"))),
  (n!"CSRR_bsbs", (.add (.sub (.inp n!"S1ddRR_2323") (.div (.inp n!"S8ddRR_2323") (.mul (.rat 2 1) (.rat 3 1)))) (.mul (.div (.rat 1 1) (.rat 2 1)) (.div (.inp n!"S8ddRR_2323") (.rat 2 1))))),
  (n!"CGR_dd", (.div (.inp n!"dG_11") (.sqrt (.mul (.mul (.rat 4 1) .pi) (.par n!"alpha_s"))))),
  (n!"CSLL_bsmm", (.conj (.inp n!"SedRR_2232"))),
  (n!"CVLR_bsmm", (.inp n!"VdeLR_2322")),
  (n!"CGR_sb", (.div (.inp n!"dG_23") (.sqrt (.mul (.mul (.rat 4 1) .pi) (.par n!"alpha_s"))))),
  (n!"CTLL_bdbd", (.mul (.div (.rat (-1) 1) (.rat 8 1)) (.div (.conj (.inp n!"S8ddRR_3131")) (.rat 2 1)))),
  (n!"CAR_dd", (.div (.inp n!"dgamma_11") (.sqrt (.mul (.mul (.rat 4 1) .pi) (.par n!"alpha_e"))))),
  (n!"CTLL_sdsd", (.mul (.div (.rat (-1) 1) (.rat 8 1)) (.div (.conj (.inp n!"S8ddRR_2121")) (.rat 2 1)))),
  (n!"CAR_sb", (.div (.inp n!"dgamma_23") (.sqrt (.mul (.mul (.rat 4 1) .pi) (.par n!"alpha_e"))))),
  (n!"CVRL_bdmm", (.inp n!"VedLR_2213")),
  (n!"CTRR_bsbs", (.mul (.div (.rat (-1) 1) (.rat 8 1)) (.div (.inp n!"S8ddRR_2323") (.rat 2 1)))),
  (n!"CSLR_bsbs", (.neg (.inp n!"V8ddLR_2323"))),
  (n!"CTLL_bsmm", (.conj (.inp n!"TedRR_2232"))),
  (n!"CSRR_cucu", (.add (.conj (.sub (.inp n!"S1uuRR_2121") (.div (.inp n!"S8uuRR_2121") (.mul (.rat 2 1) (.rat 3 1))))) (.mul (.div (.rat 1 1) (.rat 2 1)) (.conj (.div (.inp n!"S8uuRR_2121") (.rat 2 1)))))),
  (n!"CAR_et", (.div (.inp n!"egamma_13") (.sqrt (.mul (.mul (.rat 4 1) .pi) (.par n!"alpha_e"))))),
  (n!"CVLL_bdmm", (.inp n!"VedLL_2213")),
  (n!"CVRL_bsmm", (.inp n!"VedLR_2223")),
  (n!"CVLL_bdbd", (.inp n!"VddLL_1313")),
  (n!"CVLL_sdsd", (.inp n!"VddLL_1212"))]

def JMS_to_FormFlavor_1 : List (ℕ × Sym) := [
  (n!"CGR_uu", (.div (.inp n!"uG_11") (.sqrt (.mul (.mul (.rat 4 1) .pi) (.par n!"alpha_s"))))),
  (n!"CVRL_sdnn", (.add (.add (.mul (.div (.rat 1 1) (.rat 3 1)) (.conj (.inp n!"VnudLR_1113"))) (.mul (.div (.rat 1 1) (.rat 3 1)) (.conj (.inp n!"VnudLR_2213")))) (.mul (.div (.rat 1 1) (.rat 3 1)) (.conj (.inp n!"VnudLR_3313"))))),
  (n!"CTRR_cucu", (.mul (.div (.rat (-1) 1) (.rat 8 1)) (.div (.inp n!"S8uuRR_2121") (.rat 2 1)))),
  (n!"CAR_uu", (.div (.inp n!"ugamma_11") (.sqrt (.mul (.mul (.rat 4 1) .pi) (.par n!"alpha_e"))))),
  (n!"CSLR_cucu", (.conj (.neg (.conj (.inp n!"V8uuLR_1212"))))),
  (n!"CVRR_bsbs", (.inp n!"VddRR_2323")),
  (n!"CVLL_bsmm", (.inp n!"VedLL_2223")),
  (n!"CVLL_sdnn", (.add (.add (.mul (.div (.rat 1 1) (.rat 3 1)) (.conj (.inp n!"VnudLL_1113"))) (.mul (.div (.rat 1 1) (.rat 3 1)) (.conj (.inp n!"VnudLL_2213")))) (.mul (.div (.rat 1 1) (.rat 3 1)) (.conj (.inp n!"VnudLL_3313"))))),
  (n!"CSLL_bsbs", (.add (.sub (.conj (.inp n!"S1ddRR_3232")) (.div (.conj (.inp n!"S8ddRR_3232")) (.mul (.rat 2 1) (.rat 3 1)))) (.mul (.div (.rat 1 1) (.rat 2 1)) (.div (.conj (.inp n!"S8ddRR_3232")) (.rat 2 1))))),
  (n!"CVLR_bsbs", (.mul (.div (.rat (-1) 1) (.rat 2 1)) (.add (.mul (.rat (-2) 1) (.inp n!"V1ddLR_2323")) (.div (.inp n!"V8ddLR_2323") (.rat 3 1))))),
  (n!"CVRR_cucu", (.conj (.conj (.inp n!"VuuRR_1212")))),
  (n!"CGL_db", (.div (.conj (.inp n!"dG_31")) (.sqrt (.mul (.mul (.rat 4 1) .pi) (.par n!"alpha_s"))))),
  (n!"CTLL_bsbs", (.mul (.div (.rat (-1) 1) (.rat 8 1)) (.div (.conj (.inp n!"S8ddRR_3232")) (.rat 2 1)))),
  (n!"CAL_db", (.div (.conj (.inp n!"dgamma_31")) (.sqrt (.mul (.mul (.rat 4 1) .pi) (.par n!"alpha_e"))))),
  (n!"CAL_em", (.div (.conj (.inp n!"egamma_21")) (.sqrt (.mul (.mul (.rat 4 1) .pi) (.par n!"alpha_s"))))),
  (n!"CSLL_cucu", (.add (.sub (.conj (.inp n!"S1uuRR_1212")) (.div (.conj (.inp n!"S8uuRR_1212")) (.mul (.rat 2 1) (.rat 3 1)))) (.mul (.div (.rat 1 1) (.rat 2 1)) (.conj (.div (.conj (.inp n!"S8uuRR_1212")) (.rat 2 1)))))),
  (n!"CVLR_cucu", (.mul (.div (.rat (-1) 1) (.rat 2 1)) (.conj (.add (.mul (.rat (-2) 1) (.conj (.inp n!"V1uuLR_1212"))) (.div (.conj (.inp n!"V8uuLR_1212")) (.rat 3 1)))))),
  (n!"CAL_mt", (.div (.conj (.inp n!"egamma_32")) (.sqrt (.mul (.mul (.rat 4 1) .pi) (.par n!"alpha_s"))))),
  (n!"CSRR_bdmm", (.inp n!"SedRR_2213")),
  (n!"CTLL_cucu", (.mul (.div (.rat (-1) 1) (.rat 8 1)) (.conj (.div (.conj (.inp n!"S8uuRR_1212")) (.rat 2 1))))),
  (n!"CSRR_bdbd", (.add (.sub (.inp n!"S1ddRR_1313") (.div (.inp n!"S8ddRR_1313") (.mul (.rat 2 1) (.rat 3 1)))) (.mul (.div (.rat 1 1) (.rat 2 1)) (.div (.inp n!"S8ddRR_1313") (.rat 2 1))))),
  (n!"CSRR_sdsd", (.add (.sub (.inp n!"S1ddRR_1212") (.div (.inp n!"S8ddRR_1212") (.mul (.rat 2 1) (.rat 3 1)))) (.mul (.div (.rat 1 1) (.rat 2 1)) (.div (.inp n!"S8ddRR_1212") (.rat 2 1))))),
  (n!"CVLL_bsbs", (.inp n!"VddLL_2323")),
  (n!"CTRR_bdmm", (.inp n!"TedRR_2213")),
  (n!"CSLR_bdmm", (.inp n!"SedRL_2213")),
  (n!"CGL_dd", (.div (.conj (.inp n!"dG_11")) (.sqrt (.mul (.mul (.rat 4 1) .pi) (.par n!"alpha_s")))))]

/-- the items returned by `JMS_to_FormFlavor` (in the order of the search tree of the model) -/
def JMS_to_FormFlavor : List (ℕ × Sym) :=
  JMS_to_FormFlavor_0 ++ (JMS_to_FormFlavor_1)

end Verif.Gen.WetOut
