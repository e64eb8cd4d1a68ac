import Verif.Model.PyStr

/-!
# The names of the coefficients of the JMS basis

Generated by `tools/gen_jmskeys.py` from /repo/wilson/data/run_wet_definitions_coeffs.json
(the lists of the coefficients of the sectors), as a binary search tree.
-/

set_option autoImplicit false

namespace Verif.Gen.JmsKeys
open Verif.Py

def keyslllll : NTree := (.node (.node (.node (.node (.node (.node (.node .leaf n!"G" .leaf) n!"dG_11" .leaf) n!"dG_12" (.node .leaf n!"dG_13" .leaf)) n!"dG_21" (.node (.node .leaf n!"dG_22" .leaf) n!"dG_23" (.node .leaf n!"dG_31" .leaf))) n!"dG_32" (.node (.node (.node (.node .leaf n!"dG_33" .leaf) n!"uG_11" .leaf) n!"uG_12" (.node .leaf n!"uG_21" .leaf)) n!"uG_22" (.node (.node .leaf n!"Gtilde" .leaf) n!"dgamma_11" (.node .leaf n!"dgamma_12" .leaf)))) n!"dgamma_13" (.node (.node (.node (.node (.node .leaf n!"dgamma_21" .leaf) n!"dgamma_22" .leaf) n!"dgamma_23" (.node .leaf n!"dgamma_31" .leaf)) n!"dgamma_32" (.node (.node .leaf n!"dgamma_33" .leaf) n!"egamma_11" (.node .leaf n!"egamma_12" .leaf))) n!"egamma_13" (.node (.node (.node (.node .leaf n!"egamma_21" .leaf) n!"egamma_22" .leaf) n!"egamma_23" (.node .leaf n!"egamma_31" .leaf)) n!"egamma_32" (.node (.node .leaf n!"egamma_33" .leaf) n!"ugamma_11" (.node .leaf n!"ugamma_12" .leaf))))) n!"ugamma_21" (.node (.node (.node (.node (.node (.node .leaf n!"ugamma_22" .leaf) n!"SedRL_1111" .leaf) n!"SedRL_1112" (.node .leaf n!"SedRL_1113" .leaf)) n!"SedRL_1121" (.node (.node .leaf n!"SedRL_1122" .leaf) n!"SedRL_1123" (.node .leaf n!"SedRL_1131" .leaf))) n!"SedRL_1132" (.node (.node (.node (.node .leaf n!"SedRL_1133" .leaf) n!"SedRL_1211" .leaf) n!"SedRL_1212" (.node .leaf n!"SedRL_1213" .leaf)) n!"SedRL_1221" (.node (.node .leaf n!"SedRL_1222" .leaf) n!"SedRL_1223" (.node .leaf n!"SedRL_1231" .leaf)))) n!"SedRL_1232" (.node (.node (.node (.node (.node .leaf n!"SedRL_1233" .leaf) n!"SedRL_1311" .leaf) n!"SedRL_1312" (.node .leaf n!"SedRL_1313" .leaf)) n!"SedRL_1321" (.node (.node .leaf n!"SedRL_1322" .leaf) n!"SedRL_1323" (.node .leaf n!"SedRL_1331" .leaf))) n!"SedRL_1332" (.node (.node (.node .leaf n!"SedRL_1333" .leaf) n!"SedRL_2111" (.node .leaf n!"SedRL_2112" .leaf)) n!"SedRL_2113" (.node (.node .leaf n!"SedRL_2121" .leaf) n!"SedRL_2122" (.node .leaf n!"SedRL_2123" .leaf))))))

def keysllllr : NTree := (.node (.node (.node (.node (.node (.node (.node .leaf n!"SedRL_2132" .leaf) n!"SedRL_2133" .leaf) n!"SedRL_2211" (.node .leaf n!"SedRL_2212" .leaf)) n!"SedRL_2213" (.node (.node .leaf n!"SedRL_2221" .leaf) n!"SedRL_2222" (.node .leaf n!"SedRL_2223" .leaf))) n!"SedRL_2231" (.node (.node (.node (.node .leaf n!"SedRL_2232" .leaf) n!"SedRL_2233" .leaf) n!"SedRL_2311" (.node .leaf n!"SedRL_2312" .leaf)) n!"SedRL_2313" (.node (.node .leaf n!"SedRL_2321" .leaf) n!"SedRL_2322" (.node .leaf n!"SedRL_2323" .leaf)))) n!"SedRL_2331" (.node (.node (.node (.node (.node .leaf n!"SedRL_2332" .leaf) n!"SedRL_2333" .leaf) n!"SedRL_3111" (.node .leaf n!"SedRL_3112" .leaf)) n!"SedRL_3113" (.node (.node .leaf n!"SedRL_3121" .leaf) n!"SedRL_3122" (.node .leaf n!"SedRL_3123" .leaf))) n!"SedRL_3131" (.node (.node (.node (.node .leaf n!"SedRL_3132" .leaf) n!"SedRL_3133" .leaf) n!"SedRL_3211" (.node .leaf n!"SedRL_3212" .leaf)) n!"SedRL_3213" (.node (.node .leaf n!"SedRL_3221" .leaf) n!"SedRL_3222" (.node .leaf n!"SedRL_3223" .leaf))))) n!"SedRL_3231" (.node (.node (.node (.node (.node (.node .leaf n!"SedRL_3232" .leaf) n!"SedRL_3233" .leaf) n!"SedRL_3311" (.node .leaf n!"SedRL_3312" .leaf)) n!"SedRL_3313" (.node (.node .leaf n!"SedRL_3321" .leaf) n!"SedRL_3322" (.node .leaf n!"SedRL_3323" .leaf))) n!"SedRL_3331" (.node (.node (.node (.node .leaf n!"SedRL_3332" .leaf) n!"SedRL_3333" .leaf) n!"SedRR_1111" (.node .leaf n!"SedRR_1112" .leaf)) n!"SedRR_1113" (.node (.node .leaf n!"SedRR_1121" .leaf) n!"SedRR_1122" (.node .leaf n!"SedRR_1123" .leaf)))) n!"SedRR_1131" (.node (.node (.node (.node (.node .leaf n!"SedRR_1132" .leaf) n!"SedRR_1133" .leaf) n!"SedRR_1211" (.node .leaf n!"SedRR_1212" .leaf)) n!"SedRR_1213" (.node (.node .leaf n!"SedRR_1221" .leaf) n!"SedRR_1222" (.node .leaf n!"SedRR_1223" .leaf))) n!"SedRR_1231" (.node (.node (.node .leaf n!"SedRR_1232" .leaf) n!"SedRR_1233" (.node .leaf n!"SedRR_1311" .leaf)) n!"SedRR_1312" (.node (.node .leaf n!"SedRR_1313" .leaf) n!"SedRR_1321" (.node .leaf n!"SedRR_1322" .leaf))))))

def keysllll : NTree := .node keyslllll n!"SedRL_2131" keysllllr

def keyslllrl : NTree := (.node (.node (.node (.node (.node (.node (.node .leaf n!"SedRR_1331" .leaf) n!"SedRR_1332" .leaf) n!"SedRR_1333" (.node .leaf n!"SedRR_2111" .leaf)) n!"SedRR_2112" (.node (.node .leaf n!"SedRR_2113" .leaf) n!"SedRR_2121" (.node .leaf n!"SedRR_2122" .leaf))) n!"SedRR_2123" (.node (.node (.node (.node .leaf n!"SedRR_2131" .leaf) n!"SedRR_2132" .leaf) n!"SedRR_2133" (.node .leaf n!"SedRR_2211" .leaf)) n!"SedRR_2212" (.node (.node .leaf n!"SedRR_2213" .leaf) n!"SedRR_2221" (.node .leaf n!"SedRR_2222" .leaf)))) n!"SedRR_2223" (.node (.node (.node (.node (.node .leaf n!"SedRR_2231" .leaf) n!"SedRR_2232" .leaf) n!"SedRR_2233" (.node .leaf n!"SedRR_2311" .leaf)) n!"SedRR_2312" (.node (.node .leaf n!"SedRR_2313" .leaf) n!"SedRR_2321" (.node .leaf n!"SedRR_2322" .leaf))) n!"SedRR_2323" (.node (.node (.node (.node .leaf n!"SedRR_2331" .leaf) n!"SedRR_2332" .leaf) n!"SedRR_2333" (.node .leaf n!"SedRR_3111" .leaf)) n!"SedRR_3112" (.node (.node .leaf n!"SedRR_3113" .leaf) n!"SedRR_3121" (.node .leaf n!"SedRR_3122" .leaf))))) n!"SedRR_3123" (.node (.node (.node (.node (.node (.node .leaf n!"SedRR_3131" .leaf) n!"SedRR_3132" .leaf) n!"SedRR_3133" (.node .leaf n!"SedRR_3211" .leaf)) n!"SedRR_3212" (.node (.node .leaf n!"SedRR_3213" .leaf) n!"SedRR_3221" (.node .leaf n!"SedRR_3222" .leaf))) n!"SedRR_3223" (.node (.node (.node (.node .leaf n!"SedRR_3231" .leaf) n!"SedRR_3232" .leaf) n!"SedRR_3233" (.node .leaf n!"SedRR_3311" .leaf)) n!"SedRR_3312" (.node (.node .leaf n!"SedRR_3313" .leaf) n!"SedRR_3321" (.node .leaf n!"SedRR_3322" .leaf)))) n!"SedRR_3323" (.node (.node (.node (.node (.node .leaf n!"SedRR_3331" .leaf) n!"SedRR_3332" .leaf) n!"SedRR_3333" (.node .leaf n!"SeeRR_1111" .leaf)) n!"SeeRR_1112" (.node (.node .leaf n!"SeeRR_1113" .leaf) n!"SeeRR_1121" (.node .leaf n!"SeeRR_1122" .leaf))) n!"SeeRR_1123" (.node (.node (.node .leaf n!"SeeRR_1131" .leaf) n!"SeeRR_1132" (.node .leaf n!"SeeRR_1133" .leaf)) n!"SeeRR_1212" (.node (.node .leaf n!"SeeRR_1213" .leaf) n!"SeeRR_1221" (.node .leaf n!"SeeRR_1222" .leaf))))))

def keyslllrr : NTree := (.node (.node (.node (.node (.node (.node (.node .leaf n!"SeeRR_1231" .leaf) n!"SeeRR_1232" .leaf) n!"SeeRR_1233" (.node .leaf n!"SeeRR_1313" .leaf)) n!"SeeRR_1321" (.node (.node .leaf n!"SeeRR_1322" .leaf) n!"SeeRR_1323" (.node .leaf n!"SeeRR_1331" .leaf))) n!"SeeRR_1332" (.node (.node (.node (.node .leaf n!"SeeRR_1333" .leaf) n!"SeeRR_2121" .leaf) n!"SeeRR_2122" (.node .leaf n!"SeeRR_2123" .leaf)) n!"SeeRR_2131" (.node (.node .leaf n!"SeeRR_2132" .leaf) n!"SeeRR_2133" (.node .leaf n!"SeeRR_2222" .leaf)))) n!"SeeRR_2223" (.node (.node (.node (.node (.node .leaf n!"SeeRR_2231" .leaf) n!"SeeRR_2232" .leaf) n!"SeeRR_2233" (.node .leaf n!"SeeRR_2323" .leaf)) n!"SeeRR_2331" (.node (.node .leaf n!"SeeRR_2332" .leaf) n!"SeeRR_2333" (.node .leaf n!"SeeRR_3131" .leaf))) n!"SeeRR_3132" (.node (.node (.node .leaf n!"SeeRR_3133" .leaf) n!"SeeRR_3232" (.node .leaf n!"SeeRR_3233" .leaf)) n!"SeeRR_3333" (.node (.node .leaf n!"SeuRL_1111" .leaf) n!"SeuRL_1112" (.node .leaf n!"SeuRL_1121" .leaf))))) n!"SeuRL_1122" (.node (.node (.node (.node (.node (.node .leaf n!"SeuRL_1211" .leaf) n!"SeuRL_1212" .leaf) n!"SeuRL_1221" (.node .leaf n!"SeuRL_1222" .leaf)) n!"SeuRL_1311" (.node (.node .leaf n!"SeuRL_1312" .leaf) n!"SeuRL_1321" (.node .leaf n!"SeuRL_1322" .leaf))) n!"SeuRL_2111" (.node (.node (.node (.node .leaf n!"SeuRL_2112" .leaf) n!"SeuRL_2121" .leaf) n!"SeuRL_2122" (.node .leaf n!"SeuRL_2211" .leaf)) n!"SeuRL_2212" (.node (.node .leaf n!"SeuRL_2221" .leaf) n!"SeuRL_2222" (.node .leaf n!"SeuRL_2311" .leaf)))) n!"SeuRL_2312" (.node (.node (.node (.node (.node .leaf n!"SeuRL_2321" .leaf) n!"SeuRL_2322" .leaf) n!"SeuRL_3111" (.node .leaf n!"SeuRL_3112" .leaf)) n!"SeuRL_3121" (.node (.node .leaf n!"SeuRL_3122" .leaf) n!"SeuRL_3211" (.node .leaf n!"SeuRL_3212" .leaf))) n!"SeuRL_3221" (.node (.node (.node .leaf n!"SeuRL_3222" .leaf) n!"SeuRL_3311" (.node .leaf n!"SeuRL_3312" .leaf)) n!"SeuRL_3321" (.node (.node .leaf n!"SeuRL_3322" .leaf) n!"SeuRR_1111" (.node .leaf n!"SeuRR_1112" .leaf))))))

def keyslllr : NTree := .node keyslllrl n!"SeeRR_1223" keyslllrr

def keyslll : NTree := .node keysllll n!"SedRR_1323" keyslllr

def keysllrll : NTree := (.node (.node (.node (.node (.node (.node (.node .leaf n!"SeuRR_1122" .leaf) n!"SeuRR_1211" .leaf) n!"SeuRR_1212" (.node .leaf n!"SeuRR_1221" .leaf)) n!"SeuRR_1222" (.node (.node .leaf n!"SeuRR_1311" .leaf) n!"SeuRR_1312" (.node .leaf n!"SeuRR_1321" .leaf))) n!"SeuRR_1322" (.node (.node (.node (.node .leaf n!"SeuRR_2111" .leaf) n!"SeuRR_2112" .leaf) n!"SeuRR_2121" (.node .leaf n!"SeuRR_2122" .leaf)) n!"SeuRR_2211" (.node (.node .leaf n!"SeuRR_2212" .leaf) n!"SeuRR_2221" (.node .leaf n!"SeuRR_2222" .leaf)))) n!"SeuRR_2311" (.node (.node (.node (.node (.node .leaf n!"SeuRR_2312" .leaf) n!"SeuRR_2321" .leaf) n!"SeuRR_2322" (.node .leaf n!"SeuRR_3111" .leaf)) n!"SeuRR_3112" (.node (.node .leaf n!"SeuRR_3121" .leaf) n!"SeuRR_3122" (.node .leaf n!"SeuRR_3211" .leaf))) n!"SeuRR_3212" (.node (.node (.node (.node .leaf n!"SeuRR_3221" .leaf) n!"SeuRR_3222" .leaf) n!"SeuRR_3311" (.node .leaf n!"SeuRR_3312" .leaf)) n!"SeuRR_3321" (.node (.node .leaf n!"SeuRR_3322" .leaf) n!"TedRR_1111" (.node .leaf n!"TedRR_1112" .leaf))))) n!"TedRR_1113" (.node (.node (.node (.node (.node (.node .leaf n!"TedRR_1121" .leaf) n!"TedRR_1122" .leaf) n!"TedRR_1123" (.node .leaf n!"TedRR_1131" .leaf)) n!"TedRR_1132" (.node (.node .leaf n!"TedRR_1133" .leaf) n!"TedRR_1211" (.node .leaf n!"TedRR_1212" .leaf))) n!"TedRR_1213" (.node (.node (.node (.node .leaf n!"TedRR_1221" .leaf) n!"TedRR_1222" .leaf) n!"TedRR_1223" (.node .leaf n!"TedRR_1231" .leaf)) n!"TedRR_1232" (.node (.node .leaf n!"TedRR_1233" .leaf) n!"TedRR_1311" (.node .leaf n!"TedRR_1312" .leaf)))) n!"TedRR_1313" (.node (.node (.node (.node (.node .leaf n!"TedRR_1321" .leaf) n!"TedRR_1322" .leaf) n!"TedRR_1323" (.node .leaf n!"TedRR_1331" .leaf)) n!"TedRR_1332" (.node (.node .leaf n!"TedRR_1333" .leaf) n!"TedRR_2111" (.node .leaf n!"TedRR_2112" .leaf))) n!"TedRR_2113" (.node (.node (.node .leaf n!"TedRR_2121" .leaf) n!"TedRR_2122" (.node .leaf n!"TedRR_2123" .leaf)) n!"TedRR_2131" (.node (.node .leaf n!"TedRR_2132" .leaf) n!"TedRR_2133" (.node .leaf n!"TedRR_2211" .leaf))))))

def keysllrlr : NTree := (.node (.node (.node (.node (.node (.node (.node .leaf n!"TedRR_2213" .leaf) n!"TedRR_2221" .leaf) n!"TedRR_2222" (.node .leaf n!"TedRR_2223" .leaf)) n!"TedRR_2231" (.node (.node .leaf n!"TedRR_2232" .leaf) n!"TedRR_2233" (.node .leaf n!"TedRR_2311" .leaf))) n!"TedRR_2312" (.node (.node (.node (.node .leaf n!"TedRR_2313" .leaf) n!"TedRR_2321" .leaf) n!"TedRR_2322" (.node .leaf n!"TedRR_2323" .leaf)) n!"TedRR_2331" (.node (.node .leaf n!"TedRR_2332" .leaf) n!"TedRR_2333" (.node .leaf n!"TedRR_3111" .leaf)))) n!"TedRR_3112" (.node (.node (.node (.node (.node .leaf n!"TedRR_3113" .leaf) n!"TedRR_3121" .leaf) n!"TedRR_3122" (.node .leaf n!"TedRR_3123" .leaf)) n!"TedRR_3131" (.node (.node .leaf n!"TedRR_3132" .leaf) n!"TedRR_3133" (.node .leaf n!"TedRR_3211" .leaf))) n!"TedRR_3212" (.node (.node (.node .leaf n!"TedRR_3213" .leaf) n!"TedRR_3221" (.node .leaf n!"TedRR_3222" .leaf)) n!"TedRR_3223" (.node (.node .leaf n!"TedRR_3231" .leaf) n!"TedRR_3232" (.node .leaf n!"TedRR_3233" .leaf))))) n!"TedRR_3311" (.node (.node (.node (.node (.node (.node .leaf n!"TedRR_3312" .leaf) n!"TedRR_3313" .leaf) n!"TedRR_3321" (.node .leaf n!"TedRR_3322" .leaf)) n!"TedRR_3323" (.node (.node .leaf n!"TedRR_3331" .leaf) n!"TedRR_3332" (.node .leaf n!"TedRR_3333" .leaf))) n!"TeuRR_1111" (.node (.node (.node (.node .leaf n!"TeuRR_1112" .leaf) n!"TeuRR_1121" .leaf) n!"TeuRR_1122" (.node .leaf n!"TeuRR_1211" .leaf)) n!"TeuRR_1212" (.node (.node .leaf n!"TeuRR_1221" .leaf) n!"TeuRR_1222" (.node .leaf n!"TeuRR_1311" .leaf)))) n!"TeuRR_1312" (.node (.node (.node (.node (.node .leaf n!"TeuRR_1321" .leaf) n!"TeuRR_1322" .leaf) n!"TeuRR_2111" (.node .leaf n!"TeuRR_2112" .leaf)) n!"TeuRR_2121" (.node (.node .leaf n!"TeuRR_2122" .leaf) n!"TeuRR_2211" (.node .leaf n!"TeuRR_2212" .leaf))) n!"TeuRR_2221" (.node (.node (.node .leaf n!"TeuRR_2222" .leaf) n!"TeuRR_2311" (.node .leaf n!"TeuRR_2312" .leaf)) n!"TeuRR_2321" (.node (.node .leaf n!"TeuRR_2322" .leaf) n!"TeuRR_3111" (.node .leaf n!"TeuRR_3112" .leaf))))))

def keysllrl : NTree := .node keysllrll n!"TedRR_2212" keysllrlr

def keysllrrl : NTree := (.node (.node (.node (.node (.node (.node (.node .leaf n!"TeuRR_3122" .leaf) n!"TeuRR_3211" .leaf) n!"TeuRR_3212" (.node .leaf n!"TeuRR_3221" .leaf)) n!"TeuRR_3222" (.node (.node .leaf n!"TeuRR_3311" .leaf) n!"TeuRR_3312" (.node .leaf n!"TeuRR_3321" .leaf))) n!"TeuRR_3322" (.node (.node (.node (.node .leaf n!"VddLL_1111" .leaf) n!"VddLL_1112" .leaf) n!"VddLL_1113" (.node .leaf n!"VddLL_1122" .leaf)) n!"VddLL_1123" (.node (.node .leaf n!"VddLL_1133" .leaf) n!"VddLL_1212" (.node .leaf n!"VddLL_1213" .leaf)))) n!"VddLL_1221" (.node (.node (.node (.node (.node .leaf n!"VddLL_1222" .leaf) n!"VddLL_1223" .leaf) n!"VddLL_1231" (.node .leaf n!"VddLL_1232" .leaf)) n!"VddLL_1233" (.node (.node .leaf n!"VddLL_1313" .leaf) n!"VddLL_1322" (.node .leaf n!"VddLL_1323" .leaf))) n!"VddLL_1331" (.node (.node (.node (.node .leaf n!"VddLL_1332" .leaf) n!"VddLL_1333" .leaf) n!"VddLL_2222" (.node .leaf n!"VddLL_2223" .leaf)) n!"VddLL_2233" (.node (.node .leaf n!"VddLL_2323" .leaf) n!"VddLL_2332" (.node .leaf n!"VddLL_2333" .leaf))))) n!"VddLL_3333" (.node (.node (.node (.node (.node (.node .leaf n!"VddRR_1111" .leaf) n!"VddRR_1112" .leaf) n!"VddRR_1113" (.node .leaf n!"VddRR_1122" .leaf)) n!"VddRR_1123" (.node (.node .leaf n!"VddRR_1133" .leaf) n!"VddRR_1212" (.node .leaf n!"VddRR_1213" .leaf))) n!"VddRR_1221" (.node (.node (.node (.node .leaf n!"VddRR_1222" .leaf) n!"VddRR_1223" .leaf) n!"VddRR_1231" (.node .leaf n!"VddRR_1232" .leaf)) n!"VddRR_1233" (.node (.node .leaf n!"VddRR_1313" .leaf) n!"VddRR_1322" (.node .leaf n!"VddRR_1323" .leaf)))) n!"VddRR_1331" (.node (.node (.node (.node (.node .leaf n!"VddRR_1332" .leaf) n!"VddRR_1333" .leaf) n!"VddRR_2222" (.node .leaf n!"VddRR_2223" .leaf)) n!"VddRR_2233" (.node (.node .leaf n!"VddRR_2323" .leaf) n!"VddRR_2332" (.node .leaf n!"VddRR_2333" .leaf))) n!"VddRR_3333" (.node (.node (.node .leaf n!"VdeLR_1111" .leaf) n!"VdeLR_1112" (.node .leaf n!"VdeLR_1113" .leaf)) n!"VdeLR_1122" (.node (.node .leaf n!"VdeLR_1123" .leaf) n!"VdeLR_1133" (.node .leaf n!"VdeLR_1211" .leaf))))))

def keysllrrr : NTree := (.node (.node (.node (.node (.node (.node (.node .leaf n!"VdeLR_1213" .leaf) n!"VdeLR_1221" .leaf) n!"VdeLR_1222" (.node .leaf n!"VdeLR_1223" .leaf)) n!"VdeLR_1231" (.node (.node .leaf n!"VdeLR_1232" .leaf) n!"VdeLR_1233" (.node .leaf n!"VdeLR_1311" .leaf))) n!"VdeLR_1312" (.node (.node (.node (.node .leaf n!"VdeLR_1313" .leaf) n!"VdeLR_1321" .leaf) n!"VdeLR_1322" (.node .leaf n!"VdeLR_1323" .leaf)) n!"VdeLR_1331" (.node (.node .leaf n!"VdeLR_1332" .leaf) n!"VdeLR_1333" (.node .leaf n!"VdeLR_2211" .leaf)))) n!"VdeLR_2212" (.node (.node (.node (.node (.node .leaf n!"VdeLR_2213" .leaf) n!"VdeLR_2222" .leaf) n!"VdeLR_2223" (.node .leaf n!"VdeLR_2233" .leaf)) n!"VdeLR_2311" (.node (.node .leaf n!"VdeLR_2312" .leaf) n!"VdeLR_2313" (.node .leaf n!"VdeLR_2321" .leaf))) n!"VdeLR_2322" (.node (.node (.node .leaf n!"VdeLR_2323" .leaf) n!"VdeLR_2331" (.node .leaf n!"VdeLR_2332" .leaf)) n!"VdeLR_2333" (.node (.node .leaf n!"VdeLR_3311" .leaf) n!"VdeLR_3312" (.node .leaf n!"VdeLR_3313" .leaf))))) n!"VdeLR_3322" (.node (.node (.node (.node (.node (.node .leaf n!"VdeLR_3323" .leaf) n!"VdeLR_3333" .leaf) n!"VedLL_1111" (.node .leaf n!"VedLL_1112" .leaf)) n!"VedLL_1113" (.node (.node .leaf n!"VedLL_1122" .leaf) n!"VedLL_1123" (.node .leaf n!"VedLL_1133" .leaf))) n!"VedLL_1211" (.node (.node (.node (.node .leaf n!"VedLL_1212" .leaf) n!"VedLL_1213" .leaf) n!"VedLL_1221" (.node .leaf n!"VedLL_1222" .leaf)) n!"VedLL_1223" (.node (.node .leaf n!"VedLL_1231" .leaf) n!"VedLL_1232" (.node .leaf n!"VedLL_1233" .leaf)))) n!"VedLL_1311" (.node (.node (.node (.node (.node .leaf n!"VedLL_1312" .leaf) n!"VedLL_1313" .leaf) n!"VedLL_1321" (.node .leaf n!"VedLL_1322" .leaf)) n!"VedLL_1323" (.node (.node .leaf n!"VedLL_1331" .leaf) n!"VedLL_1332" (.node .leaf n!"VedLL_1333" .leaf))) n!"VedLL_2211" (.node (.node (.node .leaf n!"VedLL_2212" .leaf) n!"VedLL_2213" (.node .leaf n!"VedLL_2222" .leaf)) n!"VedLL_2223" (.node (.node .leaf n!"VedLL_2233" .leaf) n!"VedLL_2311" (.node .leaf n!"VedLL_2312" .leaf))))))

def keysllrr : NTree := .node keysllrrl n!"VdeLR_1212" keysllrrr

def keysllr : NTree := .node keysllrl n!"TeuRR_3121" keysllrr

def keysll : NTree := .node keyslll n!"SeuRR_1121" keysllr

def keyslrlll : NTree := (.node (.node (.node (.node (.node (.node (.node .leaf n!"VedLL_2321" .leaf) n!"VedLL_2322" .leaf) n!"VedLL_2323" (.node .leaf n!"VedLL_2331" .leaf)) n!"VedLL_2332" (.node (.node .leaf n!"VedLL_2333" .leaf) n!"VedLL_3311" (.node .leaf n!"VedLL_3312" .leaf))) n!"VedLL_3313" (.node (.node (.node (.node .leaf n!"VedLL_3322" .leaf) n!"VedLL_3323" .leaf) n!"VedLL_3333" (.node .leaf n!"VedLR_1111" .leaf)) n!"VedLR_1112" (.node (.node .leaf n!"VedLR_1113" .leaf) n!"VedLR_1122" (.node .leaf n!"VedLR_1123" .leaf)))) n!"VedLR_1133" (.node (.node (.node (.node (.node .leaf n!"VedLR_1211" .leaf) n!"VedLR_1212" .leaf) n!"VedLR_1213" (.node .leaf n!"VedLR_1221" .leaf)) n!"VedLR_1222" (.node (.node .leaf n!"VedLR_1223" .leaf) n!"VedLR_1231" (.node .leaf n!"VedLR_1232" .leaf))) n!"VedLR_1233" (.node (.node (.node (.node .leaf n!"VedLR_1311" .leaf) n!"VedLR_1312" .leaf) n!"VedLR_1313" (.node .leaf n!"VedLR_1321" .leaf)) n!"VedLR_1322" (.node (.node .leaf n!"VedLR_1323" .leaf) n!"VedLR_1331" (.node .leaf n!"VedLR_1332" .leaf))))) n!"VedLR_1333" (.node (.node (.node (.node (.node (.node .leaf n!"VedLR_2211" .leaf) n!"VedLR_2212" .leaf) n!"VedLR_2213" (.node .leaf n!"VedLR_2222" .leaf)) n!"VedLR_2223" (.node (.node .leaf n!"VedLR_2233" .leaf) n!"VedLR_2311" (.node .leaf n!"VedLR_2312" .leaf))) n!"VedLR_2313" (.node (.node (.node (.node .leaf n!"VedLR_2321" .leaf) n!"VedLR_2322" .leaf) n!"VedLR_2323" (.node .leaf n!"VedLR_2331" .leaf)) n!"VedLR_2332" (.node (.node .leaf n!"VedLR_2333" .leaf) n!"VedLR_3311" (.node .leaf n!"VedLR_3312" .leaf)))) n!"VedLR_3313" (.node (.node (.node (.node (.node .leaf n!"VedLR_3322" .leaf) n!"VedLR_3323" .leaf) n!"VedLR_3333" (.node .leaf n!"VedRR_1111" .leaf)) n!"VedRR_1112" (.node (.node .leaf n!"VedRR_1113" .leaf) n!"VedRR_1122" (.node .leaf n!"VedRR_1123" .leaf))) n!"VedRR_1133" (.node (.node (.node .leaf n!"VedRR_1211" .leaf) n!"VedRR_1212" (.node .leaf n!"VedRR_1213" .leaf)) n!"VedRR_1221" (.node (.node .leaf n!"VedRR_1222" .leaf) n!"VedRR_1223" (.node .leaf n!"VedRR_1231" .leaf))))))

def keyslrllr : NTree := (.node (.node (.node (.node (.node (.node (.node .leaf n!"VedRR_1233" .leaf) n!"VedRR_1311" .leaf) n!"VedRR_1312" (.node .leaf n!"VedRR_1313" .leaf)) n!"VedRR_1321" (.node (.node .leaf n!"VedRR_1322" .leaf) n!"VedRR_1323" (.node .leaf n!"VedRR_1331" .leaf))) n!"VedRR_1332" (.node (.node (.node (.node .leaf n!"VedRR_1333" .leaf) n!"VedRR_2211" .leaf) n!"VedRR_2212" (.node .leaf n!"VedRR_2213" .leaf)) n!"VedRR_2222" (.node (.node .leaf n!"VedRR_2223" .leaf) n!"VedRR_2233" (.node .leaf n!"VedRR_2311" .leaf)))) n!"VedRR_2312" (.node (.node (.node (.node (.node .leaf n!"VedRR_2313" .leaf) n!"VedRR_2321" .leaf) n!"VedRR_2322" (.node .leaf n!"VedRR_2323" .leaf)) n!"VedRR_2331" (.node (.node .leaf n!"VedRR_2332" .leaf) n!"VedRR_2333" (.node .leaf n!"VedRR_3311" .leaf))) n!"VedRR_3312" (.node (.node (.node .leaf n!"VedRR_3313" .leaf) n!"VedRR_3322" (.node .leaf n!"VedRR_3323" .leaf)) n!"VedRR_3333" (.node (.node .leaf n!"VeeLL_1111" .leaf) n!"VeeLL_1112" (.node .leaf n!"VeeLL_1113" .leaf))))) n!"VeeLL_1122" (.node (.node (.node (.node (.node (.node .leaf n!"VeeLL_1123" .leaf) n!"VeeLL_1133" .leaf) n!"VeeLL_1212" (.node .leaf n!"VeeLL_1213" .leaf)) n!"VeeLL_1222" (.node (.node .leaf n!"VeeLL_1223" .leaf) n!"VeeLL_1232" (.node .leaf n!"VeeLL_1233" .leaf))) n!"VeeLL_1313" (.node (.node (.node (.node .leaf n!"VeeLL_1323" .leaf) n!"VeeLL_1333" .leaf) n!"VeeLL_2222" (.node .leaf n!"VeeLL_2223" .leaf)) n!"VeeLL_2233" (.node (.node .leaf n!"VeeLL_2323" .leaf) n!"VeeLL_2333" (.node .leaf n!"VeeLL_3333" .leaf)))) n!"VeeLR_1111" (.node (.node (.node (.node (.node .leaf n!"VeeLR_1112" .leaf) n!"VeeLR_1113" .leaf) n!"VeeLR_1122" (.node .leaf n!"VeeLR_1123" .leaf)) n!"VeeLR_1133" (.node (.node .leaf n!"VeeLR_1211" .leaf) n!"VeeLR_1212" (.node .leaf n!"VeeLR_1213" .leaf))) n!"VeeLR_1221" (.node (.node (.node .leaf n!"VeeLR_1222" .leaf) n!"VeeLR_1223" (.node .leaf n!"VeeLR_1231" .leaf)) n!"VeeLR_1232" (.node (.node .leaf n!"VeeLR_1233" .leaf) n!"VeeLR_1311" (.node .leaf n!"VeeLR_1312" .leaf))))))

def keyslrll : NTree := .node keyslrlll n!"VedRR_1232" keyslrllr

def keyslrlrl : NTree := (.node (.node (.node (.node (.node (.node (.node .leaf n!"VeeLR_1321" .leaf) n!"VeeLR_1322" .leaf) n!"VeeLR_1323" (.node .leaf n!"VeeLR_1331" .leaf)) n!"VeeLR_1332" (.node (.node .leaf n!"VeeLR_1333" .leaf) n!"VeeLR_2211" (.node .leaf n!"VeeLR_2212" .leaf))) n!"VeeLR_2213" (.node (.node (.node (.node .leaf n!"VeeLR_2222" .leaf) n!"VeeLR_2223" .leaf) n!"VeeLR_2233" (.node .leaf n!"VeeLR_2311" .leaf)) n!"VeeLR_2312" (.node (.node .leaf n!"VeeLR_2313" .leaf) n!"VeeLR_2321" (.node .leaf n!"VeeLR_2322" .leaf)))) n!"VeeLR_2323" (.node (.node (.node (.node (.node .leaf n!"VeeLR_2331" .leaf) n!"VeeLR_2332" .leaf) n!"VeeLR_2333" (.node .leaf n!"VeeLR_3311" .leaf)) n!"VeeLR_3312" (.node (.node .leaf n!"VeeLR_3313" .leaf) n!"VeeLR_3322" (.node .leaf n!"VeeLR_3323" .leaf))) n!"VeeLR_3333" (.node (.node (.node (.node .leaf n!"VeeRR_1111" .leaf) n!"VeeRR_1112" .leaf) n!"VeeRR_1113" (.node .leaf n!"VeeRR_1122" .leaf)) n!"VeeRR_1123" (.node (.node .leaf n!"VeeRR_1133" .leaf) n!"VeeRR_1212" (.node .leaf n!"VeeRR_1213" .leaf))))) n!"VeeRR_1222" (.node (.node (.node (.node (.node (.node .leaf n!"VeeRR_1223" .leaf) n!"VeeRR_1232" .leaf) n!"VeeRR_1233" (.node .leaf n!"VeeRR_1313" .leaf)) n!"VeeRR_1323" (.node (.node .leaf n!"VeeRR_1333" .leaf) n!"VeeRR_2222" (.node .leaf n!"VeeRR_2223" .leaf))) n!"VeeRR_2233" (.node (.node (.node (.node .leaf n!"VeeRR_2323" .leaf) n!"VeeRR_2333" .leaf) n!"VeeRR_3333" (.node .leaf n!"VeuLL_1111" .leaf)) n!"VeuLL_1112" (.node (.node .leaf n!"VeuLL_1122" .leaf) n!"VeuLL_1211" (.node .leaf n!"VeuLL_1212" .leaf)))) n!"VeuLL_1221" (.node (.node (.node (.node (.node .leaf n!"VeuLL_1222" .leaf) n!"VeuLL_1311" .leaf) n!"VeuLL_1312" (.node .leaf n!"VeuLL_1321" .leaf)) n!"VeuLL_1322" (.node (.node .leaf n!"VeuLL_2211" .leaf) n!"VeuLL_2212" (.node .leaf n!"VeuLL_2222" .leaf))) n!"VeuLL_2311" (.node (.node (.node .leaf n!"VeuLL_2312" .leaf) n!"VeuLL_2321" (.node .leaf n!"VeuLL_2322" .leaf)) n!"VeuLL_3311" (.node (.node .leaf n!"VeuLL_3312" .leaf) n!"VeuLL_3322" (.node .leaf n!"VeuLR_1111" .leaf))))))

def keyslrlrr : NTree := (.node (.node (.node (.node (.node (.node (.node .leaf n!"VeuLR_1122" .leaf) n!"VeuLR_1211" .leaf) n!"VeuLR_1212" (.node .leaf n!"VeuLR_1221" .leaf)) n!"VeuLR_1222" (.node (.node .leaf n!"VeuLR_1311" .leaf) n!"VeuLR_1312" (.node .leaf n!"VeuLR_1321" .leaf))) n!"VeuLR_1322" (.node (.node (.node (.node .leaf n!"VeuLR_2211" .leaf) n!"VeuLR_2212" .leaf) n!"VeuLR_2222" (.node .leaf n!"VeuLR_2311" .leaf)) n!"VeuLR_2312" (.node (.node .leaf n!"VeuLR_2321" .leaf) n!"VeuLR_2322" (.node .leaf n!"VeuLR_3311" .leaf)))) n!"VeuLR_3312" (.node (.node (.node (.node (.node .leaf n!"VeuLR_3322" .leaf) n!"VeuRR_1111" .leaf) n!"VeuRR_1112" (.node .leaf n!"VeuRR_1122" .leaf)) n!"VeuRR_1211" (.node (.node .leaf n!"VeuRR_1212" .leaf) n!"VeuRR_1221" (.node .leaf n!"VeuRR_1222" .leaf))) n!"VeuRR_1311" (.node (.node (.node .leaf n!"VeuRR_1312" .leaf) n!"VeuRR_1321" (.node .leaf n!"VeuRR_1322" .leaf)) n!"VeuRR_2211" (.node (.node .leaf n!"VeuRR_2212" .leaf) n!"VeuRR_2222" (.node .leaf n!"VeuRR_2311" .leaf))))) n!"VeuRR_2312" (.node (.node (.node (.node (.node (.node .leaf n!"VeuRR_2321" .leaf) n!"VeuRR_2322" .leaf) n!"VeuRR_3311" (.node .leaf n!"VeuRR_3312" .leaf)) n!"VeuRR_3322" (.node (.node .leaf n!"VueLR_1111" .leaf) n!"VueLR_1112" (.node .leaf n!"VueLR_1113" .leaf))) n!"VueLR_1122" (.node (.node (.node (.node .leaf n!"VueLR_1123" .leaf) n!"VueLR_1133" .leaf) n!"VueLR_1211" (.node .leaf n!"VueLR_1212" .leaf)) n!"VueLR_1213" (.node (.node .leaf n!"VueLR_1221" .leaf) n!"VueLR_1222" (.node .leaf n!"VueLR_1223" .leaf)))) n!"VueLR_1231" (.node (.node (.node (.node (.node .leaf n!"VueLR_1232" .leaf) n!"VueLR_1233" .leaf) n!"VueLR_2211" (.node .leaf n!"VueLR_2212" .leaf)) n!"VueLR_2213" (.node (.node .leaf n!"VueLR_2222" .leaf) n!"VueLR_2223" (.node .leaf n!"VueLR_2233" .leaf))) n!"VuuLL_1111" (.node (.node (.node .leaf n!"VuuLL_1112" .leaf) n!"VuuLL_1122" (.node .leaf n!"VuuLL_1212" .leaf)) n!"VuuLL_1221" (.node (.node .leaf n!"VuuLL_1222" .leaf) n!"VuuLL_2222" (.node .leaf n!"VuuRR_1111" .leaf))))))

def keyslrlr : NTree := .node keyslrlrl n!"VeuLR_1112" keyslrlrr

def keyslrl : NTree := .node keyslrll n!"VeeLR_1313" keyslrlr

def keyslrrll : NTree := (.node (.node (.node (.node (.node (.node (.node .leaf n!"VuuRR_1122" .leaf) n!"VuuRR_1212" .leaf) n!"VuuRR_1221" (.node .leaf n!"VuuRR_1222" .leaf)) n!"VuuRR_2222" (.node (.node .leaf n!"S1ddRR_1111" .leaf) n!"S1ddRR_1112" (.node .leaf n!"S1ddRR_1113" .leaf))) n!"S1ddRR_1121" (.node (.node (.node (.node .leaf n!"S1ddRR_1122" .leaf) n!"S1ddRR_1123" .leaf) n!"S1ddRR_1131" (.node .leaf n!"S1ddRR_1132" .leaf)) n!"S1ddRR_1133" (.node (.node .leaf n!"S1ddRR_1212" .leaf) n!"S1ddRR_1213" (.node .leaf n!"S1ddRR_1221" .leaf)))) n!"S1ddRR_1222" (.node (.node (.node (.node (.node .leaf n!"S1ddRR_1223" .leaf) n!"S1ddRR_1231" .leaf) n!"S1ddRR_1232" (.node .leaf n!"S1ddRR_1233" .leaf)) n!"S1ddRR_1313" (.node (.node .leaf n!"S1ddRR_1321" .leaf) n!"S1ddRR_1322" (.node .leaf n!"S1ddRR_1323" .leaf))) n!"S1ddRR_1331" (.node (.node (.node (.node .leaf n!"S1ddRR_1332" .leaf) n!"S1ddRR_1333" .leaf) n!"S1ddRR_2121" (.node .leaf n!"S1ddRR_2122" .leaf)) n!"S1ddRR_2123" (.node (.node .leaf n!"S1ddRR_2131" .leaf) n!"S1ddRR_2132" (.node .leaf n!"S1ddRR_2133" .leaf))))) n!"S1ddRR_2222" (.node (.node (.node (.node (.node (.node .leaf n!"S1ddRR_2223" .leaf) n!"S1ddRR_2231" .leaf) n!"S1ddRR_2232" (.node .leaf n!"S1ddRR_2233" .leaf)) n!"S1ddRR_2323" (.node (.node .leaf n!"S1ddRR_2331" .leaf) n!"S1ddRR_2332" (.node .leaf n!"S1ddRR_2333" .leaf))) n!"S1ddRR_3131" (.node (.node (.node (.node .leaf n!"S1ddRR_3132" .leaf) n!"S1ddRR_3133" .leaf) n!"S1ddRR_3232" (.node .leaf n!"S1ddRR_3233" .leaf)) n!"S1ddRR_3333" (.node (.node .leaf n!"S1udRR_1111" .leaf) n!"S1udRR_1112" (.node .leaf n!"S1udRR_1113" .leaf)))) n!"S1udRR_1121" (.node (.node (.node (.node (.node .leaf n!"S1udRR_1122" .leaf) n!"S1udRR_1123" .leaf) n!"S1udRR_1131" (.node .leaf n!"S1udRR_1132" .leaf)) n!"S1udRR_1133" (.node (.node .leaf n!"S1udRR_1211" .leaf) n!"S1udRR_1212" (.node .leaf n!"S1udRR_1213" .leaf))) n!"S1udRR_1221" (.node (.node (.node .leaf n!"S1udRR_1222" .leaf) n!"S1udRR_1223" (.node .leaf n!"S1udRR_1231" .leaf)) n!"S1udRR_1232" (.node (.node .leaf n!"S1udRR_1233" .leaf) n!"S1udRR_2111" (.node .leaf n!"S1udRR_2112" .leaf))))))

def keyslrrlr : NTree := (.node (.node (.node (.node (.node (.node (.node .leaf n!"S1udRR_2121" .leaf) n!"S1udRR_2122" .leaf) n!"S1udRR_2123" (.node .leaf n!"S1udRR_2131" .leaf)) n!"S1udRR_2132" (.node (.node .leaf n!"S1udRR_2133" .leaf) n!"S1udRR_2211" (.node .leaf n!"S1udRR_2212" .leaf))) n!"S1udRR_2213" (.node (.node (.node (.node .leaf n!"S1udRR_2221" .leaf) n!"S1udRR_2222" .leaf) n!"S1udRR_2223" (.node .leaf n!"S1udRR_2231" .leaf)) n!"S1udRR_2232" (.node (.node .leaf n!"S1udRR_2233" .leaf) n!"S1uuRR_1111" (.node .leaf n!"S1uuRR_1112" .leaf)))) n!"S1uuRR_1121" (.node (.node (.node (.node (.node .leaf n!"S1uuRR_1122" .leaf) n!"S1uuRR_1212" .leaf) n!"S1uuRR_1221" (.node .leaf n!"S1uuRR_1222" .leaf)) n!"S1uuRR_2121" (.node (.node .leaf n!"S1uuRR_2122" .leaf) n!"S1uuRR_2222" (.node .leaf n!"S8ddRR_1111" .leaf))) n!"S8ddRR_1112" (.node (.node (.node .leaf n!"S8ddRR_1113" .leaf) n!"S8ddRR_1121" (.node .leaf n!"S8ddRR_1122" .leaf)) n!"S8ddRR_1123" (.node (.node .leaf n!"S8ddRR_1131" .leaf) n!"S8ddRR_1132" (.node .leaf n!"S8ddRR_1133" .leaf))))) n!"S8ddRR_1212" (.node (.node (.node (.node (.node (.node .leaf n!"S8ddRR_1213" .leaf) n!"S8ddRR_1221" .leaf) n!"S8ddRR_1222" (.node .leaf n!"S8ddRR_1223" .leaf)) n!"S8ddRR_1231" (.node (.node .leaf n!"S8ddRR_1232" .leaf) n!"S8ddRR_1233" (.node .leaf n!"S8ddRR_1313" .leaf))) n!"S8ddRR_1321" (.node (.node (.node (.node .leaf n!"S8ddRR_1322" .leaf) n!"S8ddRR_1323" .leaf) n!"S8ddRR_1331" (.node .leaf n!"S8ddRR_1332" .leaf)) n!"S8ddRR_1333" (.node (.node .leaf n!"S8ddRR_2121" .leaf) n!"S8ddRR_2122" (.node .leaf n!"S8ddRR_2123" .leaf)))) n!"S8ddRR_2131" (.node (.node (.node (.node (.node .leaf n!"S8ddRR_2132" .leaf) n!"S8ddRR_2133" .leaf) n!"S8ddRR_2222" (.node .leaf n!"S8ddRR_2223" .leaf)) n!"S8ddRR_2231" (.node (.node .leaf n!"S8ddRR_2232" .leaf) n!"S8ddRR_2233" (.node .leaf n!"S8ddRR_2323" .leaf))) n!"S8ddRR_2331" (.node (.node (.node .leaf n!"S8ddRR_2332" .leaf) n!"S8ddRR_2333" (.node .leaf n!"S8ddRR_3131" .leaf)) n!"S8ddRR_3132" (.node (.node .leaf n!"S8ddRR_3133" .leaf) n!"S8ddRR_3232" (.node .leaf n!"S8ddRR_3233" .leaf))))))

def keyslrrl : NTree := .node keyslrrll n!"S1udRR_2113" keyslrrlr

def keyslrrrl : NTree := (.node (.node (.node (.node (.node (.node (.node .leaf n!"S8udRR_1111" .leaf) n!"S8udRR_1112" .leaf) n!"S8udRR_1113" (.node .leaf n!"S8udRR_1121" .leaf)) n!"S8udRR_1122" (.node (.node .leaf n!"S8udRR_1123" .leaf) n!"S8udRR_1131" (.node .leaf n!"S8udRR_1132" .leaf))) n!"S8udRR_1133" (.node (.node (.node (.node .leaf n!"S8udRR_1211" .leaf) n!"S8udRR_1212" .leaf) n!"S8udRR_1213" (.node .leaf n!"S8udRR_1221" .leaf)) n!"S8udRR_1222" (.node (.node .leaf n!"S8udRR_1223" .leaf) n!"S8udRR_1231" (.node .leaf n!"S8udRR_1232" .leaf)))) n!"S8udRR_1233" (.node (.node (.node (.node (.node .leaf n!"S8udRR_2111" .leaf) n!"S8udRR_2112" .leaf) n!"S8udRR_2113" (.node .leaf n!"S8udRR_2121" .leaf)) n!"S8udRR_2122" (.node (.node .leaf n!"S8udRR_2123" .leaf) n!"S8udRR_2131" (.node .leaf n!"S8udRR_2132" .leaf))) n!"S8udRR_2133" (.node (.node (.node (.node .leaf n!"S8udRR_2211" .leaf) n!"S8udRR_2212" .leaf) n!"S8udRR_2213" (.node .leaf n!"S8udRR_2221" .leaf)) n!"S8udRR_2222" (.node (.node .leaf n!"S8udRR_2223" .leaf) n!"S8udRR_2231" (.node .leaf n!"S8udRR_2232" .leaf))))) n!"S8udRR_2233" (.node (.node (.node (.node (.node (.node .leaf n!"S8uuRR_1111" .leaf) n!"S8uuRR_1112" .leaf) n!"S8uuRR_1121" (.node .leaf n!"S8uuRR_1122" .leaf)) n!"S8uuRR_1212" (.node (.node .leaf n!"S8uuRR_1221" .leaf) n!"S8uuRR_1222" (.node .leaf n!"S8uuRR_2121" .leaf))) n!"S8uuRR_2122" (.node (.node (.node (.node .leaf n!"S8uuRR_2222" .leaf) n!"SdduRL_1211" .leaf) n!"SdduRL_1212" (.node .leaf n!"SdduRL_1213" .leaf)) n!"SdduRL_1221" (.node (.node .leaf n!"SdduRL_1222" .leaf) n!"SdduRL_1223" (.node .leaf n!"SdduRL_1311" .leaf)))) n!"SdduRL_1312" (.node (.node (.node (.node (.node .leaf n!"SdduRL_1313" .leaf) n!"SdduRL_1321" .leaf) n!"SdduRL_1322" (.node .leaf n!"SdduRL_1323" .leaf)) n!"SdduRL_2311" (.node (.node .leaf n!"SdduRL_2312" .leaf) n!"SdduRL_2313" (.node .leaf n!"SdduRL_2321" .leaf))) n!"SdduRL_2322" (.node (.node (.node .leaf n!"SdduRL_2323" .leaf) n!"SdudRL_1111" (.node .leaf n!"SdudRL_1112" .leaf)) n!"SdudRL_1113" (.node (.node .leaf n!"SdudRL_1121" .leaf) n!"SdudRL_1122" (.node .leaf n!"SdudRL_1123" .leaf))))))

def keyslrrrr : NTree := (.node (.node (.node (.node (.node (.node (.node .leaf n!"SdudRL_1132" .leaf) n!"SdudRL_1133" .leaf) n!"SdudRL_1211" (.node .leaf n!"SdudRL_1212" .leaf)) n!"SdudRL_1213" (.node (.node .leaf n!"SdudRL_1221" .leaf) n!"SdudRL_1222" (.node .leaf n!"SdudRL_1223" .leaf))) n!"SdudRL_1231" (.node (.node (.node (.node .leaf n!"SdudRL_1232" .leaf) n!"SdudRL_1233" .leaf) n!"SdudRL_2111" (.node .leaf n!"SdudRL_2112" .leaf)) n!"SdudRL_2113" (.node (.node .leaf n!"SdudRL_2121" .leaf) n!"SdudRL_2122" (.node .leaf n!"SdudRL_2123" .leaf)))) n!"SdudRL_2131" (.node (.node (.node (.node (.node .leaf n!"SdudRL_2132" .leaf) n!"SdudRL_2133" .leaf) n!"SdudRL_2211" (.node .leaf n!"SdudRL_2212" .leaf)) n!"SdudRL_2213" (.node (.node .leaf n!"SdudRL_2221" .leaf) n!"SdudRL_2222" (.node .leaf n!"SdudRL_2223" .leaf))) n!"SdudRL_2231" (.node (.node (.node .leaf n!"SdudRL_2232" .leaf) n!"SdudRL_2233" (.node .leaf n!"SdudRL_3111" .leaf)) n!"SdudRL_3112" (.node (.node .leaf n!"SdudRL_3113" .leaf) n!"SdudRL_3121" (.node .leaf n!"SdudRL_3122" .leaf))))) n!"SdudRL_3123" (.node (.node (.node (.node (.node (.node .leaf n!"SdudRL_3131" .leaf) n!"SdudRL_3132" .leaf) n!"SdudRL_3133" (.node .leaf n!"SdudRL_3211" .leaf)) n!"SdudRL_3212" (.node (.node .leaf n!"SdudRL_3213" .leaf) n!"SdudRL_3221" (.node .leaf n!"SdudRL_3222" .leaf))) n!"SdudRL_3223" (.node (.node (.node (.node .leaf n!"SdudRL_3231" .leaf) n!"SdudRL_3232" .leaf) n!"SdudRL_3233" (.node .leaf n!"SduuLL_1111" .leaf)) n!"SduuLL_1112" (.node (.node .leaf n!"SduuLL_1113" .leaf) n!"SduuLL_1121" (.node .leaf n!"SduuLL_1122" .leaf)))) n!"SduuLL_1123" (.node (.node (.node (.node (.node .leaf n!"SduuLL_1211" .leaf) n!"SduuLL_1212" .leaf) n!"SduuLL_1213" (.node .leaf n!"SduuLL_1221" .leaf)) n!"SduuLL_1222" (.node (.node .leaf n!"SduuLL_1223" .leaf) n!"SduuLL_2111" (.node .leaf n!"SduuLL_2112" .leaf))) n!"SduuLL_2113" (.node (.node (.node .leaf n!"SduuLL_2121" .leaf) n!"SduuLL_2122" (.node .leaf n!"SduuLL_2123" .leaf)) n!"SduuLL_2211" (.node (.node .leaf n!"SduuLL_2212" .leaf) n!"SduuLL_2213" (.node .leaf n!"SduuLL_2221" .leaf))))))

def keyslrrr : NTree := .node keyslrrrl n!"SdudRL_1131" keyslrrrr

def keyslrr : NTree := .node keyslrrl n!"S8ddRR_3333" keyslrrr

def keyslr : NTree := .node keyslrl n!"VuuRR_1112" keyslrr

def keysl : NTree := .node keysll n!"VedLL_2313" keyslr

def keysrllll : NTree := (.node (.node (.node (.node (.node (.node (.node .leaf n!"SduuLL_2223" .leaf) n!"SduuLL_3111" .leaf) n!"SduuLL_3112" (.node .leaf n!"SduuLL_3113" .leaf)) n!"SduuLL_3121" (.node (.node .leaf n!"SduuLL_3122" .leaf) n!"SduuLL_3123" (.node .leaf n!"SduuLL_3211" .leaf))) n!"SduuLL_3212" (.node (.node (.node (.node .leaf n!"SduuLL_3213" .leaf) n!"SduuLL_3221" .leaf) n!"SduuLL_3222" (.node .leaf n!"SduuLL_3223" .leaf)) n!"SduuLR_1111" (.node (.node .leaf n!"SduuLR_1112" .leaf) n!"SduuLR_1113" (.node .leaf n!"SduuLR_1121" .leaf)))) n!"SduuLR_1122" (.node (.node (.node (.node (.node .leaf n!"SduuLR_1123" .leaf) n!"SduuLR_1211" .leaf) n!"SduuLR_1212" (.node .leaf n!"SduuLR_1213" .leaf)) n!"SduuLR_1221" (.node (.node .leaf n!"SduuLR_1222" .leaf) n!"SduuLR_1223" (.node .leaf n!"SduuLR_2111" .leaf))) n!"SduuLR_2112" (.node (.node (.node (.node .leaf n!"SduuLR_2113" .leaf) n!"SduuLR_2121" .leaf) n!"SduuLR_2122" (.node .leaf n!"SduuLR_2123" .leaf)) n!"SduuLR_2211" (.node (.node .leaf n!"SduuLR_2212" .leaf) n!"SduuLR_2213" (.node .leaf n!"SduuLR_2221" .leaf))))) n!"SduuLR_2222" (.node (.node (.node (.node (.node (.node .leaf n!"SduuLR_2223" .leaf) n!"SduuLR_3111" .leaf) n!"SduuLR_3112" (.node .leaf n!"SduuLR_3113" .leaf)) n!"SduuLR_3121" (.node (.node .leaf n!"SduuLR_3122" .leaf) n!"SduuLR_3123" (.node .leaf n!"SduuLR_3211" .leaf))) n!"SduuLR_3212" (.node (.node (.node (.node .leaf n!"SduuLR_3213" .leaf) n!"SduuLR_3221" .leaf) n!"SduuLR_3222" (.node .leaf n!"SduuLR_3223" .leaf)) n!"SduuRL_1111" (.node (.node .leaf n!"SduuRL_1112" .leaf) n!"SduuRL_1113" (.node .leaf n!"SduuRL_1121" .leaf)))) n!"SduuRL_1122" (.node (.node (.node (.node (.node .leaf n!"SduuRL_1123" .leaf) n!"SduuRL_1211" .leaf) n!"SduuRL_1212" (.node .leaf n!"SduuRL_1213" .leaf)) n!"SduuRL_1221" (.node (.node .leaf n!"SduuRL_1222" .leaf) n!"SduuRL_1223" (.node .leaf n!"SduuRL_2111" .leaf))) n!"SduuRL_2112" (.node (.node (.node .leaf n!"SduuRL_2113" .leaf) n!"SduuRL_2121" (.node .leaf n!"SduuRL_2122" .leaf)) n!"SduuRL_2123" (.node (.node .leaf n!"SduuRL_2211" .leaf) n!"SduuRL_2212" (.node .leaf n!"SduuRL_2213" .leaf))))))

def keysrlllr : NTree := (.node (.node (.node (.node (.node (.node (.node .leaf n!"SduuRL_2222" .leaf) n!"SduuRL_2223" .leaf) n!"SduuRL_3111" (.node .leaf n!"SduuRL_3112" .leaf)) n!"SduuRL_3113" (.node (.node .leaf n!"SduuRL_3121" .leaf) n!"SduuRL_3122" (.node .leaf n!"SduuRL_3123" .leaf))) n!"SduuRL_3211" (.node (.node (.node (.node .leaf n!"SduuRL_3212" .leaf) n!"SduuRL_3213" .leaf) n!"SduuRL_3221" (.node .leaf n!"SduuRL_3222" .leaf)) n!"SduuRL_3223" (.node (.node .leaf n!"SduuRR_1111" .leaf) n!"SduuRR_1112" (.node .leaf n!"SduuRR_1113" .leaf)))) n!"SduuRR_1121" (.node (.node (.node (.node (.node .leaf n!"SduuRR_1122" .leaf) n!"SduuRR_1123" .leaf) n!"SduuRR_1211" (.node .leaf n!"SduuRR_1212" .leaf)) n!"SduuRR_1213" (.node (.node .leaf n!"SduuRR_1221" .leaf) n!"SduuRR_1222" (.node .leaf n!"SduuRR_1223" .leaf))) n!"SduuRR_2111" (.node (.node (.node (.node .leaf n!"SduuRR_2112" .leaf) n!"SduuRR_2113" .leaf) n!"SduuRR_2121" (.node .leaf n!"SduuRR_2122" .leaf)) n!"SduuRR_2123" (.node (.node .leaf n!"SduuRR_2211" .leaf) n!"SduuRR_2212" (.node .leaf n!"SduuRR_2213" .leaf))))) n!"SduuRR_2221" (.node (.node (.node (.node (.node (.node .leaf n!"SduuRR_2222" .leaf) n!"SduuRR_2223" .leaf) n!"SduuRR_3111" (.node .leaf n!"SduuRR_3112" .leaf)) n!"SduuRR_3113" (.node (.node .leaf n!"SduuRR_3121" .leaf) n!"SduuRR_3122" (.node .leaf n!"SduuRR_3123" .leaf))) n!"SduuRR_3211" (.node (.node (.node (.node .leaf n!"SduuRR_3212" .leaf) n!"SduuRR_3213" .leaf) n!"SduuRR_3221" (.node .leaf n!"SduuRR_3222" .leaf)) n!"SduuRR_3223" (.node (.node .leaf n!"SuddLL_1111" .leaf) n!"SuddLL_1112" (.node .leaf n!"SuddLL_1113" .leaf)))) n!"SuddLL_1121" (.node (.node (.node (.node (.node .leaf n!"SuddLL_1122" .leaf) n!"SuddLL_1123" .leaf) n!"SuddLL_1131" (.node .leaf n!"SuddLL_1132" .leaf)) n!"SuddLL_1133" (.node (.node .leaf n!"SuddLL_1211" .leaf) n!"SuddLL_1212" (.node .leaf n!"SuddLL_1213" .leaf))) n!"SuddLL_1221" (.node (.node (.node .leaf n!"SuddLL_1222" .leaf) n!"SuddLL_1223" (.node .leaf n!"SuddLL_1231" .leaf)) n!"SuddLL_1232" (.node (.node .leaf n!"SuddLL_1233" .leaf) n!"SuddLL_1311" (.node .leaf n!"SuddLL_1312" .leaf))))))

def keysrlll : NTree := .node keysrllll n!"SduuRL_2221" keysrlllr

def keysrllrl : NTree := (.node (.node (.node (.node (.node (.node (.node .leaf n!"SuddLL_1321" .leaf) n!"SuddLL_1322" .leaf) n!"SuddLL_1323" (.node .leaf n!"SuddLL_1331" .leaf)) n!"SuddLL_1332" (.node (.node .leaf n!"SuddLL_1333" .leaf) n!"SuddLL_2111" (.node .leaf n!"SuddLL_2112" .leaf))) n!"SuddLL_2113" (.node (.node (.node (.node .leaf n!"SuddLL_2121" .leaf) n!"SuddLL_2122" .leaf) n!"SuddLL_2123" (.node .leaf n!"SuddLL_2131" .leaf)) n!"SuddLL_2132" (.node (.node .leaf n!"SuddLL_2133" .leaf) n!"SuddLL_2211" (.node .leaf n!"SuddLL_2212" .leaf)))) n!"SuddLL_2213" (.node (.node (.node (.node (.node .leaf n!"SuddLL_2221" .leaf) n!"SuddLL_2222" .leaf) n!"SuddLL_2223" (.node .leaf n!"SuddLL_2231" .leaf)) n!"SuddLL_2232" (.node (.node .leaf n!"SuddLL_2233" .leaf) n!"SuddLL_2311" (.node .leaf n!"SuddLL_2312" .leaf))) n!"SuddLL_2313" (.node (.node (.node (.node .leaf n!"SuddLL_2321" .leaf) n!"SuddLL_2322" .leaf) n!"SuddLL_2323" (.node .leaf n!"SuddLL_2331" .leaf)) n!"SuddLL_2332" (.node (.node .leaf n!"SuddLL_2333" .leaf) n!"SuudLR_1211" (.node .leaf n!"SuudLR_1212" .leaf))))) n!"SuudLR_1213" (.node (.node (.node (.node (.node (.node .leaf n!"SuudLR_1221" .leaf) n!"SuudLR_1222" .leaf) n!"SuudLR_1223" (.node .leaf n!"SuudLR_1231" .leaf)) n!"SuudLR_1232" (.node (.node .leaf n!"SuudLR_1233" .leaf) n!"SuudRL_1211" (.node .leaf n!"SuudRL_1212" .leaf))) n!"SuudRL_1213" (.node (.node (.node (.node .leaf n!"SuudRL_1221" .leaf) n!"SuudRL_1222" .leaf) n!"SuudRL_1223" (.node .leaf n!"SuudRL_1231" .leaf)) n!"SuudRL_1232" (.node (.node .leaf n!"SuudRL_1233" .leaf) n!"V1ddLR_1111" (.node .leaf n!"V1ddLR_1112" .leaf)))) n!"V1ddLR_1113" (.node (.node (.node (.node (.node .leaf n!"V1ddLR_1122" .leaf) n!"V1ddLR_1123" .leaf) n!"V1ddLR_1133" (.node .leaf n!"V1ddLR_1211" .leaf)) n!"V1ddLR_1212" (.node (.node .leaf n!"V1ddLR_1213" .leaf) n!"V1ddLR_1221" (.node .leaf n!"V1ddLR_1222" .leaf))) n!"V1ddLR_1223" (.node (.node (.node .leaf n!"V1ddLR_1231" .leaf) n!"V1ddLR_1232" (.node .leaf n!"V1ddLR_1233" .leaf)) n!"V1ddLR_1311" (.node (.node .leaf n!"V1ddLR_1312" .leaf) n!"V1ddLR_1313" (.node .leaf n!"V1ddLR_1321" .leaf))))))

def keysrllrr : NTree := (.node (.node (.node (.node (.node (.node (.node .leaf n!"V1ddLR_1323" .leaf) n!"V1ddLR_1331" .leaf) n!"V1ddLR_1332" (.node .leaf n!"V1ddLR_1333" .leaf)) n!"V1ddLR_2211" (.node (.node .leaf n!"V1ddLR_2212" .leaf) n!"V1ddLR_2213" (.node .leaf n!"V1ddLR_2222" .leaf))) n!"V1ddLR_2223" (.node (.node (.node (.node .leaf n!"V1ddLR_2233" .leaf) n!"V1ddLR_2311" .leaf) n!"V1ddLR_2312" (.node .leaf n!"V1ddLR_2313" .leaf)) n!"V1ddLR_2321" (.node (.node .leaf n!"V1ddLR_2322" .leaf) n!"V1ddLR_2323" (.node .leaf n!"V1ddLR_2331" .leaf)))) n!"V1ddLR_2332" (.node (.node (.node (.node (.node .leaf n!"V1ddLR_2333" .leaf) n!"V1ddLR_3311" .leaf) n!"V1ddLR_3312" (.node .leaf n!"V1ddLR_3313" .leaf)) n!"V1ddLR_3322" (.node (.node .leaf n!"V1ddLR_3323" .leaf) n!"V1ddLR_3333" (.node .leaf n!"V1duLR_1111" .leaf))) n!"V1duLR_1112" (.node (.node (.node .leaf n!"V1duLR_1122" .leaf) n!"V1duLR_1211" (.node .leaf n!"V1duLR_1212" .leaf)) n!"V1duLR_1221" (.node (.node .leaf n!"V1duLR_1222" .leaf) n!"V1duLR_1311" (.node .leaf n!"V1duLR_1312" .leaf))))) n!"V1duLR_1321" (.node (.node (.node (.node (.node (.node .leaf n!"V1duLR_1322" .leaf) n!"V1duLR_2211" .leaf) n!"V1duLR_2212" (.node .leaf n!"V1duLR_2222" .leaf)) n!"V1duLR_2311" (.node (.node .leaf n!"V1duLR_2312" .leaf) n!"V1duLR_2321" (.node .leaf n!"V1duLR_2322" .leaf))) n!"V1duLR_3311" (.node (.node (.node (.node .leaf n!"V1duLR_3312" .leaf) n!"V1duLR_3322" .leaf) n!"V1udLL_1111" (.node .leaf n!"V1udLL_1112" .leaf)) n!"V1udLL_1113" (.node (.node .leaf n!"V1udLL_1122" .leaf) n!"V1udLL_1123" (.node .leaf n!"V1udLL_1133" .leaf)))) n!"V1udLL_1211" (.node (.node (.node (.node (.node .leaf n!"V1udLL_1212" .leaf) n!"V1udLL_1213" .leaf) n!"V1udLL_1221" (.node .leaf n!"V1udLL_1222" .leaf)) n!"V1udLL_1223" (.node (.node .leaf n!"V1udLL_1231" .leaf) n!"V1udLL_1232" (.node .leaf n!"V1udLL_1233" .leaf))) n!"V1udLL_2211" (.node (.node (.node .leaf n!"V1udLL_2212" .leaf) n!"V1udLL_2213" (.node .leaf n!"V1udLL_2222" .leaf)) n!"V1udLL_2223" (.node (.node .leaf n!"V1udLL_2233" .leaf) n!"V1udLR_1111" (.node .leaf n!"V1udLR_1112" .leaf))))))

def keysrllr : NTree := .node keysrllrl n!"V1ddLR_1322" keysrllrr

def keysrll : NTree := .node keysrlll n!"SuddLL_1313" keysrllr

def keysrlrll : NTree := (.node (.node (.node (.node (.node (.node (.node .leaf n!"V1udLR_1122" .leaf) n!"V1udLR_1123" .leaf) n!"V1udLR_1133" (.node .leaf n!"V1udLR_1211" .leaf)) n!"V1udLR_1212" (.node (.node .leaf n!"V1udLR_1213" .leaf) n!"V1udLR_1221" (.node .leaf n!"V1udLR_1222" .leaf))) n!"V1udLR_1223" (.node (.node (.node (.node .leaf n!"V1udLR_1231" .leaf) n!"V1udLR_1232" .leaf) n!"V1udLR_1233" (.node .leaf n!"V1udLR_2211" .leaf)) n!"V1udLR_2212" (.node (.node .leaf n!"V1udLR_2213" .leaf) n!"V1udLR_2222" (.node .leaf n!"V1udLR_2223" .leaf)))) n!"V1udLR_2233" (.node (.node (.node (.node (.node .leaf n!"V1udRR_1111" .leaf) n!"V1udRR_1112" .leaf) n!"V1udRR_1113" (.node .leaf n!"V1udRR_1122" .leaf)) n!"V1udRR_1123" (.node (.node .leaf n!"V1udRR_1133" .leaf) n!"V1udRR_1211" (.node .leaf n!"V1udRR_1212" .leaf))) n!"V1udRR_1213" (.node (.node (.node (.node .leaf n!"V1udRR_1221" .leaf) n!"V1udRR_1222" .leaf) n!"V1udRR_1223" (.node .leaf n!"V1udRR_1231" .leaf)) n!"V1udRR_1232" (.node (.node .leaf n!"V1udRR_1233" .leaf) n!"V1udRR_2211" (.node .leaf n!"V1udRR_2212" .leaf))))) n!"V1udRR_2213" (.node (.node (.node (.node (.node (.node .leaf n!"V1udRR_2222" .leaf) n!"V1udRR_2223" .leaf) n!"V1udRR_2233" (.node .leaf n!"V1uuLR_1111" .leaf)) n!"V1uuLR_1112" (.node (.node .leaf n!"V1uuLR_1122" .leaf) n!"V1uuLR_1211" (.node .leaf n!"V1uuLR_1212" .leaf))) n!"V1uuLR_1221" (.node (.node (.node (.node .leaf n!"V1uuLR_1222" .leaf) n!"V1uuLR_2211" .leaf) n!"V1uuLR_2212" (.node .leaf n!"V1uuLR_2222" .leaf)) n!"V8ddLR_1111" (.node (.node .leaf n!"V8ddLR_1112" .leaf) n!"V8ddLR_1113" (.node .leaf n!"V8ddLR_1122" .leaf)))) n!"V8ddLR_1123" (.node (.node (.node (.node (.node .leaf n!"V8ddLR_1133" .leaf) n!"V8ddLR_1211" .leaf) n!"V8ddLR_1212" (.node .leaf n!"V8ddLR_1213" .leaf)) n!"V8ddLR_1221" (.node (.node .leaf n!"V8ddLR_1222" .leaf) n!"V8ddLR_1223" (.node .leaf n!"V8ddLR_1231" .leaf))) n!"V8ddLR_1232" (.node (.node (.node .leaf n!"V8ddLR_1233" .leaf) n!"V8ddLR_1311" (.node .leaf n!"V8ddLR_1312" .leaf)) n!"V8ddLR_1313" (.node (.node .leaf n!"V8ddLR_1321" .leaf) n!"V8ddLR_1322" (.node .leaf n!"V8ddLR_1323" .leaf))))))

def keysrlrlr : NTree := (.node (.node (.node (.node (.node (.node (.node .leaf n!"V8ddLR_1332" .leaf) n!"V8ddLR_1333" .leaf) n!"V8ddLR_2211" (.node .leaf n!"V8ddLR_2212" .leaf)) n!"V8ddLR_2213" (.node (.node .leaf n!"V8ddLR_2222" .leaf) n!"V8ddLR_2223" (.node .leaf n!"V8ddLR_2233" .leaf))) n!"V8ddLR_2311" (.node (.node (.node (.node .leaf n!"V8ddLR_2312" .leaf) n!"V8ddLR_2313" .leaf) n!"V8ddLR_2321" (.node .leaf n!"V8ddLR_2322" .leaf)) n!"V8ddLR_2323" (.node (.node .leaf n!"V8ddLR_2331" .leaf) n!"V8ddLR_2332" (.node .leaf n!"V8ddLR_2333" .leaf)))) n!"V8ddLR_3311" (.node (.node (.node (.node (.node .leaf n!"V8ddLR_3312" .leaf) n!"V8ddLR_3313" .leaf) n!"V8ddLR_3322" (.node .leaf n!"V8ddLR_3323" .leaf)) n!"V8ddLR_3333" (.node (.node .leaf n!"V8duLR_1111" .leaf) n!"V8duLR_1112" (.node .leaf n!"V8duLR_1122" .leaf))) n!"V8duLR_1211" (.node (.node (.node .leaf n!"V8duLR_1212" .leaf) n!"V8duLR_1221" (.node .leaf n!"V8duLR_1222" .leaf)) n!"V8duLR_1311" (.node (.node .leaf n!"V8duLR_1312" .leaf) n!"V8duLR_1321" (.node .leaf n!"V8duLR_1322" .leaf))))) n!"V8duLR_2211" (.node (.node (.node (.node (.node (.node .leaf n!"V8duLR_2212" .leaf) n!"V8duLR_2222" .leaf) n!"V8duLR_2311" (.node .leaf n!"V8duLR_2312" .leaf)) n!"V8duLR_2321" (.node (.node .leaf n!"V8duLR_2322" .leaf) n!"V8duLR_3311" (.node .leaf n!"V8duLR_3312" .leaf))) n!"V8duLR_3322" (.node (.node (.node (.node .leaf n!"V8udLL_1111" .leaf) n!"V8udLL_1112" .leaf) n!"V8udLL_1113" (.node .leaf n!"V8udLL_1122" .leaf)) n!"V8udLL_1123" (.node (.node .leaf n!"V8udLL_1133" .leaf) n!"V8udLL_1211" (.node .leaf n!"V8udLL_1212" .leaf)))) n!"V8udLL_1213" (.node (.node (.node (.node (.node .leaf n!"V8udLL_1221" .leaf) n!"V8udLL_1222" .leaf) n!"V8udLL_1223" (.node .leaf n!"V8udLL_1231" .leaf)) n!"V8udLL_1232" (.node (.node .leaf n!"V8udLL_1233" .leaf) n!"V8udLL_2211" (.node .leaf n!"V8udLL_2212" .leaf))) n!"V8udLL_2213" (.node (.node (.node .leaf n!"V8udLL_2222" .leaf) n!"V8udLL_2223" (.node .leaf n!"V8udLL_2233" .leaf)) n!"V8udLR_1111" (.node (.node .leaf n!"V8udLR_1112" .leaf) n!"V8udLR_1113" (.node .leaf n!"V8udLR_1122" .leaf))))))

def keysrlrl : NTree := .node keysrlrll n!"V8ddLR_1331" keysrlrlr

def keysrlrrl : NTree := (.node (.node (.node (.node (.node (.node (.node .leaf n!"V8udLR_1133" .leaf) n!"V8udLR_1211" .leaf) n!"V8udLR_1212" (.node .leaf n!"V8udLR_1213" .leaf)) n!"V8udLR_1221" (.node (.node .leaf n!"V8udLR_1222" .leaf) n!"V8udLR_1223" (.node .leaf n!"V8udLR_1231" .leaf))) n!"V8udLR_1232" (.node (.node (.node (.node .leaf n!"V8udLR_1233" .leaf) n!"V8udLR_2211" .leaf) n!"V8udLR_2212" (.node .leaf n!"V8udLR_2213" .leaf)) n!"V8udLR_2222" (.node (.node .leaf n!"V8udLR_2223" .leaf) n!"V8udLR_2233" (.node .leaf n!"V8udRR_1111" .leaf)))) n!"V8udRR_1112" (.node (.node (.node (.node (.node .leaf n!"V8udRR_1113" .leaf) n!"V8udRR_1122" .leaf) n!"V8udRR_1123" (.node .leaf n!"V8udRR_1133" .leaf)) n!"V8udRR_1211" (.node (.node .leaf n!"V8udRR_1212" .leaf) n!"V8udRR_1213" (.node .leaf n!"V8udRR_1221" .leaf))) n!"V8udRR_1222" (.node (.node (.node (.node .leaf n!"V8udRR_1223" .leaf) n!"V8udRR_1231" .leaf) n!"V8udRR_1232" (.node .leaf n!"V8udRR_1233" .leaf)) n!"V8udRR_2211" (.node (.node .leaf n!"V8udRR_2212" .leaf) n!"V8udRR_2213" (.node .leaf n!"V8udRR_2222" .leaf))))) n!"V8udRR_2223" (.node (.node (.node (.node (.node (.node .leaf n!"V8udRR_2233" .leaf) n!"V8uuLR_1111" .leaf) n!"V8uuLR_1112" (.node .leaf n!"V8uuLR_1122" .leaf)) n!"V8uuLR_1211" (.node (.node .leaf n!"V8uuLR_1212" .leaf) n!"V8uuLR_1221" (.node .leaf n!"V8uuLR_1222" .leaf))) n!"V8uuLR_2211" (.node (.node (.node (.node .leaf n!"V8uuLR_2212" .leaf) n!"V8uuLR_2222" .leaf) n!"VnudLL_1111" (.node .leaf n!"VnudLL_1112" .leaf)) n!"VnudLL_1113" (.node (.node .leaf n!"VnudLL_1122" .leaf) n!"VnudLL_1123" (.node .leaf n!"VnudLL_1133" .leaf)))) n!"VnudLL_1211" (.node (.node (.node (.node (.node .leaf n!"VnudLL_1212" .leaf) n!"VnudLL_1213" .leaf) n!"VnudLL_1221" (.node .leaf n!"VnudLL_1222" .leaf)) n!"VnudLL_1223" (.node (.node .leaf n!"VnudLL_1231" .leaf) n!"VnudLL_1232" (.node .leaf n!"VnudLL_1233" .leaf))) n!"VnudLL_1311" (.node (.node (.node .leaf n!"VnudLL_1312" .leaf) n!"VnudLL_1313" (.node .leaf n!"VnudLL_1321" .leaf)) n!"VnudLL_1322" (.node (.node .leaf n!"VnudLL_1323" .leaf) n!"VnudLL_1331" (.node .leaf n!"VnudLL_1332" .leaf))))))

def keysrlrrr : NTree := (.node (.node (.node (.node (.node (.node (.node .leaf n!"VnudLL_2211" .leaf) n!"VnudLL_2212" .leaf) n!"VnudLL_2213" (.node .leaf n!"VnudLL_2222" .leaf)) n!"VnudLL_2223" (.node (.node .leaf n!"VnudLL_2233" .leaf) n!"VnudLL_2311" (.node .leaf n!"VnudLL_2312" .leaf))) n!"VnudLL_2313" (.node (.node (.node (.node .leaf n!"VnudLL_2321" .leaf) n!"VnudLL_2322" .leaf) n!"VnudLL_2323" (.node .leaf n!"VnudLL_2331" .leaf)) n!"VnudLL_2332" (.node (.node .leaf n!"VnudLL_2333" .leaf) n!"VnudLL_3311" (.node .leaf n!"VnudLL_3312" .leaf)))) n!"VnudLL_3313" (.node (.node (.node (.node (.node .leaf n!"VnudLL_3322" .leaf) n!"VnudLL_3323" .leaf) n!"VnudLL_3333" (.node .leaf n!"VnudLR_1111" .leaf)) n!"VnudLR_1112" (.node (.node .leaf n!"VnudLR_1113" .leaf) n!"VnudLR_1122" (.node .leaf n!"VnudLR_1123" .leaf))) n!"VnudLR_1133" (.node (.node (.node .leaf n!"VnudLR_1211" .leaf) n!"VnudLR_1212" (.node .leaf n!"VnudLR_1213" .leaf)) n!"VnudLR_1221" (.node (.node .leaf n!"VnudLR_1222" .leaf) n!"VnudLR_1223" (.node .leaf n!"VnudLR_1231" .leaf))))) n!"VnudLR_1232" (.node (.node (.node (.node (.node (.node .leaf n!"VnudLR_1233" .leaf) n!"VnudLR_1311" .leaf) n!"VnudLR_1312" (.node .leaf n!"VnudLR_1313" .leaf)) n!"VnudLR_1321" (.node (.node .leaf n!"VnudLR_1322" .leaf) n!"VnudLR_1323" (.node .leaf n!"VnudLR_1331" .leaf))) n!"VnudLR_1332" (.node (.node (.node (.node .leaf n!"VnudLR_1333" .leaf) n!"VnudLR_2211" .leaf) n!"VnudLR_2212" (.node .leaf n!"VnudLR_2213" .leaf)) n!"VnudLR_2222" (.node (.node .leaf n!"VnudLR_2223" .leaf) n!"VnudLR_2233" (.node .leaf n!"VnudLR_2311" .leaf)))) n!"VnudLR_2312" (.node (.node (.node (.node (.node .leaf n!"VnudLR_2313" .leaf) n!"VnudLR_2321" .leaf) n!"VnudLR_2322" (.node .leaf n!"VnudLR_2323" .leaf)) n!"VnudLR_2331" (.node (.node .leaf n!"VnudLR_2332" .leaf) n!"VnudLR_2333" (.node .leaf n!"VnudLR_3311" .leaf))) n!"VnudLR_3312" (.node (.node (.node .leaf n!"VnudLR_3313" .leaf) n!"VnudLR_3322" (.node .leaf n!"VnudLR_3323" .leaf)) n!"VnudLR_3333" (.node (.node .leaf n!"VnueLL_1111" .leaf) n!"VnueLL_1112" (.node .leaf n!"VnueLL_1113" .leaf))))))

def keysrlrr : NTree := .node keysrlrrl n!"VnudLL_1333" keysrlrrr

def keysrlr : NTree := .node keysrlrl n!"V8udLR_1123" keysrlrr

def keysrl : NTree := .node keysrll n!"V1udLR_1113" keysrlr

def keysrrlll : NTree := (.node (.node (.node (.node (.node (.node (.node .leaf n!"VnueLL_1123" .leaf) n!"VnueLL_1133" .leaf) n!"VnueLL_1211" (.node .leaf n!"VnueLL_1212" .leaf)) n!"VnueLL_1213" (.node (.node .leaf n!"VnueLL_1221" .leaf) n!"VnueLL_1222" (.node .leaf n!"VnueLL_1223" .leaf))) n!"VnueLL_1231" (.node (.node (.node (.node .leaf n!"VnueLL_1232" .leaf) n!"VnueLL_1233" .leaf) n!"VnueLL_1311" (.node .leaf n!"VnueLL_1312" .leaf)) n!"VnueLL_1313" (.node (.node .leaf n!"VnueLL_1321" .leaf) n!"VnueLL_1322" (.node .leaf n!"VnueLL_1323" .leaf)))) n!"VnueLL_1331" (.node (.node (.node (.node (.node .leaf n!"VnueLL_1332" .leaf) n!"VnueLL_1333" .leaf) n!"VnueLL_2211" (.node .leaf n!"VnueLL_2212" .leaf)) n!"VnueLL_2213" (.node (.node .leaf n!"VnueLL_2222" .leaf) n!"VnueLL_2223" (.node .leaf n!"VnueLL_2233" .leaf))) n!"VnueLL_2311" (.node (.node (.node (.node .leaf n!"VnueLL_2312" .leaf) n!"VnueLL_2313" .leaf) n!"VnueLL_2321" (.node .leaf n!"VnueLL_2322" .leaf)) n!"VnueLL_2323" (.node (.node .leaf n!"VnueLL_2331" .leaf) n!"VnueLL_2332" (.node .leaf n!"VnueLL_2333" .leaf))))) n!"VnueLL_3311" (.node (.node (.node (.node (.node (.node .leaf n!"VnueLL_3312" .leaf) n!"VnueLL_3313" .leaf) n!"VnueLL_3322" (.node .leaf n!"VnueLL_3323" .leaf)) n!"VnueLL_3333" (.node (.node .leaf n!"VnueLR_1111" .leaf) n!"VnueLR_1112" (.node .leaf n!"VnueLR_1113" .leaf))) n!"VnueLR_1122" (.node (.node (.node (.node .leaf n!"VnueLR_1123" .leaf) n!"VnueLR_1133" .leaf) n!"VnueLR_1211" (.node .leaf n!"VnueLR_1212" .leaf)) n!"VnueLR_1213" (.node (.node .leaf n!"VnueLR_1221" .leaf) n!"VnueLR_1222" (.node .leaf n!"VnueLR_1223" .leaf)))) n!"VnueLR_1231" (.node (.node (.node (.node (.node .leaf n!"VnueLR_1232" .leaf) n!"VnueLR_1233" .leaf) n!"VnueLR_1311" (.node .leaf n!"VnueLR_1312" .leaf)) n!"VnueLR_1313" (.node (.node .leaf n!"VnueLR_1321" .leaf) n!"VnueLR_1322" (.node .leaf n!"VnueLR_1323" .leaf))) n!"VnueLR_1331" (.node (.node (.node .leaf n!"VnueLR_1332" .leaf) n!"VnueLR_1333" (.node .leaf n!"VnueLR_2211" .leaf)) n!"VnueLR_2212" (.node (.node .leaf n!"VnueLR_2213" .leaf) n!"VnueLR_2222" (.node .leaf n!"VnueLR_2223" .leaf))))))

def keysrrllr : NTree := (.node (.node (.node (.node (.node (.node (.node .leaf n!"VnueLR_2311" .leaf) n!"VnueLR_2312" .leaf) n!"VnueLR_2313" (.node .leaf n!"VnueLR_2321" .leaf)) n!"VnueLR_2322" (.node (.node .leaf n!"VnueLR_2323" .leaf) n!"VnueLR_2331" (.node .leaf n!"VnueLR_2332" .leaf))) n!"VnueLR_2333" (.node (.node (.node (.node .leaf n!"VnueLR_3311" .leaf) n!"VnueLR_3312" .leaf) n!"VnueLR_3313" (.node .leaf n!"VnueLR_3322" .leaf)) n!"VnueLR_3323" (.node (.node .leaf n!"VnueLR_3333" .leaf) n!"VnuuLL_1111" (.node .leaf n!"VnuuLL_1112" .leaf)))) n!"VnuuLL_1122" (.node (.node (.node (.node (.node .leaf n!"VnuuLL_1211" .leaf) n!"VnuuLL_1212" .leaf) n!"VnuuLL_1221" (.node .leaf n!"VnuuLL_1222" .leaf)) n!"VnuuLL_1311" (.node (.node .leaf n!"VnuuLL_1312" .leaf) n!"VnuuLL_1321" (.node .leaf n!"VnuuLL_1322" .leaf))) n!"VnuuLL_2211" (.node (.node (.node .leaf n!"VnuuLL_2212" .leaf) n!"VnuuLL_2222" (.node .leaf n!"VnuuLL_2311" .leaf)) n!"VnuuLL_2312" (.node (.node .leaf n!"VnuuLL_2321" .leaf) n!"VnuuLL_2322" (.node .leaf n!"VnuuLL_3311" .leaf))))) n!"VnuuLL_3312" (.node (.node (.node (.node (.node (.node .leaf n!"VnuuLL_3322" .leaf) n!"VnuuLR_1111" .leaf) n!"VnuuLR_1112" (.node .leaf n!"VnuuLR_1122" .leaf)) n!"VnuuLR_1211" (.node (.node .leaf n!"VnuuLR_1212" .leaf) n!"VnuuLR_1221" (.node .leaf n!"VnuuLR_1222" .leaf))) n!"VnuuLR_1311" (.node (.node (.node (.node .leaf n!"VnuuLR_1312" .leaf) n!"VnuuLR_1321" .leaf) n!"VnuuLR_1322" (.node .leaf n!"VnuuLR_2211" .leaf)) n!"VnuuLR_2212" (.node (.node .leaf n!"VnuuLR_2222" .leaf) n!"VnuuLR_2311" (.node .leaf n!"VnuuLR_2312" .leaf)))) n!"VnuuLR_2321" (.node (.node (.node (.node (.node .leaf n!"VnuuLR_2322" .leaf) n!"VnuuLR_3311" .leaf) n!"VnuuLR_3312" (.node .leaf n!"VnuuLR_3322" .leaf)) n!"VnunuLL_1111" (.node (.node .leaf n!"VnunuLL_1112" .leaf) n!"VnunuLL_1113" (.node .leaf n!"VnunuLL_1122" .leaf))) n!"VnunuLL_1123" (.node (.node (.node .leaf n!"VnunuLL_1133" .leaf) n!"VnunuLL_1212" (.node .leaf n!"VnunuLL_1213" .leaf)) n!"VnunuLL_1222" (.node (.node .leaf n!"VnunuLL_1223" .leaf) n!"VnunuLL_1232" (.node .leaf n!"VnunuLL_1233" .leaf))))))

def keysrrll : NTree := .node keysrrlll n!"VnueLR_2233" keysrrllr

def keysrrlrl : NTree := (.node (.node (.node (.node (.node (.node (.node .leaf n!"VnunuLL_1323" .leaf) n!"VnunuLL_1333" .leaf) n!"VnunuLL_2222" (.node .leaf n!"VnunuLL_2223" .leaf)) n!"VnunuLL_2233" (.node (.node .leaf n!"VnunuLL_2323" .leaf) n!"VnunuLL_2333" (.node .leaf n!"VnunuLL_3333" .leaf))) n!"S1udduRR_1111" (.node (.node (.node (.node .leaf n!"S1udduRR_1112" .leaf) n!"S1udduRR_1121" .leaf) n!"S1udduRR_1122" (.node .leaf n!"S1udduRR_1131" .leaf)) n!"S1udduRR_1132" (.node (.node .leaf n!"S1udduRR_1211" .leaf) n!"S1udduRR_1212" (.node .leaf n!"S1udduRR_1221" .leaf)))) n!"S1udduRR_1222" (.node (.node (.node (.node (.node .leaf n!"S1udduRR_1231" .leaf) n!"S1udduRR_1232" .leaf) n!"S1udduRR_1311" (.node .leaf n!"S1udduRR_1312" .leaf)) n!"S1udduRR_1321" (.node (.node .leaf n!"S1udduRR_1322" .leaf) n!"S1udduRR_1331" (.node .leaf n!"S1udduRR_1332" .leaf))) n!"S1udduRR_2111" (.node (.node (.node (.node .leaf n!"S1udduRR_2112" .leaf) n!"S1udduRR_2121" .leaf) n!"S1udduRR_2122" (.node .leaf n!"S1udduRR_2131" .leaf)) n!"S1udduRR_2132" (.node (.node .leaf n!"S1udduRR_2211" .leaf) n!"S1udduRR_2212" (.node .leaf n!"S1udduRR_2221" .leaf))))) n!"S1udduRR_2222" (.node (.node (.node (.node (.node (.node .leaf n!"S1udduRR_2231" .leaf) n!"S1udduRR_2232" .leaf) n!"S1udduRR_2311" (.node .leaf n!"S1udduRR_2312" .leaf)) n!"S1udduRR_2321" (.node (.node .leaf n!"S1udduRR_2322" .leaf) n!"S1udduRR_2331" (.node .leaf n!"S1udduRR_2332" .leaf))) n!"S8udduRR_1111" (.node (.node (.node (.node .leaf n!"S8udduRR_1112" .leaf) n!"S8udduRR_1121" .leaf) n!"S8udduRR_1122" (.node .leaf n!"S8udduRR_1131" .leaf)) n!"S8udduRR_1132" (.node (.node .leaf n!"S8udduRR_1211" .leaf) n!"S8udduRR_1212" (.node .leaf n!"S8udduRR_1221" .leaf)))) n!"S8udduRR_1222" (.node (.node (.node (.node (.node .leaf n!"S8udduRR_1231" .leaf) n!"S8udduRR_1232" .leaf) n!"S8udduRR_1311" (.node .leaf n!"S8udduRR_1312" .leaf)) n!"S8udduRR_1321" (.node (.node .leaf n!"S8udduRR_1322" .leaf) n!"S8udduRR_1331" (.node .leaf n!"S8udduRR_1332" .leaf))) n!"S8udduRR_2111" (.node (.node (.node .leaf n!"S8udduRR_2112" .leaf) n!"S8udduRR_2121" (.node .leaf n!"S8udduRR_2122" .leaf)) n!"S8udduRR_2131" (.node (.node .leaf n!"S8udduRR_2132" .leaf) n!"S8udduRR_2211" (.node .leaf n!"S8udduRR_2212" .leaf))))))

def keysrrlrr : NTree := (.node (.node (.node (.node (.node (.node (.node .leaf n!"S8udduRR_2222" .leaf) n!"S8udduRR_2231" .leaf) n!"S8udduRR_2232" (.node .leaf n!"S8udduRR_2311" .leaf)) n!"S8udduRR_2312" (.node (.node .leaf n!"S8udduRR_2321" .leaf) n!"S8udduRR_2322" (.node .leaf n!"S8udduRR_2331" .leaf))) n!"S8udduRR_2332" (.node (.node (.node (.node .leaf n!"SnueduRL_1111" .leaf) n!"SnueduRL_1112" .leaf) n!"SnueduRL_1121" (.node .leaf n!"SnueduRL_1122" .leaf)) n!"SnueduRL_1131" (.node (.node .leaf n!"SnueduRL_1132" .leaf) n!"SnueduRL_1211" (.node .leaf n!"SnueduRL_1212" .leaf)))) n!"SnueduRL_1221" (.node (.node (.node (.node (.node .leaf n!"SnueduRL_1222" .leaf) n!"SnueduRL_1231" .leaf) n!"SnueduRL_1232" (.node .leaf n!"SnueduRL_1311" .leaf)) n!"SnueduRL_1312" (.node (.node .leaf n!"SnueduRL_1321" .leaf) n!"SnueduRL_1322" (.node .leaf n!"SnueduRL_1331" .leaf))) n!"SnueduRL_1332" (.node (.node (.node .leaf n!"SnueduRL_2111" .leaf) n!"SnueduRL_2112" (.node .leaf n!"SnueduRL_2121" .leaf)) n!"SnueduRL_2122" (.node (.node .leaf n!"SnueduRL_2131" .leaf) n!"SnueduRL_2132" (.node .leaf n!"SnueduRL_2211" .leaf))))) n!"SnueduRL_2212" (.node (.node (.node (.node (.node (.node .leaf n!"SnueduRL_2221" .leaf) n!"SnueduRL_2222" .leaf) n!"SnueduRL_2231" (.node .leaf n!"SnueduRL_2232" .leaf)) n!"SnueduRL_2311" (.node (.node .leaf n!"SnueduRL_2312" .leaf) n!"SnueduRL_2321" (.node .leaf n!"SnueduRL_2322" .leaf))) n!"SnueduRL_2331" (.node (.node (.node (.node .leaf n!"SnueduRL_2332" .leaf) n!"SnueduRL_3111" .leaf) n!"SnueduRL_3112" (.node .leaf n!"SnueduRL_3121" .leaf)) n!"SnueduRL_3122" (.node (.node .leaf n!"SnueduRL_3131" .leaf) n!"SnueduRL_3132" (.node .leaf n!"SnueduRL_3211" .leaf)))) n!"SnueduRL_3212" (.node (.node (.node (.node (.node .leaf n!"SnueduRL_3221" .leaf) n!"SnueduRL_3222" .leaf) n!"SnueduRL_3231" (.node .leaf n!"SnueduRL_3232" .leaf)) n!"SnueduRL_3311" (.node (.node .leaf n!"SnueduRL_3312" .leaf) n!"SnueduRL_3321" (.node .leaf n!"SnueduRL_3322" .leaf))) n!"SnueduRL_3331" (.node (.node (.node .leaf n!"SnueduRL_3332" .leaf) n!"SnueduRR_1111" (.node .leaf n!"SnueduRR_1112" .leaf)) n!"SnueduRR_1121" (.node (.node .leaf n!"SnueduRR_1122" .leaf) n!"SnueduRR_1131" (.node .leaf n!"SnueduRR_1132" .leaf))))))

def keysrrlr : NTree := .node keysrrlrl n!"S8udduRR_2221" keysrrlrr

def keysrrl : NTree := .node keysrrll n!"VnunuLL_1313" keysrrlr

def keysrrrll : NTree := (.node (.node (.node (.node (.node (.node (.node .leaf n!"SnueduRR_1212" .leaf) n!"SnueduRR_1221" .leaf) n!"SnueduRR_1222" (.node .leaf n!"SnueduRR_1231" .leaf)) n!"SnueduRR_1232" (.node (.node .leaf n!"SnueduRR_1311" .leaf) n!"SnueduRR_1312" (.node .leaf n!"SnueduRR_1321" .leaf))) n!"SnueduRR_1322" (.node (.node (.node (.node .leaf n!"SnueduRR_1331" .leaf) n!"SnueduRR_1332" .leaf) n!"SnueduRR_2111" (.node .leaf n!"SnueduRR_2112" .leaf)) n!"SnueduRR_2121" (.node (.node .leaf n!"SnueduRR_2122" .leaf) n!"SnueduRR_2131" (.node .leaf n!"SnueduRR_2132" .leaf)))) n!"SnueduRR_2211" (.node (.node (.node (.node (.node .leaf n!"SnueduRR_2212" .leaf) n!"SnueduRR_2221" .leaf) n!"SnueduRR_2222" (.node .leaf n!"SnueduRR_2231" .leaf)) n!"SnueduRR_2232" (.node (.node .leaf n!"SnueduRR_2311" .leaf) n!"SnueduRR_2312" (.node .leaf n!"SnueduRR_2321" .leaf))) n!"SnueduRR_2322" (.node (.node (.node (.node .leaf n!"SnueduRR_2331" .leaf) n!"SnueduRR_2332" .leaf) n!"SnueduRR_3111" (.node .leaf n!"SnueduRR_3112" .leaf)) n!"SnueduRR_3121" (.node (.node .leaf n!"SnueduRR_3122" .leaf) n!"SnueduRR_3131" (.node .leaf n!"SnueduRR_3132" .leaf))))) n!"SnueduRR_3211" (.node (.node (.node (.node (.node (.node .leaf n!"SnueduRR_3212" .leaf) n!"SnueduRR_3221" .leaf) n!"SnueduRR_3222" (.node .leaf n!"SnueduRR_3231" .leaf)) n!"SnueduRR_3232" (.node (.node .leaf n!"SnueduRR_3311" .leaf) n!"SnueduRR_3312" (.node .leaf n!"SnueduRR_3321" .leaf))) n!"SnueduRR_3322" (.node (.node (.node (.node .leaf n!"SnueduRR_3331" .leaf) n!"SnueduRR_3332" .leaf) n!"TnueduRR_1111" (.node .leaf n!"TnueduRR_1112" .leaf)) n!"TnueduRR_1121" (.node (.node .leaf n!"TnueduRR_1122" .leaf) n!"TnueduRR_1131" (.node .leaf n!"TnueduRR_1132" .leaf)))) n!"TnueduRR_1211" (.node (.node (.node (.node (.node .leaf n!"TnueduRR_1212" .leaf) n!"TnueduRR_1221" .leaf) n!"TnueduRR_1222" (.node .leaf n!"TnueduRR_1231" .leaf)) n!"TnueduRR_1232" (.node (.node .leaf n!"TnueduRR_1311" .leaf) n!"TnueduRR_1312" (.node .leaf n!"TnueduRR_1321" .leaf))) n!"TnueduRR_1322" (.node (.node (.node .leaf n!"TnueduRR_1331" .leaf) n!"TnueduRR_1332" (.node .leaf n!"TnueduRR_2111" .leaf)) n!"TnueduRR_2112" (.node (.node .leaf n!"TnueduRR_2121" .leaf) n!"TnueduRR_2122" (.node .leaf n!"TnueduRR_2131" .leaf))))))

def keysrrrlr : NTree := (.node (.node (.node (.node (.node (.node (.node .leaf n!"TnueduRR_2211" .leaf) n!"TnueduRR_2212" .leaf) n!"TnueduRR_2221" (.node .leaf n!"TnueduRR_2222" .leaf)) n!"TnueduRR_2231" (.node (.node .leaf n!"TnueduRR_2232" .leaf) n!"TnueduRR_2311" (.node .leaf n!"TnueduRR_2312" .leaf))) n!"TnueduRR_2321" (.node (.node (.node (.node .leaf n!"TnueduRR_2322" .leaf) n!"TnueduRR_2331" .leaf) n!"TnueduRR_2332" (.node .leaf n!"TnueduRR_3111" .leaf)) n!"TnueduRR_3112" (.node (.node .leaf n!"TnueduRR_3121" .leaf) n!"TnueduRR_3122" (.node .leaf n!"TnueduRR_3131" .leaf)))) n!"TnueduRR_3132" (.node (.node (.node (.node (.node .leaf n!"TnueduRR_3211" .leaf) n!"TnueduRR_3212" .leaf) n!"TnueduRR_3221" (.node .leaf n!"TnueduRR_3222" .leaf)) n!"TnueduRR_3231" (.node (.node .leaf n!"TnueduRR_3232" .leaf) n!"TnueduRR_3311" (.node .leaf n!"TnueduRR_3312" .leaf))) n!"TnueduRR_3321" (.node (.node (.node .leaf n!"TnueduRR_3322" .leaf) n!"TnueduRR_3331" (.node .leaf n!"TnueduRR_3332" .leaf)) n!"V1udduLR_1111" (.node (.node .leaf n!"V1udduLR_1112" .leaf) n!"V1udduLR_1121" (.node .leaf n!"V1udduLR_1122" .leaf))))) n!"V1udduLR_1131" (.node (.node (.node (.node (.node (.node .leaf n!"V1udduLR_1132" .leaf) n!"V1udduLR_1211" .leaf) n!"V1udduLR_1212" (.node .leaf n!"V1udduLR_1221" .leaf)) n!"V1udduLR_1222" (.node (.node .leaf n!"V1udduLR_1231" .leaf) n!"V1udduLR_1232" (.node .leaf n!"V1udduLR_1311" .leaf))) n!"V1udduLR_1312" (.node (.node (.node (.node .leaf n!"V1udduLR_1321" .leaf) n!"V1udduLR_1322" .leaf) n!"V1udduLR_1331" (.node .leaf n!"V1udduLR_1332" .leaf)) n!"V1udduLR_2111" (.node (.node .leaf n!"V1udduLR_2112" .leaf) n!"V1udduLR_2121" (.node .leaf n!"V1udduLR_2122" .leaf)))) n!"V1udduLR_2131" (.node (.node (.node (.node (.node .leaf n!"V1udduLR_2132" .leaf) n!"V1udduLR_2211" .leaf) n!"V1udduLR_2212" (.node .leaf n!"V1udduLR_2221" .leaf)) n!"V1udduLR_2222" (.node (.node .leaf n!"V1udduLR_2231" .leaf) n!"V1udduLR_2232" (.node .leaf n!"V1udduLR_2311" .leaf))) n!"V1udduLR_2312" (.node (.node (.node .leaf n!"V1udduLR_2321" .leaf) n!"V1udduLR_2322" (.node .leaf n!"V1udduLR_2331" .leaf)) n!"V1udduLR_2332" (.node (.node .leaf n!"V8udduLR_1111" .leaf) n!"V8udduLR_1112" (.node .leaf n!"V8udduLR_1121" .leaf))))))

def keysrrrl : NTree := .node keysrrrll n!"TnueduRR_2132" keysrrrlr

def keysrrrrl : NTree := (.node (.node (.node (.node (.node (.node (.node .leaf n!"V8udduLR_1131" .leaf) n!"V8udduLR_1132" .leaf) n!"V8udduLR_1211" (.node .leaf n!"V8udduLR_1212" .leaf)) n!"V8udduLR_1221" (.node (.node .leaf n!"V8udduLR_1222" .leaf) n!"V8udduLR_1231" (.node .leaf n!"V8udduLR_1232" .leaf))) n!"V8udduLR_1311" (.node (.node (.node (.node .leaf n!"V8udduLR_1312" .leaf) n!"V8udduLR_1321" .leaf) n!"V8udduLR_1322" (.node .leaf n!"V8udduLR_1331" .leaf)) n!"V8udduLR_1332" (.node (.node .leaf n!"V8udduLR_2111" .leaf) n!"V8udduLR_2112" (.node .leaf n!"V8udduLR_2121" .leaf)))) n!"V8udduLR_2122" (.node (.node (.node (.node (.node .leaf n!"V8udduLR_2131" .leaf) n!"V8udduLR_2132" .leaf) n!"V8udduLR_2211" (.node .leaf n!"V8udduLR_2212" .leaf)) n!"V8udduLR_2221" (.node (.node .leaf n!"V8udduLR_2222" .leaf) n!"V8udduLR_2231" (.node .leaf n!"V8udduLR_2232" .leaf))) n!"V8udduLR_2311" (.node (.node (.node (.node .leaf n!"V8udduLR_2312" .leaf) n!"V8udduLR_2321" .leaf) n!"V8udduLR_2322" (.node .leaf n!"V8udduLR_2331" .leaf)) n!"V8udduLR_2332" (.node (.node .leaf n!"VnueduLL_1111" .leaf) n!"VnueduLL_1112" (.node .leaf n!"VnueduLL_1121" .leaf))))) n!"VnueduLL_1122" (.node (.node (.node (.node (.node (.node .leaf n!"VnueduLL_1131" .leaf) n!"VnueduLL_1132" .leaf) n!"VnueduLL_1211" (.node .leaf n!"VnueduLL_1212" .leaf)) n!"VnueduLL_1221" (.node (.node .leaf n!"VnueduLL_1222" .leaf) n!"VnueduLL_1231" (.node .leaf n!"VnueduLL_1232" .leaf))) n!"VnueduLL_1311" (.node (.node (.node (.node .leaf n!"VnueduLL_1312" .leaf) n!"VnueduLL_1321" .leaf) n!"VnueduLL_1322" (.node .leaf n!"VnueduLL_1331" .leaf)) n!"VnueduLL_1332" (.node (.node .leaf n!"VnueduLL_2111" .leaf) n!"VnueduLL_2112" (.node .leaf n!"VnueduLL_2121" .leaf)))) n!"VnueduLL_2122" (.node (.node (.node (.node (.node .leaf n!"VnueduLL_2131" .leaf) n!"VnueduLL_2132" .leaf) n!"VnueduLL_2211" (.node .leaf n!"VnueduLL_2212" .leaf)) n!"VnueduLL_2221" (.node (.node .leaf n!"VnueduLL_2222" .leaf) n!"VnueduLL_2231" (.node .leaf n!"VnueduLL_2232" .leaf))) n!"VnueduLL_2311" (.node (.node (.node .leaf n!"VnueduLL_2312" .leaf) n!"VnueduLL_2321" (.node .leaf n!"VnueduLL_2322" .leaf)) n!"VnueduLL_2331" (.node (.node .leaf n!"VnueduLL_2332" .leaf) n!"VnueduLL_3111" (.node .leaf n!"VnueduLL_3112" .leaf))))))

def keysrrrrr : NTree := (.node (.node (.node (.node (.node (.node (.node .leaf n!"VnueduLL_3122" .leaf) n!"VnueduLL_3131" .leaf) n!"VnueduLL_3132" (.node .leaf n!"VnueduLL_3211" .leaf)) n!"VnueduLL_3212" (.node (.node .leaf n!"VnueduLL_3221" .leaf) n!"VnueduLL_3222" (.node .leaf n!"VnueduLL_3231" .leaf))) n!"VnueduLL_3232" (.node (.node (.node (.node .leaf n!"VnueduLL_3311" .leaf) n!"VnueduLL_3312" .leaf) n!"VnueduLL_3321" (.node .leaf n!"VnueduLL_3322" .leaf)) n!"VnueduLL_3331" (.node (.node .leaf n!"VnueduLL_3332" .leaf) n!"VnueduLR_1111" (.node .leaf n!"VnueduLR_1112" .leaf)))) n!"VnueduLR_1121" (.node (.node (.node (.node (.node .leaf n!"VnueduLR_1122" .leaf) n!"VnueduLR_1131" .leaf) n!"VnueduLR_1132" (.node .leaf n!"VnueduLR_1211" .leaf)) n!"VnueduLR_1212" (.node (.node .leaf n!"VnueduLR_1221" .leaf) n!"VnueduLR_1222" (.node .leaf n!"VnueduLR_1231" .leaf))) n!"VnueduLR_1232" (.node (.node (.node .leaf n!"VnueduLR_1311" .leaf) n!"VnueduLR_1312" (.node .leaf n!"VnueduLR_1321" .leaf)) n!"VnueduLR_1322" (.node (.node .leaf n!"VnueduLR_1331" .leaf) n!"VnueduLR_1332" (.node .leaf n!"VnueduLR_2111" .leaf))))) n!"VnueduLR_2112" (.node (.node (.node (.node (.node (.node .leaf n!"VnueduLR_2121" .leaf) n!"VnueduLR_2122" .leaf) n!"VnueduLR_2131" (.node .leaf n!"VnueduLR_2132" .leaf)) n!"VnueduLR_2211" (.node (.node .leaf n!"VnueduLR_2212" .leaf) n!"VnueduLR_2221" (.node .leaf n!"VnueduLR_2222" .leaf))) n!"VnueduLR_2231" (.node (.node (.node (.node .leaf n!"VnueduLR_2232" .leaf) n!"VnueduLR_2311" .leaf) n!"VnueduLR_2312" (.node .leaf n!"VnueduLR_2321" .leaf)) n!"VnueduLR_2322" (.node (.node .leaf n!"VnueduLR_2331" .leaf) n!"VnueduLR_2332" (.node .leaf n!"VnueduLR_3111" .leaf)))) n!"VnueduLR_3112" (.node (.node (.node (.node (.node .leaf n!"VnueduLR_3121" .leaf) n!"VnueduLR_3122" .leaf) n!"VnueduLR_3131" (.node .leaf n!"VnueduLR_3132" .leaf)) n!"VnueduLR_3211" (.node (.node .leaf n!"VnueduLR_3212" .leaf) n!"VnueduLR_3221" (.node .leaf n!"VnueduLR_3222" .leaf))) n!"VnueduLR_3231" (.node (.node (.node .leaf n!"VnueduLR_3232" .leaf) n!"VnueduLR_3311" (.node .leaf n!"VnueduLR_3312" .leaf)) n!"VnueduLR_3321" (.node (.node .leaf n!"VnueduLR_3322" .leaf) n!"VnueduLR_3331" (.node .leaf n!"VnueduLR_3332" .leaf))))))

def keysrrrr : NTree := .node keysrrrrl n!"VnueduLL_3121" keysrrrrr

def keysrrr : NTree := .node keysrrrl n!"V8udduLR_1122" keysrrrr

def keysrr : NTree := .node keysrrl n!"SnueduRR_1211" keysrrr

def keysr : NTree := .node keysrl n!"VnueLL_1122" keysrr

def keys : NTree := .node keysl n!"SduuLL_2222" keysr

end Verif.Gen.JmsKeys
