import Verif.Gen.Rotation

/-!
# The sector tables of the WET running, generated

GENERATED by tools/gen_wet.py from /repo/wilson/run/wet/definitions.py (`classes`, lines 8-40)
and /repo/wilson/data/run_wet_definitions_coeffs.json (`coeffs`, definitions.py line 47); do not
edit.  A coefficient name `S1ddRR_2323` is written `(.S1ddRR, 2323)`, a name without indices
`(.G, 0)`; `Verif.WetTab.nameOf` renders it.
-/

set_option autoImplicit false

namespace Verif.WetTab
open Verif.Rotation

/-- definitions.py lines 8-40: class name and its sectors -/
def classes : List (String × List String) :=
  [("I", ["sbsb", "dbdb", "sdsd"]),
   ("Ie", ["tauetaue", "muemue", "taumutaumu"]),
   ("Iu", ["cucu"]),
   ("II", ["ubenu", "ubmunu", "ubtaunu", "cbenu", "cbmunu", "cbtaunu", "usenu", "usmunu", "ustaunu", "csenu", "csmunu", "cstaunu", "udenu", "udmunu", "udtaunu", "cdenu", "cdmunu", "cdtaunu"]),
   ("III", ["sbuc", "sbcu", "dbuc", "dbcu", "sduc", "sdcu"]),
   ("IV", ["sbsd", "dbsb", "dbds"]),
   ("Vb", ["sbemu", "sbmue", "sbetau", "sbtaue", "sbmutau", "sbtaumu", "dbemu", "dbmue", "dbetau", "dbtaue", "dbmutau", "dbtaumu", "sdemu", "sdmue", "sdetau", "sdtaue", "sdmutau", "sdtaumu"]),
   ("Vb_c", ["cuemu", "cumue", "cuetau", "cutaue", "cumutau", "cutaumu"]),
   ("IVe", ["muemutau", "etauemu", "tauetaumu"]),
   ("inv", ["sbnunu", "dbnunu", "sdnunu", "cununu", "nunumue", "nunumutau", "nunutaue", "nunununu"]),
   ("cu", ["cu"]),
   ("db", ["db"]),
   ("sb", ["sb"]),
   ("sd", ["sd"]),
   ("mue", ["mue"]),
   ("mutau", ["mutau"]),
   ("taue", ["taue"]),
   ("dF0", ["dF=0"]),
   ("ffnunu", ["ffnunu"]),
   ("uddnu", ["uddnu", "ussnu", "ubbnu", "cddnu", "cssnu", "cbbnu"]),
   ("udsnu", ["udsnu", "usbnu", "udbnu", "cdbnu", "cdsnu", "csbnu"]),
   ("uude", ["uude", "uudmu", "uudtau", "ccde", "ccdmu", "ccdtau", "uuse", "uusmu", "uustau", "ccse", "ccsmu", "ccstau", "uube", "uubmu", "uubtau", "ccbe", "ccbmu", "ccbtau"]),
   ("ucde", ["ucde", "ucdmu", "ucdtau", "ucse", "ucsmu", "ucstau", "ucbe", "ucbmu", "ucbtau"])]

/-- coefficients of sector `sbsb` -/
def c_sbsb : List (WKey × ℕ) :=
  [
    (.S1ddRR, 2323), (.S1ddRR, 3232), (.S8ddRR, 2323), (.S8ddRR, 3232), (.V1ddLR, 2323),
    (.V8ddLR, 2323), (.VddLL, 2323), (.VddRR, 2323)]

/-- coefficients of sector `dbdb` -/
def c_dbdb : List (WKey × ℕ) :=
  [
    (.S1ddRR, 1313), (.S1ddRR, 3131), (.S8ddRR, 1313), (.S8ddRR, 3131), (.V1ddLR, 1313),
    (.V8ddLR, 1313), (.VddLL, 1313), (.VddRR, 1313)]

/-- coefficients of sector `sdsd` -/
def c_sdsd : List (WKey × ℕ) :=
  [
    (.S1ddRR, 1212), (.S1ddRR, 2121), (.S8ddRR, 1212), (.S8ddRR, 2121), (.V1ddLR, 1212),
    (.V8ddLR, 1212), (.VddLL, 1212), (.VddRR, 1212)]

/-- coefficients of sector `cucu` -/
def c_cucu : List (WKey × ℕ) :=
  [
    (.S1uuRR, 1212), (.S1uuRR, 2121), (.S8uuRR, 1212), (.S8uuRR, 2121), (.V1uuLR, 1212),
    (.V8uuLR, 1212), (.VuuLL, 1212), (.VuuRR, 1212)]

/-- coefficients of sector `dbsb` -/
def c_dbsb : List (WKey × ℕ) :=
  [
    (.S1ddRR, 1323), (.S1ddRR, 3132), (.S8ddRR, 1323), (.S8ddRR, 3132), (.V1ddLR, 1323),
    (.V1ddLR, 2313), (.V8ddLR, 1323), (.V8ddLR, 2313), (.VddLL, 1323), (.VddRR, 1323)]

/-- coefficients of sector `sbuc` -/
def c_sbuc : List (WKey × ℕ) :=
  [
    (.S1udRR, 1223), (.S1udRR, 2132), (.S1udduRR, 1322), (.S1udduRR, 2231), (.S8udRR, 1223),
    (.S8udRR, 2132), (.S8udduRR, 1322), (.S8udduRR, 2231), (.V1duLR, 2312), (.V1udLL, 1223),
    (.V1udLR, 1223), (.V1udRR, 1223), (.V1udduLR, 1322), (.V1udduLR, 2231), (.V8duLR, 2312),
    (.V8udLL, 1223), (.V8udLR, 1223), (.V8udRR, 1223), (.V8udduLR, 1322), (.V8udduLR, 2231)]

/-- coefficients of sector `sbcu` -/
def c_sbcu : List (WKey × ℕ) :=
  [
    (.S1udRR, 1232), (.S1udRR, 2123), (.S1udduRR, 1232), (.S1udduRR, 2321), (.S8udRR, 1232),
    (.S8udRR, 2123), (.S8udduRR, 1232), (.S8udduRR, 2321), (.V1duLR, 2321), (.V1udLL, 1232),
    (.V1udLR, 1232), (.V1udRR, 1232), (.V1udduLR, 1232), (.V1udduLR, 2321), (.V8duLR, 2321),
    (.V8udLL, 1232), (.V8udLR, 1232), (.V8udRR, 1232), (.V8udduLR, 1232), (.V8udduLR, 2321)]

/-- coefficients of sector `dbuc` -/
def c_dbuc : List (WKey × ℕ) :=
  [
    (.S1udRR, 1213), (.S1udRR, 2131), (.S1udduRR, 1312), (.S1udduRR, 2131), (.S8udRR, 1213),
    (.S8udRR, 2131), (.S8udduRR, 1312), (.S8udduRR, 2131), (.V1duLR, 1312), (.V1udLL, 1213),
    (.V1udLR, 1213), (.V1udRR, 1213), (.V1udduLR, 1312), (.V1udduLR, 2131), (.V8duLR, 1312),
    (.V8udLL, 1213), (.V8udLR, 1213), (.V8udRR, 1213), (.V8udduLR, 1312), (.V8udduLR, 2131)]

/-- coefficients of sector `dbcu` -/
def c_dbcu : List (WKey × ℕ) :=
  [
    (.S1udRR, 1231), (.S1udRR, 2113), (.S1udduRR, 1132), (.S1udduRR, 2311), (.S8udRR, 1231),
    (.S8udRR, 2113), (.S8udduRR, 1132), (.S8udduRR, 2311), (.V1duLR, 1321), (.V1udLL, 1231),
    (.V1udLR, 1231), (.V1udRR, 1231), (.V1udduLR, 1132), (.V1udduLR, 2311), (.V8duLR, 1321),
    (.V8udLL, 1231), (.V8udLR, 1231), (.V8udRR, 1231), (.V8udduLR, 1132), (.V8udduLR, 2311)]

/-- coefficients of sector `sduc` -/
def c_sduc : List (WKey × ℕ) :=
  [
    (.S1udRR, 1221), (.S1udRR, 2112), (.S1udduRR, 1122), (.S1udduRR, 2211), (.S8udRR, 1221),
    (.S8udRR, 2112), (.S8udduRR, 1122), (.S8udduRR, 2211), (.V1duLR, 1221), (.V1udLL, 1221),
    (.V1udLR, 1221), (.V1udRR, 1221), (.V1udduLR, 1122), (.V1udduLR, 2211), (.V8duLR, 1221),
    (.V8udLL, 1221), (.V8udLR, 1221), (.V8udRR, 1221), (.V8udduLR, 1122), (.V8udduLR, 2211)]

/-- coefficients of sector `sdcu` -/
def c_sdcu : List (WKey × ℕ) :=
  [
    (.S1udRR, 1212), (.S1udRR, 2121), (.S1udduRR, 1212), (.S1udduRR, 2121), (.S8udRR, 1212),
    (.S8udRR, 2121), (.S8udduRR, 1212), (.S8udduRR, 2121), (.V1duLR, 1212), (.V1udLL, 1212),
    (.V1udLR, 1212), (.V1udRR, 1212), (.V1udduLR, 1212), (.V1udduLR, 2121), (.V8duLR, 1212),
    (.V8udLL, 1212), (.V8udLR, 1212), (.V8udRR, 1212), (.V8udduLR, 1212), (.V8udduLR, 2121)]

/-- coefficients of sector `sbsd` -/
def c_sbsd : List (WKey × ℕ) :=
  [
    (.S1ddRR, 1232), (.S1ddRR, 2123), (.S8ddRR, 1232), (.S8ddRR, 2123), (.V1ddLR, 1232),
    (.V1ddLR, 2321), (.V8ddLR, 1232), (.V8ddLR, 2321), (.VddLL, 1232), (.VddRR, 1232)]

/-- coefficients of sector `dbds` -/
def c_dbds : List (WKey × ℕ) :=
  [
    (.S1ddRR, 1213), (.S1ddRR, 2131), (.S8ddRR, 1213), (.S8ddRR, 2131), (.V1ddLR, 1213),
    (.V1ddLR, 1312), (.V8ddLR, 1213), (.V8ddLR, 1312), (.VddLL, 1213), (.VddRR, 1213)]

/-- coefficients of sector `sb` -/
def c_sb : List (WKey × ℕ) :=
  [
    (.S1ddRR, 1123), (.S1ddRR, 1132), (.S1ddRR, 1231), (.S1ddRR, 1321), (.S1ddRR, 2223),
    (.S1ddRR, 2232), (.S1ddRR, 2333), (.S1ddRR, 3233), (.S1udRR, 1123), (.S1udRR, 1132),
    (.S1udRR, 2223), (.S1udRR, 2232), (.S1udduRR, 1231), (.S1udduRR, 1321), (.S1udduRR, 2232),
    (.S1udduRR, 2322), (.S8ddRR, 1123), (.S8ddRR, 1132), (.S8ddRR, 1231), (.S8ddRR, 1321),
    (.S8ddRR, 2223), (.S8ddRR, 2232), (.S8ddRR, 2333), (.S8ddRR, 3233), (.S8udRR, 1123),
    (.S8udRR, 1132), (.S8udRR, 2223), (.S8udRR, 2232), (.S8udduRR, 1231), (.S8udduRR, 1321),
    (.S8udduRR, 2232), (.S8udduRR, 2322), (.SedRL, 1123), (.SedRL, 1132), (.SedRL, 2223),
    (.SedRL, 2232), (.SedRL, 3323), (.SedRL, 3332), (.SedRR, 1123), (.SedRR, 1132),
    (.SedRR, 2223), (.SedRR, 2232), (.SedRR, 3323), (.SedRR, 3332), (.TedRR, 1123),
    (.TedRR, 1132), (.TedRR, 2223), (.TedRR, 2232), (.TedRR, 3323), (.TedRR, 3332),
    (.V1ddLR, 1123), (.V1ddLR, 1231), (.V1ddLR, 1321), (.V1ddLR, 2223), (.V1ddLR, 2311),
    (.V1ddLR, 2322), (.V1ddLR, 2333), (.V1ddLR, 3323), (.V1duLR, 2311), (.V1duLR, 2322),
    (.V1udLL, 1123), (.V1udLL, 2223), (.V1udLR, 1123), (.V1udLR, 2223), (.V1udRR, 1123),
    (.V1udRR, 2223), (.V1udduLR, 1231), (.V1udduLR, 1321), (.V1udduLR, 2232), (.V1udduLR, 2322),
    (.V8ddLR, 1123), (.V8ddLR, 1231), (.V8ddLR, 1321), (.V8ddLR, 2223), (.V8ddLR, 2311),
    (.V8ddLR, 2322), (.V8ddLR, 2333), (.V8ddLR, 3323), (.V8duLR, 2311), (.V8duLR, 2322),
    (.V8udLL, 1123), (.V8udLL, 2223), (.V8udLR, 1123), (.V8udLR, 2223), (.V8udRR, 1123),
    (.V8udRR, 2223), (.V8udduLR, 1231), (.V8udduLR, 1321), (.V8udduLR, 2232), (.V8udduLR, 2322),
    (.VddLL, 1123), (.VddLL, 1231), (.VddLL, 2223), (.VddLL, 2333), (.VddRR, 1123),
    (.VddRR, 1231), (.VddRR, 2223), (.VddRR, 2333), (.VdeLR, 2311), (.VdeLR, 2322),
    (.VdeLR, 2333), (.VedLL, 1123), (.VedLL, 2223), (.VedLL, 3323), (.VedLR, 1123),
    (.VedLR, 2223), (.VedLR, 3323), (.VedRR, 1123), (.VedRR, 2223), (.VedRR, 3323), (.dG, 23),
    (.dG, 32), (.dgamma, 23), (.dgamma, 32)]

/-- coefficients of sector `db` -/
def c_db : List (WKey × ℕ) :=
  [
    (.S1ddRR, 1113), (.S1ddRR, 1131), (.S1ddRR, 1223), (.S1ddRR, 1322), (.S1ddRR, 1333),
    (.S1ddRR, 2132), (.S1ddRR, 2231), (.S1ddRR, 3133), (.S1udRR, 1113), (.S1udRR, 1131),
    (.S1udRR, 2213), (.S1udRR, 2231), (.S1udduRR, 1131), (.S1udduRR, 1311), (.S1udduRR, 2132),
    (.S1udduRR, 2312), (.S8ddRR, 1113), (.S8ddRR, 1131), (.S8ddRR, 1223), (.S8ddRR, 1322),
    (.S8ddRR, 1333), (.S8ddRR, 2132), (.S8ddRR, 2231), (.S8ddRR, 3133), (.S8udRR, 1113),
    (.S8udRR, 1131), (.S8udRR, 2213), (.S8udRR, 2231), (.S8udduRR, 1131), (.S8udduRR, 1311),
    (.S8udduRR, 2132), (.S8udduRR, 2312), (.SedRL, 1113), (.SedRL, 1131), (.SedRL, 2213),
    (.SedRL, 2231), (.SedRL, 3313), (.SedRL, 3331), (.SedRR, 1113), (.SedRR, 1131),
    (.SedRR, 2213), (.SedRR, 2231), (.SedRR, 3313), (.SedRR, 3331), (.TedRR, 1113),
    (.TedRR, 1131), (.TedRR, 2213), (.TedRR, 2231), (.TedRR, 3313), (.TedRR, 3331),
    (.V1ddLR, 1113), (.V1ddLR, 1223), (.V1ddLR, 1311), (.V1ddLR, 1322), (.V1ddLR, 1333),
    (.V1ddLR, 2213), (.V1ddLR, 2312), (.V1ddLR, 3313), (.V1duLR, 1311), (.V1duLR, 1322),
    (.V1udLL, 1113), (.V1udLL, 2213), (.V1udLR, 1113), (.V1udLR, 2213), (.V1udRR, 1113),
    (.V1udRR, 2213), (.V1udduLR, 1131), (.V1udduLR, 1311), (.V1udduLR, 2132), (.V1udduLR, 2312),
    (.V8ddLR, 1113), (.V8ddLR, 1223), (.V8ddLR, 1311), (.V8ddLR, 1322), (.V8ddLR, 1333),
    (.V8ddLR, 2213), (.V8ddLR, 2312), (.V8ddLR, 3313), (.V8duLR, 1311), (.V8duLR, 1322),
    (.V8udLL, 1113), (.V8udLL, 2213), (.V8udLR, 1113), (.V8udLR, 2213), (.V8udRR, 1113),
    (.V8udRR, 2213), (.V8udduLR, 1131), (.V8udduLR, 1311), (.V8udduLR, 2132), (.V8udduLR, 2312),
    (.VddLL, 1113), (.VddLL, 1223), (.VddLL, 1322), (.VddLL, 1333), (.VddRR, 1113),
    (.VddRR, 1223), (.VddRR, 1322), (.VddRR, 1333), (.VdeLR, 1311), (.VdeLR, 1322),
    (.VdeLR, 1333), (.VedLL, 1113), (.VedLL, 2213), (.VedLL, 3313), (.VedLR, 1113),
    (.VedLR, 2213), (.VedLR, 3313), (.VedRR, 1113), (.VedRR, 2213), (.VedRR, 3313), (.dG, 13),
    (.dG, 31), (.dgamma, 13), (.dgamma, 31)]

/-- coefficients of sector `sd` -/
def c_sd : List (WKey × ℕ) :=
  [
    (.S1ddRR, 1112), (.S1ddRR, 1121), (.S1ddRR, 1222), (.S1ddRR, 1233), (.S1ddRR, 1332),
    (.S1ddRR, 2122), (.S1ddRR, 2133), (.S1ddRR, 2331), (.S1udRR, 1112), (.S1udRR, 1121),
    (.S1udRR, 2212), (.S1udRR, 2221), (.S1udduRR, 1121), (.S1udduRR, 1211), (.S1udduRR, 2122),
    (.S1udduRR, 2212), (.S8ddRR, 1112), (.S8ddRR, 1121), (.S8ddRR, 1222), (.S8ddRR, 1233),
    (.S8ddRR, 1332), (.S8ddRR, 2122), (.S8ddRR, 2133), (.S8ddRR, 2331), (.S8udRR, 1112),
    (.S8udRR, 1121), (.S8udRR, 2212), (.S8udRR, 2221), (.S8udduRR, 1121), (.S8udduRR, 1211),
    (.S8udduRR, 2122), (.S8udduRR, 2212), (.SedRL, 1112), (.SedRL, 1121), (.SedRL, 2212),
    (.SedRL, 2221), (.SedRL, 3312), (.SedRL, 3321), (.SedRR, 1112), (.SedRR, 1121),
    (.SedRR, 2212), (.SedRR, 2221), (.SedRR, 3312), (.SedRR, 3321), (.TedRR, 1112),
    (.TedRR, 1121), (.TedRR, 2212), (.TedRR, 2221), (.TedRR, 3312), (.TedRR, 3321),
    (.V1ddLR, 1112), (.V1ddLR, 1211), (.V1ddLR, 1222), (.V1ddLR, 1233), (.V1ddLR, 1332),
    (.V1ddLR, 2212), (.V1ddLR, 2331), (.V1ddLR, 3312), (.V1duLR, 1211), (.V1duLR, 1222),
    (.V1udLL, 1112), (.V1udLL, 2212), (.V1udLR, 1112), (.V1udLR, 2212), (.V1udRR, 1112),
    (.V1udRR, 2212), (.V1udduLR, 1121), (.V1udduLR, 1211), (.V1udduLR, 2122), (.V1udduLR, 2212),
    (.V8ddLR, 1112), (.V8ddLR, 1211), (.V8ddLR, 1222), (.V8ddLR, 1233), (.V8ddLR, 1332),
    (.V8ddLR, 2212), (.V8ddLR, 2331), (.V8ddLR, 3312), (.V8duLR, 1211), (.V8duLR, 1222),
    (.V8udLL, 1112), (.V8udLL, 2212), (.V8udLR, 1112), (.V8udLR, 2212), (.V8udRR, 1112),
    (.V8udRR, 2212), (.V8udduLR, 1121), (.V8udduLR, 1211), (.V8udduLR, 2122), (.V8udduLR, 2212),
    (.VddLL, 1112), (.VddLL, 1222), (.VddLL, 1233), (.VddLL, 1332), (.VddRR, 1112),
    (.VddRR, 1222), (.VddRR, 1233), (.VddRR, 1332), (.VdeLR, 1211), (.VdeLR, 1222),
    (.VdeLR, 1233), (.VedLL, 1112), (.VedLL, 2212), (.VedLL, 3312), (.VedLR, 1112),
    (.VedLR, 2212), (.VedLR, 3312), (.VedRR, 1112), (.VedRR, 2212), (.VedRR, 3312), (.dG, 12),
    (.dG, 21), (.dgamma, 12), (.dgamma, 21)]

/-- coefficients of sector `cu` -/
def c_cu : List (WKey × ℕ) :=
  [
    (.S1udRR, 1211), (.S1udRR, 1222), (.S1udRR, 1233), (.S1udRR, 2111), (.S1udRR, 2122),
    (.S1udRR, 2133), (.S1udduRR, 1112), (.S1udduRR, 1222), (.S1udduRR, 1332), (.S1udduRR, 2111),
    (.S1udduRR, 2221), (.S1udduRR, 2331), (.S1uuRR, 1112), (.S1uuRR, 1121), (.S1uuRR, 1222),
    (.S1uuRR, 2122), (.S8udRR, 1211), (.S8udRR, 1222), (.S8udRR, 1233), (.S8udRR, 2111),
    (.S8udRR, 2122), (.S8udRR, 2133), (.S8udduRR, 1112), (.S8udduRR, 1222), (.S8udduRR, 1332),
    (.S8udduRR, 2111), (.S8udduRR, 2221), (.S8udduRR, 2331), (.S8uuRR, 1112), (.S8uuRR, 1121),
    (.S8uuRR, 1222), (.S8uuRR, 2122), (.SeuRL, 1112), (.SeuRL, 1121), (.SeuRL, 2212),
    (.SeuRL, 2221), (.SeuRL, 3312), (.SeuRL, 3321), (.SeuRR, 1112), (.SeuRR, 1121),
    (.SeuRR, 2212), (.SeuRR, 2221), (.SeuRR, 3312), (.SeuRR, 3321), (.TeuRR, 1112),
    (.TeuRR, 1121), (.TeuRR, 2212), (.TeuRR, 2221), (.TeuRR, 3312), (.TeuRR, 3321),
    (.V1duLR, 1112), (.V1duLR, 2212), (.V1duLR, 3312), (.V1udLL, 1211), (.V1udLL, 1222),
    (.V1udLL, 1233), (.V1udLR, 1211), (.V1udLR, 1222), (.V1udLR, 1233), (.V1udRR, 1211),
    (.V1udRR, 1222), (.V1udRR, 1233), (.V1udduLR, 1112), (.V1udduLR, 1222), (.V1udduLR, 1332),
    (.V1udduLR, 2111), (.V1udduLR, 2221), (.V1udduLR, 2331), (.V1uuLR, 1112), (.V1uuLR, 1211),
    (.V1uuLR, 1222), (.V1uuLR, 2212), (.V8duLR, 1112), (.V8duLR, 2212), (.V8duLR, 3312),
    (.V8udLL, 1211), (.V8udLL, 1222), (.V8udLL, 1233), (.V8udLR, 1211), (.V8udLR, 1222),
    (.V8udLR, 1233), (.V8udRR, 1211), (.V8udRR, 1222), (.V8udRR, 1233), (.V8udduLR, 1112),
    (.V8udduLR, 1222), (.V8udduLR, 1332), (.V8udduLR, 2111), (.V8udduLR, 2221),
    (.V8udduLR, 2331), (.V8uuLR, 1112), (.V8uuLR, 1211), (.V8uuLR, 1222), (.V8uuLR, 2212),
    (.VeuLL, 1112), (.VeuLL, 2212), (.VeuLL, 3312), (.VeuLR, 1112), (.VeuLR, 2212),
    (.VeuLR, 3312), (.VeuRR, 1112), (.VeuRR, 2212), (.VeuRR, 3312), (.VueLR, 1211),
    (.VueLR, 1222), (.VueLR, 1233), (.VuuLL, 1112), (.VuuLL, 1222), (.VuuRR, 1112),
    (.VuuRR, 1222), (.uG, 12), (.uG, 21), (.ugamma, 12), (.ugamma, 21)]

/-- coefficients of sector `sbemu` -/
def c_sbemu : List (WKey × ℕ) :=
  [
    (.SedRL, 1223), (.SedRL, 2132), (.SedRR, 1223), (.SedRR, 2132), (.TedRR, 1223),
    (.TedRR, 2132), (.VdeLR, 2312), (.VedLL, 1223), (.VedLR, 1223), (.VedRR, 1223)]

/-- coefficients of sector `sbmue` -/
def c_sbmue : List (WKey × ℕ) :=
  [
    (.SedRL, 1232), (.SedRL, 2123), (.SedRR, 1232), (.SedRR, 2123), (.TedRR, 1232),
    (.TedRR, 2123), (.VdeLR, 2321), (.VedLL, 1232), (.VedLR, 1232), (.VedRR, 1232)]

/-- coefficients of sector `sbetau` -/
def c_sbetau : List (WKey × ℕ) :=
  [
    (.SedRL, 1323), (.SedRL, 3132), (.SedRR, 1323), (.SedRR, 3132), (.TedRR, 1323),
    (.TedRR, 3132), (.VdeLR, 2313), (.VedLL, 1323), (.VedLR, 1323), (.VedRR, 1323)]

/-- coefficients of sector `sbtaue` -/
def c_sbtaue : List (WKey × ℕ) :=
  [
    (.SedRL, 1332), (.SedRL, 3123), (.SedRR, 1332), (.SedRR, 3123), (.TedRR, 1332),
    (.TedRR, 3123), (.VdeLR, 2331), (.VedLL, 1332), (.VedLR, 1332), (.VedRR, 1332)]

/-- coefficients of sector `sbmutau` -/
def c_sbmutau : List (WKey × ℕ) :=
  [
    (.SedRL, 2323), (.SedRL, 3232), (.SedRR, 2323), (.SedRR, 3232), (.TedRR, 2323),
    (.TedRR, 3232), (.VdeLR, 2323), (.VedLL, 2323), (.VedLR, 2323), (.VedRR, 2323)]

/-- coefficients of sector `sbtaumu` -/
def c_sbtaumu : List (WKey × ℕ) :=
  [
    (.SedRL, 2332), (.SedRL, 3223), (.SedRR, 2332), (.SedRR, 3223), (.TedRR, 2332),
    (.TedRR, 3223), (.VdeLR, 2332), (.VedLL, 2332), (.VedLR, 2332), (.VedRR, 2332)]

/-- coefficients of sector `dbemu` -/
def c_dbemu : List (WKey × ℕ) :=
  [
    (.SedRL, 1213), (.SedRL, 2131), (.SedRR, 1213), (.SedRR, 2131), (.TedRR, 1213),
    (.TedRR, 2131), (.VdeLR, 1312), (.VedLL, 1213), (.VedLR, 1213), (.VedRR, 1213)]

/-- coefficients of sector `dbmue` -/
def c_dbmue : List (WKey × ℕ) :=
  [
    (.SedRL, 1231), (.SedRL, 2113), (.SedRR, 1231), (.SedRR, 2113), (.TedRR, 1231),
    (.TedRR, 2113), (.VdeLR, 1321), (.VedLL, 1231), (.VedLR, 1231), (.VedRR, 1231)]

/-- coefficients of sector `dbetau` -/
def c_dbetau : List (WKey × ℕ) :=
  [
    (.SedRL, 1313), (.SedRL, 3131), (.SedRR, 1313), (.SedRR, 3131), (.TedRR, 1313),
    (.TedRR, 3131), (.VdeLR, 1313), (.VedLL, 1313), (.VedLR, 1313), (.VedRR, 1313)]

/-- coefficients of sector `dbtaue` -/
def c_dbtaue : List (WKey × ℕ) :=
  [
    (.SedRL, 1331), (.SedRL, 3113), (.SedRR, 1331), (.SedRR, 3113), (.TedRR, 1331),
    (.TedRR, 3113), (.VdeLR, 1331), (.VedLL, 1331), (.VedLR, 1331), (.VedRR, 1331)]

/-- coefficients of sector `dbmutau` -/
def c_dbmutau : List (WKey × ℕ) :=
  [
    (.SedRL, 2313), (.SedRL, 3231), (.SedRR, 2313), (.SedRR, 3231), (.TedRR, 2313),
    (.TedRR, 3231), (.VdeLR, 1323), (.VedLL, 2313), (.VedLR, 2313), (.VedRR, 2313)]

/-- coefficients of sector `dbtaumu` -/
def c_dbtaumu : List (WKey × ℕ) :=
  [
    (.SedRL, 2331), (.SedRL, 3213), (.SedRR, 2331), (.SedRR, 3213), (.TedRR, 2331),
    (.TedRR, 3213), (.VdeLR, 1332), (.VedLL, 2331), (.VedLR, 2331), (.VedRR, 2331)]

/-- coefficients of sector `sdemu` -/
def c_sdemu : List (WKey × ℕ) :=
  [
    (.SedRL, 1221), (.SedRL, 2112), (.SedRR, 1221), (.SedRR, 2112), (.TedRR, 1221),
    (.TedRR, 2112), (.VdeLR, 1221), (.VedLL, 1221), (.VedLR, 1221), (.VedRR, 1221)]

/-- coefficients of sector `sdmue` -/
def c_sdmue : List (WKey × ℕ) :=
  [
    (.SedRL, 1212), (.SedRL, 2121), (.SedRR, 1212), (.SedRR, 2121), (.TedRR, 1212),
    (.TedRR, 2121), (.VdeLR, 1212), (.VedLL, 1212), (.VedLR, 1212), (.VedRR, 1212)]

/-- coefficients of sector `sdetau` -/
def c_sdetau : List (WKey × ℕ) :=
  [
    (.SedRL, 1321), (.SedRL, 3112), (.SedRR, 1321), (.SedRR, 3112), (.TedRR, 1321),
    (.TedRR, 3112), (.VdeLR, 1231), (.VedLL, 1321), (.VedLR, 1321), (.VedRR, 1321)]

/-- coefficients of sector `sdtaue` -/
def c_sdtaue : List (WKey × ℕ) :=
  [
    (.SedRL, 1312), (.SedRL, 3121), (.SedRR, 1312), (.SedRR, 3121), (.TedRR, 1312),
    (.TedRR, 3121), (.VdeLR, 1213), (.VedLL, 1312), (.VedLR, 1312), (.VedRR, 1312)]

/-- coefficients of sector `sdmutau` -/
def c_sdmutau : List (WKey × ℕ) :=
  [
    (.SedRL, 2321), (.SedRL, 3212), (.SedRR, 2321), (.SedRR, 3212), (.TedRR, 2321),
    (.TedRR, 3212), (.VdeLR, 1232), (.VedLL, 2321), (.VedLR, 2321), (.VedRR, 2321)]

/-- coefficients of sector `sdtaumu` -/
def c_sdtaumu : List (WKey × ℕ) :=
  [
    (.SedRL, 2312), (.SedRL, 3221), (.SedRR, 2312), (.SedRR, 3221), (.TedRR, 2312),
    (.TedRR, 3221), (.VdeLR, 1223), (.VedLL, 2312), (.VedLR, 2312), (.VedRR, 2312)]

/-- coefficients of sector `cuemu` -/
def c_cuemu : List (WKey × ℕ) :=
  [
    (.SeuRL, 1221), (.SeuRL, 2112), (.SeuRR, 1221), (.SeuRR, 2112), (.TeuRR, 1221),
    (.TeuRR, 2112), (.VeuLL, 1221), (.VeuLR, 1221), (.VeuRR, 1221), (.VueLR, 1221)]

/-- coefficients of sector `cumue` -/
def c_cumue : List (WKey × ℕ) :=
  [
    (.SeuRL, 1212), (.SeuRL, 2121), (.SeuRR, 1212), (.SeuRR, 2121), (.TeuRR, 1212),
    (.TeuRR, 2121), (.VeuLL, 1212), (.VeuLR, 1212), (.VeuRR, 1212), (.VueLR, 1212)]

/-- coefficients of sector `cuetau` -/
def c_cuetau : List (WKey × ℕ) :=
  [
    (.SeuRL, 1321), (.SeuRL, 3112), (.SeuRR, 1321), (.SeuRR, 3112), (.TeuRR, 1321),
    (.TeuRR, 3112), (.VeuLL, 1321), (.VeuLR, 1321), (.VeuRR, 1321), (.VueLR, 1231)]

/-- coefficients of sector `cutaue` -/
def c_cutaue : List (WKey × ℕ) :=
  [
    (.SeuRL, 1312), (.SeuRL, 3121), (.SeuRR, 1312), (.SeuRR, 3121), (.TeuRR, 1312),
    (.TeuRR, 3121), (.VeuLL, 1312), (.VeuLR, 1312), (.VeuRR, 1312), (.VueLR, 1213)]

/-- coefficients of sector `cumutau` -/
def c_cumutau : List (WKey × ℕ) :=
  [
    (.SeuRL, 2321), (.SeuRL, 3212), (.SeuRR, 2321), (.SeuRR, 3212), (.TeuRR, 2321),
    (.TeuRR, 3212), (.VeuLL, 2321), (.VeuLR, 2321), (.VeuRR, 2321), (.VueLR, 1232)]

/-- coefficients of sector `cutaumu` -/
def c_cutaumu : List (WKey × ℕ) :=
  [
    (.SeuRL, 2312), (.SeuRL, 3221), (.SeuRR, 2312), (.SeuRR, 3221), (.TeuRR, 2312),
    (.TeuRR, 3221), (.VeuLL, 2312), (.VeuLR, 2312), (.VeuRR, 2312), (.VueLR, 1223)]

/-- coefficients of sector `mutau` -/
def c_mutau : List (WKey × ℕ) :=
  [
    (.SedRL, 2311), (.SedRL, 2322), (.SedRL, 2333), (.SedRL, 3211), (.SedRL, 3222),
    (.SedRL, 3233), (.SedRR, 2311), (.SedRR, 2322), (.SedRR, 2333), (.SedRR, 3211),
    (.SedRR, 3222), (.SedRR, 3233), (.SeeRR, 1123), (.SeeRR, 1132), (.SeeRR, 1231),
    (.SeeRR, 1321), (.SeeRR, 2223), (.SeeRR, 2232), (.SeeRR, 2333), (.SeeRR, 3233),
    (.SeuRL, 2311), (.SeuRL, 2322), (.SeuRL, 3211), (.SeuRL, 3222), (.SeuRR, 2311),
    (.SeuRR, 2322), (.SeuRR, 3211), (.SeuRR, 3222), (.TedRR, 2311), (.TedRR, 2322),
    (.TedRR, 2333), (.TedRR, 3211), (.TedRR, 3222), (.TedRR, 3233), (.TeuRR, 2311),
    (.TeuRR, 2322), (.TeuRR, 3211), (.TeuRR, 3222), (.VdeLR, 1123), (.VdeLR, 2223),
    (.VdeLR, 3323), (.VedLL, 2311), (.VedLL, 2322), (.VedLL, 2333), (.VedLR, 2311),
    (.VedLR, 2322), (.VedLR, 2333), (.VedRR, 2311), (.VedRR, 2322), (.VedRR, 2333),
    (.VeeLL, 1123), (.VeeLL, 2223), (.VeeLL, 2333), (.VeeLR, 1123), (.VeeLR, 1231),
    (.VeeLR, 1321), (.VeeLR, 2223), (.VeeLR, 2311), (.VeeLR, 2322), (.VeeLR, 2333),
    (.VeeLR, 3323), (.VeeRR, 1123), (.VeeRR, 2223), (.VeeRR, 2333), (.VeuLL, 2311),
    (.VeuLL, 2322), (.VeuLR, 2311), (.VeuLR, 2322), (.VeuRR, 2311), (.VeuRR, 2322),
    (.VueLR, 1123), (.VueLR, 2223), (.egamma, 23), (.egamma, 32)]

/-- coefficients of sector `mue` -/
def c_mue : List (WKey × ℕ) :=
  [
    (.SedRL, 1211), (.SedRL, 1222), (.SedRL, 1233), (.SedRL, 2111), (.SedRL, 2122),
    (.SedRL, 2133), (.SedRR, 1211), (.SedRR, 1222), (.SedRR, 1233), (.SedRR, 2111),
    (.SedRR, 2122), (.SedRR, 2133), (.SeeRR, 1112), (.SeeRR, 1121), (.SeeRR, 1222),
    (.SeeRR, 1233), (.SeeRR, 1332), (.SeeRR, 2122), (.SeeRR, 2133), (.SeeRR, 2331),
    (.SeuRL, 1211), (.SeuRL, 1222), (.SeuRL, 2111), (.SeuRL, 2122), (.SeuRR, 1211),
    (.SeuRR, 1222), (.SeuRR, 2111), (.SeuRR, 2122), (.TedRR, 1211), (.TedRR, 1222),
    (.TedRR, 1233), (.TedRR, 2111), (.TedRR, 2122), (.TedRR, 2133), (.TeuRR, 1211),
    (.TeuRR, 1222), (.TeuRR, 2111), (.TeuRR, 2122), (.VdeLR, 1112), (.VdeLR, 2212),
    (.VdeLR, 3312), (.VedLL, 1211), (.VedLL, 1222), (.VedLL, 1233), (.VedLR, 1211),
    (.VedLR, 1222), (.VedLR, 1233), (.VedRR, 1211), (.VedRR, 1222), (.VedRR, 1233),
    (.VeeLL, 1112), (.VeeLL, 1222), (.VeeLL, 1233), (.VeeLR, 1112), (.VeeLR, 1211),
    (.VeeLR, 1222), (.VeeLR, 1233), (.VeeLR, 1332), (.VeeLR, 2212), (.VeeLR, 2331),
    (.VeeLR, 3312), (.VeeRR, 1112), (.VeeRR, 1222), (.VeeRR, 1233), (.VeuLL, 1211),
    (.VeuLL, 1222), (.VeuLR, 1211), (.VeuLR, 1222), (.VeuRR, 1211), (.VeuRR, 1222),
    (.VueLR, 1112), (.VueLR, 2212), (.egamma, 12), (.egamma, 21)]

/-- coefficients of sector `taue` -/
def c_taue : List (WKey × ℕ) :=
  [
    (.SedRL, 1311), (.SedRL, 1322), (.SedRL, 1333), (.SedRL, 3111), (.SedRL, 3122),
    (.SedRL, 3133), (.SedRR, 1311), (.SedRR, 1322), (.SedRR, 1333), (.SedRR, 3111),
    (.SedRR, 3122), (.SedRR, 3133), (.SeeRR, 1113), (.SeeRR, 1131), (.SeeRR, 1223),
    (.SeeRR, 1322), (.SeeRR, 1333), (.SeeRR, 2132), (.SeeRR, 2231), (.SeeRR, 3133),
    (.SeuRL, 1311), (.SeuRL, 1322), (.SeuRL, 3111), (.SeuRL, 3122), (.SeuRR, 1311),
    (.SeuRR, 1322), (.SeuRR, 3111), (.SeuRR, 3122), (.TedRR, 1311), (.TedRR, 1322),
    (.TedRR, 1333), (.TedRR, 3111), (.TedRR, 3122), (.TedRR, 3133), (.TeuRR, 1311),
    (.TeuRR, 1322), (.TeuRR, 3111), (.TeuRR, 3122), (.VdeLR, 1113), (.VdeLR, 2213),
    (.VdeLR, 3313), (.VedLL, 1311), (.VedLL, 1322), (.VedLL, 1333), (.VedLR, 1311),
    (.VedLR, 1322), (.VedLR, 1333), (.VedRR, 1311), (.VedRR, 1322), (.VedRR, 1333),
    (.VeeLL, 1113), (.VeeLL, 1223), (.VeeLL, 1333), (.VeeLR, 1113), (.VeeLR, 1223),
    (.VeeLR, 1311), (.VeeLR, 1322), (.VeeLR, 1333), (.VeeLR, 2213), (.VeeLR, 2312),
    (.VeeLR, 3313), (.VeeRR, 1113), (.VeeRR, 1223), (.VeeRR, 1333), (.VeuLL, 1311),
    (.VeuLL, 1322), (.VeuLR, 1311), (.VeuLR, 1322), (.VeuRR, 1311), (.VeuRR, 1322),
    (.VueLR, 1113), (.VueLR, 2213), (.egamma, 13), (.egamma, 31)]

/-- coefficients of sector `tauetaue` -/
def c_tauetaue : List (WKey × ℕ) :=
  [
    (.SeeRR, 1313), (.SeeRR, 3131), (.VeeLL, 1313), (.VeeLR, 1313), (.VeeRR, 1313)]

/-- coefficients of sector `taumutaumu` -/
def c_taumutaumu : List (WKey × ℕ) :=
  [
    (.SeeRR, 2323), (.SeeRR, 3232), (.VeeLL, 2323), (.VeeLR, 2323), (.VeeRR, 2323)]

/-- coefficients of sector `muemue` -/
def c_muemue : List (WKey × ℕ) :=
  [
    (.SeeRR, 1212), (.SeeRR, 2121), (.VeeLL, 1212), (.VeeLR, 1212), (.VeeRR, 1212)]

/-- coefficients of sector `muemutau` -/
def c_muemutau : List (WKey × ℕ) :=
  [
    (.SeeRR, 1232), (.SeeRR, 2123), (.VeeLL, 1232), (.VeeLR, 1232), (.VeeLR, 2321), (.VeeRR, 1232)]

/-- coefficients of sector `etauemu` -/
def c_etauemu : List (WKey × ℕ) :=
  [
    (.SeeRR, 1213), (.SeeRR, 2131), (.VeeLL, 1213), (.VeeLR, 1213), (.VeeLR, 1312), (.VeeRR, 1213)]

/-- coefficients of sector `tauetaumu` -/
def c_tauetaumu : List (WKey × ℕ) :=
  [
    (.SeeRR, 1323), (.SeeRR, 3132), (.VeeLL, 1323), (.VeeLR, 1323), (.VeeLR, 2313), (.VeeRR, 1323)]

/-- coefficients of sector `nunununu` -/
def c_nunununu : List (WKey × ℕ) :=
  [
    (.VnunuLL, 1111), (.VnunuLL, 1112), (.VnunuLL, 1113), (.VnunuLL, 1122), (.VnunuLL, 1123),
    (.VnunuLL, 1133), (.VnunuLL, 1212), (.VnunuLL, 1213), (.VnunuLL, 1222), (.VnunuLL, 1223),
    (.VnunuLL, 1232), (.VnunuLL, 1233), (.VnunuLL, 1313), (.VnunuLL, 1323), (.VnunuLL, 1333),
    (.VnunuLL, 2222), (.VnunuLL, 2223), (.VnunuLL, 2233), (.VnunuLL, 2323), (.VnunuLL, 2333),
    (.VnunuLL, 3333)]

/-- coefficients of sector `nunumue` -/
def c_nunumue : List (WKey × ℕ) :=
  [
    (.VnueLL, 1112), (.VnueLL, 1212), (.VnueLL, 1221), (.VnueLL, 1312), (.VnueLL, 1321),
    (.VnueLL, 2212), (.VnueLL, 2312), (.VnueLL, 2321), (.VnueLL, 3312), (.VnueLR, 1112),
    (.VnueLR, 1212), (.VnueLR, 1221), (.VnueLR, 1312), (.VnueLR, 1321), (.VnueLR, 2212),
    (.VnueLR, 2312), (.VnueLR, 2321), (.VnueLR, 3312)]

/-- coefficients of sector `nunumutau` -/
def c_nunumutau : List (WKey × ℕ) :=
  [
    (.VnueLL, 1123), (.VnueLL, 1223), (.VnueLL, 1232), (.VnueLL, 1323), (.VnueLL, 1332),
    (.VnueLL, 2223), (.VnueLL, 2323), (.VnueLL, 2332), (.VnueLL, 3323), (.VnueLR, 1123),
    (.VnueLR, 1223), (.VnueLR, 1232), (.VnueLR, 1323), (.VnueLR, 1332), (.VnueLR, 2223),
    (.VnueLR, 2323), (.VnueLR, 2332), (.VnueLR, 3323)]

/-- coefficients of sector `nunutaue` -/
def c_nunutaue : List (WKey × ℕ) :=
  [
    (.VnueLL, 1113), (.VnueLL, 1213), (.VnueLL, 1231), (.VnueLL, 1313), (.VnueLL, 1331),
    (.VnueLL, 2213), (.VnueLL, 2313), (.VnueLL, 2331), (.VnueLL, 3313), (.VnueLR, 1113),
    (.VnueLR, 1213), (.VnueLR, 1231), (.VnueLR, 1313), (.VnueLR, 1331), (.VnueLR, 2213),
    (.VnueLR, 2313), (.VnueLR, 2331), (.VnueLR, 3313)]

/-- coefficients of sector `dF=0` -/
def c_dF0 : List (WKey × ℕ) :=
  [
    (.G, 0), (.Gtilde, 0), (.S1ddRR, 1111), (.S1ddRR, 1122), (.S1ddRR, 1133), (.S1ddRR, 1221),
    (.S1ddRR, 1331), (.S1ddRR, 2222), (.S1ddRR, 2233), (.S1ddRR, 2332), (.S1ddRR, 3333),
    (.S1udRR, 1111), (.S1udRR, 1122), (.S1udRR, 1133), (.S1udRR, 2211), (.S1udRR, 2222),
    (.S1udRR, 2233), (.S1udduRR, 1111), (.S1udduRR, 1221), (.S1udduRR, 1331), (.S1udduRR, 2112),
    (.S1udduRR, 2222), (.S1udduRR, 2332), (.S1uuRR, 1111), (.S1uuRR, 1122), (.S1uuRR, 1221),
    (.S1uuRR, 2222), (.S8ddRR, 1111), (.S8ddRR, 1122), (.S8ddRR, 1133), (.S8ddRR, 1221),
    (.S8ddRR, 1331), (.S8ddRR, 2222), (.S8ddRR, 2233), (.S8ddRR, 2332), (.S8ddRR, 3333),
    (.S8udRR, 1111), (.S8udRR, 1122), (.S8udRR, 1133), (.S8udRR, 2211), (.S8udRR, 2222),
    (.S8udRR, 2233), (.S8udduRR, 1111), (.S8udduRR, 1221), (.S8udduRR, 1331), (.S8udduRR, 2112),
    (.S8udduRR, 2222), (.S8udduRR, 2332), (.S8uuRR, 1111), (.S8uuRR, 1122), (.S8uuRR, 1221),
    (.S8uuRR, 2222), (.SedRL, 1111), (.SedRL, 1122), (.SedRL, 1133), (.SedRL, 2211),
    (.SedRL, 2222), (.SedRL, 2233), (.SedRL, 3311), (.SedRL, 3322), (.SedRL, 3333),
    (.SedRR, 1111), (.SedRR, 1122), (.SedRR, 1133), (.SedRR, 2211), (.SedRR, 2222),
    (.SedRR, 2233), (.SedRR, 3311), (.SedRR, 3322), (.SedRR, 3333), (.SeeRR, 1111),
    (.SeeRR, 1122), (.SeeRR, 1133), (.SeeRR, 1221), (.SeeRR, 1331), (.SeeRR, 2222),
    (.SeeRR, 2233), (.SeeRR, 2332), (.SeeRR, 3333), (.SeuRL, 1111), (.SeuRL, 1122),
    (.SeuRL, 2211), (.SeuRL, 2222), (.SeuRL, 3311), (.SeuRL, 3322), (.SeuRR, 1111),
    (.SeuRR, 1122), (.SeuRR, 2211), (.SeuRR, 2222), (.SeuRR, 3311), (.SeuRR, 3322),
    (.TedRR, 1111), (.TedRR, 1122), (.TedRR, 1133), (.TedRR, 2211), (.TedRR, 2222),
    (.TedRR, 2233), (.TedRR, 3311), (.TedRR, 3322), (.TedRR, 3333), (.TeuRR, 1111),
    (.TeuRR, 1122), (.TeuRR, 2211), (.TeuRR, 2222), (.TeuRR, 3311), (.TeuRR, 3322),
    (.V1ddLR, 1111), (.V1ddLR, 1122), (.V1ddLR, 1133), (.V1ddLR, 1221), (.V1ddLR, 1331),
    (.V1ddLR, 2211), (.V1ddLR, 2222), (.V1ddLR, 2233), (.V1ddLR, 2332), (.V1ddLR, 3311),
    (.V1ddLR, 3322), (.V1ddLR, 3333), (.V1duLR, 1111), (.V1duLR, 1122), (.V1duLR, 2211),
    (.V1duLR, 2222), (.V1duLR, 3311), (.V1duLR, 3322), (.V1udLL, 1111), (.V1udLL, 1122),
    (.V1udLL, 1133), (.V1udLL, 2211), (.V1udLL, 2222), (.V1udLL, 2233), (.V1udLR, 1111),
    (.V1udLR, 1122), (.V1udLR, 1133), (.V1udLR, 2211), (.V1udLR, 2222), (.V1udLR, 2233),
    (.V1udRR, 1111), (.V1udRR, 1122), (.V1udRR, 1133), (.V1udRR, 2211), (.V1udRR, 2222),
    (.V1udRR, 2233), (.V1udduLR, 1111), (.V1udduLR, 1221), (.V1udduLR, 1331), (.V1udduLR, 2112),
    (.V1udduLR, 2222), (.V1udduLR, 2332), (.V1uuLR, 1111), (.V1uuLR, 1122), (.V1uuLR, 1221),
    (.V1uuLR, 2211), (.V1uuLR, 2222), (.V8ddLR, 1111), (.V8ddLR, 1122), (.V8ddLR, 1133),
    (.V8ddLR, 1221), (.V8ddLR, 1331), (.V8ddLR, 2211), (.V8ddLR, 2222), (.V8ddLR, 2233),
    (.V8ddLR, 2332), (.V8ddLR, 3311), (.V8ddLR, 3322), (.V8ddLR, 3333), (.V8duLR, 1111),
    (.V8duLR, 1122), (.V8duLR, 2211), (.V8duLR, 2222), (.V8duLR, 3311), (.V8duLR, 3322),
    (.V8udLL, 1111), (.V8udLL, 1122), (.V8udLL, 1133), (.V8udLL, 2211), (.V8udLL, 2222),
    (.V8udLL, 2233), (.V8udLR, 1111), (.V8udLR, 1122), (.V8udLR, 1133), (.V8udLR, 2211),
    (.V8udLR, 2222), (.V8udLR, 2233), (.V8udRR, 1111), (.V8udRR, 1122), (.V8udRR, 1133),
    (.V8udRR, 2211), (.V8udRR, 2222), (.V8udRR, 2233), (.V8udduLR, 1111), (.V8udduLR, 1221),
    (.V8udduLR, 1331), (.V8udduLR, 2112), (.V8udduLR, 2222), (.V8udduLR, 2332), (.V8uuLR, 1111),
    (.V8uuLR, 1122), (.V8uuLR, 1221), (.V8uuLR, 2211), (.V8uuLR, 2222), (.VddLL, 1111),
    (.VddLL, 1122), (.VddLL, 1133), (.VddLL, 1221), (.VddLL, 1331), (.VddLL, 2222),
    (.VddLL, 2233), (.VddLL, 2332), (.VddLL, 3333), (.VddRR, 1111), (.VddRR, 1122),
    (.VddRR, 1133), (.VddRR, 1221), (.VddRR, 1331), (.VddRR, 2222), (.VddRR, 2233),
    (.VddRR, 2332), (.VddRR, 3333), (.VdeLR, 1111), (.VdeLR, 1122), (.VdeLR, 1133),
    (.VdeLR, 2211), (.VdeLR, 2222), (.VdeLR, 2233), (.VdeLR, 3311), (.VdeLR, 3322),
    (.VdeLR, 3333), (.VedLL, 1111), (.VedLL, 1122), (.VedLL, 1133), (.VedLL, 2211),
    (.VedLL, 2222), (.VedLL, 2233), (.VedLL, 3311), (.VedLL, 3322), (.VedLL, 3333),
    (.VedLR, 1111), (.VedLR, 1122), (.VedLR, 1133), (.VedLR, 2211), (.VedLR, 2222),
    (.VedLR, 2233), (.VedLR, 3311), (.VedLR, 3322), (.VedLR, 3333), (.VedRR, 1111),
    (.VedRR, 1122), (.VedRR, 1133), (.VedRR, 2211), (.VedRR, 2222), (.VedRR, 2233),
    (.VedRR, 3311), (.VedRR, 3322), (.VedRR, 3333), (.VeeLL, 1111), (.VeeLL, 1122),
    (.VeeLL, 1133), (.VeeLL, 2222), (.VeeLL, 2233), (.VeeLL, 3333), (.VeeLR, 1111),
    (.VeeLR, 1122), (.VeeLR, 1133), (.VeeLR, 1221), (.VeeLR, 1331), (.VeeLR, 2211),
    (.VeeLR, 2222), (.VeeLR, 2233), (.VeeLR, 2332), (.VeeLR, 3311), (.VeeLR, 3322),
    (.VeeLR, 3333), (.VeeRR, 1111), (.VeeRR, 1122), (.VeeRR, 1133), (.VeeRR, 2222),
    (.VeeRR, 2233), (.VeeRR, 3333), (.VeuLL, 1111), (.VeuLL, 1122), (.VeuLL, 2211),
    (.VeuLL, 2222), (.VeuLL, 3311), (.VeuLL, 3322), (.VeuLR, 1111), (.VeuLR, 1122),
    (.VeuLR, 2211), (.VeuLR, 2222), (.VeuLR, 3311), (.VeuLR, 3322), (.VeuRR, 1111),
    (.VeuRR, 1122), (.VeuRR, 2211), (.VeuRR, 2222), (.VeuRR, 3311), (.VeuRR, 3322),
    (.VueLR, 1111), (.VueLR, 1122), (.VueLR, 1133), (.VueLR, 2211), (.VueLR, 2222),
    (.VueLR, 2233), (.VuuLL, 1111), (.VuuLL, 1122), (.VuuLL, 1221), (.VuuLL, 2222),
    (.VuuRR, 1111), (.VuuRR, 1122), (.VuuRR, 1221), (.VuuRR, 2222), (.dG, 11), (.dG, 22),
    (.dG, 33), (.dgamma, 11), (.dgamma, 22), (.dgamma, 33), (.egamma, 11), (.egamma, 22),
    (.egamma, 33), (.uG, 11), (.uG, 22), (.ugamma, 11), (.ugamma, 22)]

/-- coefficients of sector `ubenu` -/
def c_ubenu : List (WKey × ℕ) :=
  [
    (.SnueduRL, 1131), (.SnueduRL, 2131), (.SnueduRL, 3131), (.SnueduRR, 1131),
    (.SnueduRR, 2131), (.SnueduRR, 3131), (.TnueduRR, 1131), (.TnueduRR, 2131),
    (.TnueduRR, 3131), (.VnueduLL, 1131), (.VnueduLL, 2131), (.VnueduLL, 3131),
    (.VnueduLR, 1131), (.VnueduLR, 2131), (.VnueduLR, 3131)]

/-- coefficients of sector `ubmunu` -/
def c_ubmunu : List (WKey × ℕ) :=
  [
    (.SnueduRL, 1231), (.SnueduRL, 2231), (.SnueduRL, 3231), (.SnueduRR, 1231),
    (.SnueduRR, 2231), (.SnueduRR, 3231), (.TnueduRR, 1231), (.TnueduRR, 2231),
    (.TnueduRR, 3231), (.VnueduLL, 1231), (.VnueduLL, 2231), (.VnueduLL, 3231),
    (.VnueduLR, 1231), (.VnueduLR, 2231), (.VnueduLR, 3231)]

/-- coefficients of sector `ubtaunu` -/
def c_ubtaunu : List (WKey × ℕ) :=
  [
    (.SnueduRL, 1331), (.SnueduRL, 2331), (.SnueduRL, 3331), (.SnueduRR, 1331),
    (.SnueduRR, 2331), (.SnueduRR, 3331), (.TnueduRR, 1331), (.TnueduRR, 2331),
    (.TnueduRR, 3331), (.VnueduLL, 1331), (.VnueduLL, 2331), (.VnueduLL, 3331),
    (.VnueduLR, 1331), (.VnueduLR, 2331), (.VnueduLR, 3331)]

/-- coefficients of sector `cbenu` -/
def c_cbenu : List (WKey × ℕ) :=
  [
    (.SnueduRL, 1132), (.SnueduRL, 2132), (.SnueduRL, 3132), (.SnueduRR, 1132),
    (.SnueduRR, 2132), (.SnueduRR, 3132), (.TnueduRR, 1132), (.TnueduRR, 2132),
    (.TnueduRR, 3132), (.VnueduLL, 1132), (.VnueduLL, 2132), (.VnueduLL, 3132),
    (.VnueduLR, 1132), (.VnueduLR, 2132), (.VnueduLR, 3132)]

/-- coefficients of sector `cbmunu` -/
def c_cbmunu : List (WKey × ℕ) :=
  [
    (.SnueduRL, 1232), (.SnueduRL, 2232), (.SnueduRL, 3232), (.SnueduRR, 1232),
    (.SnueduRR, 2232), (.SnueduRR, 3232), (.TnueduRR, 1232), (.TnueduRR, 2232),
    (.TnueduRR, 3232), (.VnueduLL, 1232), (.VnueduLL, 2232), (.VnueduLL, 3232),
    (.VnueduLR, 1232), (.VnueduLR, 2232), (.VnueduLR, 3232)]

/-- coefficients of sector `cbtaunu` -/
def c_cbtaunu : List (WKey × ℕ) :=
  [
    (.SnueduRL, 1332), (.SnueduRL, 2332), (.SnueduRL, 3332), (.SnueduRR, 1332),
    (.SnueduRR, 2332), (.SnueduRR, 3332), (.TnueduRR, 1332), (.TnueduRR, 2332),
    (.TnueduRR, 3332), (.VnueduLL, 1332), (.VnueduLL, 2332), (.VnueduLL, 3332),
    (.VnueduLR, 1332), (.VnueduLR, 2332), (.VnueduLR, 3332)]

/-- coefficients of sector `usenu` -/
def c_usenu : List (WKey × ℕ) :=
  [
    (.SnueduRL, 1121), (.SnueduRL, 2121), (.SnueduRL, 3121), (.SnueduRR, 1121),
    (.SnueduRR, 2121), (.SnueduRR, 3121), (.TnueduRR, 1121), (.TnueduRR, 2121),
    (.TnueduRR, 3121), (.VnueduLL, 1121), (.VnueduLL, 2121), (.VnueduLL, 3121),
    (.VnueduLR, 1121), (.VnueduLR, 2121), (.VnueduLR, 3121)]

/-- coefficients of sector `usmunu` -/
def c_usmunu : List (WKey × ℕ) :=
  [
    (.SnueduRL, 1221), (.SnueduRL, 2221), (.SnueduRL, 3221), (.SnueduRR, 1221),
    (.SnueduRR, 2221), (.SnueduRR, 3221), (.TnueduRR, 1221), (.TnueduRR, 2221),
    (.TnueduRR, 3221), (.VnueduLL, 1221), (.VnueduLL, 2221), (.VnueduLL, 3221),
    (.VnueduLR, 1221), (.VnueduLR, 2221), (.VnueduLR, 3221)]

/-- coefficients of sector `ustaunu` -/
def c_ustaunu : List (WKey × ℕ) :=
  [
    (.SnueduRL, 1321), (.SnueduRL, 2321), (.SnueduRL, 3321), (.SnueduRR, 1321),
    (.SnueduRR, 2321), (.SnueduRR, 3321), (.TnueduRR, 1321), (.TnueduRR, 2321),
    (.TnueduRR, 3321), (.VnueduLL, 1321), (.VnueduLL, 2321), (.VnueduLL, 3321),
    (.VnueduLR, 1321), (.VnueduLR, 2321), (.VnueduLR, 3321)]

/-- coefficients of sector `csenu` -/
def c_csenu : List (WKey × ℕ) :=
  [
    (.SnueduRL, 1122), (.SnueduRL, 2122), (.SnueduRL, 3122), (.SnueduRR, 1122),
    (.SnueduRR, 2122), (.SnueduRR, 3122), (.TnueduRR, 1122), (.TnueduRR, 2122),
    (.TnueduRR, 3122), (.VnueduLL, 1122), (.VnueduLL, 2122), (.VnueduLL, 3122),
    (.VnueduLR, 1122), (.VnueduLR, 2122), (.VnueduLR, 3122)]

/-- coefficients of sector `csmunu` -/
def c_csmunu : List (WKey × ℕ) :=
  [
    (.SnueduRL, 1222), (.SnueduRL, 2222), (.SnueduRL, 3222), (.SnueduRR, 1222),
    (.SnueduRR, 2222), (.SnueduRR, 3222), (.TnueduRR, 1222), (.TnueduRR, 2222),
    (.TnueduRR, 3222), (.VnueduLL, 1222), (.VnueduLL, 2222), (.VnueduLL, 3222),
    (.VnueduLR, 1222), (.VnueduLR, 2222), (.VnueduLR, 3222)]

/-- coefficients of sector `cstaunu` -/
def c_cstaunu : List (WKey × ℕ) :=
  [
    (.SnueduRL, 1322), (.SnueduRL, 2322), (.SnueduRL, 3322), (.SnueduRR, 1322),
    (.SnueduRR, 2322), (.SnueduRR, 3322), (.TnueduRR, 1322), (.TnueduRR, 2322),
    (.TnueduRR, 3322), (.VnueduLL, 1322), (.VnueduLL, 2322), (.VnueduLL, 3322),
    (.VnueduLR, 1322), (.VnueduLR, 2322), (.VnueduLR, 3322)]

/-- coefficients of sector `udenu` -/
def c_udenu : List (WKey × ℕ) :=
  [
    (.SnueduRL, 1111), (.SnueduRL, 2111), (.SnueduRL, 3111), (.SnueduRR, 1111),
    (.SnueduRR, 2111), (.SnueduRR, 3111), (.TnueduRR, 1111), (.TnueduRR, 2111),
    (.TnueduRR, 3111), (.VnueduLL, 1111), (.VnueduLL, 2111), (.VnueduLL, 3111),
    (.VnueduLR, 1111), (.VnueduLR, 2111), (.VnueduLR, 3111)]

/-- coefficients of sector `udmunu` -/
def c_udmunu : List (WKey × ℕ) :=
  [
    (.SnueduRL, 1211), (.SnueduRL, 2211), (.SnueduRL, 3211), (.SnueduRR, 1211),
    (.SnueduRR, 2211), (.SnueduRR, 3211), (.TnueduRR, 1211), (.TnueduRR, 2211),
    (.TnueduRR, 3211), (.VnueduLL, 1211), (.VnueduLL, 2211), (.VnueduLL, 3211),
    (.VnueduLR, 1211), (.VnueduLR, 2211), (.VnueduLR, 3211)]

/-- coefficients of sector `udtaunu` -/
def c_udtaunu : List (WKey × ℕ) :=
  [
    (.SnueduRL, 1311), (.SnueduRL, 2311), (.SnueduRL, 3311), (.SnueduRR, 1311),
    (.SnueduRR, 2311), (.SnueduRR, 3311), (.TnueduRR, 1311), (.TnueduRR, 2311),
    (.TnueduRR, 3311), (.VnueduLL, 1311), (.VnueduLL, 2311), (.VnueduLL, 3311),
    (.VnueduLR, 1311), (.VnueduLR, 2311), (.VnueduLR, 3311)]

/-- coefficients of sector `cdenu` -/
def c_cdenu : List (WKey × ℕ) :=
  [
    (.SnueduRL, 1112), (.SnueduRL, 2112), (.SnueduRL, 3112), (.SnueduRR, 1112),
    (.SnueduRR, 2112), (.SnueduRR, 3112), (.TnueduRR, 1112), (.TnueduRR, 2112),
    (.TnueduRR, 3112), (.VnueduLL, 1112), (.VnueduLL, 2112), (.VnueduLL, 3112),
    (.VnueduLR, 1112), (.VnueduLR, 2112), (.VnueduLR, 3112)]

/-- coefficients of sector `cdmunu` -/
def c_cdmunu : List (WKey × ℕ) :=
  [
    (.SnueduRL, 1212), (.SnueduRL, 2212), (.SnueduRL, 3212), (.SnueduRR, 1212),
    (.SnueduRR, 2212), (.SnueduRR, 3212), (.TnueduRR, 1212), (.TnueduRR, 2212),
    (.TnueduRR, 3212), (.VnueduLL, 1212), (.VnueduLL, 2212), (.VnueduLL, 3212),
    (.VnueduLR, 1212), (.VnueduLR, 2212), (.VnueduLR, 3212)]

/-- coefficients of sector `cdtaunu` -/
def c_cdtaunu : List (WKey × ℕ) :=
  [
    (.SnueduRL, 1312), (.SnueduRL, 2312), (.SnueduRL, 3312), (.SnueduRR, 1312),
    (.SnueduRR, 2312), (.SnueduRR, 3312), (.TnueduRR, 1312), (.TnueduRR, 2312),
    (.TnueduRR, 3312), (.VnueduLL, 1312), (.VnueduLL, 2312), (.VnueduLL, 3312),
    (.VnueduLR, 1312), (.VnueduLR, 2312), (.VnueduLR, 3312)]

/-- coefficients of sector `sbnunu` -/
def c_sbnunu : List (WKey × ℕ) :=
  [
    (.VnudLL, 1123), (.VnudLL, 1223), (.VnudLL, 1232), (.VnudLL, 1323), (.VnudLL, 1332),
    (.VnudLL, 2223), (.VnudLL, 2323), (.VnudLL, 2332), (.VnudLL, 3323), (.VnudLR, 1123),
    (.VnudLR, 1223), (.VnudLR, 1232), (.VnudLR, 1323), (.VnudLR, 1332), (.VnudLR, 2223),
    (.VnudLR, 2323), (.VnudLR, 2332), (.VnudLR, 3323)]

/-- coefficients of sector `dbnunu` -/
def c_dbnunu : List (WKey × ℕ) :=
  [
    (.VnudLL, 1113), (.VnudLL, 1213), (.VnudLL, 1231), (.VnudLL, 1313), (.VnudLL, 1331),
    (.VnudLL, 2213), (.VnudLL, 2313), (.VnudLL, 2331), (.VnudLL, 3313), (.VnudLR, 1113),
    (.VnudLR, 1213), (.VnudLR, 1231), (.VnudLR, 1313), (.VnudLR, 1331), (.VnudLR, 2213),
    (.VnudLR, 2313), (.VnudLR, 2331), (.VnudLR, 3313)]

/-- coefficients of sector `sdnunu` -/
def c_sdnunu : List (WKey × ℕ) :=
  [
    (.VnudLL, 1112), (.VnudLL, 1212), (.VnudLL, 1221), (.VnudLL, 1312), (.VnudLL, 1321),
    (.VnudLL, 2212), (.VnudLL, 2312), (.VnudLL, 2321), (.VnudLL, 3312), (.VnudLR, 1112),
    (.VnudLR, 1212), (.VnudLR, 1221), (.VnudLR, 1312), (.VnudLR, 1321), (.VnudLR, 2212),
    (.VnudLR, 2312), (.VnudLR, 2321), (.VnudLR, 3312)]

/-- coefficients of sector `cununu` -/
def c_cununu : List (WKey × ℕ) :=
  [
    (.VnuuLL, 1112), (.VnuuLL, 1212), (.VnuuLL, 1221), (.VnuuLL, 1312), (.VnuuLL, 1321),
    (.VnuuLL, 2212), (.VnuuLL, 2312), (.VnuuLL, 2321), (.VnuuLL, 3312), (.VnuuLR, 1112),
    (.VnuuLR, 1212), (.VnuuLR, 1221), (.VnuuLR, 1312), (.VnuuLR, 1321), (.VnuuLR, 2212),
    (.VnuuLR, 2312), (.VnuuLR, 2321), (.VnuuLR, 3312)]

/-- coefficients of sector `ffnunu` -/
def c_ffnunu : List (WKey × ℕ) :=
  [
    (.VnudLL, 1111), (.VnudLL, 1122), (.VnudLL, 1133), (.VnudLL, 1211), (.VnudLL, 1222),
    (.VnudLL, 1233), (.VnudLL, 1311), (.VnudLL, 1322), (.VnudLL, 1333), (.VnudLL, 2211),
    (.VnudLL, 2222), (.VnudLL, 2233), (.VnudLL, 2311), (.VnudLL, 2322), (.VnudLL, 2333),
    (.VnudLL, 3311), (.VnudLL, 3322), (.VnudLL, 3333), (.VnudLR, 1111), (.VnudLR, 1122),
    (.VnudLR, 1133), (.VnudLR, 1211), (.VnudLR, 1222), (.VnudLR, 1233), (.VnudLR, 1311),
    (.VnudLR, 1322), (.VnudLR, 1333), (.VnudLR, 2211), (.VnudLR, 2222), (.VnudLR, 2233),
    (.VnudLR, 2311), (.VnudLR, 2322), (.VnudLR, 2333), (.VnudLR, 3311), (.VnudLR, 3322),
    (.VnudLR, 3333), (.VnueLL, 1111), (.VnueLL, 1122), (.VnueLL, 1133), (.VnueLL, 1211),
    (.VnueLL, 1222), (.VnueLL, 1233), (.VnueLL, 1311), (.VnueLL, 1322), (.VnueLL, 1333),
    (.VnueLL, 2211), (.VnueLL, 2222), (.VnueLL, 2233), (.VnueLL, 2311), (.VnueLL, 2322),
    (.VnueLL, 2333), (.VnueLL, 3311), (.VnueLL, 3322), (.VnueLL, 3333), (.VnueLR, 1111),
    (.VnueLR, 1122), (.VnueLR, 1133), (.VnueLR, 1211), (.VnueLR, 1222), (.VnueLR, 1233),
    (.VnueLR, 1311), (.VnueLR, 1322), (.VnueLR, 1333), (.VnueLR, 2211), (.VnueLR, 2222),
    (.VnueLR, 2233), (.VnueLR, 2311), (.VnueLR, 2322), (.VnueLR, 2333), (.VnueLR, 3311),
    (.VnueLR, 3322), (.VnueLR, 3333), (.VnuuLL, 1111), (.VnuuLL, 1122), (.VnuuLL, 1211),
    (.VnuuLL, 1222), (.VnuuLL, 1311), (.VnuuLL, 1322), (.VnuuLL, 2211), (.VnuuLL, 2222),
    (.VnuuLL, 2311), (.VnuuLL, 2322), (.VnuuLL, 3311), (.VnuuLL, 3322), (.VnuuLR, 1111),
    (.VnuuLR, 1122), (.VnuuLR, 1211), (.VnuuLR, 1222), (.VnuuLR, 1311), (.VnuuLR, 1322),
    (.VnuuLR, 2211), (.VnuuLR, 2222), (.VnuuLR, 2311), (.VnuuLR, 2322), (.VnuuLR, 3311),
    (.VnuuLR, 3322)]

/-- coefficients of sector `uddnu` -/
def c_uddnu : List (WKey × ℕ) :=
  [
    (.SdudRL, 1111), (.SdudRL, 1112), (.SdudRL, 1113), (.SuddLL, 1111), (.SuddLL, 1112),
    (.SuddLL, 1113)]

/-- coefficients of sector `udsnu` -/
def c_udsnu : List (WKey × ℕ) :=
  [
    (.SdduRL, 1211), (.SdduRL, 1212), (.SdduRL, 1213), (.SdudRL, 1121), (.SdudRL, 1122),
    (.SdudRL, 1123), (.SdudRL, 2111), (.SdudRL, 2112), (.SdudRL, 2113), (.SuddLL, 1121),
    (.SuddLL, 1122), (.SuddLL, 1123), (.SuddLL, 1211), (.SuddLL, 1212), (.SuddLL, 1213)]

/-- coefficients of sector `udbnu` -/
def c_udbnu : List (WKey × ℕ) :=
  [
    (.SdduRL, 1311), (.SdduRL, 1312), (.SdduRL, 1313), (.SdudRL, 1131), (.SdudRL, 1132),
    (.SdudRL, 1133), (.SdudRL, 3111), (.SdudRL, 3112), (.SdudRL, 3113), (.SuddLL, 1131),
    (.SuddLL, 1132), (.SuddLL, 1133), (.SuddLL, 1311), (.SuddLL, 1312), (.SuddLL, 1313)]

/-- coefficients of sector `ussnu` -/
def c_ussnu : List (WKey × ℕ) :=
  [
    (.SdudRL, 2121), (.SdudRL, 2122), (.SdudRL, 2123), (.SuddLL, 1221), (.SuddLL, 1222),
    (.SuddLL, 1223)]

/-- coefficients of sector `usbnu` -/
def c_usbnu : List (WKey × ℕ) :=
  [
    (.SdduRL, 2311), (.SdduRL, 2312), (.SdduRL, 2313), (.SdudRL, 2131), (.SdudRL, 2132),
    (.SdudRL, 2133), (.SdudRL, 3121), (.SdudRL, 3122), (.SdudRL, 3123), (.SuddLL, 1231),
    (.SuddLL, 1232), (.SuddLL, 1233), (.SuddLL, 1321), (.SuddLL, 1322), (.SuddLL, 1323)]

/-- coefficients of sector `ubbnu` -/
def c_ubbnu : List (WKey × ℕ) :=
  [
    (.SdudRL, 3131), (.SdudRL, 3132), (.SdudRL, 3133), (.SuddLL, 1331), (.SuddLL, 1332),
    (.SuddLL, 1333)]

/-- coefficients of sector `cddnu` -/
def c_cddnu : List (WKey × ℕ) :=
  [
    (.SdudRL, 1211), (.SdudRL, 1212), (.SdudRL, 1213), (.SuddLL, 2111), (.SuddLL, 2112),
    (.SuddLL, 2113)]

/-- coefficients of sector `cdsnu` -/
def c_cdsnu : List (WKey × ℕ) :=
  [
    (.SdduRL, 1221), (.SdduRL, 1222), (.SdduRL, 1223), (.SdudRL, 1221), (.SdudRL, 1222),
    (.SdudRL, 1223), (.SdudRL, 2211), (.SdudRL, 2212), (.SdudRL, 2213), (.SuddLL, 2121),
    (.SuddLL, 2122), (.SuddLL, 2123), (.SuddLL, 2211), (.SuddLL, 2212), (.SuddLL, 2213)]

/-- coefficients of sector `cdbnu` -/
def c_cdbnu : List (WKey × ℕ) :=
  [
    (.SdduRL, 1321), (.SdduRL, 1322), (.SdduRL, 1323), (.SdudRL, 1231), (.SdudRL, 1232),
    (.SdudRL, 1233), (.SdudRL, 3211), (.SdudRL, 3212), (.SdudRL, 3213), (.SuddLL, 2131),
    (.SuddLL, 2132), (.SuddLL, 2133), (.SuddLL, 2311), (.SuddLL, 2312), (.SuddLL, 2313)]

/-- coefficients of sector `cssnu` -/
def c_cssnu : List (WKey × ℕ) :=
  [
    (.SdudRL, 2221), (.SdudRL, 2222), (.SdudRL, 2223), (.SuddLL, 2221), (.SuddLL, 2222),
    (.SuddLL, 2223)]

/-- coefficients of sector `csbnu` -/
def c_csbnu : List (WKey × ℕ) :=
  [
    (.SdduRL, 2321), (.SdduRL, 2322), (.SdduRL, 2323), (.SdudRL, 2231), (.SdudRL, 2232),
    (.SdudRL, 2233), (.SdudRL, 3221), (.SdudRL, 3222), (.SdudRL, 3223), (.SuddLL, 2231),
    (.SuddLL, 2232), (.SuddLL, 2233), (.SuddLL, 2321), (.SuddLL, 2322), (.SuddLL, 2323)]

/-- coefficients of sector `cbbnu` -/
def c_cbbnu : List (WKey × ℕ) :=
  [
    (.SdudRL, 3231), (.SdudRL, 3232), (.SdudRL, 3233), (.SuddLL, 2331), (.SuddLL, 2332),
    (.SuddLL, 2333)]

/-- coefficients of sector `uude` -/
def c_uude : List (WKey × ℕ) :=
  [
    (.SduuLL, 1111), (.SduuLR, 1111), (.SduuRL, 1111), (.SduuRR, 1111)]

/-- coefficients of sector `uudmu` -/
def c_uudmu : List (WKey × ℕ) :=
  [
    (.SduuLL, 1112), (.SduuLR, 1112), (.SduuRL, 1112), (.SduuRR, 1112)]

/-- coefficients of sector `uudtau` -/
def c_uudtau : List (WKey × ℕ) :=
  [
    (.SduuLL, 1113), (.SduuLR, 1113), (.SduuRL, 1113), (.SduuRR, 1113)]

/-- coefficients of sector `ucde` -/
def c_ucde : List (WKey × ℕ) :=
  [
    (.SduuLL, 1121), (.SduuLL, 1211), (.SduuLR, 1121), (.SduuLR, 1211), (.SduuRL, 1121),
    (.SduuRL, 1211), (.SduuRR, 1121), (.SduuRR, 1211), (.SuudLR, 1211), (.SuudRL, 1211)]

/-- coefficients of sector `ucdmu` -/
def c_ucdmu : List (WKey × ℕ) :=
  [
    (.SduuLL, 1122), (.SduuLL, 1212), (.SduuLR, 1122), (.SduuLR, 1212), (.SduuRL, 1122),
    (.SduuRL, 1212), (.SduuRR, 1122), (.SduuRR, 1212), (.SuudLR, 1212), (.SuudRL, 1212)]

/-- coefficients of sector `ucdtau` -/
def c_ucdtau : List (WKey × ℕ) :=
  [
    (.SduuLL, 1123), (.SduuLL, 1213), (.SduuLR, 1123), (.SduuLR, 1213), (.SduuRL, 1123),
    (.SduuRL, 1213), (.SduuRR, 1123), (.SduuRR, 1213), (.SuudLR, 1213), (.SuudRL, 1213)]

/-- coefficients of sector `ccde` -/
def c_ccde : List (WKey × ℕ) :=
  [
    (.SduuLL, 1221), (.SduuLR, 1221), (.SduuRL, 1221), (.SduuRR, 1221)]

/-- coefficients of sector `ccdmu` -/
def c_ccdmu : List (WKey × ℕ) :=
  [
    (.SduuLL, 1222), (.SduuLR, 1222), (.SduuRL, 1222), (.SduuRR, 1222)]

/-- coefficients of sector `ccdtau` -/
def c_ccdtau : List (WKey × ℕ) :=
  [
    (.SduuLL, 1223), (.SduuLR, 1223), (.SduuRL, 1223), (.SduuRR, 1223)]

/-- coefficients of sector `uuse` -/
def c_uuse : List (WKey × ℕ) :=
  [
    (.SduuLL, 2111), (.SduuLR, 2111), (.SduuRL, 2111), (.SduuRR, 2111)]

/-- coefficients of sector `uusmu` -/
def c_uusmu : List (WKey × ℕ) :=
  [
    (.SduuLL, 2112), (.SduuLR, 2112), (.SduuRL, 2112), (.SduuRR, 2112)]

/-- coefficients of sector `uustau` -/
def c_uustau : List (WKey × ℕ) :=
  [
    (.SduuLL, 2113), (.SduuLR, 2113), (.SduuRL, 2113), (.SduuRR, 2113)]

/-- coefficients of sector `ucse` -/
def c_ucse : List (WKey × ℕ) :=
  [
    (.SduuLL, 2121), (.SduuLL, 2211), (.SduuLR, 2121), (.SduuLR, 2211), (.SduuRL, 2121),
    (.SduuRL, 2211), (.SduuRR, 2121), (.SduuRR, 2211), (.SuudLR, 1221), (.SuudRL, 1221)]

/-- coefficients of sector `ucsmu` -/
def c_ucsmu : List (WKey × ℕ) :=
  [
    (.SduuLL, 2122), (.SduuLL, 2212), (.SduuLR, 2122), (.SduuLR, 2212), (.SduuRL, 2122),
    (.SduuRL, 2212), (.SduuRR, 2122), (.SduuRR, 2212), (.SuudLR, 1222), (.SuudRL, 1222)]

/-- coefficients of sector `ucstau` -/
def c_ucstau : List (WKey × ℕ) :=
  [
    (.SduuLL, 2123), (.SduuLL, 2213), (.SduuLR, 2123), (.SduuLR, 2213), (.SduuRL, 2123),
    (.SduuRL, 2213), (.SduuRR, 2123), (.SduuRR, 2213), (.SuudLR, 1223), (.SuudRL, 1223)]

/-- coefficients of sector `ccse` -/
def c_ccse : List (WKey × ℕ) :=
  [
    (.SduuLL, 2221), (.SduuLR, 2221), (.SduuRL, 2221), (.SduuRR, 2221)]

/-- coefficients of sector `ccsmu` -/
def c_ccsmu : List (WKey × ℕ) :=
  [
    (.SduuLL, 2222), (.SduuLR, 2222), (.SduuRL, 2222), (.SduuRR, 2222)]

/-- coefficients of sector `ccstau` -/
def c_ccstau : List (WKey × ℕ) :=
  [
    (.SduuLL, 2223), (.SduuLR, 2223), (.SduuRL, 2223), (.SduuRR, 2223)]

/-- coefficients of sector `uube` -/
def c_uube : List (WKey × ℕ) :=
  [
    (.SduuLL, 3111), (.SduuLR, 3111), (.SduuRL, 3111), (.SduuRR, 3111)]

/-- coefficients of sector `uubmu` -/
def c_uubmu : List (WKey × ℕ) :=
  [
    (.SduuLL, 3112), (.SduuLR, 3112), (.SduuRL, 3112), (.SduuRR, 3112)]

/-- coefficients of sector `uubtau` -/
def c_uubtau : List (WKey × ℕ) :=
  [
    (.SduuLL, 3113), (.SduuLR, 3113), (.SduuRL, 3113), (.SduuRR, 3113)]

/-- coefficients of sector `ucbe` -/
def c_ucbe : List (WKey × ℕ) :=
  [
    (.SduuLL, 3121), (.SduuLL, 3211), (.SduuLR, 3121), (.SduuLR, 3211), (.SduuRL, 3121),
    (.SduuRL, 3211), (.SduuRR, 3121), (.SduuRR, 3211), (.SuudLR, 1231), (.SuudRL, 1231)]

/-- coefficients of sector `ucbmu` -/
def c_ucbmu : List (WKey × ℕ) :=
  [
    (.SduuLL, 3122), (.SduuLL, 3212), (.SduuLR, 3122), (.SduuLR, 3212), (.SduuRL, 3122),
    (.SduuRL, 3212), (.SduuRR, 3122), (.SduuRR, 3212), (.SuudLR, 1232), (.SuudRL, 1232)]

/-- coefficients of sector `ucbtau` -/
def c_ucbtau : List (WKey × ℕ) :=
  [
    (.SduuLL, 3123), (.SduuLL, 3213), (.SduuLR, 3123), (.SduuLR, 3213), (.SduuRL, 3123),
    (.SduuRL, 3213), (.SduuRR, 3123), (.SduuRR, 3213), (.SuudLR, 1233), (.SuudRL, 1233)]

/-- coefficients of sector `ccbe` -/
def c_ccbe : List (WKey × ℕ) :=
  [
    (.SduuLL, 3221), (.SduuLR, 3221), (.SduuRL, 3221), (.SduuRR, 3221)]

/-- coefficients of sector `ccbmu` -/
def c_ccbmu : List (WKey × ℕ) :=
  [
    (.SduuLL, 3222), (.SduuLR, 3222), (.SduuRL, 3222), (.SduuRR, 3222)]

/-- coefficients of sector `ccbtau` -/
def c_ccbtau : List (WKey × ℕ) :=
  [
    (.SduuLL, 3223), (.SduuLR, 3223), (.SduuRL, 3223), (.SduuRR, 3223)]

/-- `coeffs` (definitions.py line 47): sector name and its coefficients -/
def coefTable : List (String × List (WKey × ℕ)) :=
  [
    ("sbsb", c_sbsb), ("dbdb", c_dbdb), ("sdsd", c_sdsd), ("cucu", c_cucu), ("dbsb", c_dbsb),
    ("sbuc", c_sbuc), ("sbcu", c_sbcu), ("dbuc", c_dbuc), ("dbcu", c_dbcu), ("sduc", c_sduc),
    ("sdcu", c_sdcu), ("sbsd", c_sbsd), ("dbds", c_dbds), ("sb", c_sb), ("db", c_db),
    ("sd", c_sd), ("cu", c_cu), ("sbemu", c_sbemu), ("sbmue", c_sbmue), ("sbetau", c_sbetau),
    ("sbtaue", c_sbtaue), ("sbmutau", c_sbmutau), ("sbtaumu", c_sbtaumu), ("dbemu", c_dbemu),
    ("dbmue", c_dbmue), ("dbetau", c_dbetau), ("dbtaue", c_dbtaue), ("dbmutau", c_dbmutau),
    ("dbtaumu", c_dbtaumu), ("sdemu", c_sdemu), ("sdmue", c_sdmue), ("sdetau", c_sdetau),
    ("sdtaue", c_sdtaue), ("sdmutau", c_sdmutau), ("sdtaumu", c_sdtaumu), ("cuemu", c_cuemu),
    ("cumue", c_cumue), ("cuetau", c_cuetau), ("cutaue", c_cutaue), ("cumutau", c_cumutau),
    ("cutaumu", c_cutaumu), ("mutau", c_mutau), ("mue", c_mue), ("taue", c_taue),
    ("tauetaue", c_tauetaue), ("taumutaumu", c_taumutaumu), ("muemue", c_muemue),
    ("muemutau", c_muemutau), ("etauemu", c_etauemu), ("tauetaumu", c_tauetaumu),
    ("nunununu", c_nunununu), ("nunumue", c_nunumue), ("nunumutau", c_nunumutau),
    ("nunutaue", c_nunutaue), ("dF=0", c_dF0), ("ubenu", c_ubenu), ("ubmunu", c_ubmunu),
    ("ubtaunu", c_ubtaunu), ("cbenu", c_cbenu), ("cbmunu", c_cbmunu), ("cbtaunu", c_cbtaunu),
    ("usenu", c_usenu), ("usmunu", c_usmunu), ("ustaunu", c_ustaunu), ("csenu", c_csenu),
    ("csmunu", c_csmunu), ("cstaunu", c_cstaunu), ("udenu", c_udenu), ("udmunu", c_udmunu),
    ("udtaunu", c_udtaunu), ("cdenu", c_cdenu), ("cdmunu", c_cdmunu), ("cdtaunu", c_cdtaunu),
    ("sbnunu", c_sbnunu), ("dbnunu", c_dbnunu), ("sdnunu", c_sdnunu), ("cununu", c_cununu),
    ("ffnunu", c_ffnunu), ("uddnu", c_uddnu), ("udsnu", c_udsnu), ("udbnu", c_udbnu),
    ("ussnu", c_ussnu), ("usbnu", c_usbnu), ("ubbnu", c_ubbnu), ("cddnu", c_cddnu),
    ("cdsnu", c_cdsnu), ("cdbnu", c_cdbnu), ("cssnu", c_cssnu), ("csbnu", c_csbnu),
    ("cbbnu", c_cbbnu), ("uude", c_uude), ("uudmu", c_uudmu), ("uudtau", c_uudtau),
    ("ucde", c_ucde), ("ucdmu", c_ucdmu), ("ucdtau", c_ucdtau), ("ccde", c_ccde),
    ("ccdmu", c_ccdmu), ("ccdtau", c_ccdtau), ("uuse", c_uuse), ("uusmu", c_uusmu),
    ("uustau", c_uustau), ("ucse", c_ucse), ("ucsmu", c_ucsmu), ("ucstau", c_ucstau),
    ("ccse", c_ccse), ("ccsmu", c_ccsmu), ("ccstau", c_ccstau), ("uube", c_uube),
    ("uubmu", c_uubmu), ("uubtau", c_uubtau), ("ucbe", c_ucbe), ("ucbmu", c_ucbmu),
    ("ucbtau", c_ucbtau), ("ccbe", c_ccbe), ("ccbmu", c_ccbmu), ("ccbtau", c_ccbtau)]

end Verif.WetTab
