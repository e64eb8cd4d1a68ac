import Verif.Model.WetTables

/-!
# Names of Wilson coefficients in the Bern and flavio bases

The names are composed of the label of the operator and the flavours of the fermions.  The classes are
those of `/repo/wilson/translate/wet.py`: I (ΔF = 2), II (charged currents), III, IV (four different or
three different quark flavours) and V (ΔF = 1), VII (flavour conserving).
-/

set_option autoImplicit false

namespace Verif.WetNames

/-- all names composed of a prefix and a suffix -/
def cat (ps qs : List String) : List String := ps.flatMap fun p => qs.map fun q => p ++ q


/-- `x` is the name of a coefficient of the sector `s` in the JMS basis -/
def IsCoef (s x : String) : Prop := ∃ l, (s, l) ∈ WetTab.coefTable ∧ ∃ a ∈ l, x = WetTab.nameOf a

/-- the charged leptons -/
def leps : List String := ["e", "mu", "tau"]

/-- all pairs of charged leptons -/
def lepPairs : List String := cat leps leps

/-- pairs of different charged leptons -/
def lfvPairs : List String := ["emu", "mue", "etau", "taue", "mutau", "taumu"]

/-- all pairs of neutrinos -/
def nuPairs : List String := cat (cat ["nu"] leps) (cat ["nu"] leps)

/-! ## Sectors of the JMS basis -/

def sectorsI : List String := ["sbsb", "dbdb", "sdsd", "cucu"]

/-- the charged currents -/
def sectorsII : List String := cat (cat ["ub", "cb", "us", "cs", "ud", "cd"] leps) ["nu"]

/-- four quarks, change of flavour by two units, three or four different flavours -/
def sectorsIII : List String := ["sbuc", "sbcu", "dbuc", "dbcu", "sduc", "sdcu", "sbsd", "dbds"]

/-- one quark flavour changes by one unit: four-quark operators, semileptonic operators with two equal
leptons, and dipole operators -/
def sectorsV : List String := ["sb", "db", "sd"]

/-- the semileptonic operators with two different leptons -/
def sectorsLfv : List String := cat ["sb", "db", "sd"] lfvPairs

def sectorsNu : List String := ["sbnunu", "dbnunu", "sdnunu"]

/-! ## The Bern basis -/

def bernI : List String := cat ["1", "1p", "2", "2p", "3", "3p", "4", "5"] ["sbsb", "dbdb", "dsds", "cucu"]

def bernII : List String :=
  cat ["1", "1p", "5", "5p", "7p"] (cat ["ub", "cb", "us", "cs", "ud", "cd"] lepPairs)

def bernTen : List String := ["1", "1p", "3", "3p", "5", "5p", "7", "7p", "9", "9p"]

def bernTwenty : List String := bernTen ++ ["2", "2p", "4", "4p", "6", "6p", "8", "8p", "10", "10p"]

/-- four-quark operators with three or four different flavours, two of which change -/
def bernIII : List String :=
  cat bernTwenty (cat ["sb", "db", "ds"] ["uc", "cu"]) ++ cat bernTen ["sbsd", "dbds"]

/-- four-quark operators in which one flavour changes -/
def bernV : List String :=
  cat bernTwenty (cat ["sb", "db", "ds"] ["uu", "cc"] ++ ["sbdd", "dbss", "dsbb"]) ++
    cat bernTen ["sbss", "sbbb", "dbdd", "dbbb", "dsdd", "dsss"]

/-- the same without those of type 7 -/
def bernEight : List String := ["1", "1p", "3", "3p", "5", "5p", "9", "9p"]

/-- semileptonic operators -/
def bernLep : List String := cat bernTen (cat ["sb", "db", "ds"] lepPairs)

/-- semileptonic operators that survive the translation to the flavio basis and back -/
def bernLep' : List String := cat bernEight (cat ["sb", "db"] lepPairs ++ ["dsee", "dsmumu", "dstautau"])

def bernNu : List String := cat ["nu1", "nu1p"] (cat ["sb", "db", "ds"] lepPairs)

/-- dipole operators -/
def bernDip : List String := cat ["7gamma", "7pgamma", "8g", "8pg"] ["sb", "db", "ds"]

/-! ## The flavio basis -/

def flavioI : List String :=
  cat ["CVLL_", "CVRR_", "CVLR_", "CSLL_", "CSRR_", "CSLR_", "CTLL_", "CTRR_"] ["bsbs", "bdbd", "sdsd", "ucuc"]

def flavioII : List String :=
  cat ["CVL_", "CVR_", "CSL_", "CSR_", "CT_"]
    (cat (cat ["bc", "bu", "sc", "su", "dc", "du"] leps) (cat ["nu"] leps))

def flavioTen : List String :=
  ["CVLL_", "CVRR_", "CVLR_", "CVRL_", "CSLL_", "CSRR_", "CSLR_", "CSRL_", "CTLL_", "CTRR_"]

def flavioTwenty : List String :=
  flavioTen ++ ["CVLLt_", "CVRRt_", "CVLRt_", "CVRLt_", "CSLLt_", "CSRRt_", "CSLRt_", "CSRLt_", "CTLLt_", "CTRRt_"]

/-- four-quark operators in which one flavour changes, for down-type quarks -/
def flavioV : List String :=
  cat flavioTwenty (cat ["bs", "bd", "sd"] ["uu", "cc"] ++ ["bsdd", "bdss", "sdbb"]) ++
    cat flavioTen ["bsss", "bsbb", "bddd", "bdbb", "sddd", "sdss"]

/-- the same for up-type quarks -/
def flavioVu : List String :=
  cat flavioTwenty ["cudd", "cuss", "cubb"] ++ cat flavioTen ["cuuu", "cucc"]

/-- semileptonic operators with down-type quarks -/
def flavioLep : List String :=
  cat ["C9_", "C9p_", "C10_", "C10p_", "CS_", "CSp_", "CP_", "CPp_"] (cat ["bs", "bd", "sd"] lepPairs)

/-- those that survive the translation to the Bern basis and back -/
def flavioLep' : List String :=
  cat ["C9_", "C9p_", "C10_", "C10p_", "CS_", "CSp_", "CP_", "CPp_"]
    (cat ["bs", "bd"] lepPairs ++ ["sdee", "sdmumu", "sdtautau"])

/-- the same for up-type quarks -/
def flavioLepU : List String :=
  cat ["C9_", "C9p_", "C10_", "C10p_", "CS_", "CSp_", "CP_", "CPp_"] ["cuee", "cumumu", "cutautau"]

def flavioNu : List String := cat ["CL_", "CR_"] (cat ["bs", "bd", "sd"] nuPairs)

def flavioDip : List String := cat ["C7_", "C7p_", "C8_", "C8p_"] ["bs", "bd", "sd"]

def flavioDipU : List String := cat ["C7_", "C7p_", "C8_", "C8p_"] ["cu"]

end Verif.WetNames
