import Verif.Lemmas.WetPairs

/-!
# Which names are covered by the translators
-/

set_option autoImplicit false
set_option maxRecDepth 100000

namespace Verif.WetApply
open Verif.Py Verif.Gen.WetOut Verif.WetNames

/-- a property holds for several families of names -/
noncomputable def checkCats (ok : ℕ → Bool) : List (List String × List String) → Bool
  | [] => true
  | (ps, qs) :: l => bif checkCat ok ps qs then checkCats ok l else false

theorem checkCats_sound {ok : ℕ → Bool} : ∀ {l : List (List String × List String)}, checkCats ok l = true →
    ∀ p ∈ l, ∀ x ∈ cat p.1 p.2, Plain x ∧ ok (code x) = true
  | [], _, _, h => by cases h
  | (ps, qs) :: l, h, p, hm => by
    obtain ⟨h1, h2⟩ := cond_and h
    rcases List.mem_cons.1 hm with rfl | hm
    · exact fun x hx => checkCat_sound h1 hx
    · exact checkCats_sound h2 p hm

/-! ## The JMS basis -/

/-- the sectors covered by the translations between the JMS and Bern bases -/
def sectorsBern : List String := sectorsI ++ sectorsII ++ sectorsIII ++ sectorsV ++ sectorsLfv ++ sectorsNu

theorem cov_Bern_to_JMS : (forceT (treeOf Bern_to_JMS) fun t =>
    checkSectors (present t .leaf) sectorsBern WetTab.coefTable) = true := by decide +kernel

/-- the sectors covered by the translations between the JMS and flavio bases -/
def sectorsFlavio : List String := sectorsI ++ sectorsII ++ sectorsNu ++ ["dF=0", "ffnunu"]

/-- those with operators that are lost -/
def sectorsFlavio' : List String := sectorsV ++ ["cu"] ++ sectorsLfv

def isTensor (a : WetTab.Coef) : Bool :=
  match a.1 with
  | .TedRR | .TeuRR => true
  | _ => false

/-- a name under which zero is returned -/
noncomputable def lost (tg tb : DTree Sym) (n : ℕ) : Bool :=
  forceN (hash2 n) fun h =>
    match tg.get h n with
    | none => false
    | some _ => match tb.get h n with
      | none => false
      | some s => s.same (.rat 0 1)

theorem lost_sound {g bad : List (ℕ × Sym)} {n : ℕ} (h : lost (treeOf g) (treeOf bad) n = true) :
    (∃ s, look n g = some s) ∧ look n bad = some (.rat 0 1) := by
  rw [lost, forceN_eq, treeOf_get, treeOf_get] at h
  cases hg : look n g with
  | none => rw [hg] at h; cases h
  | some s =>
    rw [hg] at h
    cases hb : look n bad with
    | none => rw [hb] at h; cases h
    | some t =>
      rw [hb] at h
      rw [Sym.same_sound h]
      exact ⟨⟨s, rfl⟩, rfl⟩

theorem flavio_to_JMS_ok : (forceT (treeOf flavio_to_JMS) fun t => forceT (treeOf lostTensors) fun b =>
    checkSectors (present t b) sectorsFlavio WetTab.coefTable &&
    (checkSectors (present t b) sectorsFlavio'
      (WetTab.coefTable.map fun p => (p.1, p.2.filter fun a => !isTensor a)) &&
    checkSectors (lost t b) sectorsFlavio'
      (WetTab.coefTable.map fun p => (p.1, p.2.filter isTensor)))) = true := by decide +kernel

theorem cov_flavio_to_JMS : (forceT (treeOf flavio_to_JMS) fun t => forceT (treeOf lostTensors) fun b =>
    checkSectors (present t b) sectorsFlavio WetTab.coefTable) = true := by
  have h := flavio_to_JMS_ok
  rw [forceT_eq, forceT_eq] at h ⊢
  rw [Bool.and_eq_true] at h
  exact h.1

theorem cov_flavio_to_JMS' : (forceT (treeOf flavio_to_JMS) fun t => forceT (treeOf lostTensors) fun b =>
    checkSectors (present t b) sectorsFlavio'
      (WetTab.coefTable.map fun p => (p.1, p.2.filter fun a => !isTensor a))) = true := by
  have h := flavio_to_JMS_ok
  rw [forceT_eq, forceT_eq] at h ⊢
  rw [Bool.and_eq_true, Bool.and_eq_true] at h
  exact h.2.1

theorem lost_flavio_to_JMS : (forceT (treeOf flavio_to_JMS) fun t => forceT (treeOf lostTensors) fun b =>
    checkSectors (lost t b) sectorsFlavio'
      (WetTab.coefTable.map fun p => (p.1, p.2.filter isTensor))) = true := by
  have h := flavio_to_JMS_ok
  rw [forceT_eq, forceT_eq] at h ⊢
  rw [Bool.and_eq_true, Bool.and_eq_true] at h
  exact h.2.2

/-! ## The Bern basis -/

theorem cov_JMS_to_Bern : (forceT (treeOf JMS_to_Bern) fun t => checkCats (present t .leaf)
    [(["1", "1p", "2", "2p", "3", "3p", "4", "5"], ["sbsb", "dbdb", "dsds", "cucu"]),
     (["1", "1p", "5", "5p", "7p"], cat ["ub", "cb", "us", "cs", "ud", "cd"] lepPairs),
     (bernTwenty, cat ["sb", "db", "ds"] ["uc", "cu"]), (bernTen, ["sbsd", "dbds"]),
     (bernTwenty, cat ["sb", "db", "ds"] ["uu", "cc"] ++ ["sbdd", "dbss", "dsbb"]),
     (bernTen, ["sbss", "sbbb", "dbdd", "dbbb", "dsdd", "dsss"]),
     (bernTen, cat ["sb", "db", "ds"] lepPairs),
     (["nu1", "nu1p"], cat ["sb", "db", "ds"] lepPairs),
     (["7gamma", "7pgamma", "8g", "8pg"], ["sb", "db", "ds"])]) = true := by decide +kernel

theorem cov_flavio_to_Bern : (forceT (treeOf flavio_to_Bern) fun t => forceT (treeOf sevens) fun b => checkCats (present t b)
    [(["1", "1p", "2", "2p", "3", "3p", "4", "5"], ["sbsb", "dbdb", "dsds", "cucu"]),
     (["1", "1p", "5", "5p", "7p"], cat ["ub", "cb", "us", "cs", "ud", "cd"] lepPairs),
     (bernTwenty, cat ["sb", "db", "ds"] ["uu", "cc"] ++ ["sbdd", "dbss", "dsbb"]),
     (bernTen, ["sbss", "sbbb", "dbdd", "dbbb", "dsdd", "dsss"]),
     (bernEight, cat ["sb", "db"] lepPairs ++ ["dsee", "dsmumu", "dstautau"]),
     (["nu1", "nu1p"], cat ["sb", "db", "ds"] lepPairs),
     (["7gamma", "7pgamma", "8g", "8pg"], ["sb", "db", "ds"])]) = true := by decide +kernel

/-! ## The flavio basis -/

theorem cov_JMS_to_flavio : (forceT (treeOf JMS_to_flavio) fun t => checkCats (present t .leaf)
    [(["CVLL_", "CVRR_", "CVLR_", "CSLL_", "CSRR_", "CSLR_", "CTLL_", "CTRR_"], ["bsbs", "bdbd", "sdsd", "ucuc"]),
     (["CVL_", "CVR_", "CSL_", "CSR_", "CT_"],
      cat (cat ["bc", "bu", "sc", "su", "dc", "du"] leps) (cat ["nu"] leps)),
     (flavioTwenty, cat ["bs", "bd", "sd"] ["uu", "cc"] ++ ["bsdd", "bdss", "sdbb"]),
     (flavioTen, ["bsss", "bsbb", "bddd", "bdbb", "sddd", "sdss"]),
     (flavioTwenty, ["cudd", "cuss", "cubb"]), (flavioTen, ["cuuu", "cucc"]),
     (["C9_", "C9p_", "C10_", "C10p_", "CS_", "CSp_", "CP_", "CPp_"], cat ["bs", "bd", "sd"] lepPairs),
     (["C9_", "C9p_", "C10_", "C10p_", "CS_", "CSp_", "CP_", "CPp_"], ["cuee", "cumumu", "cutautau"]),
     (["CL_", "CR_"], cat ["bs", "bd", "sd"] nuPairs),
     (["C7_", "C7p_", "C8_", "C8p_"], ["bs", "bd", "sd"]), (["C7_", "C7p_", "C8_", "C8p_"], ["cu"])]) = true := by
  decide +kernel

theorem cov_Bern_to_flavio : (forceT (treeOf Bern_to_flavio) fun t => forceT (treeOf lostSd) fun b => checkCats (present t b)
    [(["CVLL_", "CVRR_", "CVLR_", "CSLL_", "CSRR_", "CSLR_", "CTLL_", "CTRR_"], ["bsbs", "bdbd", "sdsd", "ucuc"]),
     (["CVL_", "CVR_", "CSL_", "CSR_", "CT_"],
      cat (cat ["bc", "bu", "sc", "su", "dc", "du"] leps) (cat ["nu"] leps)),
     (flavioTwenty, cat ["bs", "bd", "sd"] ["uu", "cc"] ++ ["bsdd", "bdss", "sdbb"]),
     (flavioTen, ["bsss", "bsbb", "bddd", "bdbb", "sddd", "sdss"]),
     (["C9_", "C9p_", "C10_", "C10p_", "CS_", "CSp_", "CP_", "CPp_"],
      cat ["bs", "bd"] lepPairs ++ ["sdee", "sdmumu", "sdtautau"]),
     (["CL_", "CR_"], cat ["bs", "bd", "sd"] nuPairs),
     (["C7_", "C7p_", "C8_", "C8p_"], ["bs", "bd", "sd"])]) = true := by decide +kernel

end Verif.WetApply
