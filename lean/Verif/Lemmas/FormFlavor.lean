import Verif.Spec.FormFlavor
import Verif.Lemmas.WetPairs
import Verif.Lemmas.WetRunsFF

/-!
# The FormFlavor coefficients and the JMS coefficients
-/

set_option autoImplicit false
set_option linter.unusedSimpArgs false
set_option maxRecDepth 100000

namespace Verif.FormFlavor
open Verif Verif.Py Verif.WetNames Verif.WetApply Verif.Gen.WetOut

theorem out_FF : outputs (code "JMS_to_FormFlavor") = .ok JMS_to_FormFlavor := by
  have h : code "JMS_to_FormFlavor" = n!"JMS_to_FormFlavor" := by decide +kernel
  rw [h]
  exact run_JMS_to_FormFlavor

theorem valid_FF : validL JMS_to_FormFlavor = true := by decide +kernel

/-- the dictionary returned by `JMS_to_FormFlavor` -/
theorem run_FF (P : WetApply.Params) (C : Dict String ℂ) :
    run "JMS_to_FormFlavor" P C = .ok (values (inputsOf P C) JMS_to_FormFlavor) := by
  rw [run_eq out_FF, tail_none (by decide) (by decide)]

/-! ## Names -/

def memCode (l : List ℕ) (n : ℕ) : Bool := l.any (Nat.beq n)

theorem memCode_sound {l : List ℕ} {n : ℕ} (h : memCode l n = true) : n ∈ l := by
  obtain ⟨m, hm, h⟩ := List.any_eq_true.1 h
  rw [Nat.eq_of_beq_eq_true h]
  exact hm

def plainB (x : String) : Bool := shortAscii 64 (nats x)

theorem plainB_sound {x : String} (h : plainB x = true) : Plain x :=
  ⟨(shortAscii_sound h).1, (shortAscii_sound h).2⟩

/-! ## The coefficients of a process depend on nothing else -/

def onlyOK (cs : List ℕ) (n : ℕ) : Bool :=
  bif validN n then
    match look n JMS_to_FormFlavor with
    | none => true
    | some s => inpsAll (memCode cs) s
  else false

noncomputable def checkOnly : List (String × List String) → Bool
  | [] => true
  | (q, xs) :: l => bif xs.all plainB then
      (bif forceNs (xs.map code) fun cs => checkCat (onlyOK cs) labels ["_" ++ q] then checkOnly l else false) else false

theorem check_only : checkOnly formFlavorProcesses = true := by decide +kernel

theorem checkOnly_mem : ∀ {l : List (String × List String)}, checkOnly l = true → ∀ p ∈ l,
    p.2.all plainB = true ∧ checkCat (onlyOK (p.2.map code)) labels ["_" ++ p.1] = true
  | [], _, _, h => by cases h
  | (q, xs) :: l, h, p, hm => by
    obtain ⟨h1, h2⟩ := cond_and h
    obtain ⟨h2, h3⟩ := cond_and h2
    rw [forceNs_eq] at h2
    rcases List.mem_cons.1 hm with rfl | hm
    · exact ⟨h1, h2⟩
    · exact checkOnly_mem h3 p hm

theorem depends_only (P : WetApply.Params) (C C' : Dict String ℂ) {q : String} {xs : List String}
    (hq : (q, xs) ∈ formFlavorProcesses) (hC : ∀ x ∈ xs, C.getD x 0 = C'.getD x 0) {lab : String} (hl : lab ∈ labels) :
    (values (inputsOf P C) JMS_to_FormFlavor).get? (lab ++ "_" ++ q) =
      (values (inputsOf P C') JMS_to_FormFlavor).get? (lab ++ "_" ++ q) := by
  obtain ⟨h1, h2⟩ := checkOnly_mem check_only _ hq
  obtain ⟨hp, hc⟩ := checkCat_sound h2 (x := lab ++ ("_" ++ q)) (mem_cat.2 ⟨lab, hl, _, by simp, rfl⟩)
  rw [String.append_assoc]
  obtain ⟨hv, hc⟩ := cond_and hc
  rw [← decode_code hp, get_values _ hv valid_FF, get_values _ hv valid_FF]
  cases hs : look (code (lab ++ ("_" ++ q))) JMS_to_FormFlavor with
  | none => rfl
  | some s =>
    rw [hs] at hc
    refine congrArg some (eval_congr (I := inputsOf P C) (J := inputsOf P C') (fun n hn => ?_) rfl rfl s hc)
    obtain ⟨x, hx, rfl⟩ := List.mem_map.1 (memCode_sound hn)
    show C.getD (decode (code x)) 0 = C'.getD (decode (code x)) 0
    rw [decode_code (plainB_sound (List.all_eq_true.1 h1 x hx))]
    exact hC x hx

/-! ## They determine the coefficients -/

/-- the JMS coefficients in terms of the FormFlavor coefficients -/
def inverse : List (ℕ × Sym) := [
  (n!"VddLL_2323", (.inp n!"CVLL_bsbs")),
  (n!"VddRR_2323", (.inp n!"CVRR_bsbs")),
  (n!"V8ddLR_2323", (.neg (.inp n!"CSLR_bsbs"))),
  (n!"V1ddLR_2323", (.sub (.inp n!"CVLR_bsbs") (.mul (.rat 1 6) (.inp n!"CSLR_bsbs")))),
  (n!"S8ddRR_2323", (.mul (.rat (-16) 1) (.inp n!"CTRR_bsbs"))),
  (n!"S1ddRR_2323", (.add (.inp n!"CSRR_bsbs") (.mul (.rat 4 3) (.inp n!"CTRR_bsbs")))),
  (n!"S8ddRR_3232", (.conj (.mul (.rat (-16) 1) (.inp n!"CTLL_bsbs")))),
  (n!"S1ddRR_3232", (.conj (.add (.inp n!"CSLL_bsbs") (.mul (.rat 4 3) (.inp n!"CTLL_bsbs"))))),
  (n!"VddLL_1313", (.inp n!"CVLL_bdbd")),
  (n!"VddRR_1313", (.inp n!"CVRR_bdbd")),
  (n!"V8ddLR_1313", (.neg (.inp n!"CSLR_bdbd"))),
  (n!"V1ddLR_1313", (.sub (.inp n!"CVLR_bdbd") (.mul (.rat 1 6) (.inp n!"CSLR_bdbd")))),
  (n!"S8ddRR_1313", (.mul (.rat (-16) 1) (.inp n!"CTRR_bdbd"))),
  (n!"S1ddRR_1313", (.add (.inp n!"CSRR_bdbd") (.mul (.rat 4 3) (.inp n!"CTRR_bdbd")))),
  (n!"S8ddRR_3131", (.conj (.mul (.rat (-16) 1) (.inp n!"CTLL_bdbd")))),
  (n!"S1ddRR_3131", (.conj (.add (.inp n!"CSLL_bdbd") (.mul (.rat 4 3) (.inp n!"CTLL_bdbd"))))),
  (n!"VddLL_1212", (.inp n!"CVLL_sdsd")),
  (n!"VddRR_1212", (.inp n!"CVRR_sdsd")),
  (n!"V8ddLR_1212", (.neg (.inp n!"CSLR_sdsd"))),
  (n!"V1ddLR_1212", (.sub (.inp n!"CVLR_sdsd") (.mul (.rat 1 6) (.inp n!"CSLR_sdsd")))),
  (n!"S8ddRR_1212", (.mul (.rat (-16) 1) (.inp n!"CTRR_sdsd"))),
  (n!"S1ddRR_1212", (.add (.inp n!"CSRR_sdsd") (.mul (.rat 4 3) (.inp n!"CTRR_sdsd")))),
  (n!"S8ddRR_2121", (.conj (.mul (.rat (-16) 1) (.inp n!"CTLL_sdsd")))),
  (n!"S1ddRR_2121", (.conj (.add (.inp n!"CSLL_sdsd") (.mul (.rat 4 3) (.inp n!"CTLL_sdsd"))))),
  (n!"VuuLL_1212", (.inp n!"CVLL_cucu")),
  (n!"VuuRR_1212", (.inp n!"CVRR_cucu")),
  (n!"V8uuLR_1212", (.neg (.inp n!"CSLR_cucu"))),
  (n!"V1uuLR_1212", (.sub (.inp n!"CVLR_cucu") (.mul (.rat 1 6) (.inp n!"CSLR_cucu")))),
  (n!"S8uuRR_2121", (.mul (.rat (-16) 1) (.inp n!"CTRR_cucu"))),
  (n!"S1uuRR_2121", (.add (.conj (.inp n!"CSRR_cucu")) (.mul (.rat 4 3) (.inp n!"CTRR_cucu")))),
  (n!"S8uuRR_1212", (.mul (.rat (-16) 1) (.inp n!"CTLL_cucu"))),
  (n!"S1uuRR_1212", (.conj (.add (.sub (.inp n!"CSLL_cucu") (.mul (.rat 8 3) (.conj (.inp n!"CTLL_cucu")))) (.mul (.rat 4 1) (.inp n!"CTLL_cucu"))))),
  (n!"VedLL_2223", (.inp n!"CVLL_bsmm")),
  (n!"VedRR_2223", (.inp n!"CVRR_bsmm")),
  (n!"VdeLR_2322", (.inp n!"CVLR_bsmm")),
  (n!"VedLR_2223", (.inp n!"CVRL_bsmm")),
  (n!"SedRR_2223", (.inp n!"CSRR_bsmm")),
  (n!"SedRR_2232", (.conj (.inp n!"CSLL_bsmm"))),
  (n!"SedRL_2223", (.inp n!"CSLR_bsmm")),
  (n!"SedRL_2232", (.conj (.inp n!"CSRL_bsmm"))),
  (n!"TedRR_2223", (.inp n!"CTRR_bsmm")),
  (n!"TedRR_2232", (.conj (.inp n!"CTLL_bsmm"))),
  (n!"VedLL_2213", (.inp n!"CVLL_bdmm")),
  (n!"VedRR_2213", (.inp n!"CVRR_bdmm")),
  (n!"VdeLR_1322", (.inp n!"CVLR_bdmm")),
  (n!"VedLR_2213", (.inp n!"CVRL_bdmm")),
  (n!"SedRR_2213", (.inp n!"CSRR_bdmm")),
  (n!"SedRR_2231", (.conj (.inp n!"CSLL_bdmm"))),
  (n!"SedRL_2213", (.inp n!"CSLR_bdmm")),
  (n!"SedRL_2231", (.conj (.inp n!"CSRL_bdmm"))),
  (n!"TedRR_2213", (.inp n!"CTRR_bdmm")),
  (n!"TedRR_2231", (.conj (.inp n!"CTLL_bdmm"))),
  (n!"dgamma_23", (.mul (.sqrt (.mul (.mul (.rat 4 1) .pi) (.par n!"alpha_e"))) (.inp n!"CAR_sb"))),
  (n!"dG_23", (.mul (.sqrt (.mul (.mul (.rat 4 1) .pi) (.par n!"alpha_s"))) (.inp n!"CGR_sb"))),
  (n!"dgamma_32", (.mul (.sqrt (.mul (.mul (.rat 4 1) .pi) (.par n!"alpha_e"))) (.conj (.inp n!"CAL_sb")))),
  (n!"dG_32", (.mul (.sqrt (.mul (.mul (.rat 4 1) .pi) (.par n!"alpha_s"))) (.conj (.inp n!"CGL_sb")))),
  (n!"dgamma_13", (.mul (.sqrt (.mul (.mul (.rat 4 1) .pi) (.par n!"alpha_e"))) (.inp n!"CAR_db"))),
  (n!"dG_13", (.mul (.sqrt (.mul (.mul (.rat 4 1) .pi) (.par n!"alpha_s"))) (.inp n!"CGR_db"))),
  (n!"dgamma_31", (.mul (.sqrt (.mul (.mul (.rat 4 1) .pi) (.par n!"alpha_e"))) (.conj (.inp n!"CAL_db")))),
  (n!"dG_31", (.mul (.sqrt (.mul (.mul (.rat 4 1) .pi) (.par n!"alpha_s"))) (.conj (.inp n!"CGL_db")))),
  (n!"ugamma_11", (.mul (.sqrt (.mul (.mul (.rat 4 1) .pi) (.par n!"alpha_e"))) (.inp n!"CAR_uu"))),
  (n!"uG_11", (.mul (.sqrt (.mul (.mul (.rat 4 1) .pi) (.par n!"alpha_s"))) (.inp n!"CGR_uu"))),
  (n!"dgamma_11", (.mul (.sqrt (.mul (.mul (.rat 4 1) .pi) (.par n!"alpha_e"))) (.inp n!"CAR_dd"))),
  (n!"dG_11", (.mul (.sqrt (.mul (.mul (.rat 4 1) .pi) (.par n!"alpha_s"))) (.inp n!"CGR_dd"))),
  (n!"egamma_12", (.mul (.sqrt (.mul (.mul (.rat 4 1) .pi) (.par n!"alpha_e"))) (.inp n!"CAR_em"))),
  (n!"egamma_21", (.mul (.sqrt (.mul (.mul (.rat 4 1) .pi) (.par n!"alpha_s"))) (.conj (.inp n!"CAL_em")))),
  (n!"egamma_13", (.mul (.sqrt (.mul (.mul (.rat 4 1) .pi) (.par n!"alpha_e"))) (.inp n!"CAR_et"))),
  (n!"egamma_31", (.mul (.sqrt (.mul (.mul (.rat 4 1) .pi) (.par n!"alpha_s"))) (.conj (.inp n!"CAL_et")))),
  (n!"egamma_23", (.mul (.sqrt (.mul (.mul (.rat 4 1) .pi) (.par n!"alpha_e"))) (.inp n!"CAR_mt"))),
  (n!"egamma_32", (.mul (.sqrt (.mul (.mul (.rat 4 1) .pi) (.par n!"alpha_s"))) (.conj (.inp n!"CAL_mt"))))]

theorem check_inverse : checkBack (treeOf JMS_to_FormFlavor) (treeOf []) inverse = true := by decide +kernel

noncomputable def allOK (os : List ℕ) (x : String) : Bool :=
  forceN (code x) fun n =>
    match look n inverse with
    | none => false
    | some s => inpsAll (memCode os) s

noncomputable def checkAll : List (String × List String) → Bool
  | [] => true
  | (q, xs) :: l => bif forceNs ((cat labels ["_" ++ q]).map code) fun os => xs.all (allOK os) then checkAll l else false

theorem check_all : checkAll formFlavorProcesses = true := by decide +kernel

theorem checkAll_mem : ∀ {l : List (String × List String)}, checkAll l = true → ∀ p ∈ l,
    p.2.all (allOK ((cat labels ["_" ++ p.1]).map code)) = true
  | [], _, _, h => by cases h
  | (q, xs) :: l, h, p, hm => by
    obtain ⟨h1, h2⟩ := cond_and h
    rw [forceNs_eq] at h1
    rcases List.mem_cons.1 hm with rfl | hm
    · exact h1
    · exact checkAll_mem h2 p hm

theorem determines_all {P : WetApply.Params} (hP : Physical P) (C C' : Dict String ℂ) {q : String} {xs : List String}
    (hq : (q, xs) ∈ formFlavorProcesses)
    (h : ∀ lab ∈ labels, (values (inputsOf P C) JMS_to_FormFlavor).get? (lab ++ "_" ++ q) =
      (values (inputsOf P C') JMS_to_FormFlavor).get? (lab ++ "_" ++ q)) :
    ∀ x ∈ xs, C.getD x 0 = C'.getD x 0 := by
  intro x hx
  obtain ⟨h1, h2⟩ := checkOnly_mem check_only _ hq
  have hp := plainB_sound (List.all_eq_true.1 h1 x hx)
  have ha := List.all_eq_true.1 (checkAll_mem check_all _ hq) x hx
  rw [allOK, forceN_eq] at ha
  cases hs : look (code x) inverse with
  | none => rw [hs] at ha; cases ha
  | some s =>
    rw [hs] at ha
    have key : ∀ C : Dict String ℂ, s.eval (chain (inputsOf P C) JMS_to_FormFlavor) = C.getD x 0 := by
      intro C
      rw [checkBack_sound (good_of_physical hP C) check_inverse _ s (look_mem hs)]
      show C.getD (decode (code x)) 0 = _
      rw [decode_code hp]
    rw [← key C, ← key C']
    refine eval_congr (I := chain (inputsOf P C) _) (J := chain (inputsOf P C') _) (fun n hn => ?_) rfl rfl s ha
    obtain ⟨y, hy, rfl⟩ := List.mem_map.1 (memCode_sound hn)
    obtain ⟨hp, hc⟩ := checkCat_sound h2 hy
    obtain ⟨hv, -⟩ := cond_and hc
    obtain ⟨lab, hl, z, hz, rfl⟩ := mem_cat.1 hy
    rw [List.mem_singleton] at hz
    subst hz
    have h' := h lab hl
    rw [String.append_assoc, ← decode_code hp, get_values _ hv valid_FF, get_values _ hv valid_FF] at h'
    show Option.getD _ 0 = Option.getD _ 0
    rw [h']

/-! ## All names -/

/-- the names of all coefficients -/
def names : List String :=
  ["CVLL_sdnn", "CVRL_sdnn"] ++ formFlavorProcesses.flatMap fun p => cat labels ["_" ++ p.1]

theorem names_plain : names.all plainB = true := by decide +kernel

theorem check_names : (forceNs (names.map code) fun cs => allKeys (memCode cs) JMS_to_FormFlavor) = true := by
  decide +kernel

theorem mem_names (P : WetApply.Params) (C : Dict String ℂ) {x : String}
    (hx : x ∈ (values (inputsOf P C) JMS_to_FormFlavor).keys) : x ∈ names := by
  unfold Dict.keys values at hx
  rw [List.map_map] at hx
  obtain ⟨p, hp, rfl⟩ := List.mem_map.1 hx
  have h := check_names
  rw [forceNs_eq] at h
  obtain ⟨y, hy, e⟩ := List.mem_map.1 (memCode_sound (allKeys_mem h p hp))
  show decode p.1 ∈ names
  rw [← e, decode_code (plainB_sound (List.all_eq_true.1 names_plain y hy))]
  exact hy

/-! ## Complete sectors -/

theorem sector_complete {s : String} {xs : List String} (hp : xs.all plainB = true)
    (h : (forceNs (xs.map code) fun cs => checkSectors (memCode cs) [s] WetTab.coefTable) = true) {x : String}
    (hx : IsCoef s x) : x ∈ xs := by
  rw [forceNs_eq] at h
  obtain ⟨h1, h2⟩ := checkSectors_sound h (List.mem_singleton_self s) hx
  obtain ⟨y, hy, e⟩ := List.mem_map.1 (memCode_sound h2)
  have : x = y := by rw [← decode_code h1, ← e, decode_code (plainB_sound (List.all_eq_true.1 hp y hy))]
  rw [this]
  exact hy

/-! ## Single coefficients -/

theorem value_at (P : WetApply.Params) (C : Dict String ℂ) {x : String} {n : ℕ} {s : Sym} (hx : decode n = x)
    (hv : validN n = true) (hs : look n JMS_to_FormFlavor = some s) :
    (values (inputsOf P C) JMS_to_FormFlavor).get? x = some (s.eval (inputsOf P C)) := by
  rw [← hx, get_values _ hv valid_FF, hs]
  rfl

/-- the charge -/
def chargeSym (k : ℕ) : Sym := .sqrt (.mul (.mul (.rat 4 1) .pi) (.par k))

theorem eval_charge (I : Inputs) (k : ℕ) :
    (chargeSym k).eval I = (Real.sqrt (4 * Real.pi * I.par k) : ℂ) := by
  simp only [chargeSym, Sym.eval]
  congr 2
  simp

theorem lookup_div (P : WetApply.Params) (C : Dict String ℂ) {x c : String} {k : ℕ} {al : String}
    (h : decode (code x) = x ∧ validN (code x) = true ∧ decode (code c) = c ∧ decode k = al ∧
      look (code x) JMS_to_FormFlavor = some (.div (.inp (code c)) (chargeSym k))) :
    (values (inputsOf P C) JMS_to_FormFlavor).get? x =
      some (C.getD c 0 / (Real.sqrt (4 * Real.pi * P.par al) : ℂ)) := by
  obtain ⟨h1, h2, h3, h4, h5⟩ := h
  rw [value_at P C h1 h2 h5, Sym.eval, eval_charge]
  show some (C.getD (decode (code c)) 0 / (Real.sqrt (4 * Real.pi * P.par (decode k)) : ℂ)) = _
  rw [h3, h4]

theorem lookup_conj (P : WetApply.Params) (C : Dict String ℂ) {x c : String} {k : ℕ} {al : String}
    (h : decode (code x) = x ∧ validN (code x) = true ∧ decode (code c) = c ∧ decode k = al ∧
      look (code x) JMS_to_FormFlavor = some (.div (.conj (.inp (code c))) (chargeSym k))) :
    (values (inputsOf P C) JMS_to_FormFlavor).get? x =
      some (star (C.getD c 0) / (Real.sqrt (4 * Real.pi * P.par al) : ℂ)) := by
  obtain ⟨h1, h2, h3, h4, h5⟩ := h
  rw [value_at P C h1 h2 h5, Sym.eval, eval_charge]
  show some (star (C.getD (decode (code c)) 0) / (Real.sqrt (4 * Real.pi * P.par (decode k)) : ℂ)) = _
  rw [h3, h4]

theorem dipole_R (P : WetApply.Params) (C : Dict String ℂ) {x c : String}
    (h : (x, c) ∈ [("CAR_sb", "dgamma_23"), ("CAR_db", "dgamma_13"), ("CAR_dd", "dgamma_11"), ("CAR_uu", "ugamma_11"),
      ("CAR_em", "egamma_12"), ("CAR_et", "egamma_13"), ("CAR_mt", "egamma_23")]) :
    (values (inputsOf P C) JMS_to_FormFlavor).get? x =
      some (C.getD c 0 / (Real.sqrt (4 * Real.pi * P.par "alpha_e") : ℂ)) := by
  simp only [List.mem_cons, List.not_mem_nil, or_false, Prod.mk.injEq] at h
  rcases h with ⟨rfl, rfl⟩ | ⟨rfl, rfl⟩ | ⟨rfl, rfl⟩ | ⟨rfl, rfl⟩ | ⟨rfl, rfl⟩ | ⟨rfl, rfl⟩ | ⟨rfl, rfl⟩ <;>
    exact lookup_div P C (k := n!"alpha_e") (by decide +kernel)

theorem dipole_L (P : WetApply.Params) (C : Dict String ℂ) {x c : String}
    (h : (x, c) ∈ [("CAL_sb", "dgamma_32"), ("CAL_db", "dgamma_31"), ("CAL_dd", "dgamma_11"), ("CAL_uu", "ugamma_11")]) :
    (values (inputsOf P C) JMS_to_FormFlavor).get? x =
      some (star (C.getD c 0) / (Real.sqrt (4 * Real.pi * P.par "alpha_e") : ℂ)) := by
  simp only [List.mem_cons, List.not_mem_nil, or_false, Prod.mk.injEq] at h
  rcases h with ⟨rfl, rfl⟩ | ⟨rfl, rfl⟩ | ⟨rfl, rfl⟩ | ⟨rfl, rfl⟩ <;>
    exact lookup_conj P C (k := n!"alpha_e") (by decide +kernel)

theorem dipole_lepton (P : WetApply.Params) (C : Dict String ℂ) {x c : String}
    (h : (x, c) ∈ [("CAL_em", "egamma_21"), ("CAL_et", "egamma_31"), ("CAL_mt", "egamma_32")]) :
    (values (inputsOf P C) JMS_to_FormFlavor).get? x =
      some (star (C.getD c 0) / (Real.sqrt (4 * Real.pi * P.par "alpha_s") : ℂ)) := by
  simp only [List.mem_cons, List.not_mem_nil, or_false, Prod.mk.injEq] at h
  rcases h with ⟨rfl, rfl⟩ | ⟨rfl, rfl⟩ | ⟨rfl, rfl⟩ <;>
    exact lookup_conj P C (k := n!"alpha_s") (by decide +kernel)

theorem sdnn_LL (P : WetApply.Params) (C : Dict String ℂ) :
    (values (inputsOf P C) JMS_to_FormFlavor).get? "CVLL_sdnn" = some (1 / 3 * star (C.getD "VnudLL_1113" 0) + 1 / 3 * star (C.getD "VnudLL_2213" 0) + 1 / 3 * star (C.getD "VnudLL_3313" 0)) := by
  have d0 : decode n!"VnudLL_1113" = "VnudLL_1113" := by decide +kernel
  have d1 : decode n!"VnudLL_2213" = "VnudLL_2213" := by decide +kernel
  have d2 : decode n!"VnudLL_3313" = "VnudLL_3313" := by decide +kernel
  rw [value_at P C (n := n!"CVLL_sdnn") (by decide +kernel) (by decide +kernel)
    (s := (.add (.add (.mul (.div (.rat 1 1) (.rat 3 1)) (.conj (.inp n!"VnudLL_1113"))) (.mul (.div (.rat 1 1) (.rat 3 1)) (.conj (.inp n!"VnudLL_2213")))) (.mul (.div (.rat 1 1) (.rat 3 1)) (.conj (.inp n!"VnudLL_3313")))))
    (by decide +kernel)]
  simp only [Sym.eval, inputsOf, d0, d1, d2, starRingEnd_apply, Int.cast_one, Nat.cast_one,
    Int.cast_ofNat, Nat.cast_ofNat, Int.cast_neg, div_one, star_star, star_div₀, star_sub, star_ofNat, star_mul']

theorem sdnn_LR (P : WetApply.Params) (C : Dict String ℂ) :
    (values (inputsOf P C) JMS_to_FormFlavor).get? "CVRL_sdnn" = some (1 / 3 * star (C.getD "VnudLR_1113" 0) + 1 / 3 * star (C.getD "VnudLR_2213" 0) + 1 / 3 * star (C.getD "VnudLR_3313" 0)) := by
  have d0 : decode n!"VnudLR_1113" = "VnudLR_1113" := by decide +kernel
  have d1 : decode n!"VnudLR_2213" = "VnudLR_2213" := by decide +kernel
  have d2 : decode n!"VnudLR_3313" = "VnudLR_3313" := by decide +kernel
  rw [value_at P C (n := n!"CVRL_sdnn") (by decide +kernel) (by decide +kernel)
    (s := (.add (.add (.mul (.div (.rat 1 1) (.rat 3 1)) (.conj (.inp n!"VnudLR_1113"))) (.mul (.div (.rat 1 1) (.rat 3 1)) (.conj (.inp n!"VnudLR_2213")))) (.mul (.div (.rat 1 1) (.rat 3 1)) (.conj (.inp n!"VnudLR_3313")))))
    (by decide +kernel)]
  simp only [Sym.eval, inputsOf, d0, d1, d2, starRingEnd_apply, Int.cast_one, Nat.cast_one,
    Int.cast_ofNat, Nat.cast_ofNat, Int.cast_neg, div_one, star_star, star_div₀, star_sub, star_ofNat, star_mul']

theorem mix_TRR (P : WetApply.Params) (C : Dict String ℂ) :
    (values (inputsOf P C) JMS_to_FormFlavor).get? "CTRR_cucu" = some (-1 / 8 * (C.getD "S8uuRR_2121" 0 / 2)) := by
  have d0 : decode n!"S8uuRR_2121" = "S8uuRR_2121" := by decide +kernel
  rw [value_at P C (n := n!"CTRR_cucu") (by decide +kernel) (by decide +kernel)
    (s := (.mul (.div (.rat (-1) 1) (.rat 8 1)) (.div (.inp n!"S8uuRR_2121") (.rat 2 1))))
    (by decide +kernel)]
  simp only [Sym.eval, inputsOf, d0, starRingEnd_apply, Int.cast_one, Nat.cast_one,
    Int.cast_ofNat, Nat.cast_ofNat, Int.cast_neg, div_one, star_star, star_div₀, star_sub, star_ofNat, star_mul']

theorem mix_SRR (P : WetApply.Params) (C : Dict String ℂ) :
    (values (inputsOf P C) JMS_to_FormFlavor).get? "CSRR_cucu" = some (star (C.getD "S1uuRR_2121" 0) - star (C.getD "S8uuRR_2121" 0) / (2 * 3) + 1 / 2 * (star (C.getD "S8uuRR_2121" 0) / 2)) := by
  have d0 : decode n!"S1uuRR_2121" = "S1uuRR_2121" := by decide +kernel
  have d1 : decode n!"S8uuRR_2121" = "S8uuRR_2121" := by decide +kernel
  rw [value_at P C (n := n!"CSRR_cucu") (by decide +kernel) (by decide +kernel)
    (s := (.add (.conj (.sub (.inp n!"S1uuRR_2121") (.div (.inp n!"S8uuRR_2121") (.mul (.rat 2 1) (.rat 3 1))))) (.mul (.div (.rat 1 1) (.rat 2 1)) (.conj (.div (.inp n!"S8uuRR_2121") (.rat 2 1))))))
    (by decide +kernel)]
  simp only [Sym.eval, inputsOf, d0, d1, starRingEnd_apply, Int.cast_one, Nat.cast_one,
    Int.cast_ofNat, Nat.cast_ofNat, Int.cast_neg, div_one, star_star, star_div₀, star_sub, star_ofNat, star_mul']

theorem mix_SLL (P : WetApply.Params) (C : Dict String ℂ) :
    (values (inputsOf P C) JMS_to_FormFlavor).get? "CSLL_cucu" = some (star (C.getD "S1uuRR_1212" 0) - star (C.getD "S8uuRR_1212" 0) / (2 * 3) + 1 / 2 * (C.getD "S8uuRR_1212" 0 / 2)) := by
  have d0 : decode n!"S1uuRR_1212" = "S1uuRR_1212" := by decide +kernel
  have d1 : decode n!"S8uuRR_1212" = "S8uuRR_1212" := by decide +kernel
  rw [value_at P C (n := n!"CSLL_cucu") (by decide +kernel) (by decide +kernel)
    (s := (.add (.sub (.conj (.inp n!"S1uuRR_1212")) (.div (.conj (.inp n!"S8uuRR_1212")) (.mul (.rat 2 1) (.rat 3 1)))) (.mul (.div (.rat 1 1) (.rat 2 1)) (.conj (.div (.conj (.inp n!"S8uuRR_1212")) (.rat 2 1))))))
    (by decide +kernel)]
  simp only [Sym.eval, inputsOf, d0, d1, starRingEnd_apply, Int.cast_one, Nat.cast_one,
    Int.cast_ofNat, Nat.cast_ofNat, Int.cast_neg, div_one, star_star, star_div₀, star_sub, star_ofNat, star_mul']

end Verif.FormFlavor
