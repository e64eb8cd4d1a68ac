import Verif.Spec.WetEos
import Verif.Lemmas.FormFlavor
import Verif.Lemmas.WetRunsE
import Mathlib.Tactic.Positivity

/-!
# The coefficients exported to EOS
-/

set_option autoImplicit false
set_option linter.unusedSimpArgs false
set_option maxRecDepth 100000

namespace Verif.WetEos
open Verif Verif.Py Verif.WetNames Verif.WetApply Verif.Gen.WetOut Verif.FormFlavor

/-! ## The dictionary -/

/-- the dictionary returned by `JMS_to_EOS` -/
noncomputable def dict (P : WetApply.Params) (C : Dict String ℂ) : Dict String Value :=
  (JMS_to_EOS.map fun p => (decode p.1, .number (p.2.eval (inputsOf P C)))) ++
    JMS_to_EOS_arrays.map fun p => (decode p.1, .array (p.2.map (Sym.eval (inputsOf P C))))

theorem run_eos (P : WetApply.Params) (C : Dict String ℂ) : runEos P C = .ok (dict P C) := by
  unfold runEos
  rw [run_JMS_to_EOS]
  rfl

def validK {α : Type} : List (ℕ × α) → Bool
  | [] => true
  | p :: l => bif validN p.1 then validK l else false

theorem get_mapped {α β : Type} (f : α → β) (r : Dict String β) {n : ℕ} {v : α} (hn : validN n = true) :
    ∀ {l : List (ℕ × α)}, validK l = true → look n l = some v →
    Dict.get? ((l.map fun p => (decode p.1, f p.2)) ++ r) (decode n) = some (f v)
  | [], _, h => by cases h
  | (k, s) :: l, hl, h => by
    obtain ⟨h1, h2⟩ := cond_and hl
    rw [List.map_cons, List.cons_append, Dict.get?_cons]
    by_cases hk : k = n
    · subst hk
      have : s = v := by simpa [look] using h
      rw [this]
      simp
    · rw [if_neg (fun e => hk (decode_inj h1 hn e))]
      have hb : Nat.beq k n = false := Bool.eq_false_iff.2 fun e => hk (Nat.eq_of_beq_eq_true e)
      exact get_mapped f r hn h2 (by simpa [look, hb] using h)

theorem get_skip {α β : Type} (f : α → β) (r : Dict String β) {n : ℕ} (hn : validN n = true) :
    ∀ {l : List (ℕ × α)}, validK l = true → look n l = none →
    Dict.get? ((l.map fun p => (decode p.1, f p.2)) ++ r) (decode n) = Dict.get? r (decode n)
  | [], _, _ => rfl
  | (k, s) :: l, hl, h => by
    obtain ⟨h1, h2⟩ := cond_and hl
    rw [List.map_cons, List.cons_append, Dict.get?_cons]
    by_cases hk : k = n
    · subst hk
      exact absurd h (by simp [look])
    · rw [if_neg (fun e => hk (decode_inj h1 hn e))]
      have hb : Nat.beq k n = false := Bool.eq_false_iff.2 fun e => hk (Nat.eq_of_beq_eq_true e)
      exact get_skip f r hn h2 (by simpa [look, hb] using h)

theorem valid_E : validK JMS_to_EOS = true := by decide +kernel

theorem number_at (P : WetApply.Params) (C : Dict String ℂ) {n : ℕ} {s : Sym} (hn : validN n = true)
    (hs : look n JMS_to_EOS = some s) : (dict P C).get? (decode n) = some (.number (s.eval (inputsOf P C))) :=
  get_mapped (fun s : Sym => Value.number (s.eval (inputsOf P C))) _ hn valid_E hs

/-! ## Real and imaginary parts -/

/-- the prefactor in wet.py:1407, 1608 -/
def unitSym : Sym :=
  .div (.div (.div (.div (.sqrt (.rat 2 1)) (.par n!"GF")) (.ckm 2 2)) (.conj (.ckm 2 1))) (.rat 4 1)

theorem eval_unit (P : WetApply.Params) (C : Dict String ℂ) : unitSym.eval (inputsOf P C) = unit P := by
  have h : decode n!"GF" = "GF" := by decide +kernel
  simp only [unitSym, Sym.eval, inputsOf, h, unit, div_div, Int.cast_ofNat, Nat.cast_one, div_one, Complex.re_ofNat]
  congr 1
  simp only [starRingEnd_apply]
  ring

def partSym (p : Part) : Sym :=
  .mul (.rat p.n p.d) (bif p.conj then .conj (.inp (code p.name)) else .inp (code p.name))

def totalSym : List Part → Sym
  | [] => .rat 0 1
  | p :: l => .add (partSym p) (totalSym l)

theorem eval_total (P : WetApply.Params) (C : Dict String ℂ) : ∀ {ps : List Part},
    (ps.all fun p => plainB p.name) = true → (totalSym ps).eval (inputsOf P C) = total C ps
  | [], _ => by simp [totalSym, total, Sym.eval]
  | ⟨n, d, c, x⟩ :: l, h => by
    rw [List.all_cons, Bool.and_eq_true] at h
    have hx : decode (code x) = x := decode_code (plainB_sound h.1)
    rw [totalSym, Sym.eval, eval_total P C h.2, total]
    congr 1
    cases c <;> simp [partSym, Sym.eval, inputsOf, hx]

noncomputable def splitOK (F : Sym) (pre x : String) (ps : List Part) : Bool :=
  bif ps.all fun p => plainB p.name then
    bif plainB (pre ++ "::Re{" ++ x ++ "}") then bif plainB (pre ++ "::Im{" ++ x ++ "}") then
      forceN (code (pre ++ "::Re{" ++ x ++ "}")) fun a => forceN (code (pre ++ "::Im{" ++ x ++ "}")) fun b =>
        bif validN a then bif validN b then
          match look a JMS_to_EOS, look b JMS_to_EOS with
          | some (.mul u (.re w)), some (.mul u' (.im w')) =>
            bif u.same unitSym then bif u'.same unitSym then bif w.same w' then symEq w (.mul F (totalSym ps))
              else false else false else false
          | _, _ => false
        else false else false
      else false else false else false

theorem splitOK_sound {P : WetApply.Params} (hP : Physical P) (C : Dict String ℂ) {F : Sym} {f : ℝ}
    (hF : F.eval (inputsOf P C) = (f : ℂ)) {pre x : String} {ps : List Part} (h : splitOK F pre x ps = true) :
    (dict P C).get? (pre ++ "::Re{" ++ x ++ "}") = some (.number (unit P * (((f : ℂ) * total C ps).re : ℂ))) ∧
    (dict P C).get? (pre ++ "::Im{" ++ x ++ "}") = some (.number (unit P * (((f : ℂ) * total C ps).im : ℂ))) := by
  unfold splitOK at h
  obtain ⟨h0, h⟩ := cond_and h
  obtain ⟨h1, h⟩ := cond_and h
  obtain ⟨h2, h⟩ := cond_and h
  rw [forceN_eq, forceN_eq] at h
  obtain ⟨h3, h⟩ := cond_and h
  obtain ⟨h4, h⟩ := cond_and h
  split at h
  · rename_i u w u' w' ha hb
    obtain ⟨h5, h⟩ := cond_and h
    obtain ⟨h6, h⟩ := cond_and h
    obtain ⟨h7, h⟩ := cond_and h
    have e := symEq_sound (good_of_physical hP C) h
    have hw : w.eval (inputsOf P C) = (f : ℂ) * total C ps := by
      rw [e, Sym.eval, hF, eval_total P C h0]
    obtain rfl := Sym.same_sound h7
    obtain rfl := Sym.same_sound h5
    obtain rfl := Sym.same_sound h6
    have r1 := number_at P C h3 ha
    have r2 := number_at P C h4 hb
    rw [decode_code (plainB_sound h1)] at r1
    rw [decode_code (plainB_sound h2)] at r2
    rw [r1, r2]
    simp only [Sym.eval]
    rw [eval_unit, hw]
    exact ⟨rfl, rfl⟩
  · cases h

def perCharge2Sym : Sym :=
  .div (.mul (.rat 16 1) (.mul .pi .pi)) (.mul (chargeSym n!"alpha_e") (chargeSym n!"alpha_e"))

theorem eval_perCharge2 {P : WetApply.Params} (hP : Physical P) (C : Dict String ℂ) :
    perCharge2Sym.eval (inputsOf P C) = (perCharge2 P : ℂ) := by
  have h : decode n!"alpha_e" = "alpha_e" := by decide +kernel
  have ha : 0 ≤ 4 * Real.pi * P.par "alpha_e" := by
    have := hP.pos "alpha_e" (by simp)
    have := Real.pi_pos
    positivity
  simp only [perCharge2Sym, Sym.eval, eval_charge]
  have e : ((Real.sqrt (4 * Real.pi * (inputsOf P C).par n!"alpha_e") : ℝ) : ℂ) *
      ((Real.sqrt (4 * Real.pi * (inputsOf P C).par n!"alpha_e") : ℝ) : ℂ) =
      ((4 * Real.pi * (inputsOf P C).par n!"alpha_e" : ℝ) : ℂ) := by
    rw [← Complex.ofReal_mul, Real.mul_self_sqrt (by simpa [inputsOf, h] using ha)]
  rw [e]
  simp [inputsOf, h, perCharge2, pow_two]

def perChargeSym : Sym :=
  .div (.mul (.rat 16 1) (.mul .pi .pi)) (.mul (chargeSym n!"alpha_e") (.par n!"m_b"))

theorem eval_perCharge (P : WetApply.Params) (C : Dict String ℂ) :
    perChargeSym.eval (inputsOf P C) = (perCharge P : ℂ) := by
  have h : decode n!"alpha_e" = "alpha_e" := by decide +kernel
  have h' : decode n!"m_b" = "m_b" := by decide +kernel
  simp only [perChargeSym, Sym.eval, eval_charge]
  simp [inputsOf, h, h', perCharge, pow_two]

noncomputable def splitAll (F : Sym) (pre : String) (t : List (String × List Part)) : Bool := t.all fun p => splitOK F pre p.1 p.2

theorem check_ee : splitAll perCharge2Sym ("b->s" ++ "ee") (semileptonic "11") = true := by decide +kernel
theorem check_mumu : splitAll perCharge2Sym ("b->s" ++ "mumu") (semileptonic "22") = true := by decide +kernel
theorem check_radiative : splitAll perChargeSym "b->s" radiative = true := by decide +kernel

/-- What is stored under the two names of a coefficient. -/
theorem stored {P : WetApply.Params} (hP : Physical P) {C : Dict String ℂ} {pre x : String} {z : ℂ}
    (h : IsEos P C pre x z) : ∃ w : ℂ, z = unit P * w ∧
      (dict P C).get? (pre ++ "::Re{" ++ x ++ "}") = some (.number (unit P * (w.re : ℂ))) ∧
      (dict P C).get? (pre ++ "::Im{" ++ x ++ "}") = some (.number (unit P * (w.im : ℂ))) := by
  cases h with
  | semileptonic l ll hl x ps hx =>
    refine ⟨_, rfl, splitOK_sound hP C (eval_perCharge2 hP C) (ps := ps) ?_⟩
    simp only [List.mem_cons, List.not_mem_nil, or_false, Prod.mk.injEq] at hl
    rcases hl with ⟨rfl, rfl⟩ | ⟨rfl, rfl⟩
    · exact List.all_eq_true.1 check_ee _ hx
    · exact List.all_eq_true.1 check_mumu _ hx
  | radiative x ps hx =>
    exact ⟨_, rfl, splitOK_sound hP C (eval_perCharge P C) (List.all_eq_true.1 check_radiative _ hx)⟩

/-! ## EOS and flavio -/

/-- the dictionary returned by `JMS_to_flavio` -/
noncomputable def flavioDict (P : WetApply.Params) (C : Dict String ℂ) : Dict String ℂ :=
  tail "JMS_to_flavio" C (values (inputsOf P C) JMS_to_flavio)

theorem run_flavio (P : WetApply.Params) (C : Dict String ℂ) : run "JMS_to_flavio" P C = .ok (flavioDict P C) :=
  run_eq out_JF P C

theorem tail_look (C d : Dict String ℂ) {n : ℕ} (hn : validN n = true) (ho : look n tailF = none) :
    (tail "JMS_to_flavio" C d).get? (decode n) = d.get? (decode n) := by
  rw [tail, if_pos rfl]
  refine forward_other C _ _ fun p hp e => ?_
  rw [dlep_eq] at hp
  obtain ⟨q, hq, rfl⟩ := List.mem_map.1 hp
  have hv := List.all_eq_true.1 tail_valid q hq
  rw [Bool.and_eq_true] at hv
  have := decode_inj hv.2 hn e
  exact look_none ho (q.2, q.1) (List.mem_map.2 ⟨q, hq, rfl⟩) this

theorem flavio_at (P : WetApply.Params) (C : Dict String ℂ) {n : ℕ} {s : Sym} (hn : validN n = true)
    (ho : look n tailF = none) (hs : look n JMS_to_flavio = some s) :
    (flavioDict P C).get? (decode n) = some (s.eval (inputsOf P C)) := by
  unfold flavioDict
  rw [tail_look _ _ hn ho, get_values _ hn valid_JMS_to_flavio, hs]
  rfl

/-- the two formulas are the same -/
noncomputable def agreeOK (x y : String) : Bool :=
  bif plainB x then bif plainB y then
    forceN (code x) fun a => forceN (code y) fun b =>
      bif validN a then bif validN b then
        match look a JMS_to_EOS, look b JMS_to_flavio, look b tailF with
        | some s, some t, none => symEq s t
        | _, _, _ => false
      else false else false
    else false else false

theorem agreeOK_sound {P : WetApply.Params} (hP : Physical P) (C : Dict String ℂ) {x y : String}
    (h : agreeOK x y = true) :
    ∃ z, (dict P C).get? x = some (.number z) ∧ (flavioDict P C).get? y = some z := by
  unfold agreeOK at h
  obtain ⟨h1, h⟩ := cond_and h
  obtain ⟨h2, h⟩ := cond_and h
  rw [forceN_eq, forceN_eq] at h
  obtain ⟨h3, h⟩ := cond_and h
  obtain ⟨h4, h⟩ := cond_and h
  split at h
  · rename_i s t ha hb hc
    have r1 := number_at P C h3 ha
    have r2 := flavio_at P C h4 hc hb
    rw [decode_code (plainB_sound h1)] at r1
    rw [decode_code (plainB_sound h2)] at r2
    refine ⟨_, r1, ?_⟩
    rw [r2, symEq_sound (good_of_physical hP C) h]
  · cases h

theorem check_charged : (chargedCurrent.all fun p => agreeOK p.1 p.2) = true := by decide +kernel

/-- the formula of flavio is `f` times the EOS coefficient -/
noncomputable def flavioOK (F : Sym) (y : String) (ps : List Part) : Bool :=
  bif ps.all fun p => plainB p.name then
    bif plainB y then
      forceN (code y) fun b =>
        bif validN b then
          match look b JMS_to_flavio, look b tailF with
          | some t, none => symEq t (.mul unitSym (.mul F (totalSym ps)))
          | _, _ => false
        else false
      else false else false

theorem flavioOK_sound {P : WetApply.Params} (hP : Physical P) (C : Dict String ℂ) {F : Sym} {f : ℂ}
    (hF : F.eval (inputsOf P C) = f) {y : String} {ps : List Part} (h : flavioOK F y ps = true) :
    (flavioDict P C).get? y = some (unit P * (f * total C ps)) := by
  unfold flavioOK at h
  obtain ⟨h0, h⟩ := cond_and h
  obtain ⟨h2, h⟩ := cond_and h
  rw [forceN_eq] at h
  obtain ⟨h4, h⟩ := cond_and h
  split at h
  · rename_i t hb hc
    have r2 := flavio_at P C h4 hc hb
    rw [decode_code (plainB_sound h2)] at r2
    rw [r2, symEq_sound (good_of_physical hP C) h]
    simp only [Sym.eval]
    rw [eval_unit, hF, eval_total P C h0]
  · cases h

theorem check_flavio (l ll : String) (h : (l, ll) ∈ [("ee", "11"), ("mumu", "22")]) :
    ∀ x y ps, (x, y) ∈ vectorNames → (x, ps) ∈ semileptonic ll → flavioOK perCharge2Sym (y ++ "_bs" ++ l) ps = true := by
  have e : (["ee", "mumu"].all fun l => vectorNames.all fun p =>
      (semileptonic (if l = "ee" then "11" else "22")).all fun q =>
        !(decide (q.1 = p.1)) || flavioOK perCharge2Sym (p.2 ++ "_bs" ++ l) q.2) = true := by decide +kernel
  intro x y ps hy hp
  simp only [List.mem_cons, List.not_mem_nil, or_false, Prod.mk.injEq] at h
  rcases h with ⟨rfl, rfl⟩ | ⟨rfl, rfl⟩
  · simpa using List.all_eq_true.1 (List.all_eq_true.1 (List.all_eq_true.1 e "ee" (by simp)) _ hy) (x, ps) hp
  · simpa using List.all_eq_true.1 (List.all_eq_true.1 (List.all_eq_true.1 e "mumu" (by simp)) _ hy) (x, ps) hp

/-- 16π²/(e² m_b) -/
def scalarSym : Sym := .div perCharge2Sym (.par n!"m_b")

theorem eval_scalar {P : WetApply.Params} (hP : Physical P) (C : Dict String ℂ) :
    scalarSym.eval (inputsOf P C) = (perCharge2 P : ℂ) / (P.par "m_b" : ℂ) := by
  have h' : decode n!"m_b" = "m_b" := by decide +kernel
  rw [scalarSym, Sym.eval, eval_perCharge2 hP]
  simp [Sym.eval, inputsOf, h']

theorem check_scalar (l ll : String) (h : (l, ll) ∈ [("ee", "11"), ("mumu", "22")]) :
    ∀ x y ps, (x, y) ∈ scalarNames → (x, ps) ∈ semileptonic ll → flavioOK scalarSym (y ++ "_bs" ++ l) ps = true := by
  have e : (["ee", "mumu"].all fun l => scalarNames.all fun p =>
      (semileptonic (if l = "ee" then "11" else "22")).all fun q =>
        !(decide (q.1 = p.1)) || flavioOK scalarSym (p.2 ++ "_bs" ++ l) q.2) = true := by decide +kernel
  intro x y ps hy hp
  simp only [List.mem_cons, List.not_mem_nil, or_false, Prod.mk.injEq] at h
  rcases h with ⟨rfl, rfl⟩ | ⟨rfl, rfl⟩
  · simpa using List.all_eq_true.1 (List.all_eq_true.1 (List.all_eq_true.1 e "ee" (by simp)) _ hy) (x, ps) hp
  · simpa using List.all_eq_true.1 (List.all_eq_true.1 (List.all_eq_true.1 e "mumu" (by simp)) _ hy) (x, ps) hp

theorem check_c7 : flavioOK perChargeSym "C7_bs" [⟨1, 1, false, "dgamma_23"⟩] = true := by decide +kernel
theorem check_c7p : flavioOK perChargeSym "C7p_bs" [⟨1, 1, true, "dgamma_32"⟩] = true := by decide +kernel

/-! ## Chromomagnetic coefficients -/

def perStrongSym : Sym :=
  .div (.mul (.rat 16 1) (.mul .pi .pi)) (.mul (chargeSym n!"alpha_s") (.par n!"m_b"))

theorem eval_perStrong (P : WetApply.Params) (C : Dict String ℂ) :
    perStrongSym.eval (inputsOf P C) = (perStrong P : ℂ) := by
  have h : decode n!"alpha_s" = "alpha_s" := by decide +kernel
  have h' : decode n!"m_b" = "m_b" := by decide +kernel
  simp only [perStrongSym, Sym.eval, eval_charge]
  simp [inputsOf, h, h', perStrong, pow_two]

theorem check_c8 : flavioOK perStrongSym "C8_bs" [⟨1, 1, false, "dG_23"⟩] = true := by decide +kernel

theorem eos_c8 {P : WetApply.Params} (hP : Physical P) (C : Dict String ℂ) :
    (dict P C).get? "b->s::c8" =
      some (.number (unit P * (((perStrong P : ℂ) * C.getD "dG_23" 0).re : ℂ))) := by
  have hd : decode n!"b->s::c8" = "b->s::c8" := by decide +kernel
  have hi : decode n!"dG_23" = "dG_23" := by decide +kernel
  have h := number_at P C (n := n!"b->s::c8") (by decide +kernel)
    (s := .mul unitSym (.re (.mul (.div (.div (.mul (.rat 16 1) (.mul .pi .pi)) (.par n!"m_b")) (chargeSym n!"alpha_s"))
      (.inp n!"dG_23")))) (by decide +kernel)
  have e : (Sym.div (.div (.mul (.rat 16 1) (.mul .pi .pi)) (.par n!"m_b")) (chargeSym n!"alpha_s")).eval (inputsOf P C) =
      perStrongSym.eval (inputsOf P C) := symEq_sound (good_of_physical hP C) (by decide +kernel)
  rw [hd] at h
  rw [h]
  simp only [Sym.eval] at e ⊢
  rw [e, eval_unit]
  have e' := eval_perStrong P C
  simp only [perStrongSym, Sym.eval] at e'
  simp only [perStrongSym, Sym.eval]
  rw [e']
  simp only [inputsOf, hi]

/-! ## The coefficient that is an array -/

theorem eos_c5 (P : WetApply.Params) (C : Dict String ℂ) :
    ∃ z, (dict P C).get? "b->s::c5" = some (.array [z]) := by
  have hd : decode n!"b->s::c5" = "b->s::c5" := by decide +kernel
  have h : ((look n!"b->s::c5" JMS_to_EOS_arrays).map fun l => l.length) = some 1 := by decide +kernel
  obtain ⟨l, hl, h⟩ := Option.map_eq_some_iff.1 h
  obtain ⟨s, rfl⟩ := List.length_eq_one_iff.1 h
  refine ⟨s.eval (inputsOf P C), ?_⟩
  rw [← hd]
  unfold dict
  rw [get_skip (fun s : Sym => Value.number (s.eval (inputsOf P C))) _ (by decide +kernel) valid_E (by decide +kernel)]
  have := get_mapped (fun l : List Sym => Value.array (l.map (Sym.eval (inputsOf P C)))) [] (n := n!"b->s::c5")
    (by decide +kernel) (l := JMS_to_EOS_arrays) (by decide +kernel) hl
  rw [List.append_nil] at this
  exact this

end Verif.WetEos
