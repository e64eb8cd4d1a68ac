import Verif.Lemmas.SmeftSimTable
import Mathlib.Tactic.IntervalCases

/-! From the table checks to statements about rows. -/

set_option autoImplicit false
set_option linter.unusedSimpArgs false

namespace Verif.SmeftSim
open Verif Verif.EFT Verif.EFT.Util Verif.Beta Verif.Bridge Verif.Spec Verif.Reflect

attribute [local irreducible] Gen.rowsA Gen.rowsB

theorem row_ok (set : ModelSet) {r : Row} (h : r ∈ rowsOf set) : rowOK set r = true := by
  cases set with
  | A => exact List.all_eq_true.1 rowsA_ok r h
  | B => exact List.all_eq_true.1 rowsB_ok r h

theorem coefs (set : ModelSet) : ∃ m, addAll ((rowsOf set).map coefCode) 0 = some m ∧ complete set m = true ∧
    m.testBit 0 = true := by
  have : (match addAll ((rowsOf set).map coefCode) 0 with
    | some m => complete set m && m.testBit 0 | none => false) = true := by
    cases set with
    | A => exact coefsA
    | B => exact coefsB
  cases h : addAll ((rowsOf set).map coefCode) 0 with
  | none => rw [h] at this; cases this
  | some m =>
    rw [h] at this
    simp only [Bool.and_eq_true] at this
    exact ⟨m, rfl, this.1, this.2⟩

theorem label_codes_nodup (set : ModelSet) : ((rowsOf set).map labelCode).Nodup := by
  have : (addAll ((rowsOf set).map labelCode) 0).isSome = true := by
    cases set with
    | A => exact labelsA
    | B => exact labelsB
  obtain ⟨m, hm⟩ := Option.isSome_iff_exists.1 this
  exact (addAll_spec _ _ _ hm).1

/-! ### entries -/

theorem ofNat_val (i : Fin 3) : Fin.ofNat 3 i.val = i := by
  apply Fin.ext; simp [Fin.ofNat, Nat.mod_eq_of_lt i.isLt]

theorem entry_iff {k : Key} (fl : List ℕ) (h : isEntryB k fl = true) :
    ∃ r, IsEntry k fl r := by
  match fl, h with
  | [], h => exact ⟨_, .scalar (by simpa [isEntryB] using h)⟩
  | [a, b], h =>
    simp only [isEntryB, Bool.and_eq_true, decide_eq_true_eq] at h
    obtain ⟨⟨⟨ha, hb⟩, hr⟩, hn⟩ := h
    have e : idx2 (Fin.ofNat 3 a, Fin.ofNat 3 b) = [a, b] := by
      simp [idx2, Fin.ofNat, Nat.mod_eq_of_lt ha, Nat.mod_eq_of_lt hb]
    exact ⟨_, e ▸ IsEntry.two _ hr hn⟩
  | [a, b, c, d], h =>
    simp only [isEntryB, Bool.and_eq_true, decide_eq_true_eq] at h
    obtain ⟨⟨⟨⟨⟨ha, hb⟩, hc⟩, hd⟩, hr⟩, hn⟩ := h
    have e : idx4 (Fin.ofNat 3 a, Fin.ofNat 3 b, Fin.ofNat 3 c, Fin.ofNat 3 d) = [a, b, c, d] := by
      simp [idx4, Fin.ofNat, Nat.mod_eq_of_lt ha, Nat.mod_eq_of_lt hb, Nat.mod_eq_of_lt hc, Nat.mod_eq_of_lt hd]
    exact ⟨_, e ▸ IsEntry.four _ hr hn⟩
  | [_], h => simp [isEntryB] at h
  | [_, _, _], h => simp [isEntryB] at h
  | _ :: _ :: _ :: _ :: _ :: _, h => simp [isEntryB] at h

theorem entry_mem {k : Key} {fl : List ℕ} {r : Prop} (h : IsEntry k fl r) :
    fl ∈ entriesOf k ∧ fl ∈ allFl ∧ (isReal k fl = true ↔ r) := by
  cases h with
  | scalar h => exact ⟨by simp [entriesOf, h], by simp [allFl], by simp [isReal]⟩
  | two i h hn =>
    refine ⟨?_, ?_, ?_⟩
    · simp only [entriesOf, h]
      exact List.mem_map.2 ⟨i, List.mem_filter.2 ⟨mem_all2I i, by simpa using hn⟩, rfl⟩
    · exact List.mem_cons_of_mem _ (List.mem_append_left _ (List.mem_map.2 ⟨i, mem_all2I i, rfl⟩))
    · obtain ⟨a, b⟩ := i
      simp [isReal, idx2, ofNat_val]
  | four i h hn =>
    refine ⟨?_, ?_, ?_⟩
    · simp only [entriesOf, h]
      exact List.mem_map.2 ⟨i, List.mem_filter.2 ⟨mem_all4I i, by simpa using hn⟩, rfl⟩
    · exact List.mem_cons_of_mem _ (List.mem_append_right _ (List.mem_map.2 ⟨i, mem_all4I i, rfl⟩))
    · obtain ⟨a, b, c, d⟩ := i
      simp only [isReal, idx4, ofNat_val, decide_eq_true_eq]

/-! ### rows by coefficient -/

/-- number of a label part -/
def pCode : Part → ℕ
  | .none => 0
  | .abs => 1
  | .ph => 2

theorem code_eq (st : ℕ) (p : Part) (fl : List ℕ) : code st p fl = (st * 3 + pCode p) * 256 + (flCode fl + 1) := by
  cases p <;> simp only [code, pCode, Nat.add_eq, Nat.mul_eq, Nat.succ_eq_add_one]

theorem code_inj {st st' : ℕ} {p p' : Part} {fl fl' : List ℕ} (h : fl ∈ allFl) (h' : fl' ∈ allFl)
    (e : code st p fl = code st' p' fl') : st = st' ∧ p = p' ∧ fl = fl' := by
  have l := flCode_lt fl h
  have l' := flCode_lt fl' h'
  have this := e
  rw [code_eq, code_eq] at this
  have ef : flCode fl = flCode fl' := by cases p <;> cases p' <;> simp only [pCode] at this <;> omega
  have es : st = st' ∧ p = p' := by
    rw [ef] at this
    cases p <;> cases p' <;> simp only [pCode] at this <;> simp only [and_true, and_false, reduceCtorEq] <;> omega
  exact ⟨es.1, es.2, flCode_inj fl h fl' h' ef⟩

theorem row_of_code (set : ModelSet) {st : ℕ} {p : Part} {fl : List ℕ} (hfl : fl ∈ allFl)
    (h : code st p fl ∈ (rowsOf set).map coefCode) :
    ∃ b pos kind k dg, Row.coef b pos kind k fl st p dg ∈ rowsOf set := by
  obtain ⟨r, hr, e⟩ := List.mem_map.1 h
  cases r with
  | cutoff b pos =>
    exfalso
    rw [coefCode, code_eq] at e
    omega
  | coef b pos kind k fl' st' p' dg =>
    have hok := row_ok set hr
    simp only [rowOK, Bool.and_eq_true, decide_eq_true_eq] at hok
    obtain ⟨⟨⟨⟨⟨hk, hent⟩, -⟩, -⟩, -⟩, -⟩ := hok
    obtain ⟨r', hr'⟩ := entry_iff fl' hent
    obtain ⟨rfl, rfl, rfl⟩ := code_inj (entry_mem hr').2.1 hfl e
    exact ⟨b, pos, kind, k, dg, hr⟩

/-- The rows of a coefficient. -/
theorem rows_of (set : ModelSet) {k : Key} (hk : k ∈ coeffKeys) (hs : k ∉ notInSim) {fl : List ℕ} {r : Prop}
    (h : IsEntry k fl r) :
    ∃ st, (stemKeys set)[st]? = some k ∧
      (∃ b pos kind, Row.coef b pos kind k fl st (if fl = [] then .none else .abs) (labelDigits k fl) ∈ rowsOf set ∧
        ((kind = .plain ∧ r ∧ ¬ unsigned set k fl) ∨ ((kind = .abs ∨ kind = .absAll) ∧ (¬ r ∨ unsigned set k fl)))) ∧
      (¬ r → ∃ b pos, Row.coef b pos .angle k fl st .ph (labelDigits k fl) ∈ rowsOf set) ∧
      (r → ∀ b pos kind k' fl', Row.coef b pos kind k' fl' st .ph (labelDigits k fl) ∉ rowsOf set) := by
  obtain ⟨he, ha, hreal⟩ := entry_mem h
  obtain ⟨st, hst⟩ := List.mem_iff_getElem?.1 (stem_all set k hk hs)
  refine ⟨st, hst, ?_⟩
  obtain ⟨m, hm, hc, -⟩ := coefs set
  have hbits := (addAll_spec _ _ _ hm).2.2
  have hc := List.all_eq_true.1 hc (k, st) (by
    rw [List.mem_zipIdx_iff_getElem?]; exact hst)
  have hc := List.all_eq_true.1 hc fl he
  simp only [Bool.and_eq_true, Bool.or_eq_true, beq_iff_eq] at hc
  obtain ⟨⟨h1, h2⟩, h3⟩ := hc
  have hkey : ∀ {b pos kind k' p dg}, Row.coef b pos kind k' fl st p dg ∈ rowsOf set → k' = k ∧ dg = labelDigits k fl ∧
      (match kind with
      | .angle => decide (p = .ph) && !isReal k dg
      | .plain => decide (p = if fl = [] then Part.none else .abs) && isReal k dg && !decide (unsigned set k fl)
      | _ => decide (p = .abs) && (!isReal k dg || decide (unsigned set k fl))) = true := by
    intro b pos kind k' p dg hr
    have hok := row_ok set hr
    simp only [rowOK, Bool.and_eq_true, decide_eq_true_eq] at hok
    obtain ⟨⟨⟨⟨⟨hk', -⟩, hd⟩, -⟩, -⟩, hlast⟩ := hok
    rw [hst, Option.some.injEq] at hk'
    subst hk'
    exact ⟨rfl, hd, hlast⟩
  refine ⟨?_, ?_, ?_⟩
  · rcases hbits _ h1 with h | h
    · simp at h
    obtain ⟨b, pos, kind, k', dg, hr⟩ := row_of_code set ha h
    obtain ⟨rfl, rfl, hl⟩ := hkey hr
    refine ⟨b, pos, kind, hr, ?_⟩
    rw [← h3] at hl
    cases kind with
    | angle =>
      simp only [Bool.and_eq_true, decide_eq_true_eq] at hl
      have := hl.1
      split at this <;> cases this
    | plain =>
      simp only [Bool.and_eq_true, Bool.not_eq_true', decide_eq_false_iff_not] at hl
      exact .inl ⟨rfl, hreal.1 hl.1.2, hl.2⟩
    | abs =>
      simp only [Bool.and_eq_true, Bool.or_eq_true, Bool.not_eq_true', decide_eq_true_eq] at hl
      exact .inr ⟨.inl rfl, hl.2.imp (fun h hr => by rw [hreal.2 hr] at h; cases h) id⟩
    | absAll =>
      simp only [Bool.and_eq_true, Bool.or_eq_true, Bool.not_eq_true', decide_eq_true_eq] at hl
      exact .inr ⟨.inr rfl, hl.2.imp (fun h hr => by rw [hreal.2 hr] at h; cases h) id⟩
  · intro hr
    rcases h2 with h2 | h2
    · exact absurd (hreal.1 h2) hr
    rcases hbits _ h2 with h | h
    · simp at h
    obtain ⟨b, pos, kind, k', dg, hr'⟩ := row_of_code set ha h
    obtain ⟨rfl, rfl, hl⟩ := hkey hr'
    cases kind with
    | angle => exact ⟨b, pos, hr'⟩
    | plain => simp only [Bool.and_eq_true, decide_eq_true_eq] at hl; have := hl.1.1; split at this <;> cases this
    | abs => simp at hl
    | absAll => simp at hl
  · intro hr b pos kind k' fl' hm
    have hok := row_ok set hm
    simp only [rowOK, Bool.and_eq_true, decide_eq_true_eq] at hok
    obtain ⟨⟨⟨⟨⟨hk', -⟩, hd⟩, -⟩, -⟩, hlast⟩ := hok
    rw [hst, Option.some.injEq] at hk'
    subst hk'
    have hR : isReal k (labelDigits k fl) = true := by rw [← h3]; exact hreal.2 hr
    cases kind with
    | angle => rw [hR] at hlast; simp at hlast
    | plain =>
      simp only [Bool.and_eq_true, decide_eq_true_eq] at hlast
      have := hlast.1.1; split at this <;> cases this
    | abs => simp at hlast
    | absAll => simp at hlast

theorem stem_name (set : ModelSet) {st : ℕ} {k : Key} (h : (stemKeys set)[st]? = some k) :
    ((stemsOf set).getD st "").toList = simName set k := by
  have : ((stemsOf set).map String.toList)[st]? = some (simName set k) := by
    rw [stem_names, List.getElem?_map, h]; rfl
  rw [List.getElem?_map] at this
  rw [List.getD_eq_getElem?_getD]
  cases h' : (stemsOf set)[st]? with
  | none => rw [h'] at this; cases this
  | some s => rw [h'] at this; simpa using this

theorem stem_inj (set : ModelSet) {st st' : ℕ} {k k' : Key} (h : (stemKeys set)[st]? = some k)
    (h' : (stemKeys set)[st']? = some k')
    (e : ((stemsOf set).getD st "").toList = ((stemsOf set).getD st' "").toList) : st = st' := by
  have g : ∀ {st : ℕ} {k : Key}, (stemKeys set)[st]? = some k → ((stemsOf set).map String.toList)[st]? = some (simName set k) := by
    intro st k h; rw [stem_names, List.getElem?_map, h]; rfl
  rw [stem_name set h, stem_name set h'] at e
  have h1 := g h
  have h2 := g h'
  rw [← e] at h2
  have hl := (List.getElem?_eq_some_iff.1 h1).1
  exact (List.getElem?_inj hl (stems_nodup set)).1 (h1.trans h2.symm)

theorem cutoff_row (set : ModelSet) : ∃ b pos, Row.cutoff b pos ∈ rowsOf set := by
  obtain ⟨m, hm, -, h0⟩ := coefs set
  rcases (addAll_spec _ _ _ hm).2.2 0 h0 with h | h
  · simp at h
  obtain ⟨r, hr, e⟩ := List.mem_map.1 h
  cases r with
  | cutoff b pos => exact ⟨b, pos, hr⟩
  | coef b pos kind k fl st p dg =>
    exfalso
    rw [coefCode, code_eq] at e
    omega

end Verif.SmeftSim
