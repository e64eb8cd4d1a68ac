import Verif.Spec.WCxf
import Mathlib.Tactic.NormNum
import Mathlib.Tactic.Basic
import Mathlib.Data.Complex.BigOperators

/-! # Properties C01-C08: the WCxf data layer -/

set_option autoImplicit false
open Classical

namespace Verif
open Spec

/-! ## C03: value encoding -/

theorem toNumber_ofNumber (v : ℂ) : (Val.ofNumber v).toNumber = v := by
  unfold Val.ofNumber
  split
  · apply Complex.ext <;> simp [Val.toNumber]
  · rename_i h
    simp only [ne_eq, not_not] at h
    apply Complex.ext <;> simp [Val.toNumber, h]

/-- C03: a WC built from `dict2values(d)` reads back as `d` (same keys, order, values). -/
theorem C03_dict_roundtrip (d : Dict String ℂ) (wc : WC) (h : wc.values = dict2values d) :
    wc.dict = d := by
  unfold WC.dict dict2values at *
  rw [h]
  unfold Dict.mapVal
  rw [List.map_map]
  conv_rhs => rw [← List.map_id d]
  apply List.map_congr_left
  intro kv _
  simp [toNumber_ofNumber]

/-- C03: an entry is encoded as a Re/Im record exactly if its imaginary part is non-zero, and then
with both parts; otherwise as the plain number. -/
theorem C03_encoding (v : ℂ) :
    (v.im ≠ 0 → Val.ofNumber v = .reim (some v.re) (some v.im)) ∧
    (v.im = 0 → Val.ofNumber v = .num v.re) := by
  constructor <;> intro h <;> simp [Val.ofNumber, h]

/-- C03: `wc[k]` is the coefficient's value, and 0 for a coefficient that is not given; it never fails. -/
theorem C03_getItem (d : Dict String ℂ) (wc : WC) (h : wc.values = dict2values d) (k : String) :
    (∀ v, d.get? k = some v → wc.getItem k = v) ∧ (k ∉ d.keys → wc.getItem k = 0) := by
  have hd := C03_dict_roundtrip d wc h
  constructor
  · intro v hv
    simp [WC.getItem, hd, hv]
  · intro hk
    have := (Dict.get?_eq_none_iff d k).2 hk
    simp [WC.getItem, hd, this]

/-- C03: a Re/Im record reads as `Re + i Im` with missing parts 0. -/
theorem C03_missing_parts (x : ℝ) :
    (Val.reim (some x) none).toNumber = ⟨x, 0⟩ ∧ (Val.reim none (some x)).toNumber = ⟨0, x⟩ ∧
    (Val.reim none none).toNumber = 0 := by
  refine ⟨?_, ?_, ?_⟩ <;> apply Complex.ext <;> simp [Val.toNumber]

/-- Non-vacuity of C03: a dictionary with a real, a complex and a zero entry. -/
example : ∃ wc : WC, wc.values = dict2values [("a", 1), ("b", Complex.I), ("c", 0)] ∧
    wc.getItem "b" = Complex.I ∧ wc.getItem "zz" = 0 := by
  refine ⟨⟨"SMEFT", "Warsaw", 1000, dict2values [("a", 1), ("b", Complex.I), ("c", 0)], []⟩, rfl, ?_, ?_⟩
  · exact (C03_getItem _ _ rfl "b").1 _ (by simp [Dict.get?])
  · exact (C03_getItem _ _ rfl "zz").2 (by simp [Dict.keys])

/-! ## C01, C02: translate and match -/

theorem dropZeros_spec (out : Dict String ℂ) (hout : out.NodupKeys) :
    IsNonzeroPart out (dropZeros out) := by
  intro k v
  unfold dropZeros
  rw [Dict.get?_filterKV _ _ hout]
  cases h : out.get? k with
  | none => simp
  | some w =>
    simp only [Option.filter_some]
    by_cases hw : w = 0
    · subst hw
      simp
      rintro rfl; trivial
    · simp [hw]
      rintro rfl; exact hw

/-- C01 (nothing to do): translating to the basis the coefficients are already in returns the
same object. -/
theorem C01_translate_identity (ph : Physics) (wc : WC) (p : Option Params)
    (s : Option (List String)) : wc.translate ph wc.basis p s = .ok wc := by
  simp [WC.translate]

/-- C01: with a registered translator whose function returns `out`, the result has the same EFT
and scale, the requested basis, and exactly the non-zero entries of `out`.  The function receives
the coefficients, scale, parameters and sectors of the call. -/
theorem C01_translate_result (ph : Physics) (wc : WC) (toB : String) (p : Option Params)
    (s : Option (List String)) (f : TransFn) (out : Dict String ℂ) (hb : toB ≠ wc.basis)
    (hf : ph.translators.get? (wc.eft, wc.basis, toB) = some f)
    (hout : f wc.dict wc.scale p s = .ok out) (hd : out.NodupKeys) :
    ∃ r, wc.translate ph toB p s = .ok r ∧ IsResult r wc.eft toB wc.scale out := by
  refine ⟨⟨wc.eft, toB, wc.scale, dict2values (dropZeros out), []⟩, ?_, ?_⟩
  · simp [WC.translate, hb, hf, translatorApply, hout]
  · refine ⟨rfl, rfl, rfl, ?_⟩
    rw [C03_dict_roundtrip (dropZeros out) _ rfl]
    exact dropZeros_spec out hd

/-- C01: an exception of the translator function is passed on. -/
theorem C01_translate_raises (ph : Physics) (wc : WC) (toB : String) (p : Option Params)
    (s : Option (List String)) (f : TransFn) (e : Exc) (hb : toB ≠ wc.basis)
    (hf : ph.translators.get? (wc.eft, wc.basis, toB) = some f)
    (hout : f wc.dict wc.scale p s = .error e) :
    wc.translate ph toB p s = .error e := by
  simp [WC.translate, hb, hf, translatorApply, hout]

/-- C01: without a registered translator a ValueError is raised. -/
theorem C01_translate_missing (ph : Physics) (wc : WC) (toB : String) (p : Option Params)
    (s : Option (List String)) (hb : toB ≠ wc.basis)
    (hf : ph.translators.get? (wc.eft, wc.basis, toB) = none) :
    wc.translate ph toB p s = .error .valueError := by
  simp [WC.translate, hb, hf]

/-- Non-vacuity of C01: a registered translator that produces a zero and a non-zero entry. -/
example : ∃ (ph : Physics) (wc : WC) (f : TransFn) (out : Dict String ℂ),
    "b2" ≠ wc.basis ∧ ph.translators.get? (wc.eft, wc.basis, "b2") = some f ∧
    f wc.dict wc.scale none none = .ok out ∧ out.NodupKeys ∧ out.length = 2 := by
  refine ⟨⟨some [(("E", "b1", "b2"), fun _ _ _ _ => .ok [("x", 0), ("y", 2)])], none⟩,
    ⟨"E", "b1", 5, [], []⟩, fun _ _ _ _ => .ok [("x", 0), ("y", 2)], [("x", 0), ("y", 2)],
    by simp, ?_, rfl, ?_, rfl⟩
  · simp [Registry.get?, Dict.get?]
  · simp [Dict.NodupKeys, Dict.keys]

/-- C02 (nothing to do): matching to the own EFT and basis returns the same object. -/
theorem C02_match_identity (ph : Physics) (wc : WC) (p : Option Params) :
    wc.match ph wc.eft wc.basis p = .ok wc := by
  simp [WC.match]

/-- C02: with a registered matcher the result has the requested EFT and basis, the same scale and
exactly the non-zero entries of the matcher's output. -/
theorem C02_match_result (ph : Physics) (wc : WC) (toEft toB : String) (p : Option Params)
    (f : MatchFn) (out : Dict String ℂ) (hb : ¬ (toEft = wc.eft ∧ toB = wc.basis))
    (hf : ph.matchers.get? (wc.eft, wc.basis, toEft, toB) = some f)
    (hout : f wc.dict wc.scale p = .ok out) (hd : out.NodupKeys) :
    ∃ r, wc.match ph toEft toB p = .ok r ∧ IsResult r toEft toB wc.scale out := by
  refine ⟨⟨toEft, toB, wc.scale, dict2values (dropZeros out), []⟩, ?_, ?_⟩
  · simp [WC.match, hb, hf, matcherApply, hout]
  · refine ⟨rfl, rfl, rfl, ?_⟩
    rw [C03_dict_roundtrip (dropZeros out) _ rfl]
    exact dropZeros_spec out hd

/-- C02: without a registered matcher a ValueError is raised; an exception of the matcher is passed on. -/
theorem C02_match_errors (ph : Physics) (wc : WC) (toEft toB : String) (p : Option Params)
    (hb : ¬ (toEft = wc.eft ∧ toB = wc.basis)) :
    (ph.matchers.get? (wc.eft, wc.basis, toEft, toB) = none →
      wc.match ph toEft toB p = .error .valueError) ∧
    (∀ f e, ph.matchers.get? (wc.eft, wc.basis, toEft, toB) = some f →
      f wc.dict wc.scale p = .error e → wc.match ph toEft toB p = .error e) := by
  constructor
  · intro hf; simp [WC.match, hb, hf]
  · intro f e hf he; simp [WC.match, hb, hf, matcherApply, he]

/-- Non-vacuity of C02. -/
example : ∃ (ph : Physics) (wc : WC) (f : MatchFn) (out : Dict String ℂ),
    ¬ ("E2" = wc.eft ∧ "b" = wc.basis) ∧ ph.matchers.get? (wc.eft, wc.basis, "E2", "b") = some f ∧
    f wc.dict wc.scale none = .ok out ∧ out.NodupKeys ∧ out ≠ [] := by
  refine ⟨⟨none, some [(("E1", "b", "E2", "b"), fun d _ _ => .ok d)]⟩,
    ⟨"E1", "b", 5, [("x", .num 2)], []⟩, fun d _ _ => .ok d, [("x", 2)], by simp, ?_, ?_, ?_, by simp⟩
  · simp [Registry.get?, Dict.get?]
  · simp [WC.dict, Dict.mapVal, Val.toNumber]
  · simp [Dict.NodupKeys, Dict.keys]

/-! ## C04, C07: validation -/

/-- C04: `validate` accepts exactly the WCs whose EFT is registered, whose basis is registered for
that EFT (with its sectors), and all of whose coefficient names occur in some sector. -/
theorem C04_validate_iff (st : Bases) (wc : WC) :
    wc.validate st = .ok () ↔
      (∃ e, st.efts.get? wc.eft = some e) ∧
      ∃ b secs, st.bases.get? (wc.eft, wc.basis) = some b ∧ b.sectors = some secs ∧
        ∀ k ∈ wc.values.keys, ∃ s d, (s, d) ∈ secs ∧ k ∈ Dict.keys d := by
  unfold WC.validate
  cases he : st.efts.get? wc.eft with
  | none => simp
  | some e =>
    cases hb : st.bases.get? (wc.eft, wc.basis) with
    | none => simp
    | some b =>
      cases hs : b.sectors with
      | none => simp [Basis.allWcs, hs]
      | some secs =>
        simp only [Basis.allWcs, hs, Option.some.injEq, exists_eq', true_and, existsAndEq]
        split
        · rename_i h
          simp only [reduceCtorEq, false_iff]
          intro hall
          apply h
          rw [List.filter_eq_nil_iff]
          intro k hk
          obtain ⟨s, d, hm, hkd⟩ := hall k hk
          simp only [Bool.not_eq_true', List.contains_eq_mem, decide_eq_false_iff_not,
            List.mem_flatMap, Prod.exists, not_exists, not_and, not_forall, not_not]
          exact ⟨s, d, hm, hkd⟩
        · rename_i h
          simp only [ne_eq, not_not] at h
          simp only [true_iff]
          intro k hk
          have := List.filter_eq_nil_iff.1 h k hk
          simp only [List.contains_eq_mem, Bool.not_eq_true', decide_eq_false_iff_not,
            not_not, List.mem_flatMap, Prod.exists] at this
          exact this

/-- Non-vacuity of C04: both outcomes occur. -/
example : ∃ st : Bases, (WC.mk "E" "b" 1 [("c1", .num 3)] []).validate st = .ok () ∧
    (WC.mk "E" "b" 1 [("c2", .num 3)] []).validate st = .error .assertionError := by
  refine ⟨⟨some [("E", ⟨"E", [("s", ())]⟩)], some [(("E", "b"), ⟨"E", "b", none, some [("s", [("c1", none)])]⟩)]⟩, ?_, ?_⟩ <;>
    simp [WC.validate, Registry.get?, Dict.get?, Basis.allWcs, Dict.keys]

/-- C07: `Basis.validate` succeeds exactly if the EFT is registered, all sectors are sectors of the
EFT, no coefficient name occurs twice (within or across sectors), and the LaTeX check passes. -/
theorem C07_basis_validate_iff (st : Bases) (latexOk : Basis → Bool) (b : Basis)
    (secs : Dict String (Dict String Info)) (hs : b.sectors = some secs) :
    b.validate st latexOk = .ok () ↔
      (∃ e, st.efts.get? b.eft = some e ∧ ∀ s ∈ Dict.keys secs, s ∈ Dict.keys e.sectors) ∧
      (secs.map fun kv => Dict.keys kv.2).flatten.Nodup ∧ latexOk b = true := by
  unfold Basis.validate
  cases he : st.efts.get? b.eft with
  | none => simp
  | some e =>
    simp only [hs, Option.some.injEq, exists_eq_left']
    have hflat : (secs.flatMap fun kv => Dict.keys kv.2) = (secs.map fun kv => Dict.keys kv.2).flatten := rfl
    have h1 : (List.filter (fun k => !Dict.mem e.sectors k) (Dict.keys secs) = []) ↔
        ∀ s ∈ Dict.keys secs, s ∈ Dict.keys e.sectors := by
      rw [List.filter_eq_nil_iff]
      apply forall₂_congr
      intro k _
      have := Dict.mem_iff e.sectors k
      cases hm : Dict.mem e.sectors k <;> simp_all
    have h2 : ∀ l : List String, l.length = l.dedup.length ↔ l.Nodup := by
      intro l
      constructor
      · intro h
        rw [← List.dedup_eq_self]
        exact (List.dedup_sublist l).eq_of_length h.symm
      · intro h
        rw [List.dedup_eq_self.2 h]
    rw [← hflat]
    by_cases hA : List.filter (fun k => !Dict.mem e.sectors k) (Dict.keys secs) = []
    · simp only [hA, ne_eq, not_true_eq_false, if_false, h2]
      have hA' := h1.1 hA
      by_cases hB : (secs.flatMap fun kv => Dict.keys kv.2).Nodup
      · simp only [hB, not_true_eq_false, if_false]
        cases hl : latexOk b
        · simp
        · simp only [if_true, and_true, true_iff]
          exact hA'
      · simp [hB]
    · have : ¬ ∀ s ∈ Dict.keys secs, s ∈ Dict.keys e.sectors := fun h => hA (h1.2 h)
      simp [hA, this]

/-- Non-vacuity of C07: a duplicate coefficient in two sectors is rejected, and without it accepted. -/
example : let st : Bases := ⟨some [("E", ⟨"E", [("s", ()), ("t", ())]⟩)], none⟩
    (Basis.mk "E" "b" none (some [("s", [("x", none)]), ("t", [("x", none)])])).validate st (fun _ => true)
      = .error .valueError ∧
    (Basis.mk "E" "b" none (some [("s", [("x", none)]), ("t", [("y", none)])])).validate st (fun _ => true)
      = .ok () := by
  constructor <;> simp [Basis.validate, Registry.get?, Dict.get?, Dict.keys, Dict.mem]

end Verif
