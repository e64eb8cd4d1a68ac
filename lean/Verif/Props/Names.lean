import Verif.Lemmas.Names

/-!
# C26: WCxf names address array entries uniquely

`wcName k idx` is the string `k + "_" + digits` of `util/common.py:289`; `arrays2wcxf` and
`wcxf2arrays` are the functions of l. 276-310.
-/

set_option autoImplicit false

namespace Verif.Props
open Verif Verif.EFT Verif.EFT.Util Verif.Spec

/-- Different entries have different names, and no array entry has the name of a scalar
(for coefficient names without underscore and one-digit flavour indices). -/
theorem C26_names_distinct {k k' : Str} {s idx idx' : List ℕ} (hk : '_' ∉ k) (hk' : '_' ∉ k')
    (hs : ∀ n ∈ s, n ≤ 9) (h : inRange s idx = true) (h' : inRange s idx' = true) :
    (wcName k idx = wcName k' idx' ↔ k = k' ∧ idx = idx') ∧ wcName k idx ≠ k' := by
  refine ⟨⟨fun e => ?_, fun e => by rw [e.1, e.2]⟩, wcName_ne_scalar hk'⟩
  obtain ⟨h1, h2⟩ := wcName_inj hk hk' h h' hs hs e
  exact ⟨h1, h2 rfl⟩

/-- Every entry of every array is found under its name, every scalar under its own. -/
theorem C26_entry_found (C : Dict Str AVal) (hC : GoodArrays C) :
    (∀ k a, (k, AVal.arr a) ∈ C → ∀ idx, inRange a.shape idx = true →
      (arrays2wcxf C).get? (wcName k idx) = some (a.get idx)) ∧
    (∀ k z, (k, AVal.num z) ∈ C → (arrays2wcxf C).get? k = some z) ∧
    (∀ n ∈ (arrays2wcxf C).keys, ∃ k v, (k, v) ∈ C ∧
      (match v with
       | .num _ => n = k
       | .arr a => ∃ idx, inRange a.shape idx = true ∧ n = wcName k idx)) := by
  have hnd := nodup_arrays2wcxf hC
  refine ⟨fun k a hm idx hi => ?_, fun k z hm => ?_, fun n hn => ?_⟩
  · apply Dict.get?_of_mem hnd
    rw [arrays2wcxf_eq hC, List.mem_flatMap]
    obtain ⟨h1, h2, -⟩ := (hC.2 k _ hm).2
    exact ⟨_, hm, by
      simp only [entries, h1, h2, if_false]
      exact List.mem_map.2 ⟨idx, mem_indices.2 hi, rfl⟩⟩
  · apply Dict.get?_of_mem hnd
    rw [arrays2wcxf_eq hC, List.mem_flatMap]
    exact ⟨_, hm, by simp [entries]⟩
  · rw [arrays2wcxf_eq hC] at hn
    simp only [Dict.keys, List.map_flatMap, List.mem_flatMap] at hn
    obtain ⟨⟨k, v⟩, hm, hn⟩ := hn
    have := entries_keys hn (hC.2 k v hm).2
    exact ⟨k, v, hm, by cases v <;> exact this⟩

/-- Reading a WCxf dictionary over valid names: every scalar is taken over, every array that
has some entry is built with exactly the given entries and 0 elsewhere, arrays without any
entry are absent. -/
theorem C26_read (U : Util) (d : Dict Str ℂ) (hd : d.NodupKeys)
    (hk : ∀ k ∈ d.keys, ValidKey U k) : ∃ C, U.wcxf2arrays d = .ok C ∧
    (∀ k, U.keysShape.get? k = some none → '_' ∉ k → C.get? k = (d.get? k).map .num) ∧
    (∀ k s, U.keysShape.get? k = some (some s) → '_' ∉ k → (∀ n ∈ s, n ≤ 9) →
      ((∃ idx, inRange s idx = true ∧ wcName k idx ∈ d.keys) →
        ∃ a, C.get? k = some (.arr a) ∧ a.shape = s ∧
          ∀ idx, inRange s idx = true → a.get idx = (d.get? (wcName k idx)).getD 0) ∧
      ((∀ idx, inRange s idx = true → wcName k idx ∉ d.keys) → C.get? k = none)) := by
  obtain ⟨C, hC, h1, h2, -, -⟩ := wcxf2arrays_represents U d hd hk
  refine ⟨C, hC, h1, fun k s hs hu hsm => ⟨fun hh => ⟨_, (h2 k s hs hu hsm).1 hh, rfl, ?_⟩, fun hh => ?_⟩⟩
  · intro idx hi; simp [collect, hi]
  · exact (h2 k s hs hu hsm).2 fun ⟨idx, hi, hm⟩ => hh idx hi hm

/-- Arrays to names and back restores every array and every number. -/
theorem C26_arrays_roundtrip (U : Util) (C : Dict Str AVal) (hn : C.NodupKeys)
    (hU : ∀ k v, (k, v) ∈ C → ∃ s, U.keysShape.get? k = some s ∧ GoodName k s ∧ Fits s v) :
    ∃ C', U.wcxf2arrays (arrays2wcxf C) = .ok C' ∧ ∀ k, C'.get? k = C.get? k := by
  have hC : GoodArrays C := by
    refine ⟨hn, fun k v hm => ?_⟩
    obtain ⟨s, hs, ⟨hg1, hg2⟩, hf⟩ := hU k v hm
    refine ⟨hg1, ?_⟩
    cases v with
    | num z => trivial
    | arr a =>
      cases s with
      | none => simp [Fits] at hf
      | some s =>
        obtain ⟨rfl, -⟩ := hf
        obtain ⟨h1, h2, h3⟩ := hg2 _ rfl
        exact ⟨h1, h2, fun n hn => (h3 n hn).2⟩
  obtain ⟨hf1, hf2, hf3⟩ := C26_entry_found C hC
  have hvalid : ∀ k ∈ (arrays2wcxf C).keys, ValidKey U k := by
    intro n hnm
    obtain ⟨k, v, hm, hv⟩ := hf3 n hnm
    obtain ⟨s, hs, ⟨hg1, hg2⟩, hf⟩ := hU k v hm
    cases v with
    | num z =>
      cases s with
      | none => simp only at hv; subst hv; exact .scalar hs hg1
      | some s => simp [Fits] at hf
    | arr a =>
      cases s with
      | none => simp [Fits] at hf
      | some s =>
        obtain ⟨rfl, -⟩ := hf
        obtain ⟨idx, hi, rfl⟩ := hv
        exact .entry hs hg1 (fun n hn => ((hg2 _ rfl).2.2 n hn).2) hi
  obtain ⟨C', hC', h1, h2, h3, -⟩ := wcxf2arrays_represents U _ (nodup_arrays2wcxf hC) hvalid
  refine ⟨C', hC', fun k => ?_⟩
  by_cases hk : k ∈ C.keys
  · obtain ⟨v, hv⟩ := Option.isSome_iff_exists.1 ((Dict.isSome_get?_iff C k).2 hk)
    have hm := Dict.mem_of_get? hv
    obtain ⟨s, hs, ⟨hg1, hg2⟩, hf⟩ := hU k v hm
    rw [hv]
    cases v with
    | num z =>
      cases s with
      | none => rw [h1 k hs hg1, hf2 k z hm]; rfl
      | some s => simp [Fits] at hf
    | arr a =>
      cases s with
      | none => simp [Fits] at hf
      | some s =>
        obtain ⟨rfl, hwf⟩ := hf
        obtain ⟨g1, g2, g3⟩ := hg2 _ rfl
        have hsm : Small a.shape := fun n hn => (g3 n hn).2
        have hz : inRange a.shape (List.replicate a.shape.length 0) = true := by
          have : ∀ s : List ℕ, (∀ n ∈ s, 1 ≤ n) → inRange s (List.replicate s.length 0) = true := by
            intro s
            induction s with
            | nil => intro _; rfl
            | cons n s ih =>
              intro h
              simp only [List.length_cons, List.replicate_succ, inRange, Bool.and_eq_true,
                decide_eq_true_eq]
              exact ⟨h n (by simp), ih fun m hm => h m (by simp [hm])⟩
          exact this _ fun n hn => (g3 n hn).1
        have hhas : hasEntry (arrays2wcxf C) k a.shape :=
          ⟨_, hz, (Dict.isSome_get?_iff _ _).1 (by rw [hf1 k a hm _ hz]; rfl)⟩
        rw [(h2 k _ hs hg1 hsm).1 hhas]
        congr 2
        obtain ⟨sh, g⟩ := a
        simp only [collect, NDArr.mk.injEq, true_and]
        funext idx
        by_cases hi : inRange sh idx = true
        · rw [if_pos hi, hf1 k _ hm idx hi]; rfl
        · rw [if_neg hi]; exact (hwf idx (by simpa using hi)).symm
  · rw [(Dict.get?_eq_none_iff C k).2 hk]
    rw [Dict.get?_eq_none_iff]
    intro hk'
    obtain ⟨hu, s, hs, hsml⟩ := h3 k hk'
    -- a key of the result stems from an entry of the dictionary
    cases s with
    | none =>
      have := h1 k hs hu
      obtain ⟨w, hw⟩ := Option.isSome_iff_exists.1 ((Dict.isSome_get?_iff C' k).2 hk')
      rw [hw] at this
      have hk2 : k ∈ (arrays2wcxf C).keys := by
        rw [← Dict.isSome_get?_iff]
        cases hx : (arrays2wcxf C).get? k with
        | none => rw [hx] at this; simp at this
        | some _ => rfl
      obtain ⟨k2, v2, hm2, hv2⟩ := hf3 k hk2
      cases v2 with
      | num z => simp only at hv2; subst hv2; exact hk (List.mem_map.2 ⟨_, hm2, rfl⟩)
      | arr a => obtain ⟨idx, _, e⟩ := hv2; exact wcName_ne_scalar hu e.symm
    | some s =>
      have hh : ∃ k2 v2, (k2, v2) ∈ C ∧ k2 = k := by
        by_contra hno
        have hsm : Small s := hsml s rfl
        have hnone := (h2 k s hs hu hsm).2 (by
          rintro ⟨idx, hi, hm⟩
          obtain ⟨k2, v2, hm2, hv2⟩ := hf3 _ hm
          obtain ⟨hu2, hgv⟩ := hC.2 k2 v2 hm2
          cases v2 with
          | num z => exact wcName_ne_scalar hu2 hv2
          | arr a =>
            obtain ⟨idx2, hi2, e⟩ := hv2
            exact hno ⟨k2, _, hm2, (wcName_inj hu hu2 hi hi2 hsm hgv.2.2 e).1.symm⟩)
        rw [Dict.get?_eq_none_iff] at hnone
        exact hnone hk'
      obtain ⟨k2, v2, hm2, rfl⟩ := hh
      exact hk (List.mem_map.2 ⟨_, hm2, rfl⟩)

/-- Names to arrays and back: every coefficient given in the dictionary is returned unchanged,
and whatever else appears is 0. -/
theorem C26_dict_roundtrip (U : Util) (hU : ∀ k s, U.keysShape.get? k = some s → GoodName k s)
    (d : Dict Str ℂ) (hd : d.NodupKeys) (hk : ∀ k ∈ d.keys, ValidKey U k) :
    ∃ C, U.wcxf2arrays d = .ok C ∧
      (∀ n v, d.get? n = some v → (arrays2wcxf C).get? n = some v) ∧
      (∀ n v, d.get? n = none → (arrays2wcxf C).get? n = some v → v = 0) := by
  obtain ⟨C, hC, h1, h2, h3, h4⟩ := wcxf2arrays_represents U d hd hk
  have hgood : GoodArrays C := by
    refine ⟨h4, fun k v hm => ?_⟩
    have hkC : k ∈ C.keys := List.mem_map.2 ⟨_, hm, rfl⟩
    obtain ⟨hu, s, hs, hsm⟩ := h3 k hkC
    refine ⟨hu, ?_⟩
    cases v with
    | num z => trivial
    | arr a =>
      have hget := Dict.get?_of_mem h4 hm
      cases s with
      | none => rw [h1 k hs hu] at hget; cases h : d.get? k <;> simp [h] at hget
      | some s =>
        by_cases hh : hasEntry d k s
        · rw [(h2 k s hs hu (hsm s rfl)).1 hh] at hget
          simp only [Option.some.injEq, AVal.arr.injEq] at hget
          subst hget
          obtain ⟨g1, g2, -⟩ := (hU k _ hs).2 s rfl
          exact ⟨g1, g2, hsm s rfl⟩
        · rw [(h2 k s hs hu (hsm s rfl)).2 hh] at hget; simp at hget
  obtain ⟨hf1, hf2, hf3⟩ := C26_entry_found C hgood
  have key : ∀ n v, d.get? n = some v → (arrays2wcxf C).get? n = some v := by
    intro n v hv
    have hnd : n ∈ d.keys := (Dict.isSome_get?_iff _ _).1 (by rw [hv]; rfl)
    cases hk n hnd with
    | scalar h0 hu =>
      exact hf2 n v (Dict.mem_of_get? (by rw [h1 n h0 hu, hv]; rfl))
    | @entry k s idx h0 hu hs hi =>
      have := (h2 k s h0 hu hs).1 ⟨idx, hi, hnd⟩
      rw [hf1 k _ (Dict.mem_of_get? this) idx hi]
      simp [collect, hi, hv]
  refine ⟨C, hC, key, fun n v hn hv => ?_⟩
  have hnm : n ∈ (arrays2wcxf C).keys := (Dict.isSome_get?_iff _ _).1 (by rw [hv]; rfl)
  obtain ⟨k, w, hm, hw⟩ := hf3 n hnm
  have hget := Dict.get?_of_mem h4 hm
  obtain ⟨hu, s, hs, hsm⟩ := h3 k (List.mem_map.2 ⟨_, hm, rfl⟩)
  cases w with
  | num z =>
    simp only at hw; subst hw
    cases s with
    | none => rw [h1 n hs hu, hn] at hget; simp at hget
    | some s =>
      by_cases hh : hasEntry d n s
      · rw [(h2 n s hs hu (hsm s rfl)).1 hh] at hget; simp at hget
      · rw [(h2 n s hs hu (hsm s rfl)).2 hh] at hget; simp at hget
  | arr a =>
    obtain ⟨idx, hi, rfl⟩ := hw
    cases s with
    | none => rw [h1 k hs hu] at hget; cases h : d.get? k <;> simp [h] at hget
    | some s =>
      by_cases hh : hasEntry d k s
      · rw [(h2 k s hs hu (hsm s rfl)).1 hh] at hget
        simp only [Option.some.injEq, AVal.arr.injEq] at hget
        subst hget
        rw [hf1 k _ hm idx hi] at hv
        simp only [Option.some.injEq] at hv
        rw [← hv]
        simp [collect, hn]
      · rw [(h2 k s hs hu (hsm s rfl)).2 hh] at hget; simp at hget

/-- An unknown coefficient name raises `KeyError`. -/
theorem C26_unknown_name (U : Util) (d : Dict Str ℂ) (n : Str) (v : ℂ)
    (h : U.keysShape.get? ((splitUS n).headD []) = none) :
    U.wcxf2arrays ((n, v) :: d) = .error .keyError := by
  simp only [wcxf2arrays, wcxf2arraysFrom, wcxfStep, h]

/-- Uniqueness is limited to the digits 1..9: the digit 0 is not rejected but addresses the
last generation (Python index -1), e.g. `phid_10` writes the entry `phid_13`. -/
theorem C26_digit_zero_violation :
    ∃ (U : Util), U.wcxf2arrays [("phid_10".toList, 5)] = U.wcxf2arrays [("phid_13".toList, 5)] :=
  ⟨⟨[], [], [], [("phid".toList, some [3, 3])], 3⟩, by
    have e1 : splitUS "phid_10".toList = ["phid".toList, "10".toList] := by decide
    have e2 : splitUS "phid_13".toList = ["phid".toList, "13".toList] := by decide
    have e3 : pyIdx [3, 3] "10".toList = .ok [0, 2] := rfl
    have e4 : pyIdx [3, 3] "13".toList = .ok [0, 2] := rfl
    simp only [wcxf2arrays, wcxf2arraysFrom, wcxfStep, e1, e2, List.headD_cons, Dict.get?, if_true,
      List.getLastD_cons, List.getLastD_nil, e3, e4]⟩

/-- concrete instance of the hypotheses: a scalar and a 3x3x3x3 coefficient -/
example : ∃ (U : Util) (d : Dict Str ℂ), (∀ k s, U.keysShape.get? k = some s → GoodName k s) ∧
    d.NodupKeys ∧ d.length = 3 ∧ ∀ k ∈ d.keys, ValidKey U k := by
  refine ⟨⟨[], [], [], [("G".toList, none), ("ll".toList, some [3, 3, 3, 3])], 3⟩,
    [("G".toList, 2), ("ll_1122".toList, 3), ("ll_1231".toList, Complex.I)], ?_, ?_, rfl, ?_⟩
  · intro k s h
    simp only [Dict.get?] at h
    split_ifs at h with h1 h2
    · subst h1; cases h; exact ⟨by decide, by simp⟩
    · subst h2; cases h; refine ⟨by decide, ?_⟩; rintro l ⟨⟩; simp
  · simp [Dict.NodupKeys, Dict.keys]
  · intro k hk
    simp only [Dict.keys, List.map_cons, List.map_nil, List.mem_cons, List.not_mem_nil, or_false] at hk
    rcases hk with rfl | rfl | rfl
    · exact .scalar (by simp [Dict.get?]) (by decide)
    · exact .entry (k := "ll".toList) (s := [3, 3, 3, 3]) (idx := [0, 0, 1, 1]) (by simp [Dict.get?])
        (by decide) (by simp [Util.Small]) (by decide)
    · exact .entry (k := "ll".toList) (s := [3, 3, 3, 3]) (idx := [0, 1, 2, 0]) (by simp [Dict.get?])
        (by decide) (by simp [Util.Small]) (by decide)

end Verif.Props
