import Verif.Lemmas.Stages

/-!
# C23: WCxf dictionary → symmetrized arrays → WCxf dictionary
-/

set_option autoImplicit false
set_option linter.unusedSimpArgs false

namespace Verif.Props
open Verif Verif.Spec Verif.EFT Verif.EFT.Util Classical

variable {U : Util}

/-- Non-redundant coefficients converted to symmetrized arrays and back: every coefficient
comes back unchanged (of those that are real by hermiticity, the real part), zeros are
dropped, nothing else appears.  No exception is raised on the way. -/
theorem C23_roundtrip (hU : Regular U) (hall : ∀ n ∈ U.allWcs, ∃ r, NonRedName U n r)
    (d : Dict Str ℂ) (hd : d.NodupKeys) (hk : ∀ n ∈ d.keys, n ∈ U.allWcs) :
    ∃ C d', U.wcxf2arraysSymmetrized d = .ok C ∧ U.arrays2wcxfNonred C = .ok d' ∧
      ∀ n, d'.get? n = ((d.get? n).map fun z => if RealName U n then (z.re : ℂ) else z).filter
        (fun z => decide (z ≠ 0)) := by
  have us : ∀ {k s}, U.keysShape.get? k = some s → '_' ∉ k := fun hk => (hU.good _ _ hk).1
  have hval : ∀ n ∈ d.keys, ValidKey U n := by
    intro n hn
    obtain ⟨r, hr⟩ := hall n (hk n hn)
    cases hr with
    | scalar h => exact .scalar h (us h)
    | two h hc hi => exact .entry h (us h) (small3 (le3_of_regular hU h)) hi
    | four h hc hi => exact .entry h (us h) (small3 (le3_of_regular hU h)) hi
  obtain ⟨C0, e0, r1, r2, r3, n0⟩ := wcxf2arrays_represents U d hd hval
  have F0 : ∀ k v, C0.get? k = some v → ∃ s, U.keysShape.get? k = some s ∧ Fits s v := by
    intro k v hv
    obtain ⟨hu, s, hs, hsm⟩ := r3 k ((Dict.isSome_get?_iff _ _).1 (by rw [hv]; rfl))
    refine ⟨s, hs, ?_⟩
    cases s with
    | none =>
      rw [r1 k hs hu] at hv
      cases h : d.get? k with
      | none => simp [h] at hv
      | some z => simp only [h, Option.map_some, Option.some.injEq] at hv; rw [← hv]; trivial
    | some s =>
      by_cases hh : hasEntry d k s
      · rw [(r2 k s hs hu (hsm s rfl)).1 hh] at hv
        simp only [Option.some.injEq] at hv
        rw [← hv]
        refine ⟨rfl, fun idx hi => ?_⟩
        simp only [collect] at hi ⊢
        simp [hi]
      · rw [(r2 k s hs hu (hsm s rfl)).2 hh] at hv; simp at hv
  obtain ⟨C1, e1, n1, k1, g1⟩ := stage_symm hU n0 F0
  obtain ⟨C2, e2, n2, g2⟩ := stage_add (U := U) U.wcKeys C1 n1 (fun k hkw =>
    Option.isSome_iff_exists.1 ((Dict.isSome_get?_iff _ _).2 (hU.wc k hkw)))
  -- the arrays before unscaling, in terms of the given ones or zeros
  have G2 : ∀ k, C2.get? k = ((C0.get? k).or (if k ∈ U.wcKeys then some (zeroVal (shapeOf U k)) else none)).map
      fun v => cutF (shapeOf U k) (symF (clsOf U k) (padF v)) := by
    intro k
    rw [g2, g1]
    cases hc : C0.get? k with
    | some v => rfl
    | none =>
      simp only [Option.map_none, Option.none_or]
      split
      · rename_i hkw
        obtain ⟨s, hs⟩ := Option.isSome_iff_exists.1 ((Dict.isSome_get?_iff _ _).2 (hU.wc k hkw))
        obtain ⟨c, hK⟩ := keyOK hU hs
        simp only [Option.map_some, shapeOf, hs, Option.getD_some, clsOf_eq hK, sym_zero hK]
      · rfl
  have F0' : ∀ k v, (C0.get? k).or (if k ∈ U.wcKeys then some (zeroVal (shapeOf U k)) else none) = some v →
      ∃ s, U.keysShape.get? k = some s ∧ Fits s v := by
    intro k v hv
    cases hc : C0.get? k with
    | some w => rw [hc] at hv; simp only [Option.some_or, Option.some.injEq] at hv; exact F0 k v (hv ▸ hc)
    | none =>
      rw [hc] at hv
      simp only [Option.none_or] at hv
      split at hv
      · rename_i hkw
        obtain ⟨s, hs⟩ := Option.isSome_iff_exists.1 ((Dict.isSome_get?_iff _ _).2 (hU.wc k hkw))
        simp only [Option.some.injEq, shapeOf, hs, Option.getD_some] at hv
        exact ⟨s, hs, hv ▸ fits_zero s⟩
      · simp at hv
  have F2 : ∀ k v, C2.get? k = some v → ∃ s, U.keysShape.get? k = some s ∧ Fits s v := by
    intro k v hv
    rw [G2] at hv
    cases hc : (C0.get? k).or (if k ∈ U.wcKeys then some (zeroVal (shapeOf U k)) else none) with
    | none => rw [hc] at hv; simp at hv
    | some w =>
      rw [hc] at hv
      obtain ⟨s, hs, hf⟩ := F0' k w hc
      obtain ⟨c, hK⟩ := keyOK hU hs
      simp only [Option.map_some, Option.some.injEq, shapeOf, hs, Option.getD_some, clsOf_eq hK] at hv
      exact ⟨s, hs, hv ▸ fits_cutF (symm_step hK (padded_padF (fun l e => (hK.hl l e).2) hf)).2⟩
  obtain ⟨C3, e3, n3, g3⟩ := stage_unscale hU n2 F2 (fun k hk8 => by
    refine (Dict.isSome_get?_iff _ _).1 ?_
    rw [G2, if_pos (hU.wc8 k hk8)]
    cases C0.get? k <;> rfl)
  -- the final arrays
  have G3 : ∀ k, C3.get? k = ((C0.get? k).or (if k ∈ U.wcKeys then some (zeroVal (shapeOf U k)) else none)).map
      (pipe (shapeOf U k) (clsOf U k)) := by
    intro k
    rw [g3, G2]
    cases (C0.get? k).or (if k ∈ U.wcKeys then some (zeroVal (shapeOf U k)) else none) <;> rfl
  have F3 : ∀ k v, C3.get? k = some v → ∃ s, U.keysShape.get? k = some s ∧ Fits s v := by
    intro k v hv
    rw [g3] at hv
    cases hc : C2.get? k with
    | none => rw [hc] at hv; simp at hv
    | some w =>
      rw [hc] at hv
      obtain ⟨s, hs, hf⟩ := F2 k w hc
      obtain ⟨c, hK⟩ := keyOK hU hs
      have hp := padded_padF (fun l e => (hK.hl l e).2) hf
      have hp2 := (scale_step hK hp).2
      have hp3 : Padded s (u8F c (scaF c (padF w))) := by
        unfold u8F
        split
        · rename_i h8
          have := hK.h8 h8
          subst this
          exact padded_op4 rfl hp2
        · exact hp2
      simp only [Option.map_some, Option.some.injEq, shapeOf, hs, Option.getD_some, clsOf_eq hK] at hv
      exact ⟨s, hs, hv ▸ fits_cutF hp3⟩
  have hgood : GoodArrays C3 := by
    refine ⟨n3, fun k v hm => ?_⟩
    obtain ⟨s, hs, hf⟩ := F3 k v (Dict.get?_of_mem n3 hm)
    refine ⟨us hs, ?_⟩
    cases v with
    | num z => trivial
    | arr a =>
      cases s with
      | none => simp [Fits] at hf
      | some s =>
        obtain ⟨rfl, -⟩ := hf
        obtain ⟨g1, g2, -⟩ := (hU.good k _ hs).2 _ rfl
        exact ⟨g1, g2, small3 (le3_of_regular hU hs)⟩
  obtain ⟨hf1, hf2, hf3⟩ := C26_entry_found C3 hgood
  refine ⟨C2, (arrays2wcxf C3).filterKV fun k v => decide (k ∈ U.allWcs) && decide (v ≠ 0), ?_, ?_, ?_⟩
  · unfold wcxf2arraysSymmetrized addMissing
    rw [e0]; simp only [Except.bind]; rw [e1]; exact e2
  · unfold arrays2wcxfNonred
    rw [e3]; rfl
  intro n
  rw [Dict.get?_filterKV _ _ (nodup_arrays2wcxf hgood)]
  by_cases hn : n ∈ U.allWcs
  swap
  · have : d.get? n = none := (Dict.get?_eq_none_iff _ _).2 fun h => hn (hk n h)
    rw [this]
    cases (arrays2wcxf C3).get? n <;> simp [hn]
  obtain ⟨r, hr⟩ := hall n hn
  have hreal : RealName U n ↔ r := ⟨fun ⟨r', h', hr'⟩ => (name_unique hU h' hr).1 hr', fun h => ⟨r, hr, h⟩⟩
  simp only [hn, decide_true, Bool.true_and]
  -- it suffices to know the entry, or that the array is absent
  suffices H : (arrays2wcxf C3).get? n = some (if r then (((d.get? n).getD 0).re : ℂ) else (d.get? n).getD 0) ∨
      ((arrays2wcxf C3).get? n = none ∧ d.get? n = none) by
    rcases H with H | ⟨H, H'⟩
    · rw [H]
      cases hdn : d.get? n with
      | none => simp [Option.filter]
      | some z => simp [hreal]
    · rw [H, H']; rfl
  -- absence
  have absent : ∀ {k s}, U.keysShape.get? k = some s → C3.get? k = none →
      (s = none → n = k) → (∀ l, s = some l → ∃ idx, inRange l idx = true ∧ n = wcName k idx) →
      (arrays2wcxf C3).get? n = none := by
    intro k s hs hC3 h1 h2
    rw [Dict.get?_eq_none_iff]
    intro hmem
    obtain ⟨k', v', hm', hv'⟩ := hf3 n hmem
    have hg' := Dict.get?_of_mem n3 hm'
    obtain ⟨s', hs', hft'⟩ := F3 k' v' hg'
    have : k = k' := by
      cases v' with
      | num z =>
        simp only at hv'
        cases s with
        | none => rw [← h1 rfl, hv']
        | some l =>
          obtain ⟨idx, -, e⟩ := h2 l rfl
          exact absurd (e.symm.trans hv') (wcName_ne_scalar (us hs'))
      | arr a =>
        obtain ⟨idx', hi', e'⟩ := hv'
        cases s with
        | none => exact absurd (e'.symm.trans (h1 rfl)) (wcName_ne_scalar (us hs))
        | some l =>
          obtain ⟨idx, hi, e⟩ := h2 l rfl
          exact (wcName_inj (us hs) (us hs') hi hi' (small3 (le3_of_regular hU hs))
            (hgood.2 k' _ hm').2.2.2 (e.symm.trans e')).1
    rw [this, hg'] at hC3
    simp at hC3
  cases hr with
  | scalar hs =>
    cases hc : (C0.get? n).or (if n ∈ U.wcKeys then some (zeroVal (shapeOf U n)) else none) with
    | none =>
      refine .inr ⟨absent hs (by rw [G3, hc]; rfl) (fun _ => rfl) (by simp), ?_⟩
      have hC0 : C0.get? n = none := by
        cases h : C0.get? n with
        | none => rfl
        | some v => rw [h] at hc; simp at hc
      rw [r1 n hs (us hs)] at hC0
      cases h : d.get? n with
      | none => rfl
      | some z => rw [h] at hC0; simp at hC0
    | some v =>
      left
      obtain ⟨c, hK⟩ := keyOK hU hs
      have hc0 : c = 0 := hK.h0.1 rfl
      have hv : v = .num ((d.get? n).getD 0) := by
        rw [r1 n hs (us hs)] at hc
        cases h : d.get? n with
        | none =>
          rw [h] at hc
          simp only [Option.map_none, Option.none_or] at hc
          split at hc
          · simp only [Option.some.injEq, shapeOf, hs, Option.getD_some, zeroVal] at hc; rw [← hc]; rfl
          · simp at hc
        | some z => rw [h] at hc; simp only [Option.map_some, Option.some_or, Option.some.injEq] at hc; rw [← hc]; rfl
      have hC3 : C3.get? n = some (.num (((d.get? n).getD 0).re : ℂ)) := by
        rw [G3, hc, hv]
        simp only [Option.map_some, shapeOf, hs, Option.getD_some, clsOf_eq hK, hc0]
        rfl
      rw [hf2 n _ (Dict.mem_of_get? hC3)]
      simp
  | @two k s c i hs hcl hi hnr =>
    obtain ⟨c', hK⟩ := keyOK hU hs
    obtain rfl := InClass.unique hcl hK.cls
    have hsm := small3 (le3_of_regular hU hs)
    cases hc : (C0.get? k).or (if k ∈ U.wcKeys then some (zeroVal (shapeOf U k)) else none) with
    | none =>
      refine .inr ⟨absent hs (by rw [G3, hc]; rfl) (by simp) (fun l e => ⟨_, by
        simp only [Option.some.injEq] at e; rw [← e]; exact hi, rfl⟩), ?_⟩
      have hC0 : C0.get? k = none := by
        cases h : C0.get? k with
        | none => rfl
        | some v => rw [h] at hc; simp at hc
      rw [Dict.get?_eq_none_iff]
      intro hmem
      rw [(r2 k s hs (us hs) hsm).1 ⟨_, hi, hmem⟩] at hC0
      simp at hC0
    | some v =>
      left
      have hv : v = .arr (collect d k s) := by
        by_cases hh : hasEntry d k s
        · rw [(r2 k s hs (us hs) hsm).1 hh] at hc
          simpa using hc.symm
        · rw [(r2 k s hs (us hs) hsm).2 hh] at hc
          simp only [Option.none_or] at hc
          split at hc
          · simp only [Option.some.injEq, shapeOf, hs, Option.getD_some, zeroVal] at hc
            rw [← hc]
            simp only [zeros, collect, AVal.arr.injEq, NDArr.mk.injEq, true_and]
            funext idx
            split
            · rename_i hidx
              rw [(Dict.get?_eq_none_iff _ _).2 fun hm => hh ⟨idx, hidx, hm⟩]; rfl
            · rfl
          · simp at hc
      obtain ⟨s', hs', hft⟩ := F0' k v hc
      obtain rfl : some s = s' := by rw [hs] at hs'; simpa using hs'
      have hC3 : C3.get? k = some (pipe (some s) c v) := by
        rw [G3, hc]
        simp only [Option.map_some, shapeOf, hs, Option.getD_some, clsOf_eq hK]
      have hl2 : s.length = 2 := by rw [length_of_inRange hi]; obtain ⟨a, b⟩ := i; rfl
      have hent := pipe_entry2 hK hft hl2 hi hnr
      obtain ⟨s'', hs'', hft''⟩ := F3 k _ hC3
      obtain rfl : some s = s'' := by rw [hs] at hs''; simpa using hs''
      cases hp : pipe (some s) c v with
      | num z => rw [hp] at hft''; simp [Fits] at hft''
      | arr a =>
        rw [hp] at hft'' hent hC3
        rw [hf1 k a (Dict.mem_of_get? hC3) (idx2 i) (by rw [hft''.1]; exact hi)]
        have : ent2 (.arr a) i = a.get (idx2 i) := rfl
        rw [← this, hent, hv]
        simp [ent2, collect, hi]
  | @four k s c i hs hcl hi hnr =>
    obtain ⟨c', hK⟩ := keyOK hU hs
    obtain rfl := InClass.unique hcl hK.cls
    have hsm := small3 (le3_of_regular hU hs)
    cases hc : (C0.get? k).or (if k ∈ U.wcKeys then some (zeroVal (shapeOf U k)) else none) with
    | none =>
      refine .inr ⟨absent hs (by rw [G3, hc]; rfl) (by simp) (fun l e => ⟨_, by
        simp only [Option.some.injEq] at e; rw [← e]; exact hi, rfl⟩), ?_⟩
      have hC0 : C0.get? k = none := by
        cases h : C0.get? k with
        | none => rfl
        | some v => rw [h] at hc; simp at hc
      rw [Dict.get?_eq_none_iff]
      intro hmem
      rw [(r2 k s hs (us hs) hsm).1 ⟨_, hi, hmem⟩] at hC0
      simp at hC0
    | some v =>
      left
      have hv : v = .arr (collect d k s) := by
        by_cases hh : hasEntry d k s
        · rw [(r2 k s hs (us hs) hsm).1 hh] at hc
          simpa using hc.symm
        · rw [(r2 k s hs (us hs) hsm).2 hh] at hc
          simp only [Option.none_or] at hc
          split at hc
          · simp only [Option.some.injEq, shapeOf, hs, Option.getD_some, zeroVal] at hc
            rw [← hc]
            simp only [zeros, collect, AVal.arr.injEq, NDArr.mk.injEq, true_and]
            funext idx
            split
            · rename_i hidx
              rw [(Dict.get?_eq_none_iff _ _).2 fun hm => hh ⟨idx, hidx, hm⟩]; rfl
            · rfl
          · simp at hc
      obtain ⟨s', hs', hft⟩ := F0' k v hc
      obtain rfl : some s = s' := by rw [hs] at hs'; simpa using hs'
      have hC3 : C3.get? k = some (pipe (some s) c v) := by
        rw [G3, hc]
        simp only [Option.map_some, shapeOf, hs, Option.getD_some, clsOf_eq hK]
      have hl4 : s.length = 4 := by rw [length_of_inRange hi]; obtain ⟨a, b, c, d⟩ := i; rfl
      have hent := pipe_entry4 hK hft hl4 hi hnr
      obtain ⟨s'', hs'', hft''⟩ := F3 k _ hC3
      obtain rfl : some s = s'' := by rw [hs] at hs''; simpa using hs''
      cases hp : pipe (some s) c v with
      | num z => rw [hp] at hft''; simp [Fits] at hft''
      | arr a =>
        rw [hp] at hft'' hent hC3
        rw [hf1 k a (Dict.mem_of_get? hC3) (idx4 i) (by rw [hft''.1]; exact hi)]
        have : ent4 (.arr a) i = a.get (idx4 i) := rfl
        rw [← this, hent, hv]
        simp [ent4, collect, hi]

/-- In particular: a dictionary of non-zero coefficients that are real where they have to be is
returned unchanged. -/
theorem C23_roundtrip_exact (hU : Regular U) (hall : ∀ n ∈ U.allWcs, ∃ r, NonRedName U n r)
    (d : Dict Str ℂ) (hd : d.NodupKeys) (hk : ∀ n ∈ d.keys, n ∈ U.allWcs)
    (hz : ∀ n z, d.get? n = some z → z ≠ 0)
    (hr : ∀ n z, d.get? n = some z → RealName U n → z.im = 0) :
    ∃ C d', U.wcxf2arraysSymmetrized d = .ok C ∧ U.arrays2wcxfNonred C = .ok d' ∧
      ∀ n, d'.get? n = d.get? n := by
  obtain ⟨C, d', h1, h2, h3⟩ := C23_roundtrip hU hall d hd hk
  refine ⟨C, d', h1, h2, fun n => ?_⟩
  rw [h3 n]
  cases h : d.get? n with
  | none => rfl
  | some z =>
    have hz' := hz n z h
    have : (if RealName U n then (z.re : ℂ) else z) = z := by
      split
      · rename_i hre
        apply Complex.ext
        · simp
        · simpa using (hr n z h hre).symm
      · rfl
    simp only [Option.map_some, this, Option.filter_some, ne_eq, hz', not_false_iff, decide_true, if_true]

/-- an instance of the hypotheses: two scalars (one of them a
parameter that is no coefficient), a hermitian 2x2 matrix (so that padding is
active), a class-4 and a class-8 array -/
def exU : Util where
  allWcs := ["G".toList, "phiu_11".toList, "phiu_12".toList, "ll_1122".toList, "qqql_1231".toList]
  symmKeys := [(0, ["G".toList, "g".toList]), (2, ["phiu".toList]), (4, ["ll".toList]), (8, ["qqql".toList])]
  wcKeys := ["G".toList, "phiu".toList, "ll".toList, "qqql".toList]
  keysShape := [("G".toList, none), ("phiu".toList, some [2, 2]), ("ll".toList, some [3, 3, 3, 3]),
    ("qqql".toList, some [3, 3, 3, 3]), ("g".toList, none)]
  nGen := 3

lemma exU_symm (c : ℕ) : exU.symm c = if c = 0 then ["G".toList, "g".toList] else if c = 2 then ["phiu".toList]
    else if c = 4 then ["ll".toList] else if c = 8 then ["qqql".toList] else [] := by
  simp only [Util.symm, exU, Dict.get?]
  by_cases h0 : 0 = c
  · subst h0; rfl
  by_cases h2 : 2 = c
  · subst h2; rfl
  by_cases h4 : 4 = c
  · subst h4; rfl
  by_cases h8 : 8 = c
  · subst h8; rfl
  simp [h0, h2, h4, h8, Ne.symm h0, Ne.symm h2, Ne.symm h4, Ne.symm h8]

lemma exU_class {k : Str} {c : ℕ} (hk : k ∈ exU.symm c)
    (hno : ∀ c' ∈ [0, 2, 4, 8], c' ≠ c → k ∉ exU.symm c') : InClass exU c k := by
  refine ⟨hk, fun c' hne hm => ?_⟩
  by_cases h : c' ∈ [0, 2, 4, 8]
  · exact hno c' h hne hm
  · simp only [List.mem_cons, List.not_mem_nil, or_false, not_or] at h
    rw [exU_symm] at hm
    simp [h] at hm

lemma exU_regular : Regular exU where
  nGen := rfl
  nodup := by simp [Dict.NodupKeys, Dict.keys, exU]
  good := by
    intro k s h
    have := Dict.mem_of_get? h
    simp only [exU, List.mem_cons, Prod.mk.injEq, List.not_mem_nil, or_false] at this
    rcases this with ⟨rfl, rfl⟩ | ⟨rfl, rfl⟩ | ⟨rfl, rfl⟩ | ⟨rfl, rfl⟩ | ⟨rfl, rfl⟩
    all_goals exact ⟨by decide, by simp⟩
  cls := by
    intro k s h
    have := Dict.mem_of_get? h
    simp only [exU, List.mem_cons, Prod.mk.injEq, List.not_mem_nil, or_false] at this
    rcases this with ⟨rfl, rfl⟩ | ⟨rfl, rfl⟩ | ⟨rfl, rfl⟩ | ⟨rfl, rfl⟩ | ⟨rfl, rfl⟩
    · exact ⟨0, by decide, exU_class (by decide) (by decide), by decide, by simp, by decide⟩
    · exact ⟨2, by decide, exU_class (by decide) (by decide), by decide, by
        rintro l ⟨⟩; exact ⟨rfl, by simp⟩, by decide⟩
    · exact ⟨4, by decide, exU_class (by decide) (by decide), by decide, by
        rintro l ⟨⟩; exact ⟨rfl, by simp⟩, by decide⟩
    · exact ⟨8, by decide, exU_class (by decide) (by decide), by decide, by
        rintro l ⟨⟩; exact ⟨rfl, by simp⟩, fun _ => rfl⟩
    · exact ⟨0, by decide, exU_class (by decide) (by decide), by decide, by simp, by decide⟩
  wc := by decide
  nodup8 := by decide
  wc8 := by decide

lemma exU_names : ∀ n ∈ exU.allWcs, ∃ r, NonRedName exU n r := by
  intro n hn
  simp only [exU, List.mem_cons, List.not_mem_nil, or_false] at hn
  have c2 : InClass exU 2 "phiu".toList := exU_class (by decide) (by decide)
  have c4 : InClass exU 4 "ll".toList := exU_class (by decide) (by decide)
  have c8 : InClass exU 8 "qqql".toList := exU_class (by decide) (by decide)
  rcases hn with rfl | rfl | rfl | rfl | rfl
  · exact ⟨_, .scalar (by decide)⟩
  · exact ⟨_, .two (k := "phiu".toList) (s := [2, 2]) (i := (0, 0)) (by decide) c2 (by decide)
      ⟨fun _ => by decide, by decide⟩⟩
  · exact ⟨_, .two (k := "phiu".toList) (s := [2, 2]) (i := (0, 1)) (by decide) c2 (by decide)
      ⟨fun _ => by decide, by decide⟩⟩
  · exact ⟨_, .four (k := "ll".toList) (s := [3, 3, 3, 3]) (i := (0, 0, 1, 1)) (by decide) c4 (by decide)
      ⟨fun _ => by decide, by decide, by decide, by decide, by decide, by decide, by decide⟩⟩
  · exact ⟨_, .four (k := "qqql".toList) (s := [3, 3, 3, 3]) (i := (0, 1, 2, 0)) (by decide) c8 (by decide)
      ⟨by decide, by decide, by decide, by decide, by decide, by decide, fun _ => by decide⟩⟩

example : exU.needsPadding = true ∧ ∃ d : Dict Str ℂ, d.NodupKeys ∧ d.length = 2 ∧
    (∀ n ∈ d.keys, n ∈ exU.allWcs) ∧ ∃ C d', exU.wcxf2arraysSymmetrized d = .ok C ∧
      exU.arrays2wcxfNonred C = .ok d' ∧ ∀ n, d'.get? n = ((d.get? n).map fun z =>
        if RealName exU n then (z.re : ℂ) else z).filter (fun z => decide (z ≠ 0)) := by
  refine ⟨by decide, [("phiu_12".toList, Complex.I), ("qqql_1231".toList, 3)],
    by simp [Dict.NodupKeys, Dict.keys], rfl, by decide, ?_⟩
  exact C23_roundtrip exU_regular exU_names _ (by simp [Dict.NodupKeys, Dict.keys]) (by decide)

end Verif.Props
