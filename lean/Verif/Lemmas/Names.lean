import Verif.Lemmas.Flatten
import Verif.Spec.EFTUtil
import Mathlib.Data.List.Induction
import Mathlib.Tactic.IntervalCases

set_option autoImplicit false

/-! Coefficient names `Name_ijkl` (helper lemmas). -/

namespace Verif.EFT.Util
open Verif Verif.EFT Verif.Spec

lemma splitUS_of_notMem {w : Str} (h : '_' ∉ w) : splitUS w = [w] := by
  induction w with
  | nil => rfl
  | cons c w ih =>
    simp only [List.mem_cons, not_or] at h
    have hc : c ≠ '_' := fun e => h.1 e.symm
    simp [splitUS, hc, ih h.2]

lemma splitUS_append {k w : Str} (h : '_' ∉ k) : splitUS (k ++ '_' :: w) = k :: splitUS w := by
  induction k with
  | nil => simp [splitUS]
  | cons c k ih =>
    simp only [List.mem_cons, not_or] at h
    have hc : c ≠ '_' := fun e => h.1 e.symm
    simp [splitUS, hc, ih h.2]

/-- dimensions with one-digit indices -/
def Small (s : List ℕ) : Prop := ∀ n ∈ s, n ≤ 9

lemma digitStr_small {j : ℕ} (h : j < 9) :
    ∃ c, digitStr j = [c] ∧ c ≠ '_' ∧ intOf c = .ok (j + 1) := by
  interval_cases j
  · exact ⟨'1', by decide, by decide, rfl⟩
  · exact ⟨'2', by decide, by decide, rfl⟩
  · exact ⟨'3', by decide, by decide, rfl⟩
  · exact ⟨'4', by decide, by decide, rfl⟩
  · exact ⟨'5', by decide, by decide, rfl⟩
  · exact ⟨'6', by decide, by decide, rfl⟩
  · exact ⟨'7', by decide, by decide, rfl⟩
  · exact ⟨'8', by decide, by decide, rfl⟩
  · exact ⟨'9', by decide, by decide, rfl⟩

lemma pyIdx_digits {s idx : List ℕ} (h : inRange s idx = true) (hs : Small s) :
    pyIdx s (idx.flatMap digitStr) = .ok idx ∧ '_' ∉ idx.flatMap digitStr := by
  induction s generalizing idx with
  | nil => cases idx <;> simp_all [inRange, pyIdx]
  | cons n s ih =>
    cases idx with
    | nil => simp [inRange] at h
    | cons i is =>
      simp only [inRange, Bool.and_eq_true, decide_eq_true_eq] at h
      obtain ⟨ih1, ih2⟩ := ih h.2 fun m hm => hs m (by simp [hm])
      have hn : n ≤ 9 := hs n (by simp)
      obtain ⟨c, hc1, hc2, hc3⟩ := digitStr_small (j := i) (by omega)
      simp only [List.flatMap_cons, hc1, List.singleton_append, List.mem_cons, not_or]
      refine ⟨?_, fun e => hc2 e.symm, ih2⟩
      simp only [pyIdx, pyPos, hc3, if_pos h.1, ih1]
      rfl

lemma splitUS_wcName {k : Str} {s idx : List ℕ} (hk : '_' ∉ k) (h : inRange s idx = true) (hs : Small s) :
    splitUS (wcName k idx) = [k, idx.flatMap digitStr] := by
  unfold wcName
  rw [splitUS_append hk, splitUS_of_notMem (pyIdx_digits h hs).2]

lemma wcName_inj {k k' : Str} {s s' idx idx' : List ℕ} (hk : '_' ∉ k) (hk' : '_' ∉ k')
    (h : inRange s idx = true) (h' : inRange s' idx' = true) (hs : Small s) (hs' : Small s')
    (e : wcName k idx = wcName k' idx') : k = k' ∧ (s = s' → idx = idx') := by
  have h1 := splitUS_wcName hk h hs
  have h2 := splitUS_wcName hk' h' hs'
  rw [e, h2] at h1
  simp only [List.cons.injEq, and_true] at h1
  refine ⟨h1.1.symm, fun es => ?_⟩
  subst es
  have e1 := (pyIdx_digits h hs).1
  have e2 := (pyIdx_digits h' hs').1
  rw [h1.2, e1] at e2
  simpa using e2

lemma wcName_ne_scalar {k k' : Str} {idx : List ℕ} (hk' : '_' ∉ k') : wcName k idx ≠ k' := by
  intro e
  apply hk'
  rw [← e]
  simp [wcName]

/-- `k` is the WCxf name of an entry of the basis -/
inductive ValidKey (U : Util) : Str → Prop
  | scalar {k : Str} (h : U.keysShape.get? k = some none) (hk : '_' ∉ k) : ValidKey U k
  | entry {k : Str} {s idx : List ℕ} (h : U.keysShape.get? k = some (some s)) (hk : '_' ∉ k)
      (hs : Small s) (hi : inRange s idx = true) : ValidKey U (wcName k idx)

/-- the array that collects the entries of `name` found in `d` -/
def collect (d : Dict Str ℂ) (name : Str) (s : List ℕ) : NDArr :=
  ⟨s, fun idx => if inRange s idx then (d.get? (wcName name idx)).getD 0 else 0⟩

/-- some entry of `name` is in `d` -/
def hasEntry (d : Dict Str ℂ) (name : Str) (s : List ℕ) : Prop :=
  ∃ idx, inRange s idx = true ∧ wcName name idx ∈ d.keys

/-- what `wcxf2arrays` has to compute -/
def Represents (U : Util) (d : Dict Str ℂ) (C : Dict Str AVal) : Prop :=
  (∀ k, U.keysShape.get? k = some none → '_' ∉ k → C.get? k = (d.get? k).map .num) ∧
  (∀ k s, U.keysShape.get? k = some (some s) → '_' ∉ k → Small s →
    (hasEntry d k s → C.get? k = some (.arr (collect d k s))) ∧ (¬ hasEntry d k s → C.get? k = none)) ∧
  (∀ k ∈ C.keys, '_' ∉ k ∧ ∃ s, U.keysShape.get? k = some s ∧ ∀ l, s = some l → Small l) ∧ C.NodupKeys

lemma get?_snoc (d : Dict Str ℂ) (k k' : Str) (v : ℂ) (hk : k ∉ d.keys) :
    Dict.get? (d ++ [(k, v)]) k' = if k = k' then some v else d.get? k' := by
  induction d with
  | nil => simp [Dict.get?]
  | cons p d ih =>
    obtain ⟨a, b⟩ := p
    simp only [Dict.keys, List.map_cons, List.mem_cons, not_or] at hk
    have ih' := ih hk.2
    simp only [List.cons_append, Dict.get?_cons, ih']
    by_cases h1 : a = k'
    · have : k ≠ k' := fun e => hk.1 (by rw [e, h1])
      simp [h1, this]
    · simp [h1]

lemma wcxf2arraysFrom_append (U : Util) (C : Dict Str AVal) (d e : Dict Str ℂ) :
    U.wcxf2arraysFrom C (d ++ e) = (U.wcxf2arraysFrom C d).bind fun C' => U.wcxf2arraysFrom C' e := by
  induction d generalizing C with
  | nil => rfl
  | cons p d ih =>
    obtain ⟨k, v⟩ := p
    simp only [List.cons_append, wcxf2arraysFrom]
    cases h : U.wcxfStep C k v with
    | error e => rfl
    | ok C' => simp only [ih]

theorem wcxf2arrays_represents (U : Util) (d : Dict Str ℂ) (hd : d.NodupKeys)
    (hk : ∀ k ∈ d.keys, ValidKey U k) : ∃ C, U.wcxf2arrays d = .ok C ∧ Represents U d C := by
  unfold wcxf2arrays
  induction d using List.reverseRecOn with
  | nil =>
    refine ⟨[], rfl, fun _ _ _ => rfl, fun k s _ _ _ => ⟨?_, fun _ => rfl⟩, ?_, ?_⟩
    · rintro ⟨idx, _, h⟩; simp [Dict.keys] at h
    · simp [Dict.keys]
    · simp [Dict.NodupKeys, Dict.keys]
  | append_singleton d p ih =>
    obtain ⟨k0, v⟩ := p
    simp only [Dict.NodupKeys, Dict.keys, List.map_append, List.map_cons, List.map_nil] at hd hk
    have hd' : Dict.NodupKeys d := (List.nodup_append.1 hd).1
    have hnot : k0 ∉ Dict.keys d := by
      intro h
      exact (List.nodup_append.1 hd).2.2 k0 h k0 (by simp) rfl
    obtain ⟨C, hC, hR1, hR2, hR3, hR4⟩ := ih hd' fun k h => hk k (List.mem_append_left _ h)
    have hv := hk k0 (by simp)
    have hlook := fun k' => get?_snoc d k0 k' v hnot
    have hmem : ∀ k', k' ∈ Dict.keys (d ++ [(k0, v)]) ↔ k' ∈ Dict.keys d ∨ k' = k0 := by
      intro k'; simp [Dict.keys]
    rw [wcxf2arraysFrom_append, hC]
    simp only [Except.bind, wcxf2arraysFrom]
    cases hv with
    | scalar h0 hu =>
      have hstep : U.wcxfStep C k0 v = .ok (C.set k0 (.num v)) := by
        simp only [wcxfStep, splitUS_of_notMem hu, List.headD_cons, h0]
      rw [hstep]
      refine ⟨_, rfl, ?_, ?_, ?_, Dict.nodupKeys_set _ _ _ hR4⟩
      · intro k hk1 hk2
        rw [Dict.get?_set, hlook]
        by_cases e : k0 = k
        · simp [e]
        · simp [e, hR1 k hk1 hk2]
      · intro k s hk1 hk2 hk3
        have hne : k0 ≠ k := by rintro rfl; rw [h0] at hk1; simp at hk1
        have hcol : collect (d ++ [(k0, v)]) k s = collect d k s := by
          simp only [collect, NDArr.mk.injEq, true_and]
          funext idx
          rw [hlook, if_neg (fun e : k0 = wcName k idx => wcName_ne_scalar hu e.symm)]
        have hhas : hasEntry (d ++ [(k0, v)]) k s ↔ hasEntry d k s := by
          simp only [hasEntry, hmem]
          constructor
          · rintro ⟨idx, h1, h2 | h2⟩
            · exact ⟨idx, h1, h2⟩
            · exact absurd h2 (wcName_ne_scalar hu)
          · rintro ⟨idx, h1, h2⟩; exact ⟨idx, h1, .inl h2⟩
        rw [Dict.get?_set_ne _ _ hne, hcol, hhas]
        exact hR2 k s hk1 hk2 hk3
      · intro k hk1
        rw [Dict.keys_set] at hk1
        split_ifs at hk1
        · exact hR3 k hk1
        · simp only [List.mem_append, List.mem_singleton] at hk1
          rcases hk1 with h | rfl
          · exact hR3 k h
          · exact ⟨hu, _, h0, by simp⟩
    | @entry name s idx h0 hu hs hi =>
      have hsplit := splitUS_wcName hu hi hs
      have hpy := (pyIdx_digits hi hs).1
      have hnew : ∀ a : NDArr, a.shape = s → (∀ i, a.get i = (collect d name s).get i) →
          setAt a idx v = collect (d ++ [(wcName name idx, v)]) name s := by
        intro a ha hag
        obtain ⟨sh, g⟩ := a
        simp only at ha; subst ha
        simp only [setAt, collect, NDArr.mk.injEq, true_and]
        funext i
        rw [hlook]
        by_cases e : i = idx
        · subst e; simp [hi]
        · rw [if_neg e]
          have := hag i
          simp only [collect] at this
          rw [this]
          by_cases hri : inRange sh i = true
          · have hne : wcName name idx ≠ wcName name i := by
              intro e'
              exact e ((wcName_inj hu hu hi hri hs hs e').2 rfl).symm
            simp [hri, hne]
          · simp [hri]
      have hstep : U.wcxfStep C (wcName name idx) v
          = .ok (C.set name (.arr (collect (d ++ [(wcName name idx, v)]) name s))) := by
        simp only [wcxfStep, hsplit, List.headD_cons, h0]
        simp only [List.getLastD, List.getLast, hpy]
        obtain ⟨hA, hB⟩ := hR2 name s h0 hu hs
        by_cases hh : hasEntry d name s
        · rw [hA hh]
          dsimp only
          rw [hnew _ rfl fun _ => rfl]
        · rw [hB hh]
          dsimp only
          rw [hnew (zeros s) rfl]
          intro i
          simp only [zeros, collect]
          split_ifs with hri
          · have : Dict.get? d (wcName name i) = none := by
              rw [Dict.get?_eq_none_iff]
              exact fun hm => hh ⟨i, hri, hm⟩
            simp [this]
          · rfl
      rw [hstep]
      refine ⟨_, rfl, ?_, ?_, ?_, Dict.nodupKeys_set _ _ _ hR4⟩
      · intro k hk1 hk2
        have hne : name ≠ k := by rintro rfl; rw [h0] at hk1; simp at hk1
        rw [Dict.get?_set_ne _ _ hne, hlook, if_neg (wcName_ne_scalar hk2)]
        exact hR1 k hk1 hk2
      · intro k s' hk1 hk2 hk3
        by_cases e : name = k
        · subst e
          rw [h0] at hk1
          simp only [Option.some.injEq] at hk1
          subst hk1
          rw [Dict.get?_set_self]
          exact ⟨fun _ => rfl, fun h => absurd ⟨idx, hi, (hmem _).2 (.inr rfl)⟩ h⟩
        · have hne : ∀ i, inRange s' i = true → wcName name idx ≠ wcName k i := by
            intro i hri e'
            exact e (wcName_inj hu hk2 hi hri hs hk3 e').1
          have hcol : collect (d ++ [(wcName name idx, v)]) k s' = collect d k s' := by
            simp only [collect, NDArr.mk.injEq, true_and]
            funext i
            by_cases hri : inRange s' i = true
            · rw [if_pos hri, if_pos hri, hlook, if_neg (hne i hri)]
            · rw [if_neg hri, if_neg hri]
          have hhas : hasEntry (d ++ [(wcName name idx, v)]) k s' ↔ hasEntry d k s' := by
            simp only [hasEntry, hmem]
            constructor
            · rintro ⟨i, h1, h2 | h2⟩
              · exact ⟨i, h1, h2⟩
              · exact absurd h2.symm (hne i h1)
            · rintro ⟨i, h1, h2⟩; exact ⟨i, h1, .inl h2⟩
          rw [Dict.get?_set_ne _ _ e, hcol, hhas]
          exact hR2 k s' hk1 hk2 hk3
      · intro k hk1
        rw [Dict.keys_set] at hk1
        split_ifs at hk1
        · exact hR3 k hk1
        · simp only [List.mem_append, List.mem_singleton] at hk1
          rcases hk1 with h | rfl
          · exact hR3 k h
          · exact ⟨hu, _, h0, by rintro l ⟨⟩; exact hs⟩

/-! ### `arrays2wcxf` -/

lemma foldl_set_eq {α : Type} (l : Dict Str α) (d : Dict Str α) (hl : l.NodupKeys)
    (hdis : ∀ k ∈ l.keys, k ∉ d.keys) : l.foldl (fun d e => d.set e.1 e.2) d = d ++ l := by
  induction l generalizing d with
  | nil => simp
  | cons p l ih =>
    obtain ⟨k, v⟩ := p
    simp only [Dict.NodupKeys, Dict.keys, List.map_cons, List.nodup_cons] at hl
    have hk : k ∉ d.keys := hdis k (by simp [Dict.keys])
    have hset : d.set k v = d ++ [(k, v)] := by
      clear ih hdis
      induction d with
      | nil => rfl
      | cons q d ih =>
        obtain ⟨a, b⟩ := q
        simp only [Dict.keys, List.map_cons, List.mem_cons, not_or] at hk
        have : a ≠ k := fun e => hk.1 e.symm
        simp [Dict.set, this, ih hk.2]
    simp only [List.foldl_cons, hset]
    rw [ih _ hl.2]
    · simp
    · intro k' hk' hmem
      simp only [Dict.keys, List.map_append, List.map_cons, List.map_nil, List.mem_append,
        List.mem_singleton] at hmem
      rcases hmem with h | rfl
      · exact hdis k' (by simp only [Dict.keys, List.map_cons, List.mem_cons]; exact .inr hk') h
      · exact hl.1 hk'

/-- number, or array of one-digit dimensions that is not treated like a number -/
def GoodVal : AVal → Prop
  | .num _ => True
  | .arr a => a.shape ≠ [] ∧ a.shape ≠ [1] ∧ Small a.shape

/-- a name an entry of `v` may have -/
def EntryName (k n : Str) : AVal → Prop
  | .num _ => n = k
  | .arr a => ∃ idx, inRange a.shape idx = true ∧ n = wcName k idx

/-- The dictionary is made of coefficients whose names have no underscore and whose arrays
have the good shapes. -/
def GoodArrays (C : Dict Str AVal) : Prop :=
  C.NodupKeys ∧ ∀ k v, (k, v) ∈ C → '_' ∉ k ∧
    GoodVal v

lemma entries_keys {k : Str} {v : AVal} {n : Str}
    (h : n ∈ (entries k v).map Prod.fst) (hv : GoodVal v) :
    EntryName k n v := by
  cases v with
  | num z => simpa [entries, EntryName] using h
  | arr a =>
    simp only [GoodVal] at hv
    simp only [entries, hv.1, hv.2.1, if_false, List.map_map, List.mem_map] at h
    obtain ⟨i, hi, e⟩ := h
    exact ⟨i, mem_indices.1 hi, e.symm⟩

lemma nodup_entries {k : Str} {v : AVal} (hk : '_' ∉ k) (hv : GoodVal v) :
    ((entries k v).map Prod.fst).Nodup := by
  cases v with
  | num z => simp [entries]
  | arr a =>
    simp only [GoodVal] at hv
    simp only [entries, hv.1, hv.2.1, if_false, List.map_map]
    refine List.Nodup.map_on ?_ (nodup_indices _)
    intro i hi j hj e
    exact (wcName_inj hk hk (mem_indices.1 hi) (mem_indices.1 hj) hv.2.2 hv.2.2 e).2 rfl

lemma nodup_all_entries {C : Dict Str AVal} (h : GoodArrays C) :
    ((C.flatMap fun kv => entries kv.1 kv.2).map Prod.fst).Nodup := by
  obtain ⟨hn, hg⟩ := h
  induction C with
  | nil => simp
  | cons p C ih =>
    obtain ⟨k, v⟩ := p
    simp only [Dict.NodupKeys, Dict.keys, List.map_cons, List.nodup_cons] at hn
    simp only [List.flatMap_cons, List.map_append]
    rw [List.nodup_append]
    obtain ⟨hk, hv⟩ := hg k v (by simp)
    refine ⟨nodup_entries hk hv, ih hn.2 fun k v h => hg k v (by simp [h]), ?_⟩
    rintro a ha b hb rfl
    simp only [List.map_flatMap, List.mem_flatMap] at hb
    obtain ⟨⟨k', v'⟩, hm, hb⟩ := hb
    obtain ⟨hk', hv'⟩ := hg k' v' (by simp [hm])
    have hkk : k = k' := by
      have e1 := entries_keys ha hv
      have e2 := entries_keys hb hv'
      cases v with
      | num z =>
        cases v' with
        | num z' => exact e1.symm.trans e2
        | arr a' =>
          obtain ⟨idx, _, e⟩ := e2
          simp only [EntryName] at e1
          exact absurd (e.symm.trans e1) (wcName_ne_scalar hk)
      | arr a =>
        obtain ⟨idx, hi, e⟩ := e1
        cases v' with
        | num z' => exact absurd (e.symm.trans e2) (wcName_ne_scalar hk')
        | arr a' =>
          obtain ⟨idx', hi', e'⟩ := e2
          exact (wcName_inj hk hk' hi hi' hv.2.2 hv'.2.2 (e.symm.trans e')).1
    exact hn.1 (List.mem_map.2 ⟨(k', v'), hm, hkk.symm⟩)

theorem arrays2wcxf_eq {C : Dict Str AVal} (h : GoodArrays C) :
    arrays2wcxf C = C.flatMap fun kv => entries kv.1 kv.2 := by
  unfold arrays2wcxf
  rw [foldl_set_eq _ _ (nodup_all_entries h) (by simp [Dict.keys])]
  rfl

theorem nodup_arrays2wcxf {C : Dict Str AVal} (h : GoodArrays C) : (arrays2wcxf C).NodupKeys := by
  rw [arrays2wcxf_eq h]; exact nodup_all_entries h

end Verif.EFT.Util
