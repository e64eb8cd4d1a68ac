import Verif.Spec.WetJms
import Verif.Lemmas.Names
import Mathlib.Tactic.FinCases

/-!
# Lemmas on the JMS arrays and names
-/

set_option autoImplicit false

namespace Verif.Jms
open Verif Verif.EFT Verif.EFT.Util

/-! ### names -/

lemma small_rep (r : ℕ) : Small (List.replicate r 3) := by
  intro n hn
  have := List.eq_of_mem_replicate hn
  omega

lemma inRange_idx4 (i : I4) : inRange (List.replicate 4 3) (idx4 i) = true := by
  obtain ⟨i, j, k, l⟩ := i
  simp [inRange, List.replicate, idx4]

lemma exists_idx4 {idx : List ℕ} (h : inRange (List.replicate 4 3) idx = true) : ∃ i, idx = idx4 i := by
  match idx, h with
  | [a, b, c, d], h =>
    simp only [inRange, List.replicate, Bool.and_eq_true, decide_eq_true_eq, and_true] at h
    exact ⟨(⟨a, h.1⟩, ⟨b, h.2.1⟩, ⟨c, h.2.2.1⟩, ⟨d, h.2.2.2⟩), rfl⟩
  | [], h => simp [inRange, List.replicate] at h
  | [_], h => simp [inRange, List.replicate] at h
  | [_, _], h => simp [inRange, List.replicate] at h
  | [_, _, _], h => simp [inRange, List.replicate] at h
  | _ :: _ :: _ :: _ :: _ :: _, h => simp [inRange, List.replicate] at h

lemma idx4_inj : Function.Injective idx4 := by
  rintro ⟨i, j, k, l⟩ ⟨i', j', k', l'⟩ h
  simp only [idx4, List.cons.injEq, Fin.val_inj, and_true] at h
  obtain ⟨rfl, rfl, rfl, rfl⟩ := h
  rfl

/-- the digit of an index -/
def dg (i : Fin 3) : Char := if i = 0 then '1' else if i = 1 then '2' else '3'

lemma digitStr_fin (i : Fin 3) : digitStr i.val = [dg i] := by
  fin_cases i <;> decide

lemma name4_eq (name : Str) (i j k l : Fin 3) :
    name4 name (i, j, k, l) = name ++ '_' :: [dg i, dg j, dg k, dg l] := by
  simp [name4, wcName, idx4, digitStr_fin]

lemma dg_ne (i : Fin 3) : dg i ≠ '_' := by fin_cases i <;> decide

lemma split_name4 {name : Str} (h : '_' ∉ name) (i j k l : Fin 3) :
    splitUS (name4 name (i, j, k, l)) = [name, [dg i, dg j, dg k, dg l]] := by
  rw [name4_eq, splitUS_append h, splitUS_of_notMem]
  simp only [List.mem_cons, List.not_mem_nil, or_false, not_or]
  exact ⟨(dg_ne i).symm, (dg_ne j).symm, (dg_ne k).symm, (dg_ne l).symm⟩

lemma name4_inj {name name' : Str} (h : '_' ∉ name) (h' : '_' ∉ name') {i i' : I4}
    (e : name4 name i = name4 name' i') : name = name' ∧ i = i' := by
  obtain ⟨e1, e2⟩ := wcName_inj h h' (inRange_idx4 i) (inRange_idx4 i') (small_rep 4) (small_rep 4) e
  exact ⟨e1, idx4_inj (e2 rfl)⟩

lemma us_mem_name4 (name : Str) (i : I4) : '_' ∈ name4 name i := by
  simp [name4, wcName]

/-! ### classes -/

lemma isClass_us {c : ℕ} (hc : c ∈ relClasses) {name : Str} (h : isClass c name = true) : '_' ∉ name := by
  have key : ∀ c ∈ relClasses, ∀ s ∈ symmKeys c, '_' ∉ s.toList := by decide
  simp only [isClass, List.any_eq_true, beq_iff_eq] at h
  obtain ⟨s, hs, rfl⟩ := h
  exact key c hc s hs

lemma isClass_ne {c c' : ℕ} (hc : c ∈ relClasses) (hc' : c' ∈ relClasses) (hne : c ≠ c') {name : Str}
    (h : isClass c name = true) : isClass c' name = false := by
  have key : ∀ c ∈ relClasses, ∀ c' ∈ relClasses, c ≠ c' → ∀ s ∈ symmKeys c,
      isClass c' s.toList = false := by decide
  simp only [isClass, List.any_eq_true, beq_iff_eq] at h
  obtain ⟨s, hs, rfl⟩ := h
  exact key c hc c' hc' hne s hs

/-! ### `_scalar2array` -/

lemma nameOf_wcName {name : Str} {r : ℕ} {idx : List ℕ} (h : '_' ∉ name)
    (hi : inRange (List.replicate r 3) idx = true) : nameOf (wcName name idx) = name := by
  unfold nameOf
  rw [splitUS_wcName h hi (small_rep r)]
  simp

lemma indOf_wcName {name : Str} {r : ℕ} {idx : List ℕ} (h : '_' ∉ name)
    (hi : inRange (List.replicate r 3) idx = true) : indOf (wcName name idx) = idx.flatMap digitStr := by
  unfold indOf
  rw [splitUS_wcName h hi (small_rep r)]
  simp

lemma length_digits : ∀ {r : ℕ} {idx : List ℕ}, inRange (List.replicate r 3) idx = true →
    (idx.flatMap digitStr).length = r := by
  intro r
  induction r with
  | zero => intro idx h; cases idx <;> simp_all [inRange]
  | succ r ih =>
    intro idx h
    cases idx with
    | nil => simp [inRange, List.replicate] at h
    | cons i is =>
      simp only [List.replicate, inRange, Bool.and_eq_true, decide_eq_true_eq] at h
      obtain ⟨c, hc, -⟩ := digitStr_small (j := i) (by omega)
      simp [hc, ih h.2]

/-- the array of the entries of `name` found in `d` -/
def rawArr (d : Dict Str ℂ) (name : Str) (r : ℕ) (idx : List ℕ) : Option ℂ :=
  if inRange (List.replicate r 3) idx then d.get? (wcName name idx) else none

/-- an entry of `name` is in `d` -/
def Has (d : List Str) (name : Str) (r : ℕ) : Prop :=
  ∃ idx, inRange (List.replicate r 3) idx = true ∧ wcName name idx ∈ d

/-- what `_scalar2array` computes -/
structure Rep (r : Str → ℕ) (d : Dict Str ℂ) (da : Dict Str JVal) : Prop where
  scalar : ∀ k, '_' ∉ k → r k = 0 → da.get? k = (d.get? k).map .num
  array : ∀ k, '_' ∉ k → r k ≠ 0 →
    (Has d.keys k (r k) → da.get? k = some (.arr (r k) (rawArr d k (r k)))) ∧
    (¬ Has d.keys k (r k) → da.get? k = none)
  keys : ∀ k ∈ da.keys, '_' ∉ k
  nodup : da.NodupKeys

lemma scalar2array_rep {r : Str → ℕ} (d : Dict Str ℂ) (hd : d.NodupKeys) (hk : JmsNames r d.keys) :
    ∃ da, scalar2array d = .ok da ∧ Rep r d da := by
  unfold scalar2array
  induction d using List.reverseRecOn with
  | nil =>
    refine ⟨[], rfl, ⟨fun _ _ _ => rfl, fun _ _ _ => ⟨?_, fun _ => rfl⟩, by simp [Dict.keys], by simp [Dict.NodupKeys, Dict.keys]⟩⟩
    rintro ⟨idx, -, h⟩
    simp [Dict.keys] at h
  | append_singleton d kv ih =>
    obtain ⟨k0, v0⟩ := kv
    have hkeys : Dict.keys (d ++ [(k0, v0)]) = Dict.keys d ++ [k0] := by simp [Dict.keys]
    have hd' : Dict.NodupKeys d ∧ k0 ∉ Dict.keys d := by
      unfold Dict.NodupKeys at hd ⊢
      rw [hkeys, List.nodup_append] at hd
      refine ⟨hd.1, fun h => ?_⟩
      exact hd.2.2 k0 h k0 (by simp) rfl
    have hk' : JmsNames r (Dict.keys d) := ⟨fun k h => hk.form k (by rw [hkeys]; simp [h]), hk.four⟩
    obtain ⟨da, e, R⟩ := ih hd'.1 hk'
    have hget : ∀ k', Dict.get? (d ++ [(k0, v0)]) k' = if k0 = k' then some v0 else Dict.get? d k' :=
      fun k' => get?_snoc d k0 k' v0 hd'.2
    have hfold : ∀ x, scalarStep da k0 v0 = .ok x →
        (d ++ [(k0, v0)]).foldlM (fun da kv => scalarStep da kv.1 kv.2) [] = .ok x := by
      intro x hx
      rw [List.foldlM_append, e]
      show (do let y ← scalarStep da k0 v0; List.foldlM _ y []) = _
      rw [hx]
      rfl
    rcases hk.form k0 (by rw [hkeys]; simp) with ⟨hus, hr0⟩ | ⟨name, idx, hn, rfl, hr, hi⟩
    · refine ⟨da.set k0 (.num v0), hfold _ (by simp [scalarStep, hus]), ?_, ?_, ?_, Dict.nodupKeys_set _ _ _ R.nodup⟩
      · intro k h1 h2
        rw [Dict.get?_set, hget]
        split
        · rfl
        · exact R.scalar k h1 h2
      · intro k h1 h2
        have hne : k0 ≠ k := fun e => h2 (e ▸ hr0)
        have hhas : Has (Dict.keys (d ++ [(k0, v0)])) k (r k) ↔ Has (Dict.keys d) k (r k) := by
          rw [hkeys]
          constructor
          · rintro ⟨idx, h, hm⟩
            rcases List.mem_append.1 hm with hm | hm
            · exact ⟨idx, h, hm⟩
            · exact absurd (List.mem_singleton.1 hm) (wcName_ne_scalar hus)
          · rintro ⟨idx, h, hm⟩; exact ⟨idx, h, List.mem_append_left _ hm⟩
        rw [Dict.get?_set_ne _ _ hne, hhas]
        refine ⟨fun h => ?_, (R.array k h1 h2).2⟩
        rw [(R.array k h1 h2).1 h]
        congr 2
        funext idx
        unfold rawArr
        have : k0 ≠ wcName k idx := fun e => wcName_ne_scalar hus e.symm
        simp only [hget, if_neg this]
      · intro k h
        rw [Dict.keys_set] at h
        split at h
        · exact R.keys k h
        · rcases List.mem_append.1 h with h | h
          · exact R.keys k h
          · rw [List.mem_singleton.1 h]; exact hus
    · have hus : '_' ∈ wcName name idx := by simp [wcName]
      have hnm := nameOf_wcName hn hi
      have hin := indOf_wcName hn hi
      have hpy := (pyIdx_digits hi (small_rep (r name))).1
      have hlen := length_digits hi
      -- the new array
      have hstep : scalarStep da (wcName name idx) v0 =
          .ok (da.set name (.arr (r name) fun i => if i = idx then some v0 else
            rawArr d name (r name) i)) := by
        unfold scalarStep
        rw [if_neg (by simp [hus])]
        simp only [hnm, hin]
        by_cases hh : Has (Dict.keys d) name (r name)
        · rw [(R.array name hn hr).1 hh]
          simp only [hpy]
          rfl
        · rw [(R.array name hn hr).2 hh]
          simp only [hlen, hpy]
          have : ∀ i, rawArr d name (r name) i = none := by
            intro i
            unfold rawArr
            split
            · rename_i h1
              exact (Dict.get?_eq_none_iff _ _).2 fun h2 => hh ⟨i, h1, h2⟩
            · rfl
          simp only [this]
          rfl
      have hraw : (fun i => if i = idx then some v0 else rawArr d name (r name) i) =
          rawArr (d ++ [(wcName name idx, v0)]) name (r name) := by
        funext i
        unfold rawArr
        rw [hget]
        by_cases h1 : i = idx
        · subst h1; simp [hi]
        · rw [if_neg h1]
          split
          · rename_i h2
            rw [if_neg]
            intro e
            exact h1 ((wcName_inj hn hn hi h2 (small_rep _) (small_rep _) e).2 rfl).symm
          · rfl
      have hhas0 : Has (Dict.keys (d ++ [(wcName name idx, v0)])) name (r name) :=
        ⟨idx, hi, by rw [hkeys]; simp⟩
      refine ⟨_, hfold _ hstep, ?_, ?_, ?_, Dict.nodupKeys_set _ _ _ R.nodup⟩
      · intro k h1 h2
        have hne : name ≠ k := fun e => hr (e ▸ h2)
        rw [Dict.get?_set_ne _ _ hne, hget, if_neg (fun e => wcName_ne_scalar h1 e)]
        exact R.scalar k h1 h2
      · intro k h1 h2
        by_cases hkn : name = k
        · subst hkn
          rw [Dict.get?_set_self, hraw]
          exact ⟨fun _ => rfl, fun h => absurd hhas0 h⟩
        · have hnn : ∀ idx', inRange (List.replicate (r k) 3) idx' = true →
              wcName name idx ≠ wcName k idx' := fun idx' h' e =>
            hkn (wcName_inj hn h1 hi h' (small_rep _) (small_rep _) e).1
          have hhas : Has (Dict.keys (d ++ [(wcName name idx, v0)])) k (r k) ↔ Has (Dict.keys d) k (r k) := by
            rw [hkeys]
            constructor
            · rintro ⟨idx', h, hm⟩
              rcases List.mem_append.1 hm with hm | hm
              · exact ⟨idx', h, hm⟩
              · exact absurd (List.mem_singleton.1 hm).symm (hnn idx' h)
            · rintro ⟨idx', h, hm⟩; exact ⟨idx', h, List.mem_append_left _ hm⟩
          rw [Dict.get?_set_ne _ _ hkn, hhas]
          refine ⟨fun h => ?_, (R.array k h1 h2).2⟩
          rw [(R.array k h1 h2).1 h]
          congr 2
          funext i
          unfold rawArr
          rw [hget]
          split
          · rename_i h3
            rw [if_neg (hnn i h3)]
          · rfl
      · intro k h
        rw [Dict.keys_set] at h
        split at h
        · exact R.keys k h
        · rcases List.mem_append.1 h with h | h
          · exact R.keys k h
          · rw [List.mem_singleton.1 h]; exact hn

/-! ### the completion -/

lemma get?_fillKeys (keys : List Str) (C : Dict Str ℂ) (k : Str) :
    (fillKeys keys C).get? k = if k ∈ keys then some (C.getD k 0) else none := by
  unfold fillKeys
  have : ∀ acc : Dict Str ℂ, (keys.foldl (fun d k => d.set k (C.getD k 0)) acc).get? k =
      if k ∈ keys then some (C.getD k 0) else acc.get? k := by
    induction keys with
    | nil => intro acc; simp
    | cons a keys ih =>
      intro acc
      rw [List.foldl_cons, ih]
      by_cases h : k ∈ keys
      · simp [h]
      · rw [if_neg h, Dict.get?_set]
        by_cases ha : a = k
        · subst ha; simp
        · have : k ≠ a := fun e => ha e.symm
          simp [ha, h, this]
  rw [this []]
  rfl

lemma nodup_fillKeys (keys : List Str) (C : Dict Str ℂ) : (fillKeys keys C).NodupKeys := by
  unfold fillKeys
  have : ∀ acc : Dict Str ℂ, acc.NodupKeys → (keys.foldl (fun d k => d.set k (C.getD k 0)) acc).NodupKeys := by
    induction keys with
    | nil => intro acc h; exact h
    | cons a keys ih => intro acc h; exact ih _ (Dict.nodupKeys_set _ _ _ h)
  exact this [] (by simp [Dict.NodupKeys, Dict.keys])

lemma mem_keys_fillKeys (keys : List Str) (C : Dict Str ℂ) (k : Str) :
    k ∈ (fillKeys keys C).keys ↔ k ∈ keys := by
  rw [← Dict.isSome_get?_iff, get?_fillKeys]
  by_cases h : k ∈ keys <;> simp [h]

/-- a loop that replaces every value -/
lemma mapM_dict {α β : Type} (f : Str → α → Except Err β) (d : Dict Str α)
    (h : ∀ kv ∈ d, ∃ w, f kv.1 kv.2 = .ok w) :
    ∃ out : Dict Str β, d.mapM (fun kv => (f kv.1 kv.2).map fun v => (kv.1, v)) = .ok out ∧
      out.keys = d.keys ∧
      ∀ k v, d.get? k = some v → ∃ w, f k v = .ok w ∧ out.get? k = some w := by
  induction d with
  | nil => exact ⟨[], rfl, rfl, fun k v h => by simp at h⟩
  | cons kv d ih =>
    obtain ⟨k0, v0⟩ := kv
    obtain ⟨w0, hw0⟩ := h (k0, v0) List.mem_cons_self
    obtain ⟨out, e, hk, hv⟩ := ih fun kv hkv => h kv (List.mem_cons_of_mem _ hkv)
    refine ⟨(k0, w0) :: out, ?_, ?_, ?_⟩
    · rw [List.mapM_cons]
      simp only at hw0
      rw [hw0, e]
      rfl
    · simp only [Dict.keys, List.map_cons] at hk ⊢
      rw [hk]
    · intro k v hkv
      rw [Dict.get?_cons] at hkv ⊢
      by_cases hkk : k0 = k
      · subst hkk
        simp only [if_true, Option.some.injEq] at hkv ⊢
        subst hkv
        exact ⟨w0, hw0, rfl⟩
      · rw [if_neg hkk] at hkv ⊢
        exact hv k v hkv

/-- the completion of an array by class -/
noncomputable def comp (c : ℕ) (a : List ℕ → Option ℂ) : List ℕ → Option ℂ :=
  if c = 5 then symmHerm a else if c = 41 then symmCurrent a
  else if c = 4 then symmHerm (symmCurrent a) else if c = 71 then antisymm12 a else a

lemma completeVal_class {c : ℕ} (hc : c ∈ relClasses) {name : Str} (h : isClass c name = true)
    (a : List ℕ → Option ℂ) : completeVal name (.arr 4 a) = .ok (.arr 4 (comp c a)) := by
  have hn : ∀ c' ∈ relClasses, c ≠ c' → isClass c' name = false := fun c' h' e => isClass_ne hc h' e h
  simp only [relClasses, List.mem_cons, List.not_mem_nil, or_false] at hc
  rcases hc with rfl | rfl | rfl | rfl
  · have h1 := hn 5 (by decide) (by decide)
    have h2 := hn 41 (by decide) (by decide)
    have h3 := hn 71 (by decide) (by decide)
    simp [completeVal, h, h1, h2, h3, onRank4, comp, bind, Except.bind]
  · have h1 := hn 5 (by decide) (by decide)
    have h2 := hn 4 (by decide) (by decide)
    have h3 := hn 71 (by decide) (by decide)
    simp [completeVal, h, h1, h2, h3, onRank4, comp, bind, Except.bind]
  · have h1 := hn 41 (by decide) (by decide)
    have h2 := hn 4 (by decide) (by decide)
    have h3 := hn 71 (by decide) (by decide)
    simp [completeVal, h, h1, h2, h3, onRank4, comp, bind, Except.bind]
  · have h1 := hn 5 (by decide) (by decide)
    have h2 := hn 4 (by decide) (by decide)
    have h3 := hn 41 (by decide) (by decide)
    simp [completeVal, h, h1, h2, h3, onRank4, comp, bind, Except.bind]

lemma completeVal_other {name : Str} (h : ∀ c ∈ relClasses, isClass c name = false) (v : JVal) :
    completeVal name v = .ok v := by
  have h1 := h 5 (by decide)
  have h2 := h 41 (by decide)
  have h3 := h 4 (by decide)
  have h4 := h 71 (by decide)
  simp [completeVal, h1, h2, h3, h4, bind, Except.bind]

/-- `JMS_to_array` succeeds; the arrays are the completed ones -/
lemma jms_ok {r : Str → ℕ} {keys : List Str} (hk : JmsNames r keys) (C : Dict Str ℂ) :
    ∃ Ca, jmsToArray keys C = .ok Ca ∧
      (∀ k ∈ keys, '_' ∉ k → (∀ c ∈ relClasses, isClass c k = false) →
        Ca.get? k = some (.num (C.getD k 0))) ∧
      (∀ name, '_' ∉ name → r name ≠ 0 → Has keys name (r name) →
        (∀ c ∈ relClasses, isClass c name = false) →
        Ca.get? name = some (.arr (r name) (rawArr (fillKeys keys C) name (r name)))) ∧
      (∀ c ∈ relClasses, ∀ name, isClass c name = true → Has keys name 4 →
        Ca.get? name = some (.arr 4 (comp c (rawArr (fillKeys keys C) name 4)))) ∧
      ∀ name, '_' ∉ name → r name ≠ 0 → ¬ Has keys name (r name) → Ca.get? name = none := by
  have hk' : JmsNames r (fillKeys keys C).keys :=
    ⟨fun k h => hk.form k ((mem_keys_fillKeys _ _ _).1 h), hk.four⟩
  obtain ⟨da, e, R⟩ := scalar2array_rep (fillKeys keys C) (nodup_fillKeys _ _) hk'
  have hhas : ∀ name n, Has (fillKeys keys C).keys name n ↔ Has keys name n := by
    intro name n
    unfold Has
    simp only [mem_keys_fillKeys]
  have hval : ∀ kv ∈ da, ∃ w, completeVal kv.1 kv.2 = .ok w := by
    rintro ⟨k, v⟩ hkv
    by_cases hcl : ∃ c ∈ relClasses, isClass c k = true
    · obtain ⟨c, hc, hcl⟩ := hcl
      have hr := hk.four c hc k hcl
      have hus := isClass_us hc hcl
      have hg : da.get? k = some v := Dict.get?_of_mem R.nodup hkv
      have := R.array k hus (by omega)
      by_cases hh : Has (fillKeys keys C).keys k (r k)
      · rw [this.1 hh] at hg
        cases hg
        rw [hr]
        exact ⟨_, completeVal_class hc hcl _⟩
      · rw [this.2 hh] at hg
        cases hg
    · push Not at hcl
      exact ⟨v, completeVal_other (fun c hc => by simpa using hcl c hc) v⟩
  obtain ⟨out, e2, hokeys, hout⟩ := mapM_dict completeVal da hval
  refine ⟨out, ?_, ?_, ?_, ?_, ?_⟩
  · unfold jmsToArray
    rw [e]
    exact e2
  · intro k h1 h2 h3
    have hr : r k = 0 := by
      rcases hk.form k h1 with h | ⟨name, idx, -, rfl, -⟩
      · exact h.2
      · exact absurd (by simp [wcName]) h2
    have hg := R.scalar k h2 hr
    rw [get?_fillKeys, if_pos h1] at hg
    obtain ⟨w, hw, ho⟩ := hout k _ hg
    rw [completeVal_other h3] at hw
    cases hw
    exact ho
  · intro name h1 h2 h3 h4
    obtain ⟨w, hw, ho⟩ := hout name _ ((R.array name h1 h2).1 ((hhas _ _).2 h3))
    rw [completeVal_other h4] at hw
    cases hw
    exact ho
  · intro c hc name hcl h3
    have hr := hk.four c hc name hcl
    have hg := (R.array name (isClass_us hc hcl) (by omega)).1
    rw [hr] at hg
    obtain ⟨w, hw, ho⟩ := hout name _ (hg ((hhas _ _).2 h3))
    rw [completeVal_class hc hcl] at hw
    cases hw
    exact ho
  · intro name h1 h2 h3
    have := (R.array name h1 h2).2 (fun h => h3 ((hhas _ _).1 h))
    rw [Dict.get?_eq_none_iff] at this ⊢
    rwa [hokeys]

lemma herm_at (a : List ℕ → Option ℂ) (i j k l : Fin 3) : symmHerm a (idx4 (i, j, k, l)) =
    (a (idx4 (i, j, k, l))).or ((a (idx4 (j, i, l, k))).map (starRingEnd ℂ)) := by
  simp only [idx4, symmHerm]
  cases a [i.val, j.val, k.val, l.val] <;> rfl

lemma curr_at (a : List ℕ → Option ℂ) (i j k l : Fin 3) : symmCurrent a (idx4 (i, j, k, l)) =
    (a (idx4 (i, j, k, l))).or (a (idx4 (k, l, i, j))) := by
  simp only [idx4, symmCurrent]
  cases a [i.val, j.val, k.val, l.val] <;> rfl

lemma anti_at (a : List ℕ → Option ℂ) (i j k l : Fin 3) : antisymm12 a (idx4 (i, j, k, l)) =
    (a (idx4 (i, j, k, l))).or ((a (idx4 (j, i, k, l))).map fun z => -z) := by
  simp only [idx4, antisymm12]
  cases a [i.val, j.val, k.val, l.val] <;> rfl

/-- the completion at a listed orbit -/
lemma comp_rel {c : ℕ} (hc : c ∈ relClasses) (a : List ℕ → Option ℂ) {i : I4} {z : ℂ}
    (hz : a (idx4 i) = some z) (hz' : Compatible c i z)
    (h1 : ∀ g ∈ jrels c, (a (idx4 (g.perm i))).isSome → g.perm i = i) :
    ∀ g ∈ jrels c, comp c a (idx4 (g.perm i)) = some (g.act.apply z) := by
  have F : ∀ g ∈ jrels c, a (idx4 (g.perm i)) = none ∨
      (a (idx4 (g.perm i)) = some z ∧ g.act.apply z = z) := by
    intro g hg
    cases h : a (idx4 (g.perm i)) with
    | none => exact .inl rfl
    | some w =>
      have e := h1 g hg (by rw [h]; rfl)
      rw [e, hz] at h
      cases h
      exact .inr ⟨rfl, hz' g hg e⟩
  clear h1 hz'
  obtain ⟨i, j, k, l⟩ := i
  simp only [relClasses, List.mem_cons, List.not_mem_nil, or_false] at hc
  rcases hc with rfl | rfl | rfl | rfl
  · simp only [jrels, List.forall_mem_cons, id, List.not_mem_nil, false_implies, implies_true, and_true,
      Act.apply] at F ⊢
    obtain ⟨-, f2, f3, f4⟩ := F
    have hcomp : comp 4 a = symmHerm (symmCurrent a) := rfl
    simp only [hcomp, herm_at, curr_at, hz]
    rcases f2 with f2 | f2 <;> rcases f3 with f3 | ⟨f3, g3⟩ <;> rcases f4 with f4 | ⟨f4, g4⟩ <;>
      simp_all
  · simp only [jrels, List.forall_mem_cons, id, List.not_mem_nil, false_implies, implies_true, and_true,
      Act.apply] at F ⊢
    obtain ⟨-, f2⟩ := F
    have hcomp : comp 41 a = symmCurrent a := rfl
    simp only [hcomp, curr_at, hz]
    rcases f2 with f2 | f2 <;> simp_all
  · simp only [jrels, List.forall_mem_cons, id, List.not_mem_nil, false_implies, implies_true, and_true,
      Act.apply] at F ⊢
    obtain ⟨-, f2⟩ := F
    have hcomp : comp 5 a = symmHerm a := rfl
    simp only [hcomp, herm_at, hz]
    rcases f2 with f2 | f2 <;> simp_all
  · simp only [jrels, List.forall_mem_cons, id, List.not_mem_nil, false_implies, implies_true, and_true,
      Act.apply] at F ⊢
    obtain ⟨-, f2⟩ := F
    have hcomp : comp 71 a = antisymm12 a := rfl
    simp only [hcomp, anti_at, hz]
    rcases f2 with f2 | f2 <;> simp_all

/-- the completion where nothing equivalent is listed -/
lemma comp_none {c : ℕ} (hc : c ∈ relClasses) (a : List ℕ → Option ℂ) {i : I4}
    (h : ∀ g ∈ jrels c, a (idx4 (g.perm i)) = none) : comp c a (idx4 i) = none := by
  obtain ⟨i, j, k, l⟩ := i
  simp only [relClasses, List.mem_cons, List.not_mem_nil, or_false] at hc
  rcases hc with rfl | rfl | rfl | rfl
  · have hcomp : comp 4 a = symmHerm (symmCurrent a) := rfl
    simp only [jrels, List.forall_mem_cons, id, List.not_mem_nil, false_implies, implies_true, and_true] at h
    simp only [hcomp, herm_at, curr_at, h]
    rfl
  · have hcomp : comp 41 a = symmCurrent a := rfl
    simp only [jrels, List.forall_mem_cons, id, List.not_mem_nil, false_implies, implies_true, and_true] at h
    simp only [hcomp, curr_at, h]
    rfl
  · have hcomp : comp 5 a = symmHerm a := rfl
    simp only [jrels, List.forall_mem_cons, id, List.not_mem_nil, false_implies, implies_true, and_true] at h
    simp only [hcomp, herm_at, h]
    rfl
  · have hcomp : comp 71 a = antisymm12 a := rfl
    simp only [jrels, List.forall_mem_cons, id, List.not_mem_nil, false_implies, implies_true, and_true] at h
    simp only [hcomp, anti_at, h]
    rfl

/-- the relations of a class are involutions -/
lemma rel_invol {c : ℕ} (hc : c ∈ relClasses) {g : JRel} (hg : g ∈ jrels c) (i : I4) (z : ℂ) :
    g.perm (g.perm i) = i ∧ g.act.apply (g.act.apply z) = z := by
  obtain ⟨i, j, k, l⟩ := i
  simp only [relClasses, List.mem_cons, List.not_mem_nil, or_false] at hc
  rcases hc with rfl | rfl | rfl | rfl <;>
    (simp only [jrels, List.mem_cons, List.not_mem_nil, or_false] at hg
     rcases hg with rfl | rfl | rfl | rfl <;> simp [Act.apply])

/-- the relations of a class are closed under composition -/
lemma rel_comp {c : ℕ} (hc : c ∈ relClasses) {g h : JRel} (hg : g ∈ jrels c) (hh : h ∈ jrels c) :
    ∃ m ∈ jrels c, (∀ i, m.perm i = g.perm (h.perm i)) ∧ ∀ z, m.act.apply z = g.act.apply (h.act.apply z) := by
  have key : ∀ m ∈ jrels c, (∀ i, m.perm i = g.perm (h.perm i)) →
      (∀ z, m.act.apply z = g.act.apply (h.act.apply z)) → ∃ m ∈ jrels c, (∀ i, m.perm i = g.perm (h.perm i)) ∧
      ∀ z, m.act.apply z = g.act.apply (h.act.apply z) := fun m h1 h2 h3 => ⟨m, h1, h2, h3⟩
  simp only [relClasses, List.mem_cons, List.not_mem_nil, or_false] at hc
  rcases hc with rfl | rfl | rfl | rfl
  · simp only [jrels, List.mem_cons, List.not_mem_nil, or_false] at hg hh
    rcases hg with rfl | rfl | rfl | rfl <;> rcases hh with rfl | rfl | rfl | rfl <;>
    first
    | exact key ⟨id, .same⟩ (by simp [jrels]) (fun _ => rfl) (fun z => by simp [Act.apply])
    | exact key ⟨fun (i, j, k, l) => (k, l, i, j), .same⟩ (by simp [jrels]) (fun _ => rfl) (fun z => by simp [Act.apply])
    | exact key ⟨fun (i, j, k, l) => (j, i, l, k), .conj⟩ (by simp [jrels]) (fun _ => rfl) (fun z => by simp [Act.apply])
    | exact key ⟨fun (i, j, k, l) => (l, k, j, i), .conj⟩ (by simp [jrels]) (fun _ => rfl) (fun z => by simp [Act.apply])
  · simp only [jrels, List.mem_cons, List.not_mem_nil, or_false] at hg hh
    rcases hg with rfl | rfl <;> rcases hh with rfl | rfl <;>
    first
    | exact key ⟨id, .same⟩ (by simp [jrels]) (fun _ => rfl) (fun z => by simp [Act.apply])
    | exact key ⟨fun (i, j, k, l) => (k, l, i, j), .same⟩ (by simp [jrels]) (fun _ => rfl) (fun z => by simp [Act.apply])
  · simp only [jrels, List.mem_cons, List.not_mem_nil, or_false] at hg hh
    rcases hg with rfl | rfl <;> rcases hh with rfl | rfl <;>
    first
    | exact key ⟨id, .same⟩ (by simp [jrels]) (fun _ => rfl) (fun z => by simp [Act.apply])
    | exact key ⟨fun (i, j, k, l) => (j, i, l, k), .conj⟩ (by simp [jrels]) (fun _ => rfl) (fun z => by simp [Act.apply])
  · simp only [jrels, List.mem_cons, List.not_mem_nil, or_false] at hg hh
    rcases hg with rfl | rfl <;> rcases hh with rfl | rfl <;>
    first
    | exact key ⟨id, .same⟩ (by simp [jrels]) (fun _ => rfl) (fun z => by simp [Act.apply])
    | exact key ⟨fun (i, j, k, l) => (j, i, k, l), .neg⟩ (by simp [jrels]) (fun _ => rfl) (fun z => by simp [Act.apply])

end Verif.Jms
