import Verif.Lemmas.Flatten
import Verif.Spec.EFTUtil

/-!
# C24, C25: flattening for the ODE solver, padding
-/

set_option autoImplicit false

namespace Verif.Props
open Verif Verif.EFT Verif.EFT.Util Verif.Spec

section C24

private lemma dictToArrayOf_skip (k : Str) (v : AVal) (C : Dict Str AVal) (ks : List Str) (h : k ∉ ks) :
    dictToArrayOf ((k, v) :: C) ks = dictToArrayOf C ks := by
  induction ks with
  | nil => rfl
  | cons k' ks ih =>
    have hne : k ≠ k' := fun e => h (by simp [e])
    have hk : k ∉ ks := fun e => h (by simp [e])
    simp only [dictToArrayOf, Dict.get?_cons, if_neg hne, ih hk]

private lemma arrayToDictFrom_shift (y z : List ℂ) (ks : List (Str × Shape)) (i : ℕ) :
    arrayToDictFrom (z ++ y) ks (z.length + i) = arrayToDictFrom y ks i := by
  induction ks generalizing i with
  | nil => rfl
  | cons p ks ih =>
    obtain ⟨k, s⟩ := p
    cases s with
    | none =>
      simp only [arrayToDictFrom, List.getElem?_append_right (Nat.le_add_right _ _),
        Nat.add_sub_cancel_left, Nat.add_assoc, ih]
    | some s =>
      simp only [arrayToDictFrom, List.drop_append, List.drop_eq_nil_of_le (Nat.le_add_right z.length i),
        Nat.add_sub_cancel_left, List.nil_append, Nat.add_assoc, ih]

private lemma ravel_length {s : Shape} {v : AVal} (h : Fits s v) : (ravel v).length = size s := by
  cases s <;> cases v <;> simp_all [Fits, ravel, size, length_indices]

/-- Dictionary to vector and back: for every list of keys with shapes and every
dictionary in canonical order and shape, `C_dict2array` succeeds and `C_array2dict`
of its result is the same dictionary. -/
theorem C24_dict_array_dict (U : Util) (hn : U.keysShape.NodupKeys) (C : Dict Str AVal)
    (hC : Canonical U.keysShape C) :
    ∃ y, U.dictToArray C = .ok y ∧ y.length = totalSize U.keysShape ∧ U.arrayToDict y = .ok C := by
  unfold dictToArray arrayToDict cKeys
  generalize U.keysShape = ks at hn hC
  induction hC with
  | nil => exact ⟨[], rfl, rfl, rfl⟩
  | @cons ks kv kss C h1 h2 ih =>
    obtain ⟨k, s⟩ := ks
    obtain ⟨k', v⟩ := kv
    obtain ⟨rfl, hf⟩ := h1
    simp only [Dict.NodupKeys, Dict.keys, List.map_cons, List.nodup_cons] at hn
    obtain ⟨y, hy1, hyl, hy2⟩ := ih hn.2
    refine ⟨ravel v ++ y, ?_, ?_, ?_⟩
    · simp only [Dict.keys, List.map_cons, dictToArrayOf, Dict.get?_cons, if_true]
      rw [dictToArrayOf_skip _ _ _ _ hn.1]
      simp only [Dict.keys] at hy1
      rw [hy1]; rfl
    · simp [totalSize, ravel_length hf, hyl]
    · have hs := arrayToDictFrom_shift y (ravel v) kss 0
      rw [Nat.add_zero] at hs
      cases s with
      | none =>
        cases v with
        | arr a => simp [Fits] at hf
        | num z =>
          simp only [ravel, List.length_singleton] at hs
          simp only [arrayToDictFrom, ravel, List.cons_append, List.nil_append, List.getElem?_cons_zero,
            Nat.zero_add]
          rw [show (z :: y) = [z] ++ y from rfl, hs, hy2]; rfl
      | some s =>
        cases v with
        | num z => simp [Fits] at hf
        | arr a =>
          obtain ⟨rfl, hwf⟩ := hf
          have hl : (ravel (.arr a)).length = a.shape.prod := by simp [ravel, length_indices]
          rw [hl] at hs
          simp only [arrayToDictFrom, List.drop_zero, Nat.zero_add]
          rw [show a.shape.prod = (ravel (.arr a)).length from hl.symm, List.take_left, reshape_ravel hwf,
            hl, hs, hy2]
          rfl

/-- Vector to dictionary and back: `C_array2dict` succeeds exactly on vectors that are long
enough, its result is in canonical order and shape, and `C_dict2array` of it is the
vector (cut to the total size). -/
theorem C24_array_dict_array (U : Util) (hn : U.keysShape.NodupKeys) (y : List ℂ) :
    (totalSize U.keysShape ≤ y.length →
      ∃ C, U.arrayToDict y = .ok C ∧ Canonical U.keysShape C ∧
        U.dictToArray C = .ok (y.take (totalSize U.keysShape))) ∧
    (y.length < totalSize U.keysShape → ∃ e, U.arrayToDict y = .error e) := by
  unfold dictToArray arrayToDict cKeys
  generalize U.keysShape = ks at hn
  induction ks generalizing y with
  | nil => exact ⟨fun _ => ⟨[], rfl, .nil, rfl⟩, fun h => absurd h (by simp [totalSize])⟩
  | cons p ks ih =>
    obtain ⟨k, s⟩ := p
    simp only [Dict.NodupKeys, Dict.keys, List.map_cons, List.nodup_cons] at hn
    have ht : totalSize ((k, s) :: ks) = size s + totalSize ks := by simp [totalSize]
    cases s with
    | none =>
      simp only [size] at ht
      cases y with
      | nil =>
        refine ⟨fun h => absurd h (by rw [ht]; simp), fun _ => ⟨.indexError, rfl⟩⟩
      | cons z y =>
        have hs := arrayToDictFrom_shift y [z] ks 0
        simp only [List.length_singleton, Nat.add_zero, List.singleton_append] at hs
        obtain ⟨ih1, ih2⟩ := ih y hn.2
        constructor
        · intro h
          rw [ht] at h
          obtain ⟨C, hC1, hC2, hC3⟩ := ih1 (by simp at h; omega)
          refine ⟨(k, .num z) :: C, ?_, .cons ⟨rfl, trivial⟩ hC2, ?_⟩
          · simp only [arrayToDictFrom, List.getElem?_cons_zero, Nat.zero_add, hs, hC1]; rfl
          · simp only [Dict.keys, List.map_cons, dictToArrayOf, Dict.get?_cons, if_true]
            rw [dictToArrayOf_skip _ _ _ _ hn.1]
            simp only [Dict.keys] at hC3
            rw [hC3, ht, Nat.add_comm 1]; rfl
        · intro h
          rw [ht] at h
          obtain ⟨e, he⟩ := ih2 (by simp at h; omega)
          refine ⟨e, ?_⟩
          simp only [arrayToDictFrom, List.getElem?_cons_zero, Nat.zero_add, hs, he]; rfl
    | some s =>
      simp only [size] at ht
      by_cases hl : s.prod ≤ y.length
      · have hlen : (y.take s.prod).length = s.prod := by simp [hl]
        have hs := arrayToDictFrom_shift (y.drop s.prod) (y.take s.prod) ks 0
        rw [List.take_append_drop, hlen, Nat.add_zero] at hs
        obtain ⟨ih1, ih2⟩ := ih (y.drop s.prod) hn.2
        have hr : ∃ a, reshape s (y.take s.prod) = .ok a := ⟨_, if_pos hlen⟩
        obtain ⟨a, ha⟩ := hr
        obtain ⟨hra, hrs, hrw⟩ := ravel_reshape ha
        constructor
        · intro h
          rw [ht] at h
          obtain ⟨C, hC1, hC2, hC3⟩ := ih1 (by simp; omega)
          refine ⟨(k, .arr a) :: C, ?_, .cons ⟨rfl, hrs, hrw⟩ hC2, ?_⟩
          · simp only [arrayToDictFrom, List.drop_zero, ha, Nat.zero_add, hs, hC1]; rfl
          · simp only [Dict.keys, List.map_cons, dictToArrayOf, Dict.get?_cons, if_true]
            rw [dictToArrayOf_skip _ _ _ _ hn.1]
            simp only [Dict.keys] at hC3
            rw [hC3, ht, hra, List.take_add]; rfl
        · intro h
          rw [ht] at h
          obtain ⟨e, he⟩ := ih2 (by simp; omega)
          exact ⟨e, by simp only [arrayToDictFrom, List.drop_zero, ha, Nat.zero_add, hs, he]; rfl⟩
      · refine ⟨fun h => absurd h (by rw [ht]; omega), fun _ => ⟨.valueError, ?_⟩⟩
        have : reshape s ((y.drop 0).take s.prod) = .error .valueError := by
          unfold reshape
          rw [if_neg]
          simp; omega
        simp only [arrayToDictFrom, this]

/-- a concrete instance: one scalar, one 2x3 array -/
example : ∃ (U : Util) (C : Dict Str AVal), U.keysShape.NodupKeys ∧ Canonical U.keysShape C ∧
    totalSize U.keysShape = 7 :=
  ⟨⟨[], [], [], [("G".toList, none), ("phid".toList, some [2, 3])], 3⟩,
   [("G".toList, .num 2), ("phid".toList, .arr (NDArr.ofFn [2, 3] fun i => (i.sum : ℂ)))],
   by simp [Dict.NodupKeys, Dict.keys],
   .cons ⟨rfl, trivial⟩ (.cons ⟨rfl, rfl, by intro i hi; simp [NDArr.ofFn] at hi ⊢; simp [hi]⟩ .nil),
   by simp [totalSize, size]⟩

end C24

section C25

/-- a value that `pad_C`/`unpad_C` handle: a number, or an array of rank 2 or 4 of the
shape of the basis with at most `n` generations per dimension -/
def Paddable (n : ℕ) (s : Shape) (v : AVal) : Prop :=
  Fits s v ∧ ∀ l, s = some l → (l.length = 2 ∨ l.length = 4) ∧ ∀ m ∈ l, m ≤ n

private lemma inRange_replicate {s idx : List ℕ} {n : ℕ} (h : inRange s idx = true) (hs : ∀ m ∈ s, m ≤ n) :
    inRange (List.replicate s.length n) idx = true := by
  induction s generalizing idx with
  | nil => cases idx <;> simp_all [inRange]
  | cons m s ih =>
    cases idx with
    | nil => simp [inRange] at h
    | cons i is =>
      simp only [inRange, Bool.and_eq_true, decide_eq_true_eq] at h
      simp only [List.length_cons, List.replicate_succ, inRange, Bool.and_eq_true, decide_eq_true_eq]
      exact ⟨lt_of_lt_of_le h.1 (hs m (by simp)), ih h.2 (fun m hm => hs m (by simp [hm]))⟩

private lemma zipWith_min_replicate {s : List ℕ} {n : ℕ} (hs : ∀ m ∈ s, m ≤ n) :
    List.zipWith min s (List.replicate s.length n) = s := by
  induction s with
  | nil => rfl
  | cons m s ih =>
    simp only [List.length_cons, List.replicate_succ, List.zipWith_cons_cons, List.cons.injEq]
    exact ⟨min_eq_left (hs m (by simp)), ih fun m hm => hs m (by simp [hm])⟩

private lemma pad_unpad_val {n : ℕ} {fill : ℂ} {s : Shape} {v : AVal} (h : Paddable n s v) :
    ∃ w, padVal n fill v = .ok (some w) ∧ unpadVal s w = .ok (some v) := by
  obtain ⟨hf, hd⟩ := h
  cases v with
  | num z => exact ⟨.num z, rfl, rfl⟩
  | arr a =>
    cases s with
    | none => simp [Fits] at hf
    | some s =>
      obtain ⟨rfl, hwf⟩ := hf
      obtain ⟨hr, hle⟩ := hd _ rfl
      by_cases hm : a.shape.min? = some n
      · exact ⟨.arr a, by simp [padVal, hm], by simp [unpadVal]⟩
      · have hr' : a.shape.length = 4 ∨ a.shape.length = 2 := hr.symm
        have hall : (a.shape.all (· ≤ n)) = true := by simpa using hle
        refine ⟨.arr (NDArr.ofFn (List.replicate a.shape.length n)
          fun idx => if inRange a.shape idx then a.get idx else fill), ?_, ?_⟩
        · simp only [padVal]
          rw [if_neg hm, if_pos hr', if_pos hall]
        · simp only [unpadVal, NDArr.ofFn, List.length_replicate]
          by_cases he : List.replicate a.shape.length n = a.shape
          · exfalso
            apply hm
            rw [← he]
            rw [List.min?_replicate]
            rcases hr with h | h <;> simp [h]
          · rw [if_neg he, if_pos hr', if_pos (le_refl _), zipWith_min_replicate hle]
            obtain ⟨sh, g⟩ := a
            congr 4
            funext idx
            by_cases hi : inRange sh idx = true
            · simp [hi, inRange_replicate hi hle]
            · have : inRange sh idx = false := by simpa using hi
              simp only [this]
              exact (hwf idx this).symm

private lemma mapDictM_comp {f g : Str → AVal → Except Err (Option AVal)} {C : Dict Str AVal}
    (h : ∀ k v, (k, v) ∈ C → ∃ w, f k v = .ok (some w) ∧ g k w = .ok (some v)) :
    (mapDictM f C).bind (mapDictM g) = .ok C := by
  induction C with
  | nil => rfl
  | cons p C ih =>
    obtain ⟨k, v⟩ := p
    obtain ⟨w, hf, hg⟩ := h k v (by simp)
    have ih' := ih fun k v hkv => h k v (by simp [hkv])
    simp only [mapDictM, hf]
    cases hC : mapDictM f C with
    | error e => rw [hC] at ih'; simp [Except.bind] at ih'
    | ok D =>
      rw [hC] at ih'
      simp only [Except.bind] at ih'
      simp only [Except.map, Except.bind, mapDictM, hg, ih']

/-- Padding to `n_gen` generations (with any fill value) and unpadding returns the
dictionary unchanged, for every dictionary whose values have the shapes of the basis. -/
theorem C25_pad_unpad (U : Util) (C : Dict Str AVal) (fill : ℂ)
    (h : ∀ k v, (k, v) ∈ C → ∃ s, U.keysShape.get? k = some s ∧ Paddable U.nGen s v) :
    (U.pad C fill).bind U.unpad = .ok C := by
  unfold pad unpad
  by_cases hp : U.needsPadding = true
  · simp only [hp, if_true]
    apply mapDictM_comp
    intro k v hkv
    obtain ⟨s, hs, hpad⟩ := h k v hkv
    rw [hs]
    exact pad_unpad_val hpad
  · simp only [hp]; rfl

/-- The padded array: original entries where the original array has them, the fill value
elsewhere. -/
theorem C25_pad_entries (n : ℕ) (fill : ℂ) (a : NDArr) (hr : a.shape.length = 2 ∨ a.shape.length = 4)
    (hle : ∀ m ∈ a.shape, m ≤ n) :
    ∃ w, padVal n fill (.arr a) = .ok (some (.arr w)) ∧
      (∀ idx, inRange a.shape idx = true → w.get idx = a.get idx) ∧
      (a.shape.min? ≠ some n →
        w.shape = List.replicate a.shape.length n ∧
        ∀ idx, inRange w.shape idx = true → inRange a.shape idx = false → w.get idx = fill) := by
  by_cases hm : a.shape.min? = some n
  · exact ⟨a, by simp [padVal, hm], fun _ _ => rfl, fun h => absurd hm h⟩
  · have hall : (a.shape.all (· ≤ n)) = true := by simpa using hle
    refine ⟨NDArr.ofFn (List.replicate a.shape.length n)
      fun idx => if inRange a.shape idx then a.get idx else fill, ?_, ?_, fun _ => ⟨rfl, ?_⟩⟩
    · simp only [padVal]
      rw [if_neg hm, if_pos hr.symm, if_pos hall]
    · intro idx hi
      simp [NDArr.ofFn, hi, inRange_replicate hi hle]
    · intro idx h1 h2
      simp only [NDArr.ofFn] at h1
      simp [NDArr.ofFn, h1, h2]

/-- Padding entries do not matter: two padded arrays that agree inside the shape of the
basis have the same unpadded array. -/
theorem C25_unpad_ignores_padding (s : List ℕ) (n : ℕ) (a b : NDArr)
    (hs : s.length = 2 ∨ s.length = 4) (hle : ∀ m ∈ s, m ≤ n) (hmin : s.min? ≠ some n)
    (ha : a.shape = List.replicate s.length n) (hb : b.shape = List.replicate s.length n)
    (hab : ∀ idx, inRange s idx = true → a.get idx = b.get idx) :
    unpadVal (some s) (.arr a) = unpadVal (some s) (.arr b) ∧
      ∃ w, unpadVal (some s) (.arr a) = .ok (some (.arr w)) ∧ w.shape = s ∧
        ∀ idx, inRange s idx = true → w.get idx = a.get idx := by
  have hne : List.replicate s.length n ≠ s := by
    intro he
    apply hmin
    rw [← he, List.min?_replicate]
    rcases hs with h | h <;> simp [h]
  have e : ∀ c : NDArr, c.shape = List.replicate s.length n →
      unpadVal (some s) (.arr c) = .ok (some (.arr (NDArr.ofFn s c.get))) := by
    intro c hc
    simp only [unpadVal, hc, List.length_replicate]
    rw [if_neg hne, if_pos hs.symm, if_pos (le_refl _), zipWith_min_replicate hle]
  rw [e a ha, e b hb]
  constructor
  · congr 3
    simp only [NDArr.ofFn, NDArr.mk.injEq, true_and]
    funext idx
    split_ifs with hi
    · exact hab idx hi
    · rfl
  · exact ⟨_, rfl, rfl, fun idx hi => by simp [NDArr.ofFn, hi]⟩

/-- concrete instance: a WET-like two-generation array in a three-generation utility -/
example : ∃ (U : Util) (C : Dict Str AVal), U.needsPadding = true ∧ C ≠ [] ∧
    ∀ k v, (k, v) ∈ C → ∃ s, U.keysShape.get? k = some s ∧ Paddable U.nGen s v := by
  refine ⟨⟨[], [], [], [("u".toList, some [2, 2])], 3⟩,
    [("u".toList, .arr (NDArr.ofFn [2, 2] fun i => (i.sum : ℂ)))], by decide, by simp, ?_⟩
  intro k v hkv
  simp only [List.mem_singleton, Prod.mk.injEq] at hkv
  obtain ⟨rfl, rfl⟩ := hkv
  refine ⟨some [2, 2], by simp [Dict.get?], ⟨rfl, by intro i hi; simp [NDArr.ofFn] at hi ⊢; simp [hi]⟩, ?_⟩
  intro l hl
  cases hl
  simp

end C25

end Verif.Props
