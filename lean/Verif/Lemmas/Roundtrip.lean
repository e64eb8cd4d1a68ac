import Verif.Lemmas.Names
import Verif.Props.Symmetrize
import Verif.Props.SymmFactors
import Verif.Props.Names

/-! Helper lemmas for C23 (dictionary - symmetrized arrays - dictionary). -/

set_option autoImplicit false
set_option linter.unusedSimpArgs false
set_option linter.unusedSectionVars false

namespace Verif.EFT.Util
open Verif Verif.Spec Verif.EFT Classical

/-- lookup after a loop that never raises nor skips -/
lemma mapDictM_ok {f : Str → AVal → Except Err (Option AVal)} {g : Str → AVal → AVal} {C : Dict Str AVal}
    (h : ∀ k v, (k, v) ∈ C → f k v = .ok (some (g k v))) :
    ∃ D, mapDictM f C = .ok D ∧ D = C.map fun kv => (kv.1, g kv.1 kv.2) := by
  induction C with
  | nil => exact ⟨[], rfl, rfl⟩
  | cons p C ih =>
    obtain ⟨k, v⟩ := p
    obtain ⟨D, hD, e⟩ := ih fun k v hkv => h k v (by simp [hkv])
    refine ⟨_, ?_, rfl⟩
    simp only [mapDictM, h k v (by simp), hD, Except.map, e, List.map_cons]

lemma get?_map_kv (g : Str → AVal → AVal) (C : Dict Str AVal) (k : Str) :
    Dict.get? (C.map fun kv => (kv.1, g kv.1 kv.2)) k = (Dict.get? C k).map (g k) := by
  induction C with
  | nil => rfl
  | cons p C ih =>
    obtain ⟨a, b⟩ := p
    simp only [List.map_cons, Dict.get?]
    by_cases e : a = k
    · simp [e]
    · simp [e, ih]

lemma keys_map_kv (g : Str → AVal → AVal) (C : Dict Str AVal) :
    Dict.keys (C.map fun kv => (kv.1, g kv.1 kv.2)) = Dict.keys C := by
  simp [Dict.keys, Function.comp_def]

/-- shapes with at most three generations -/
def Le3 (s : List ℕ) : Prop := (s.length = 2 ∨ s.length = 4) ∧ ∀ n ∈ s, 1 ≤ n ∧ n ≤ 3

/-- the value fits the shape -/
def Fits3 (s : Shape) (v : AVal) : Prop := Fits s v ∧ ∀ l, s = some l → Le3 l

/-- padding, written as a total function -/
noncomputable def padF : AVal → AVal
  | .num z => .num z
  | .arr a => .arr ⟨List.replicate a.shape.length 3, a.get⟩

lemma min3 {s : List ℕ} (h : Le3 s) (hm : s.min? = some 3) : s = List.replicate s.length 3 := by
  rw [List.eq_replicate_iff]
  refine ⟨rfl, fun n hn => ?_⟩
  have := (List.min?_eq_some_iff.1 hm).2 n hn
  exact le_antisymm (h.2 n hn).2 this

lemma inRange_of_le {s idx : List ℕ} (h : inRange s idx = true) (hs : ∀ m ∈ s, m ≤ 3) :
    inRange (List.replicate s.length 3) idx = true := by
  induction s generalizing idx with
  | nil => cases idx <;> simp_all [inRange]
  | cons m s ih =>
    cases idx with
    | nil => simp [inRange] at h
    | cons i is =>
      simp only [inRange, Bool.and_eq_true, decide_eq_true_eq] at h
      simp only [List.length_cons, List.replicate_succ, inRange, Bool.and_eq_true, decide_eq_true_eq]
      exact ⟨lt_of_lt_of_le h.1 (hs m (by simp)), ih h.2 (fun m hm => hs m (by simp [hm]))⟩

lemma padVal_eq {s : Shape} {v : AVal} (h : Fits3 s v) : padVal 3 0 v = .ok (some (padF v)) := by
  cases v with
  | num z => rfl
  | arr a =>
    cases s with
    | none => simp [Fits3, Fits] at h
    | some s =>
      obtain ⟨⟨rfl, hwf⟩, hl⟩ := h
      have hl := hl _ rfl
      by_cases hm : a.shape.min? = some 3
      · simp only [padVal, hm, if_true, padF]
        obtain ⟨sh, g⟩ := a
        have := min3 hl hm
        simp only at this
        rw [← this]
      · have hall : (a.shape.all (· ≤ 3)) = true := by simpa using fun n hn => (hl.2 n hn).2
        simp only [padVal]
        rw [if_neg hm, if_pos hl.1.symm, if_pos hall]
        simp only [padF, NDArr.ofFn]
        congr 4
        funext idx
        by_cases hi : inRange a.shape idx = true
        · simp [hi, inRange_of_le hi fun m hm => (hl.2 m hm).2]
        · have hi' : inRange a.shape idx = false := by simpa using hi
          simp [hi', hwf idx hi']

/-- cutting a `3×…×3` array to the shape -/
noncomputable def cutF (s : Shape) : AVal → AVal
  | .num z => .num z
  | .arr a => match s with
    | none => .arr a
    | some s => .arr (NDArr.ofFn s a.get)

/-- a value in padded form -/
def Padded (s : Shape) (v : AVal) : Prop := match s, v with
  | none, .num _ => True
  | some l, .arr a => a.shape = List.replicate l.length 3 ∧ a.WF
  | _, _ => False

lemma zipMin {s : List ℕ} (hs : ∀ m ∈ s, m ≤ 3) :
    List.zipWith min s (List.replicate s.length 3) = s := by
  induction s with
  | nil => rfl
  | cons m s ih =>
    simp only [List.length_cons, List.replicate_succ, List.zipWith_cons_cons, List.cons.injEq]
    exact ⟨min_eq_left (hs m (by simp)), ih fun m hm => hs m (by simp [hm])⟩

lemma ofFn_self {a : NDArr} (h : a.WF) : NDArr.ofFn a.shape a.get = a := by
  obtain ⟨s, g⟩ := a
  simp only [NDArr.ofFn]
  congr 1
  funext idx
  by_cases hi : inRange s idx = true
  · simp [hi]
  · have hi' : inRange s idx = false := by simpa using hi
    simp only [hi']
    exact (h idx hi').symm

lemma unpadVal_eq {s : Shape} {v : AVal} (hs : ∀ l, s = some l → Le3 l) (h : Padded s v) :
    unpadVal s v = .ok (some (cutF s v)) := by
  cases v with
  | num z => rfl
  | arr a =>
    cases s with
    | none => simp [Padded] at h
    | some s =>
      obtain ⟨hsh, hwf⟩ := h
      have hl := hs _ rfl
      by_cases he : a.shape = s
      · subst he
        simp [unpadVal, cutF, ofFn_self hwf]
      · have hlen : a.shape.length = s.length := by rw [hsh]; simp
        simp only [unpadVal, cutF]
        rw [if_neg he, if_pos (by rw [hlen]; exact hl.1.symm), if_pos (by rw [hlen]), hsh,
          zipMin fun m hm => (hl.2 m hm).2]

/-- `needsPadding` is false only if every array has three generations everywhere -/
lemma all3_of_noPad {U : Util} (hn : U.nGen = 3) (hp : U.needsPadding = false)
    (hle : ∀ k l, U.keysShape.get? k = some (some l) → Le3 l) {k : Str} {l : List ℕ}
    (hk : U.keysShape.get? k = some (some l)) : l = List.replicate l.length 3 := by
  have hl := hle k l hk
  unfold needsPadding at hp
  have hmem : ∀ m, l.min? = some m → m ∈ U.keysShape.filterMap fun kv => kv.2.bind List.min? := by
    intro m hm
    exact List.mem_filterMap.2 ⟨_, Dict.mem_of_get? hk, by simpa using hm⟩
  have hne : l ≠ [] := by rintro rfl; rcases hl.1 with h | h <;> simp at h
  obtain ⟨m, hm⟩ : ∃ m, l.min? = some m := by
    cases h : l.min? with
    | none => exact absurd (List.min?_eq_none_iff.1 h) hne
    | some m => exact ⟨m, rfl⟩
  have hmm := hmem m hm
  cases h : (U.keysShape.filterMap fun kv => kv.2.bind List.min?).min? with
  | none => rw [List.min?_eq_none_iff.1 h] at hmm; simp at hmm
  | some m' =>
    rw [h] at hp
    simp only [ne_eq, decide_not, Bool.not_eq_false', decide_eq_true_eq] at hp
    have : m' ≤ m := (List.min?_eq_some_iff.1 h).2 m hmm
    have hm3 : m ≤ 3 := (hl.2 m (List.min?_eq_some_iff.1 hm).1).2
    have : m = 3 := by omega
    subst this
    exact min3 hl hm

/-! ### Dictionary-level stages -/

/-- shape of a key -/
def shapeOf (U : Util) (k : Str) : Shape := (U.keysShape.get? k).getD none

lemma keys_eq_of {C D : Dict Str AVal} {g : Str → AVal → AVal}
    (h : D = C.map fun kv => (kv.1, g kv.1 kv.2)) (hn : C.NodupKeys) :
    D.NodupKeys ∧ D.keys = C.keys ∧ ∀ k, D.get? k = (C.get? k).map (g k) := by
  subst h
  refine ⟨?_, keys_map_kv g C, get?_map_kv g C⟩
  unfold Dict.NodupKeys
  rw [keys_map_kv]; exact hn

lemma stage_map {f : Str → AVal → Except Err (Option AVal)} {g : Str → AVal → AVal} {C : Dict Str AVal}
    (hn : C.NodupKeys) (h : ∀ k v, C.get? k = some v → f k v = .ok (some (g k v))) :
    ∃ D, mapDictM f C = .ok D ∧ D.NodupKeys ∧ D.keys = C.keys ∧
      ∀ k, D.get? k = (C.get? k).map (g k) := by
  obtain ⟨D, hD, e⟩ := mapDictM_ok fun k v hkv => h k v (Dict.get?_of_mem hn hkv)
  exact ⟨D, hD, keys_eq_of e hn⟩

variable {U : Util}

lemma le3_of_regular (hU : Regular U) {k : Str} {l : List ℕ} (hk : U.keysShape.get? k = some (some l)) :
    Le3 l := by
  obtain ⟨c, hc, -, h0, hl, -⟩ := hU.cls k _ hk
  obtain ⟨hr, h3⟩ := hl l rfl
  have hg := (hU.good k _ hk).2 l rfl
  refine ⟨?_, fun n hn => ⟨(hg.2.2 n hn).1, h3 n hn⟩⟩
  have hc0 : c ≠ 0 := fun e => by simpa using h0.2 e
  rw [hr, rank, if_neg hc0]
  split <;> simp

lemma padF_noPad {s : List ℕ} {v : AVal} (h : Fits (some s) v) (hs : s = List.replicate s.length 3) :
    padF v = v := by
  cases v with
  | num z => simp [Fits] at h
  | arr a =>
    obtain ⟨rfl, -⟩ := h
    simp only [padF]
    rw [← hs]

lemma stage_pad (hU : Regular U) {C : Dict Str AVal} (hn : C.NodupKeys)
    (h : ∀ k v, C.get? k = some v → ∃ s, U.keysShape.get? k = some s ∧ Fits s v) :
    ∃ D, U.pad C = .ok D ∧ D.NodupKeys ∧ D.keys = C.keys ∧ ∀ k, D.get? k = (C.get? k).map padF := by
  unfold pad
  by_cases hp : U.needsPadding = true
  · rw [if_pos hp]
    refine stage_map hn fun k v hkv => ?_
    obtain ⟨s, hs, hf⟩ := h k v hkv
    rw [hU.nGen]
    exact padVal_eq (s := s) ⟨hf, fun l hl => le3_of_regular hU (by rw [hs, hl])⟩
  · rw [if_neg hp]
    refine ⟨C, rfl, hn, rfl, fun k => ?_⟩
    cases hkv : C.get? k with
    | none => rfl
    | some v =>
      obtain ⟨s, hs, hf⟩ := h k v hkv
      simp only [Option.map_some, Option.some.injEq]
      cases s with
      | none => cases v with
        | num z => rfl
        | arr a => simp [Fits] at hf
      | some s =>
        exact (padF_noPad hf (all3_of_noPad hU.nGen (by simpa using hp)
          (fun k l hk => le3_of_regular hU hk) hs)).symm

lemma stage_unpad (hU : Regular U) {C : Dict Str AVal} (hn : C.NodupKeys)
    (h : ∀ k v, C.get? k = some v → ∃ s, U.keysShape.get? k = some s ∧ Padded s v) :
    ∃ D, U.unpad C = .ok D ∧ D.NodupKeys ∧ D.keys = C.keys ∧
      ∀ k, D.get? k = (C.get? k).map (cutF (shapeOf U k)) := by
  unfold unpad
  by_cases hp : U.needsPadding = true
  · rw [if_pos hp]
    refine stage_map (g := fun k => cutF (shapeOf U k)) hn fun k v hkv => ?_
    obtain ⟨s, hs, hf⟩ := h k v hkv
    simp only [hs, shapeOf, Option.getD_some]
    exact unpadVal_eq (fun l hl => le3_of_regular hU (by rw [hs, hl])) hf
  · rw [if_neg hp]
    refine ⟨C, rfl, hn, rfl, fun k => ?_⟩
    cases hkv : C.get? k with
    | none => rfl
    | some v =>
      obtain ⟨s, hs, hf⟩ := h k v hkv
      simp only [Option.map_some, Option.some.injEq, shapeOf, hs, Option.getD_some]
      cases v with
      | num z => rfl
      | arr a =>
        cases s with
        | none => simp [Padded] at hf
        | some s =>
          obtain ⟨hsh, hwf⟩ := hf
          have := all3_of_noPad hU.nGen (by simpa using hp) (fun k l hk => le3_of_regular hU hk) hs
          have e : s = a.shape := by rw [hsh]; exact this
          simp only [cutF]
          rw [e, ofFn_self hwf]

/-! ### Array operations on padded values -/

/-- total version of `onArr4` -/
noncomputable def op4 (f : (I4 → ℂ) → I4 → ℂ) : AVal → AVal
  | .num z => .num z
  | .arr a => .arr ⟨[3, 3, 3, 3], fun idx =>
        match idx with
        | [i, j, k, l] =>
          if h : i < 3 ∧ j < 3 ∧ k < 3 ∧ l < 3 then
            f (fun m => a.get (idx4 m)) (⟨i, h.1⟩, ⟨j, h.2.1⟩, ⟨k, h.2.2.1⟩, ⟨l, h.2.2.2⟩)
          else 0
        | _ => 0⟩
/-- total version of `onArr2` -/
noncomputable def op2 (f : (I2 → ℂ) → I2 → ℂ) : AVal → AVal
  | .num z => .num z
  | .arr a => .arr ⟨[3, 3], fun idx =>
        match idx with
        | [i, j] =>
          if h : i < 3 ∧ j < 3 then f (fun m => a.get (idx2 m)) (⟨i, h.1⟩, ⟨j, h.2⟩) else 0
        | _ => 0⟩

lemma onArr4_eq {f : (I4 → ℂ) → I4 → ℂ} {l : List ℕ} {v : AVal} (hl : l.length = 4)
    (h : Padded (some l) v) : onArr4 f v = .ok (op4 f v) := by
  cases v with
  | num z => simp [Padded] at h
  | arr a =>
    have : a.shape = [3, 3, 3, 3] := by rw [h.1, hl]; rfl
    simp only [onArr4, this, if_true, op4]
    rfl

lemma onArr2_eq {f : (I2 → ℂ) → I2 → ℂ} {l : List ℕ} {v : AVal} (hl : l.length = 2)
    (h : Padded (some l) v) : onArr2 f v = .ok (op2 f v) := by
  cases v with
  | num z => simp [Padded] at h
  | arr a =>
    have : a.shape = [3, 3] := by rw [h.1, hl]; rfl
    simp only [onArr2, this, if_true, op2]
    rfl

lemma padded_op4 {f : (I4 → ℂ) → I4 → ℂ} {l : List ℕ} {v : AVal} (hl : l.length = 4)
    (h : Padded (some l) v) : Padded (some l) (op4 f v) := by
  cases v with
  | num z => simp [Padded] at h
  | arr a =>
    refine ⟨by rw [hl]; rfl, ?_⟩
    intro idx hi
    simp only at hi ⊢
    split
    · rename_i i j k l
      split
      · rename_i hlt
        simp only [inRange, hlt, decide_true, Bool.and_self, Bool.true_eq_false] at hi
      · rfl
    · rfl

lemma padded_op2 {f : (I2 → ℂ) → I2 → ℂ} {l : List ℕ} {v : AVal} (hl : l.length = 2)
    (h : Padded (some l) v) : Padded (some l) (op2 f v) := by
  cases v with
  | num z => simp [Padded] at h
  | arr a =>
    refine ⟨by rw [hl]; rfl, ?_⟩
    intro idx hi
    simp only at hi ⊢
    split
    · rename_i i j
      split
      · rename_i hlt
        simp only [inRange, hlt, decide_true, Bool.and_self, Bool.true_eq_false] at hi
      · rfl
    · rfl

/-- entries of an array value -/
def ent4 : AVal → I4 → ℂ
  | .num _, _ => 0
  | .arr a, i => a.get (idx4 i)
def ent2 : AVal → I2 → ℂ
  | .num _, _ => 0
  | .arr a, i => a.get (idx2 i)

lemma ent4_op4 {f : (I4 → ℂ) → I4 → ℂ} (a : NDArr) (i : I4) :
    ent4 (op4 f (.arr a)) i = f (ent4 (.arr a)) i := by
  obtain ⟨i, j, k, l⟩ := i
  simp only [ent4, op4, idx4, i.isLt, j.isLt, k.isLt, l.isLt, and_self, dif_pos, Fin.eta]
  rfl

lemma ent2_op2 {f : (I2 → ℂ) → I2 → ℂ} (a : NDArr) (i : I2) :
    ent2 (op2 f (.arr a)) i = f (ent2 (.arr a)) i := by
  obtain ⟨i, j⟩ := i
  simp only [ent2, op2, idx2, i.isLt, j.isLt, and_self, dif_pos, Fin.eta]
  rfl

lemma ent4_padF (v : AVal) : ent4 (padF v) = ent4 v := by cases v <;> rfl
lemma ent2_padF (v : AVal) : ent2 (padF v) = ent2 v := by cases v <;> rfl

lemma ent4_cutF (s : List ℕ) (v : AVal) (i : I4) (hi : inRange s (idx4 i) = true) :
    ent4 (cutF (some s) v) i = ent4 v i := by
  cases v with
  | num z => rfl
  | arr a => simp [cutF, ent4, NDArr.ofFn, hi]
lemma ent2_cutF (s : List ℕ) (v : AVal) (i : I2) (hi : inRange s (idx2 i) = true) :
    ent2 (cutF (some s) v) i = ent2 v i := by
  cases v with
  | num z => rfl
  | arr a => simp [cutF, ent2, NDArr.ofFn, hi]

lemma fits_cutF {s : Shape} {v : AVal} (h : Padded s v) : Fits s (cutF s v) := by
  cases v with
  | num z => cases s with
    | none => trivial
    | some l => simp [Padded] at h
  | arr a => cases s with
    | none => simp [Padded] at h
    | some l =>
      refine ⟨rfl, fun idx hi => ?_⟩
      simp only [NDArr.ofFn] at hi ⊢
      simp [hi]

lemma padded_padF {s : Shape} {v : AVal} (hs : ∀ l, s = some l → Le3 l) (h : Fits s v) :
    Padded s (padF v) := by
  cases v with
  | num z => cases s with
    | none => trivial
    | some l => simp [Fits] at h
  | arr a => cases s with
    | none => simp [Fits] at h
    | some l =>
      obtain ⟨rfl, hwf⟩ := h
      refine ⟨rfl, fun idx hi => ?_⟩
      simp only at hi ⊢
      apply hwf
      cases h' : inRange a.shape idx with
      | false => rfl
      | true => rw [inRange_of_le h' fun m hm => ((hs _ rfl).2 m hm).2] at hi; simp at hi

/-! ### The two per-class operations -/

/-- `symmetrize_nonred` on padded values -/
noncomputable def symF (c : ℕ) : AVal → AVal :=
  if c = 0 then realVal
  else if c = 2 then op2 (runProg Gen.symmetrize_2)
  else if c = 9 then op2 (runProg Gen.symmetrize_9)
  else if c = 4 then op4 (fun b i => runProg Gen.symmetrize_4 b i / d4 i)
  else if c = 41 then op4 (fun b i => runProg Gen.symmetrize_41 b i / d4 i)
  else if c = 5 then op4 (runProg Gen.symmetrize_5)
  else if c = 6 then op4 (fun b i => runProg Gen.symmetrize_6 b i / d6 i)
  else if c = 7 then op4 (fun b i => runProg Gen.symmetrize_7 b i / d7 i)
  else if c = 71 then op4 (fun b i => runProg Gen.symmetrize_71 b i / d7 i)
  else if c = 8 then op4 (fun b => runProg Gen.symmetrize_8 (runProg Gen.scale_8 b))
  else id

/-- the factors of `unscale_dict` on padded values -/
noncomputable def scaF (c : ℕ) : AVal → AVal :=
  if c = 4 ∨ c = 41 then op4 (fun b i => (d4 i : ℂ) * b i)
  else if c = 6 then op4 (fun b i => (d6 i : ℂ) * b i)
  else if c = 7 ∨ c = 71 then op4 (fun b i => (d7 i : ℂ) * b i)
  else id

lemma classOf_eq {c : ℕ} {k : Str} (hc : c ∈ classIds) (h : InClass U c k) :
    U.classOf k = some (if c = 3 then 1 else c) := by
  obtain ⟨hm, hno⟩ := h
  have hno : ∀ c', c ≠ c' → k ∉ U.symm c' := fun c' e => hno c' (Ne.symm e)
  simp only [classIds, List.mem_cons, List.not_mem_nil, or_false] at hc
  unfold classOf
  simp only [List.mem_append]
  rcases hc with rfl | rfl | rfl | rfl | rfl | rfl | rfl | rfl | rfl | rfl | rfl | rfl
  · simp [hm]
  · simp [hm, hno 0]
  · simp [hm, hno 0, hno 1, hno 3]
  · simp [hm, hno 0]
  · simp [hm, hno 0, hno 1, hno 3, hno 2]
  · simp [hm, hno 0, hno 1, hno 3, hno 2, hno 4]
  · simp [hm, hno 0, hno 1, hno 3, hno 2, hno 4, hno 41]
  · simp [hm, hno 0, hno 1, hno 3, hno 2, hno 4, hno 41, hno 5]
  · simp [hm, hno 0, hno 1, hno 3, hno 2, hno 4, hno 41, hno 5, hno 6]
  · simp [hm, hno 0, hno 1, hno 3, hno 2, hno 4, hno 41, hno 5, hno 6, hno 7]
  · simp [hm, hno 0, hno 1, hno 3, hno 2, hno 4, hno 41, hno 5, hno 6, hno 7, hno 71]
  · simp [hm, hno 0, hno 1, hno 3, hno 2, hno 4, hno 41, hno 5, hno 6, hno 7, hno 71, hno 8]

/-- everything `Regular` says about one key -/
structure KeyOK (U : Util) (k : Str) (s : Shape) (c : ℕ) : Prop where
  hs : U.keysShape.get? k = some s
  hc : c ∈ classIds
  cls : InClass U c k
  h0 : s = none ↔ c = 0
  hl : ∀ l, s = some l → l.length = rank c ∧ Le3 l
  h8 : c = 8 → s = some [3, 3, 3, 3]

lemma keyOK (hU : Regular U) {k : Str} {s : Shape} (hs : U.keysShape.get? k = some s) :
    ∃ c, KeyOK U k s c := by
  obtain ⟨c, hc, hcl, h0, hl, h8⟩ := hU.cls k s hs
  exact ⟨c, hs, hc, hcl, h0, fun l e => ⟨(hl l e).1, le3_of_regular hU (by rw [hs, e])⟩, h8⟩

lemma InClass.unique {c c' : ℕ} {k : Str} (h : InClass U c k) (h' : InClass U c' k) : c = c' := by
  by_contra e
  exact h.2 c' (Ne.symm e) h'.1

lemma symm_step {k : Str} {s : Shape} {c : ℕ} (hk : KeyOK U k s c) {v : AVal} (hv : Padded s v) :
    symmNonredVal (if c = 3 then 1 else c) v = .ok (symF c v) ∧ Padded s (symF c v) := by
  obtain ⟨-, hc, -, h0, hl, -⟩ := hk
  cases s with
  | none =>
    have : c = 0 := h0.1 rfl
    subst this
    refine ⟨rfl, ?_⟩
    cases v with
    | num z => trivial
    | arr a => simp [Padded] at hv
  | some l =>
    have hr := (hl l rfl).1
    simp only [classIds, List.mem_cons, List.not_mem_nil, or_false] at hc
    have h00 : (0 : ℕ) ≠ c := fun e => by simpa using h0.2 e.symm
    rcases hc with rfl | rfl | rfl | rfl | rfl | rfl | rfl | rfl | rfl | rfl | rfl | rfl
    · exact absurd rfl h00
    · exact ⟨rfl, hv⟩
    · exact ⟨onArr2_eq (f := runProg Gen.symmetrize_2) hr hv, padded_op2 hr hv⟩
    · exact ⟨rfl, hv⟩
    · exact ⟨onArr4_eq (f := fun b i => runProg Gen.symmetrize_4 b i / d4 i) hr hv,
        padded_op4 (f := fun b i => runProg Gen.symmetrize_4 b i / d4 i) hr hv⟩
    · exact ⟨onArr4_eq (f := fun b i => runProg Gen.symmetrize_41 b i / d4 i) hr hv,
        padded_op4 (f := fun b i => runProg Gen.symmetrize_41 b i / d4 i) hr hv⟩
    · exact ⟨onArr4_eq (f := runProg Gen.symmetrize_5) hr hv, padded_op4 hr hv⟩
    · exact ⟨onArr4_eq (f := fun b i => runProg Gen.symmetrize_6 b i / d6 i) hr hv,
        padded_op4 (f := fun b i => runProg Gen.symmetrize_6 b i / d6 i) hr hv⟩
    · exact ⟨onArr4_eq (f := fun b i => runProg Gen.symmetrize_7 b i / d7 i) hr hv,
        padded_op4 (f := fun b i => runProg Gen.symmetrize_7 b i / d7 i) hr hv⟩
    · exact ⟨onArr4_eq (f := fun b i => runProg Gen.symmetrize_71 b i / d7 i) hr hv,
        padded_op4 (f := fun b i => runProg Gen.symmetrize_71 b i / d7 i) hr hv⟩
    · exact ⟨onArr4_eq (f := fun b => runProg Gen.symmetrize_8 (runProg Gen.scale_8 b)) hr hv,
        padded_op4 (f := fun b => runProg Gen.symmetrize_8 (runProg Gen.scale_8 b)) hr hv⟩
    · exact ⟨onArr2_eq (f := runProg Gen.symmetrize_9) hr hv, padded_op2 hr hv⟩

lemma scale_step {k : Str} {s : Shape} {c : ℕ} (hk : KeyOK U k s c) {v : AVal} (hv : Padded s v) :
    U.scaleVal k v = .ok (scaF c v) ∧ Padded s (scaF c v) := by
  obtain ⟨-, hc, hcl, h0, hl, -⟩ := hk
  unfold scaleVal scaF
  rw [Props.C21_scale_factor U c k hcl]
  cases s with
  | none =>
    have : c = 0 := h0.1 rfl
    subst this
    exact ⟨rfl, hv⟩
  | some l =>
    have hr := (hl l rfl).1
    by_cases h4 : c = 4 ∨ c = 41
    · have hr4 : l.length = 4 := by rw [hr]; rcases h4 with rfl | rfl <;> rfl
      simp only [h4, if_true]
      exact ⟨onArr4_eq hr4 hv, padded_op4 hr4 hv⟩
    simp only [h4, if_false]
    by_cases h6 : c = 6
    · have hr4 : l.length = 4 := by rw [hr, h6]; rfl
      simp only [h6, if_true]
      exact ⟨onArr4_eq hr4 hv, padded_op4 hr4 hv⟩
    simp only [h6, if_false]
    by_cases h7 : c = 7 ∨ c = 71
    · have hr4 : l.length = 4 := by rw [hr]; rcases h7 with rfl | rfl <;> rfl
      simp only [h7, if_true]
      exact ⟨onArr4_eq hr4 hv, padded_op4 hr4 hv⟩
    simp only [h7, if_false]
    exact ⟨rfl, hv⟩

/-- `unscale_8` on padded values of class 8 -/
noncomputable def u8F (c : ℕ) : AVal → AVal := if c = 8 then op4 (runProg Gen.unscale_8) else id

/-- the loop over class-8 keys -/
lemma stage_unscale8 (ks : List Str) : ∀ (C : Dict Str AVal), C.NodupKeys → ks.Nodup →
    (∀ k ∈ ks, ∃ v, C.get? k = some v ∧ Padded (some [3, 3, 3, 3]) v) →
    ∃ D, unscale8Of C ks = .ok D ∧ D.NodupKeys ∧ D.keys = C.keys ∧
      ∀ k, D.get? k = (C.get? k).map (if k ∈ ks then op4 (runProg Gen.unscale_8) else id) := by
  induction ks with
  | nil => intro C hn _ _; exact ⟨C, rfl, hn, rfl, fun k => by simp⟩
  | cons k ks ih =>
    intro C hn hnd h
    obtain ⟨v, hv, hp⟩ := h k (by simp)
    have hkk : k ∉ ks := (List.nodup_cons.1 hnd).1
    have hin : k ∈ C.keys := (Dict.isSome_get?_iff _ _).1 (by rw [hv]; rfl)
    obtain ⟨D, hD, h1, h2, h3⟩ := ih (C.set k (op4 (runProg Gen.unscale_8) v))
      (Dict.nodupKeys_set _ _ _ hn) (List.nodup_cons.1 hnd).2 (by
        intro k' hk'
        obtain ⟨v', hv', hp'⟩ := h k' (by simp [hk'])
        refine ⟨v', ?_, hp'⟩
        have hne : k ≠ k' := fun e => hkk (by rw [e]; exact hk')
        rw [Dict.get?_set_ne _ _ hne, hv'])
    refine ⟨D, ?_, h1, ?_, ?_⟩
    · simp only [unscale8Of, hv, onArr4_eq (f := runProg Gen.unscale_8) (l := [3,3,3,3]) rfl hp, hD]
    · rw [h2, Dict.keys_set, if_pos hin]
    · intro k'
      rw [h3, Dict.get?_set]
      by_cases e : k = k'
      · subst e; simp [hkk, hv]
      · simp only [e, if_false, List.mem_cons, Ne.symm e, false_or]

end Verif.EFT.Util
