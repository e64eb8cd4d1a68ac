import Verif.Lemmas.Dsix
import Verif.Lemmas.Depend
import Verif.Lemmas.SmeftBasis

/-!
# Writing and reading DSixTools blocks
-/

set_option autoImplicit false
set_option linter.unusedSimpArgs false

namespace Verif.Dsix
open Verif Verif.EFT Verif.EFT.Util Verif.Spec Verif.Beta Verif.Bridge Verif.Reflect Verif.Props Classical

/-! ### rows of blocks -/

lemma rowsOf_addRows (d : Blocks) (blk : Str) (rows : List Row) (b : Str) :
    rowsOf (addRows d blk rows) b = rowsOf d b ++ if blk = b then rows else [] := by
  unfold rowsOf addRows
  rw [Dict.get?_set]
  by_cases h : blk = b
  · subst h; simp
  · simp [h]

/-- a sequence of writes -/
def writes (d : Blocks) (ws : List (Str × List Row)) : Blocks :=
  ws.foldl (fun d w => addRows d w.1 w.2) d

lemma writes_append (d : Blocks) (a b : List (Str × List Row)) :
    writes d (a ++ b) = writes (writes d a) b := List.foldl_append

lemma rowsOf_writes : ∀ (ws : List (Str × List Row)) (d : Blocks) (b : Str),
    rowsOf (writes d ws) b = rowsOf d b ++ ws.flatMap fun w => if w.1 = b then w.2 else []
  | [], d, b => by simp [writes]
  | w :: ws, d, b => by
    have := rowsOf_writes ws (addRows d w.1 w.2) b
    rw [rowsOf_addRows] at this
    simp only [writes, List.foldl_cons] at this ⊢
    rw [this]
    simp

lemma nodup_writes : ∀ (ws : List (Str × List Row)) (d : Blocks), d.NodupKeys →
    (writes d ws).NodupKeys
  | [], _, h => h
  | _ :: ws, _, h => nodup_writes ws _ (Dict.nodupKeys_set _ _ _ h)

/-- removing empty blocks does not change any rows -/
lemma rowsOf_filter {d : Blocks} (h : d.NodupKeys) (b : Str) :
    rowsOf (d.filterKV fun _ rows => !rows.isEmpty) b = rowsOf d b := by
  unfold rowsOf
  rw [Dict.get?_filterKV _ _ h]
  cases d.get? b with
  | none => rfl
  | some r => cases r <;> rfl

lemma flatMap_unique {α β : Type} [DecidableEq β] (key : α → Str) (f : α → List β) {l : List α}
    {a : α} (ha : a ∈ l) (hl : l.Nodup) (hk : ∀ x ∈ l, key x = key a → x = a) :
    (l.flatMap fun x => if key x = key a then f x else []) = f a := by
  induction l with
  | nil => simp at ha
  | cons x l ih =>
    rw [List.flatMap_cons]
    by_cases hx : x = a
    · subst hx
      rw [if_pos rfl]
      have : (l.flatMap fun y => if key y = key x then f y else []) = [] := by
        rw [List.flatMap_eq_nil_iff]
        intro y hy
        rw [if_neg]
        intro e
        exact (List.nodup_cons.1 hl).1 (hk y (by simp [hy]) e ▸ hy)
      rw [this, List.append_nil]
    · rw [if_neg (fun e => hx (hk x (by simp) e)), List.nil_append]
      exact ih (by simpa [Ne.symm hx] using ha) (List.nodup_cons.1 hl).2 fun y hy => hk y (by simp [hy])

/-! ### reading -/

lemma lastVal_filterMap (p : List ℕ → Prop) [DecidablePred p] (x : List ℕ → ℝ) (ix : List ℕ) :
    ∀ (l : List (List ℕ)) (x0 : ℝ), lastVal (oneBased ix)
      (l.filterMap fun i => if p i then some (i.map fun (j : ℕ) => (j : ℤ) + 1, x i) else none) x0
      = if ix ∈ l ∧ p ix then x ix else x0
  | [], x0 => by simp [lastVal]
  | i :: l, x0 => by
    rw [List.filterMap_cons]
    by_cases hp : p i
    · simp only [hp, if_true]
      have := lastVal_filterMap p x ix l (if i.map (fun (j : ℕ) => (j : ℤ) + 1) = oneBased ix then x i else x0)
      have e : ∀ (r : Row) rows y, lastVal (oneBased ix) (r :: rows) y
          = lastVal (oneBased ix) rows (if r.1 = oneBased ix then r.2 else y) := fun _ _ _ => rfl
      rw [e, this]
      by_cases h : i = ix
      · subst h
        simp [hp, oneBased]
      · have h' : ¬ i.map (fun (j : ℕ) => (j : ℤ) + 1) = oneBased ix := fun e => h (oneBased_inj e)
        simp [h', Ne.symm h]
    · simp only [hp, if_false]
      rw [lastVal_filterMap p x ix l x0]
      by_cases h : i = ix
      · subst h; simp [hp]
      · simp [Ne.symm h]

lemma read_filterMap (p : List ℕ → Prop) [DecidablePred p] (x : List ℕ → ℝ) (shape : List ℕ) :
    ∃ M, lha2matrix ((indices shape).filterMap fun i =>
        if p i then some (i.map fun (j : ℕ) => (j : ℤ) + 1, x i) else none) shape = .ok M ∧
      ∀ ix, inRange shape ix = true → M ix = if p ix then x ix else 0 := by
  obtain ⟨M, h1, h2⟩ := lha_fold (shape := shape) ((indices shape).filterMap fun i =>
        if p i then some (i.map fun (j : ℕ) => (j : ℤ) + 1, x i) else none) (fun _ => 0) (by
    intro r hr
    obtain ⟨i, hi, e⟩ := List.mem_filterMap.1 hr
    by_cases hp : p i
    · rw [if_pos hp, Option.some.injEq] at e
      exact ⟨i, mem_indices.1 hi, e ▸ rfl⟩
    · rw [if_neg hp] at e; cases e)
  refine ⟨M, h1, fun ix hix => ?_⟩
  rw [h2 ix hix, lastVal_filterMap]
  simp [mem_indices.2 hix]

lemma reRows_eq (red : List (List ℕ)) (sr sz : Bool) (shape : List ℕ) (a : NDArr) :
    reRows red sr sz shape a = (indices shape).filterMap fun i =>
      if ¬ (i ∈ red ∧ sr = true) ∧ ((a.get i).re ≠ 0 ∨ sz = false) then
        some (i.map fun (j : ℕ) => (j : ℤ) + 1, (a.get i).re) else none := by
  unfold reRows
  congr 1
  funext i
  by_cases h1 : i ∈ red ∧ sr = true
  · rw [if_pos h1, if_neg (fun h => h.1 h1)]
  · rw [if_neg h1]
    simp [h1]

lemma imRows_eq (red van : List (List ℕ)) (sr sz : Bool) (shape : List ℕ) (a : NDArr) :
    imRows red van sr sz shape a = (indices shape).filterMap fun i =>
      if ¬ (i ∈ red ∧ sr = true) ∧ i ∉ van ∧ ((a.get i).im ≠ 0 ∨ sz = false) then
        some (i.map fun (j : ℕ) => (j : ℤ) + 1, (a.get i).im) else none := by
  unfold imRows
  congr 1
  funext i
  by_cases h1 : i ∈ red ∧ sr = true
  · rw [if_pos h1, if_neg (fun h => h.1 h1)]
  · rw [if_neg h1]
    by_cases h2 : i ∈ van
    · simp [h1, h2]
    · simp [h1, h2]

lemma readPart_eq (B : Blocks) (b : Str) (shape : List ℕ) :
    readPart B b shape = lha2matrix (rowsOf B b) shape := by
  unfold readPart rowsOf
  cases B.get? b <;> rfl

lemma dictOf_fold : ∀ (rows : List Row) (d : Dict ℤ ℝ), (∀ r ∈ rows, ∃ i, r.1 = [i]) →
    ∃ d', rows.foldlM (fun (d : Dict ℤ ℝ) (v : Row) => (match v.1 with
      | [i] => .ok (d.set i v.2)
      | _ => .error .valueError : Except Err (Dict ℤ ℝ))) d = .ok d' ∧
      ∀ i, d'.getD i 0 = lastVal [i] rows (d.getD i 0)
  | [], d, _ => ⟨d, rfl, fun _ => rfl⟩
  | r :: rows, d, h => by
    obtain ⟨i, hi⟩ := h r (by simp)
    obtain ⟨d', h1, h2⟩ := dictOf_fold rows (d.set i r.2) fun r hr => h r (by simp [hr])
    refine ⟨d', ?_, fun j => ?_⟩
    · rw [List.foldlM_cons]
      simp only [hi]
      exact h1
    · rw [h2]
      have e : lastVal [j] (r :: rows) (d.getD j 0)
          = lastVal [j] rows (if r.1 = [j] then r.2 else d.getD j 0) := rfl
      rw [e]
      congr 1
      unfold Dict.getD
      rw [Dict.get?_set, hi]
      by_cases hij : i = j
      · subst hij; simp
      · simp [hij]

lemma dictOf_ok (rows : List Row) (h : ∀ r ∈ rows, ∃ i, r.1 = [i]) :
    ∃ d, dictOf rows = .ok d ∧ ∀ i, d.getD i 0 = lastVal [i] rows 0 := by
  obtain ⟨d, h1, h2⟩ := dictOf_fold rows [] h
  exact ⟨d, h1, h2⟩

lemma read0_eq (B : Blocks) (b : Str) (i : ℕ) (h : ∀ r ∈ rowsOf B b, ∃ i, r.1 = [i]) :
    read0 B b i = .ok (lastVal [(i : ℤ)] (rowsOf B b) 0) := by
  unfold read0
  unfold rowsOf at *
  cases hb : B.get? b with
  | none => rfl
  | some r =>
    rw [hb] at h
    obtain ⟨d, h1, h2⟩ := dictOf_ok r h
    simp only [Option.getD_some]
    rw [h1, ← h2]
    rfl

/-! ### loops -/

lemma loopSet_ok {κ : Type} (key : κ → Str) (f : κ → Except Err AVal) (g : κ → AVal) :
    ∀ (ks : List κ) (C : Dict Str AVal), (∀ k ∈ ks, f k = .ok (g k)) → (ks.map key).Nodup →
    ∃ C', loopSet key f ks C = .ok C' ∧ (C.NodupKeys → C'.NodupKeys) ∧
      (∀ k ∈ ks, C'.get? (key k) = some (g k)) ∧
      (∀ s, s ∉ ks.map key → C'.get? s = C.get? s)
  | [], C, _, _ => ⟨C, rfl, id, by simp, fun _ _ => rfl⟩
  | k :: ks, C, hf, hn => by
    rw [List.map_cons, List.nodup_cons] at hn
    obtain ⟨C', h1, h2, h3, h4⟩ := loopSet_ok key f g ks (C.set (key k) (g k))
      (fun x hx => hf x (by simp [hx])) hn.2
    refine ⟨C', ?_, fun h => h2 (Dict.nodupKeys_set _ _ _ h), ?_, fun s hs => ?_⟩
    · rw [loopSet, hf k (by simp)]; exact h1
    · intro x hx
      rcases List.mem_cons.1 hx with rfl | hx
      · rw [h4 _ hn.1]; simp
      · exact h3 x hx
    · rw [List.map_cons, List.mem_cons, not_or] at hs
      rw [h4 s hs.2, Dict.get?_set_ne _ _ (Ne.symm hs.1)]

/-! ### the tables -/

instance (c : ℕ) (i : I2) : Decidable (RealOf2 c i) := by unfold RealOf2; infer_instance
instance (c : ℕ) (i : I4) : Decidable (RealOf4 c i) := by unfold RealOf4; infer_instance

/-- what the tables of redundant and vanishing entries say about a two-index coefficient -/
def tables2 (k : Key) : Bool :=
  match Dict.get? Gen.dsixRedundant (keyName k), Dict.get? Gen.dsixVanishingIm (keyName k) with
  | some red, some van => all2I.all fun i =>
      (decide (idx2 i ∈ red) == !decide (NonRedOf2 (fullClass k) i)) &&
      (decide (idx2 i ∈ van) == (decide (NonRedOf2 (fullClass k) i) && decide (RealOf2 (fullClass k) i)))
  | _, _ => false

def tables4 (k : Key) : Bool :=
  match Dict.get? Gen.dsixRedundant (keyName k), Dict.get? Gen.dsixVanishingIm (keyName k) with
  | some red, some van => all4I.all fun i =>
      (decide (idx4 i ∈ red) == !decide (NonRedOf4 (fullClass k) i)) &&
      (decide (idx4 i ∈ van) == (decide (NonRedOf4 (fullClass k) i) && decide (RealOf4 (fullClass k) i)))
  | _, _ => false

theorem tables2_ok : ∀ k ∈ coeffKeys, rankOf k = 2 → tables2 k = true := by decide +kernel
theorem tables4_ok : ∀ k ∈ coeffKeys, rankOf k = 4 → tables4 k = true := by decide +kernel

lemma table_at2 {k : Key} (hk : k ∈ coeffKeys) (h2 : rankOf k = 2) : ∃ red van,
    Dict.get? Gen.dsixRedundant (keyName k) = some red ∧
    Dict.get? Gen.dsixVanishingIm (keyName k) = some van ∧
    ∀ i, (idx2 i ∈ red ↔ ¬ NonRedOf2 (fullClass k) i) ∧
      (idx2 i ∈ van ↔ NonRedOf2 (fullClass k) i ∧ RealOf2 (fullClass k) i) := by
  have h := tables2_ok k hk h2
  unfold tables2 at h
  split at h
  · rename_i red van e1 e2
    refine ⟨red, van, e1, e2, fun i => ?_⟩
    have := List.all_eq_true.1 h i (mem_all2I i)
    simp only [Bool.and_eq_true, beq_iff_eq] at this
    obtain ⟨t1, t2⟩ := this
    constructor
    · rw [← decide_eq_true_iff (p := idx2 i ∈ red)]
      simp [t1]
    · rw [← decide_eq_true_iff (p := idx2 i ∈ van)]
      simp [t2]
  · cases h

lemma table_at4 {k : Key} (hk : k ∈ coeffKeys) (h4 : rankOf k = 4) : ∃ red van,
    Dict.get? Gen.dsixRedundant (keyName k) = some red ∧
    Dict.get? Gen.dsixVanishingIm (keyName k) = some van ∧
    ∀ i, (idx4 i ∈ red ↔ ¬ NonRedOf4 (fullClass k) i) ∧
      (idx4 i ∈ van ↔ NonRedOf4 (fullClass k) i ∧ RealOf4 (fullClass k) i) := by
  have h := tables4_ok k hk h4
  unfold tables4 at h
  split at h
  · rename_i red van e1 e2
    refine ⟨red, van, e1, e2, fun i => ?_⟩
    have := List.all_eq_true.1 h i (mem_all4I i)
    simp only [Bool.and_eq_true, beq_iff_eq] at this
    obtain ⟨t1, t2⟩ := this
    constructor
    · rw [← decide_eq_true_iff (p := idx4 i ∈ red)]
      simp [t1]
    · rw [← decide_eq_true_iff (p := idx4 i ∈ van)]
      simp [t2]
  · cases h

/-! ### names of blocks -/

/-- the Wilson coefficients that are arrays -/
def arrKeys : List Key := coeffKeys.filter fun k => decide (rankOf k ≠ 0)

theorem block_inj : ∀ k ∈ arrKeys, ∀ k' ∈ arrKeys,
    (reBlock (keyName k) = reBlock (keyName k') → k = k') ∧
    (imBlock (keyName k) = imBlock (keyName k') → k = k') ∧
    reBlock (keyName k) ≠ imBlock (keyName k') := by decide +kernel

/-- blocks that are not those of arrays of Wilson coefficients -/
def otherBlocks : List Str := ["WC1", "WC2", "WC3", "WC4", "SCALES", "GAUGE", "SCALAR", "GU", "IMGU",
  "GD", "IMGD", "GE", "IMGE", "THETA"].map String.toList

theorem block_other : ∀ k ∈ arrKeys, reBlock (keyName k) ∉ otherBlocks ∧
    imBlock (keyName k) ∉ otherBlocks := by decide +kernel

theorem wc0_block : ∀ e ∈ Gen.dsixWC0f, e.2.1 ∈ otherBlocks.take 4 := by decide +kernel
theorem wc0_nodup : (Gen.dsixWC0f.map fun e => e.1).Nodup := by decide +kernel
theorem wc0_inj : ∀ e ∈ Gen.dsixWC0f, ∀ e' ∈ Gen.dsixWC0f, e.2 = e'.2 → e = e' := by decide +kernel
theorem wc0_keys : (∀ e ∈ Gen.dsixWC0f, ∃ k ∈ coeffKeys, e.1 = keyName k ∧ rankOf k = 0) ∧
    (∀ k ∈ coeffKeys, rankOf k = 0 → keyName k ∈ Gen.dsixWC0f.map fun e => e.1) := by decide +kernel

/-! ### writing -/

/-- rows of a coefficient without indices -/
noncomputable def rows0 (C : Dict Str AVal) (e : Str × Str × ℕ) : List Row :=
  match C.get? e.1 with
  | some (.num z) => if z ≠ 0 then [([(e.2.2 : ℤ)], z.re)] else []
  | _ => []

/-- the array of a coefficient -/
def arrOf (C : Dict Str AVal) (k : Str) : NDArr :=
  match C.get? k with
  | some (.arr a) => a
  | _ => zeros []

noncomputable def reOf (C : Dict Str AVal) (sr sz : Bool) (k : Str) : List Row :=
  reRows ((Dict.get? Gen.dsixRedundant k).getD []) sr sz (arrOf C k).shape (arrOf C k)
noncomputable def imOf (C : Dict Str AVal) (sr sz : Bool) (k : Str) : List Row :=
  imRows ((Dict.get? Gen.dsixRedundant k).getD []) ((Dict.get? Gen.dsixVanishingIm k).getD []) sr sz
    (arrOf C k).shape (arrOf C k)

/-- the writes of the arrays -/
noncomputable def wsA (C : Dict Str AVal) (sr sz : Bool) (ks : List Str) : List (Str × List Row) :=
  ks.flatMap fun k => [(reBlock k, reOf C sr sz k), (imBlock k, imOf C sr sz k)]

lemma fold_zero (C : Dict Str AVal) : ∀ (es : List (Str × Str × ℕ)) (d : Blocks),
    (∀ e ∈ es, ∃ z, C.get? e.1 = some (.num z)) →
    es.foldlM (write0 C) d = .ok (writes d (es.map fun e => (e.2.1, rows0 C e)))
  | [], d, _ => rfl
  | e :: es, d, h => by
    obtain ⟨z, hz⟩ := h e (by simp)
    rw [List.foldlM_cons]
    have : write0 C d e = .ok (addRows d e.2.1 (rows0 C e)) := by
      simp only [write0, rows0, hz]
    rw [this]
    exact fold_zero C es _ fun e he => h e (by simp [he])

/-- the array is there and has the shape -/
def ArrAt (C : Dict Str AVal) (shape : List ℕ) (k : Str) : Prop :=
  (∃ red, Dict.get? Gen.dsixRedundant k = some red) ∧ (∃ van, Dict.get? Gen.dsixVanishingIm k = some van) ∧
    ∃ a, C.get? k = some (.arr a) ∧ a.shape = shape

lemma fold_arr (C : Dict Str AVal) (sr sz : Bool) (shape : List ℕ) : ∀ (ks : List Str) (d : Blocks),
    (∀ k ∈ ks, ArrAt C shape k) →
    ks.foldlM (writeArr sr sz shape C) d = .ok (writes d (wsA C sr sz ks))
  | [], d, _ => rfl
  | k :: ks, d, h => by
    obtain ⟨⟨red, hr⟩, ⟨van, hv⟩, a, ha, hs⟩ := h k (by simp)
    rw [List.foldlM_cons]
    have : writeArr sr sz shape C d k = .ok (writes d [(reBlock k, reOf C sr sz k), (imBlock k, imOf C sr sz k)]) := by
      have e1 : item Gen.dsixRedundant k = .ok red := by unfold item; rw [hr]
      have e2 : item Gen.dsixVanishingIm k = .ok van := by unfold item; rw [hv]
      unfold writeArr
      rw [e1, e2]
      simp only [bind, Except.bind, ha, if_pos hs, writes, List.foldl_cons, List.foldl_nil, reOf, imOf,
        arrOf, hr, hv, Option.getD_some, hs, if_true]
    rw [this]
    have ih := fold_arr C sr sz shape ks (writes d [(reBlock k, reOf C sr sz k), (imBlock k, imOf C sr sz k)])
      fun k hk => h k (by simp [hk])
    have e : wsA C sr sz (k :: ks)
        = [(reBlock k, reOf C sr sz k), (imBlock k, imOf C sr sz k)] ++ wsA C sr sz ks := by
      simp [wsA]
    rw [e, writes_append]
    exact ih

variable {U : Util}

lemma mem_rank (hU : SmeftHelper U) {n : ℕ} (hn : n = 2 ∨ n = 4) (s : Str) :
    s ∈ keysOfRank U n ↔ ∃ k ∈ coeffKeys, s = keyName k ∧ rankOf k = n := by
  unfold keysOfRank
  rw [List.mem_filter, hU.smeft.wc]
  constructor
  · rintro ⟨⟨k, hk, rfl⟩, h⟩
    refine ⟨k, hk, rfl, ?_⟩
    rw [hU.smeft.shape k hk] at h
    unfold shapeK at h
    by_cases h0 : rankOf k = 0
    · simp [h0] at h
    · simpa [h0] using h
  · rintro ⟨k, hk, rfl, hr⟩
    refine ⟨⟨k, hk, rfl⟩, ?_⟩
    rw [hU.smeft.shape k hk]
    unfold shapeK
    have h0 : rankOf k ≠ 0 := by omega
    rw [if_neg h0, hr]
    simp

lemma nodup_rank (hU : SmeftHelper U) : (keysOfRank U 2 ++ keysOfRank U 4).Nodup := by
  rw [List.nodup_append]
  refine ⟨hU.once.filter _, hU.once.filter _, fun a ha b hb => ?_⟩
  obtain ⟨k, -, rfl, h2⟩ := (mem_rank hU (Or.inl rfl) a).1 ha
  obtain ⟨k', -, rfl, h4⟩ := (mem_rank hU (Or.inr rfl) b).1 hb
  intro e
  obtain rfl := keyName_inj e
  omega

lemma mem_arr {k : Key} : k ∈ arrKeys ↔ k ∈ coeffKeys ∧ (rankOf k = 2 ∨ rankOf k = 4) := by
  unfold arrKeys
  rw [List.mem_filter]
  constructor
  · rintro ⟨h, h0⟩
    refine ⟨h, ?_⟩
    rcases rank_cases k ((coeff_iff k).1 h).1 with h | h | h
    · simp [h] at h0
    · exact Or.inl h
    · exact Or.inr h
  · rintro ⟨h, h2 | h2⟩ <;> exact ⟨h, by simp [h2]⟩

lemma mem_ranks (hU : SmeftHelper U) (s : Str) :
    s ∈ keysOfRank U 2 ++ keysOfRank U 4 ↔ ∃ k ∈ arrKeys, s = keyName k := by
  rw [List.mem_append, mem_rank hU (Or.inl rfl), mem_rank hU (Or.inr rfl)]
  constructor
  · rintro (⟨k, hk, rfl, h⟩ | ⟨k, hk, rfl, h⟩)
    · exact ⟨k, mem_arr.2 ⟨hk, Or.inl h⟩, rfl⟩
    · exact ⟨k, mem_arr.2 ⟨hk, Or.inr h⟩, rfl⟩
  · rintro ⟨k, hk, rfl⟩
    obtain ⟨hk, h | h⟩ := mem_arr.1 hk
    · exact Or.inl ⟨k, hk, rfl, h⟩
    · exact Or.inr ⟨k, hk, rfl, h⟩

/-- all coefficients are there with their shapes -/
def Shaped (C : Dict Str AVal) : Prop := ∀ k ∈ coeffKeys,
  ∃ v, C.get? (keyName k) = some v ∧ Fits (shapeK k) v

lemma shaped_num {C : Dict Str AVal} (hC : Shaped C) {k : Key} (hk : k ∈ coeffKeys) (h0 : rankOf k = 0) :
    ∃ z, C.get? (keyName k) = some (.num z) := by
  obtain ⟨v, h1, h2⟩ := hC k hk
  unfold shapeK at h2
  rw [if_pos h0] at h2
  cases v with
  | num z => exact ⟨z, h1⟩
  | arr a => simp [Fits] at h2

lemma shaped_arr {C : Dict Str AVal} (hC : Shaped C) {k : Key} (hk : k ∈ arrKeys) :
    ∃ a, C.get? (keyName k) = some (.arr a) ∧ shapeK k = some a.shape ∧ a.WF := by
  obtain ⟨hk, h⟩ := mem_arr.1 hk
  obtain ⟨v, h1, h2⟩ := hC k hk
  unfold shapeK at *
  rw [if_neg (by omega)] at *
  cases v with
  | num z => simp [Fits] at h2
  | arr a => exact ⟨a, h1, by rw [h2.1], h2.2⟩

lemma arrAt {C : Dict Str AVal} (hU : SmeftHelper U) (hC : Shaped C) : 
    (∀ s ∈ keysOfRank U 2, ArrAt C [3, 3] s) ∧ (∀ s ∈ keysOfRank U 4, ArrAt C [3, 3, 3, 3] s) := by
  constructor
  · intro s hs
    obtain ⟨k, hk, rfl, h2⟩ := (mem_rank hU (Or.inl rfl) s).1 hs
    obtain ⟨red, van, e1, e2, -⟩ := table_at2 hk h2
    obtain ⟨a, ha, hs, -⟩ := shaped_arr hC (mem_arr.2 ⟨hk, Or.inl h2⟩)
    rw [shapeK_two h2, Option.some.injEq] at hs
    exact ⟨⟨red, e1⟩, ⟨van, e2⟩, a, ha, hs.symm⟩
  · intro s hs
    obtain ⟨k, hk, rfl, h4⟩ := (mem_rank hU (Or.inr rfl) s).1 hs
    obtain ⟨red, van, e1, e2, -⟩ := table_at4 hk h4
    obtain ⟨a, ha, hs, -⟩ := shaped_arr hC (mem_arr.2 ⟨hk, Or.inr h4⟩)
    rw [shapeK_four h4, Option.some.injEq] at hs
    exact ⟨⟨red, e1⟩, ⟨van, e2⟩, a, ha, hs.symm⟩

/-- the rows of the blocks written -/
theorem write_ok (hU : SmeftHelper U) {C : Dict Str AVal} (hC : Shaped C) (sr sz : Bool) :
    ∃ B, wcDict2lha U C sr sz = .ok B ∧ B.NodupKeys ∧
      (∀ k ∈ arrKeys, rowsOf B (reBlock (keyName k)) = reOf C sr sz (keyName k) ∧
        rowsOf B (imBlock (keyName k)) = imOf C sr sz (keyName k)) ∧
      (∀ b ∈ otherBlocks, rowsOf B b = Gen.dsixWC0f.flatMap fun e => if e.2.1 = b then rows0 C e else []) ∧
      (∀ b ∈ B.keys, rowsOf B b ≠ []) := by
  obtain ⟨h2, h4⟩ := arrAt hU hC
  have h0 : ∀ e ∈ Gen.dsixWC0f, ∃ z, C.get? e.1 = some (.num z) := by
    intro e he
    obtain ⟨k, hk, e1, hr⟩ := wc0_keys.1 e he
    rw [e1]
    exact shaped_num hC hk hr
  set W : Blocks := writes [] (Gen.dsixWC0f.map (fun e => (e.2.1, rows0 C e)) ++
    wsA C sr sz (keysOfRank U 2 ++ keysOfRank U 4)) with hW
  have nW : W.NodupKeys := nodup_writes _ _ (by simp [Dict.NodupKeys, Dict.keys])
  have rW : ∀ b, rowsOf W b = (Gen.dsixWC0f.flatMap fun e => if e.2.1 = b then rows0 C e else []) ++
      (keysOfRank U 2 ++ keysOfRank U 4).flatMap fun k =>
        (if reBlock k = b then reOf C sr sz k else []) ++ (if imBlock k = b then imOf C sr sz k else []) := by
    intro b
    rw [hW, rowsOf_writes]
    simp only [rowsOf, Dict.get?_nil, Option.getD_none, List.nil_append, List.flatMap_append, wsA,
      List.flatMap_assoc, List.flatMap_map, List.flatMap_cons, List.flatMap_nil, List.append_nil]
  refine ⟨W.filterKV fun _ rows => !rows.isEmpty, ?_, Dict.nodupKeys_filterKV _ _ nW, ?_, ?_, ?_⟩
  · unfold wcDict2lha
    rw [fold_zero C _ _ h0]
    simp only [bind, Except.bind]
    rw [fold_arr C sr sz _ _ _ h2]
    simp only
    rw [fold_arr C sr sz _ _ _ h4]
    simp only [Except.ok.injEq]
    rw [hW, ← writes_append, ← writes_append]
    simp [wsA]
  · intro k hk
    have zero : ∀ b, b ∉ otherBlocks →
        (Gen.dsixWC0f.flatMap fun e => if e.2.1 = b then rows0 C e else []) = [] := by
      intro b hb
      rw [List.flatMap_eq_nil_iff]
      intro e he
      rw [if_neg]
      rintro rfl
      exact hb (List.mem_of_mem_take (wc0_block e he))
    have hmem : keyName k ∈ keysOfRank U 2 ++ keysOfRank U 4 := (mem_ranks hU _).2 ⟨k, hk, rfl⟩
    rw [rowsOf_filter nW, rowsOf_filter nW, rW, rW, zero _ (block_other k hk).1, zero _ (block_other k hk).2,
      List.nil_append, List.nil_append]
    constructor
    · rw [← flatMap_unique reBlock (reOf C sr sz) hmem (nodup_rank hU) (by
        intro x hx e
        obtain ⟨k', hk', rfl⟩ := (mem_ranks hU _).1 hx
        rw [(block_inj k' hk' k hk).1 e])]
      refine List.flatMap_congr fun x hx => ?_
      obtain ⟨k', hk', rfl⟩ := (mem_ranks hU _).1 hx
      have hne : ¬ imBlock (keyName k') = reBlock (keyName k) :=
        fun e => (block_inj k hk k' hk').2.2 e.symm
      rw [if_neg hne, List.append_nil]
    · rw [← flatMap_unique imBlock (imOf C sr sz) hmem (nodup_rank hU) (by
        intro x hx e
        obtain ⟨k', hk', rfl⟩ := (mem_ranks hU _).1 hx
        rw [(block_inj k' hk' k hk).2.1 e])]
      refine List.flatMap_congr fun x hx => ?_
      obtain ⟨k', hk', rfl⟩ := (mem_ranks hU _).1 hx
      rw [if_neg (block_inj k' hk' k hk).2.2, List.nil_append]
  · intro b hb
    rw [rowsOf_filter nW, rW]
    have : ((keysOfRank U 2 ++ keysOfRank U 4).flatMap fun k =>
        (if reBlock k = b then reOf C sr sz k else []) ++ (if imBlock k = b then imOf C sr sz k else [])) = [] := by
      rw [List.flatMap_eq_nil_iff]
      intro x hx
      obtain ⟨k', hk', rfl⟩ := (mem_ranks hU _).1 hx
      rw [if_neg, if_neg]
      · rfl
      · rintro rfl; exact (block_other k' hk').2 hb
      · rintro rfl; exact (block_other k' hk').1 hb
    rw [this, List.append_nil]
  · intro b hb
    obtain ⟨kv, hkv, rfl⟩ := List.mem_map.1 hb
    have hg := Dict.get?_of_mem (Dict.nodupKeys_filterKV _ _ nW) hkv
    have := (List.mem_filter.1 hkv).2
    unfold rowsOf
    rw [hg]
    intro e
    simp only [Option.getD_some] at e
    simp [e] at this

/-! ### reading back -/

lemma readArr_ok (B : Blocks) {C : Dict Str AVal} {sr sz : Bool} {k : Str} {a : NDArr}
    {red van : List (List ℕ)} (ha : C.get? k = some (.arr a)) (hr : Dict.get? Gen.dsixRedundant k = some red)
    (hv : Dict.get? Gen.dsixVanishingIm k = some van) (h1 : rowsOf B (reBlock k) = reOf C sr sz k)
    (h2 : rowsOf B (imBlock k) = imOf C sr sz k) :
    ∃ a' : NDArr, readArr B k a.shape = .ok (.arr a') ∧ a'.shape = a.shape ∧ a'.WF ∧
      ∀ ix, inRange a.shape ix = true → a'.get ix =
        (((if ix ∈ red ∧ sr = true then 0 else (a.get ix).re : ℝ)) : ℂ) +
          Complex.I * ((if (ix ∈ red ∧ sr = true) ∨ ix ∈ van then 0 else (a.get ix).im : ℝ) : ℂ) := by
  have e : arrOf C k = a := by unfold arrOf; rw [ha]
  unfold reOf at h1
  unfold imOf at h2
  rw [e, hr, Option.getD_some, reRows_eq] at h1
  rw [e, hr, hv, Option.getD_some, Option.getD_some, imRows_eq] at h2
  obtain ⟨R, r1, r2⟩ := read_filterMap (fun i => ¬ (i ∈ red ∧ sr = true) ∧ ((a.get i).re ≠ 0 ∨ sz = false))
    (fun i => (a.get i).re) a.shape
  obtain ⟨I, i1, i2⟩ := read_filterMap
    (fun i => ¬ (i ∈ red ∧ sr = true) ∧ i ∉ van ∧ ((a.get i).im ≠ 0 ∨ sz = false))
    (fun i => (a.get i).im) a.shape
  refine ⟨cplxArr a.shape R I, ?_, rfl, ?_, fun ix hix => ?_⟩
  · unfold readArr
    rw [readPart_eq, readPart_eq, h1, h2, r1, i1]
    rfl
  · intro idx hi
    simp only [cplxArr, NDArr.ofFn] at hi ⊢
    simp [hi]
  · simp only [cplxArr, NDArr.ofFn, hix, if_true]
    rw [r2 ix hix, i2 ix hix]
    congr 2
    · by_cases h : ix ∈ red ∧ sr = true
      · rw [if_neg (fun q => q.1 h), if_pos h]
      · rw [if_neg h]
        by_cases h0 : (a.get ix).re = 0
        · rw [h0]; simp
        · rw [if_pos ⟨h, Or.inl h0⟩]
    · by_cases h : (ix ∈ red ∧ sr = true) ∨ ix ∈ van
      · rw [if_neg (fun q => h.elim q.1 q.2.1), if_pos h]
      · rw [if_neg h]
        by_cases h0 : (a.get ix).im = 0
        · rw [h0]; simp
        · rw [if_pos ⟨fun q => h (Or.inl q), fun q => h (Or.inr q), Or.inl h0⟩]

/-- what is left of an entry when it is written and read -/
noncomputable def kept (sr : Bool) (nonRed real : Prop) (z : ℂ) : ℂ :=
  open Classical in
  if nonRed then (if real then (z.re : ℂ) else z) else if sr = true then 0 else z

lemma kept_eq {sr : Bool} {red van nonRed real : Prop} [Decidable (red ∧ sr = true)]
    [Decidable ((red ∧ sr = true) ∨ van)] (h1 : red ↔ ¬ nonRed) (h2 : van ↔ nonRed ∧ real) (z : ℂ) :
    (((if red ∧ sr = true then 0 else z.re : ℝ)) : ℂ) +
      Complex.I * ((if (red ∧ sr = true) ∨ van then 0 else z.im : ℝ) : ℂ) = kept sr nonRed real z := by
  unfold kept
  by_cases hn : nonRed
  · have hr : ¬ red := fun h => h1.1 h hn
    by_cases hl : real
    · have hv : van := h2.2 ⟨hn, hl⟩
      simp [hn, hr, hl, hv]
    · have hv : ¬ van := fun h => hl (h2.1 h).2
      simp only [hn, hr, hl, hv, false_and, or_self, if_false, if_true]
      rw [mul_comm]; exact Complex.re_add_im z
  · have hr : red := h1.2 hn
    have hv : ¬ van := fun h => hn (h2.1 h).1
    cases sr
    · simp only [hn, hr, hv, Bool.false_eq_true, and_false, or_self, if_false]
      rw [mul_comm]; exact Complex.re_add_im z
    · simp [hn, hr]

theorem lastVal_rows0 (C : Dict Str AVal) {e : Str × Str × ℕ} (he : e ∈ Gen.dsixWC0f) {z : ℂ}
    (hz : C.get? e.1 = some (.num z)) :
    lastVal [(e.2.2 : ℤ)] (Gen.dsixWC0f.flatMap fun e' => if e'.2.1 = e.2.1 then rows0 C e' else []) 0 = z.re := by
  have key : ∀ (l : List (Str × Str × ℕ)) (x0 : ℝ), (∀ e' ∈ l, e'.2 = e.2 → e' = e) →
      lastVal [(e.2.2 : ℤ)] (l.flatMap fun e' => if e'.2.1 = e.2.1 then rows0 C e' else []) x0
        = if e ∈ l ∧ z ≠ 0 then z.re else x0 := by
    intro l
    induction l with
    | nil => intro x0 _; simp [lastVal]
    | cons a l ih =>
      intro x0 h
      have app : ∀ (r s : List Row) y, lastVal [(e.2.2 : ℤ)] (r ++ s) y
          = lastVal [(e.2.2 : ℤ)] s (lastVal [(e.2.2 : ℤ)] r y) := fun r s y => List.foldl_append
      rw [List.flatMap_cons, app, ih _ fun e' he' => h e' (by simp [he'])]
      by_cases hae : a = e
      · subst hae
        rw [if_pos rfl]
        unfold rows0
        rw [hz]
        by_cases h0 : z = 0
        · simp [h0, lastVal]
        · simp [h0, lastVal]
      · have hne : a.2 ≠ e.2 := fun q => hae (h a (by simp) q)
        have : lastVal [(e.2.2 : ℤ)] (if a.2.1 = e.2.1 then rows0 C a else []) x0 = x0 := by
          refine lastVal_none fun r hr => ?_
          split at hr
          · rename_i hb
            unfold rows0 at hr
            split at hr
            · split at hr
              · simp only [List.mem_singleton] at hr
                subst hr
                intro q
                simp only [List.cons.injEq, Nat.cast_inj, and_true] at q
                exact hne (Prod.ext hb q)
              · simp at hr
            · simp at hr
          · simp at hr
        rw [this]
        simp [Ne.symm hae]
  rw [key _ _ fun e' he' q => wc0_inj e' he' e he q]
  by_cases h0 : z = 0
  · simp [h0]
  · simp [h0, he]

/-- reading blocks with the rows written from `C` -/
theorem read_back (hU : SmeftHelper U) {C : Dict Str AVal} (hC : Shaped C) {sr sz : Bool} {B : Blocks}
    (hA : ∀ k ∈ arrKeys, rowsOf B (reBlock (keyName k)) = reOf C sr sz (keyName k) ∧
        rowsOf B (imBlock (keyName k)) = imOf C sr sz (keyName k))
    (h0 : ∀ b ∈ otherBlocks.take 4, rowsOf B b = Gen.dsixWC0f.flatMap fun e => if e.2.1 = b then rows0 C e else []) :
    ∃ C', wcLha2dict U B = .ok C' ∧ C'.NodupKeys ∧
      (∀ s, (∀ k ∈ coeffKeys, s ≠ keyName k) → C'.get? s = none) ∧
      (∀ k ∈ coeffKeys, ∀ z, C.get? (keyName k) = some (.num z) → C'.get? (keyName k) = some (.num (z.re : ℂ))) ∧
      (∀ k ∈ coeffKeys, ∀ a, C.get? (keyName k) = some (.arr a) → ∃ a', C'.get? (keyName k) = some (.arr a') ∧
        a'.shape = a.shape ∧ a'.WF ∧
        (rankOf k = 2 → ∀ i, a'.get (idx2 i) =
          kept sr (NonRedOf2 (fullClass k) i) (RealOf2 (fullClass k) i) (a.get (idx2 i))) ∧
        (rankOf k = 4 → ∀ i, a'.get (idx4 i) =
          kept sr (NonRedOf4 (fullClass k) i) (RealOf4 (fullClass k) i) (a.get (idx4 i)))) := by
  have hz : ∀ e ∈ Gen.dsixWC0f, ∃ z, C.get? e.1 = some (.num z) := by
    intro e he
    obtain ⟨k, hk, e1, hr⟩ := wc0_keys.1 e he
    rw [e1]
    exact shaped_num hC hk hr
  -- scalars
  obtain ⟨C1, r1, n1, g1, o1⟩ := loopSet_ok (fun e : Str × Str × ℕ => e.1)
    (fun e => read0 B e.2.1 e.2.2 >>= fun x => .ok (.num (x : ℂ)))
    (fun e => match C.get? e.1 with
      | some (.num z) => .num (z.re : ℂ)
      | _ => .num 0) Gen.dsixWC0f [] (by
        intro e he
        obtain ⟨z, hz⟩ := hz e he
        rw [hz]
        have hb := h0 _ (wc0_block e he)
        rw [read0_eq, hb, lastVal_rows0 C he hz]
        · rfl
        · rw [hb]
          intro r hr
          obtain ⟨e', -, hr⟩ := List.mem_flatMap.1 hr
          split at hr
          · unfold rows0 at hr
            split at hr
            · split at hr
              · simp only [List.mem_singleton] at hr; subst hr; exact ⟨_, rfl⟩
              · simp at hr
            · simp at hr
          · simp at hr) wc0_nodup
  have harr : ∀ k ∈ arrKeys, ∃ a a' : NDArr, C.get? (keyName k) = some (.arr a) ∧ shapeK k = some a.shape ∧
      readArr B (keyName k) a.shape = .ok (.arr a') ∧ a'.shape = a.shape ∧ a'.WF ∧
        (rankOf k = 2 → ∀ i, a'.get (idx2 i) =
          kept sr (NonRedOf2 (fullClass k) i) (RealOf2 (fullClass k) i) (a.get (idx2 i))) ∧
        (rankOf k = 4 → ∀ i, a'.get (idx4 i) =
          kept sr (NonRedOf4 (fullClass k) i) (RealOf4 (fullClass k) i) (a.get (idx4 i))) := by
    intro k hk
    obtain ⟨a, ha, hs, -⟩ := shaped_arr hC hk
    obtain ⟨hkc, h2 | h4⟩ := mem_arr.1 hk
    · obtain ⟨red, van, e1, e2, ht⟩ := table_at2 hkc h2
      obtain ⟨a', p1, p2, p3, p4⟩ := readArr_ok B ha e1 e2 (hA k hk).1 (hA k hk).2
      refine ⟨a, a', ha, hs, p1, p2, p3, fun _ i => ?_, fun h => by omega⟩
      rw [shapeK_two h2, Option.some.injEq] at hs
      rw [p4 _ (hs ▸ in2 i), kept_eq (ht i).1 (ht i).2]
    · obtain ⟨red, van, e1, e2, ht⟩ := table_at4 hkc h4
      obtain ⟨a', p1, p2, p3, p4⟩ := readArr_ok B ha e1 e2 (hA k hk).1 (hA k hk).2
      refine ⟨a, a', ha, hs, p1, p2, p3, fun h => by omega, fun _ i => ?_⟩
      rw [shapeK_four h4, Option.some.injEq] at hs
      rw [p4 _ (hs ▸ in4 i), kept_eq (ht i).1 (ht i).2]
  let g : List ℕ → Str → AVal := fun shape s => match readArr B s shape with
    | .ok v => v
    | .error _ => .num 0
  obtain ⟨C2, r2, n2, g2, o2⟩ := loopSet_ok (id : Str → Str) (fun k => readArr B k [3, 3]) (g [3, 3])
    (keysOfRank U 2) C1 (by
      intro s hs
      obtain ⟨k, hk, rfl, h2⟩ := (mem_rank hU (Or.inl rfl) s).1 hs
      obtain ⟨a, a', -, q, p, -⟩ := harr k (mem_arr.2 ⟨hk, Or.inl h2⟩)
      rw [shapeK_two h2, Option.some.injEq] at q
      rw [q]
      simp only [g, p]) (by rw [List.map_id]; exact (List.nodup_append.1 (nodup_rank hU)).1)
  obtain ⟨C3, r3, n3, g3, o3⟩ := loopSet_ok (id : Str → Str) (fun k => readArr B k [3, 3, 3, 3]) (g [3, 3, 3, 3])
    (keysOfRank U 4) C2 (by
      intro s hs
      obtain ⟨k, hk, rfl, h4⟩ := (mem_rank hU (Or.inr rfl) s).1 hs
      obtain ⟨a, a', -, q, p, -⟩ := harr k (mem_arr.2 ⟨hk, Or.inr h4⟩)
      rw [shapeK_four h4, Option.some.injEq] at q
      rw [q]
      simp only [g, p]) (by rw [List.map_id]; exact (List.nodup_append.1 (nodup_rank hU)).2.1)
  rw [List.map_id] at o2 o3
  have notIn : ∀ {n : ℕ}, n = 2 ∨ n = 4 → ∀ {s : Str}, (∀ k ∈ coeffKeys, rankOf k = n → s ≠ keyName k) →
      s ∉ keysOfRank U n := by
    intro n hn s h hs
    obtain ⟨k, hk, e, hr⟩ := (mem_rank hU hn s).1 hs
    exact h k hk hr e
  refine ⟨C3, ?_, n3 (n2 (n1 (by simp [Dict.NodupKeys, Dict.keys]))), fun s hs => ?_, fun k hk z hzk => ?_, fun k hk a ha => ?_⟩
  · unfold wcLha2dict
    rw [r1]
    simp only [bind, Except.bind]
    rw [r2]
    simp only
    rw [r3]
  · rw [o3 s (notIn (Or.inr rfl) fun k hk _ => hs k hk), o2 s (notIn (Or.inl rfl) fun k hk _ => hs k hk), o1 s]
    · rfl
    · intro hm
      obtain ⟨e, he, rfl⟩ := List.mem_map.1 hm
      obtain ⟨k, hk, e1, -⟩ := wc0_keys.1 e he
      exact hs k hk e1
  · have hr : rankOf k = 0 := by
      by_contra h
      obtain ⟨a, ha, -⟩ := shaped_arr hC (List.mem_filter.2 ⟨hk, by simpa using h⟩ : k ∈ arrKeys)
      rw [ha] at hzk; cases hzk
    rw [o3 _ (notIn (Or.inr rfl) fun k' hk' h e => by rw [← keyName_inj e] at h; omega),
      o2 _ (notIn (Or.inl rfl) fun k' hk' h e => by rw [← keyName_inj e] at h; omega)]
    obtain ⟨e, he, e1⟩ := List.mem_map.1 (wc0_keys.2 k hk hr)
    rw [← e1, g1 e he, e1, hzk]
  · have hka : k ∈ arrKeys := by
      rcases rank_cases k ((coeff_iff k).1 hk).1 with h | h | h
      · obtain ⟨z, hz⟩ := shaped_num hC hk h
        rw [hz] at ha; cases ha
      · exact mem_arr.2 ⟨hk, Or.inl h⟩
      · exact mem_arr.2 ⟨hk, Or.inr h⟩
    obtain ⟨b, a', q1, q2, q3, q4, q5, q6, q7⟩ := harr k hka
    rw [ha] at q1
    cases q1
    refine ⟨a', ?_, q4, q5, q6, q7⟩
    rcases (mem_arr.1 hka).2 with h2 | h4
    · rw [o3 _ (notIn (Or.inr rfl) fun k' hk' h e => by rw [← keyName_inj e] at h; omega)]
      have := g2 _ ((mem_rank hU (Or.inl rfl) _).2 ⟨k, hk, rfl, h2⟩)
      rw [shapeK_two h2, Option.some.injEq] at q2
      rw [← q2] at q3
      simp only [id, g, q3] at this
      exact this
    · have := g3 _ ((mem_rank hU (Or.inr rfl) _).2 ⟨k, hk, rfl, h4⟩)
      rw [shapeK_four h4, Option.some.injEq] at q2
      rw [← q2] at q3
      simp only [id, g, q3] at this
      exact this

/-! ### Standard Model parameters -/

lemma fits_ext2 {v w : AVal} (hv : Fits (some [3, 3]) v) (hw : Fits (some [3, 3]) w)
    (h : ∀ i, ent2 v i = ent2 w i) : v = w := by
  cases v with
  | num z => simp [Fits] at hv
  | arr a => cases w with
    | num z => simp [Fits] at hw
    | arr b =>
      obtain ⟨sa, wa⟩ := a
      obtain ⟨sb, wb⟩ := b
      obtain ⟨rfl, hv2⟩ := hv
      obtain ⟨rfl, hw2⟩ := hw
      have : wa = wb := by
        funext ix
        cases hi : inRange [3, 3] ix with
        | false => exact (hv2 ix hi).trans (hw2 ix hi).symm
        | true =>
          match ix, hi with
          | [], hi => simp [inRange] at hi
          | [_], hi => simp [inRange] at hi
          | _ :: _ :: _ :: _, hi => simp [inRange] at hi
          | [i, j], hi =>
            simp only [inRange, Bool.and_true, Bool.and_eq_true, decide_eq_true_eq] at hi
            exact h (⟨i, hi.1⟩, ⟨j, hi.2⟩)
      rw [this]

lemma fits_ext4 {v w : AVal} (hv : Fits (some [3, 3, 3, 3]) v) (hw : Fits (some [3, 3, 3, 3]) w)
    (h : ∀ i, ent4 v i = ent4 w i) : v = w := by
  cases v with
  | num z => simp [Fits] at hv
  | arr a => cases w with
    | num z => simp [Fits] at hw
    | arr b =>
      obtain ⟨sa, wa⟩ := a
      obtain ⟨sb, wb⟩ := b
      obtain ⟨rfl, hv2⟩ := hv
      obtain ⟨rfl, hw2⟩ := hw
      have : wa = wb := by
        funext ix
        cases hi : inRange [3, 3, 3, 3] ix with
        | false => exact (hv2 ix hi).trans (hw2 ix hi).symm
        | true =>
          match ix, hi with
          | [], hi => simp [inRange] at hi
          | [_], hi => simp [inRange] at hi
          | [_, _], hi => simp [inRange] at hi
          | [_, _, _], hi => simp [inRange] at hi
          | _ :: _ :: _ :: _ :: _ :: _, hi => simp [inRange] at hi
          | [i, j, k, l], hi =>
            simp only [inRange, Bool.and_true, Bool.and_eq_true, decide_eq_true_eq] at hi
            exact h (⟨i, hi.1⟩, ⟨j, hi.2.1⟩, ⟨k, hi.2.2.1⟩, ⟨l, hi.2.2.2⟩)
      rw [this]

lemma read_matrix (shape : List ℕ) (M : List ℕ → ℝ) :
    ∃ M', lha2matrix (matrix2lha shape M) shape = .ok M' ∧ ∀ ix, inRange shape ix = true → M' ix = M ix := by
  obtain ⟨M', h1, h2⟩ := read_filterMap (fun _ => True) M shape
  refine ⟨M', ?_, fun ix h => by simpa using h2 ix h⟩
  rw [← h1]
  unfold matrix2lha
  simp only [if_true, List.filterMap_eq_map']

lemma smMatrix_ok {B : Blocks} {re im : String} {a : NDArr} (hs : a.shape = [3, 3]) (hw : a.WF)
    (h1 : B.get? re.toList = some (matrix2lha a.shape fun i => (a.get i).re))
    (h2 : B.get? im.toList = some (matrix2lha a.shape fun i => (a.get i).im)) :
    smMatrix B re im = .ok (.arr a) := by
  rw [hs] at h1 h2
  obtain ⟨R, r1, r2⟩ := read_matrix [3, 3] fun i => (a.get i).re
  obtain ⟨I, i1, i2⟩ := read_matrix [3, 3] fun i => (a.get i).im
  have e1 : item B re.toList = .ok (matrix2lha [3, 3] fun i => (a.get i).re) := by unfold item; rw [h1]
  unfold smMatrix
  rw [e1]
  simp only [bind, Except.bind, r1, h2, i1]
  congr 1
  refine fits_ext2 ⟨rfl, fun idx hi => ?_⟩ ⟨hs, hw⟩ fun i => ?_
  · simp only [cplxArr, NDArr.ofFn] at hi ⊢
    simp [hi]
  · simp only [ent2, cplxArr, NDArr.ofFn, in2 i, if_true]
    rw [r2 _ (in2 i), i2 _ (in2 i), mul_comm]
    exact Complex.re_add_im _

/-- the blocks of the Standard Model parameters -/
def smBlocks : List Str := otherBlocks.drop 5

/-- the keys of the Standard Model parameters -/
def smNames : List Str := ["g", "gp", "gs", "Lambda", "m2", "Gu", "Gd", "Ge", "Theta", "Thetap", "Thetas"].map String.toList

theorem sm_back {sm : Dict Str AVal} (h : SmParameters sm) :
    ∃ S, smDict2lha sm = .ok S ∧ S.keys = smBlocks ∧
      ∀ B : Blocks, (∀ b ∈ smBlocks, B.get? b = S.get? b) →
        ∃ sm', smLha2dict B = .ok sm' ∧ sm'.keys = smNames ∧ ∀ s ∈ smNames, sm'.get? s = sm.get? s := by
  obtain ⟨hn, ha⟩ := h
  obtain ⟨g, g'⟩ := hn "g" (by simp)
  obtain ⟨gp, gp'⟩ := hn "gp" (by simp)
  obtain ⟨gs, gs'⟩ := hn "gs" (by simp)
  obtain ⟨lam, lam'⟩ := hn "Lambda" (by simp)
  obtain ⟨m2, m2'⟩ := hn "m2" (by simp)
  obtain ⟨t, t'⟩ := hn "Theta" (by simp)
  obtain ⟨tp, tp'⟩ := hn "Thetap" (by simp)
  obtain ⟨ts, ts'⟩ := hn "Thetas" (by simp)
  obtain ⟨gu, gu', su, wu⟩ := ha "Gu" (by simp)
  obtain ⟨gd, gd', sd, wd⟩ := ha "Gd" (by simp)
  obtain ⟨ge, ge', se, we⟩ := ha "Ge" (by simp)
  refine ⟨[("GAUGE".toList, [([1], g), ([2], gp), ([3], gs)]),
    ("SCALAR".toList, [([1], lam), ([2], m2)]),
    ("GU".toList, matrix2lha gu.shape fun i => (gu.get i).re),
    ("IMGU".toList, matrix2lha gu.shape fun i => (gu.get i).im),
    ("GD".toList, matrix2lha gd.shape fun i => (gd.get i).re),
    ("IMGD".toList, matrix2lha gd.shape fun i => (gd.get i).im),
    ("GE".toList, matrix2lha ge.shape fun i => (ge.get i).re),
    ("IMGE".toList, matrix2lha ge.shape fun i => (ge.get i).im),
    ("THETA".toList, [([1], t), ([2], tp), ([3], ts)])], ?_, rfl, fun B hB => ?_⟩
  · simp only [smDict2lha, realItem, arrItem, g', gp', gs', lam', m2', t', tp', ts', gu', gd', ge', bind,
      Except.bind, Complex.ofReal_re]
  · refine ⟨[("g".toList, .num g), ("gp".toList, .num gp), ("gs".toList, .num gs),
    ("Lambda".toList, .num lam), ("m2".toList, .num m2),
    ("Gu".toList, .arr gu), ("Gd".toList, .arr gd), ("Ge".toList, .arr ge),
    ("Theta".toList, .num t), ("Thetap".toList, .num tp),
    ("Thetas".toList, .num ts)], ?_, rfl, ?_⟩
    · have b1 := hB "GAUGE".toList (by decide)
      have b2 := hB "SCALAR".toList (by decide)
      have b3 := hB "GU".toList (by decide)
      have b4 := hB "IMGU".toList (by decide)
      have b5 := hB "GD".toList (by decide)
      have b6 := hB "IMGD".toList (by decide)
      have b7 := hB "GE".toList (by decide)
      have b8 := hB "IMGE".toList (by decide)
      have b9 := hB "THETA".toList (by decide)
      have q1 := smMatrix_ok su wu (b3.trans rfl) (b4.trans rfl)
      have q2 := smMatrix_ok sd wd (b5.trans rfl) (b6.trans rfl)
      have q3 := smMatrix_ok se we (b7.trans rfl) (b8.trans rfl)
      have c1 : item B "GAUGE".toList = .ok [([1], g), ([2], gp), ([3], gs)] := by unfold item; rw [b1]; rfl
      have c2 : item B "SCALAR".toList = .ok [([1], lam), ([2], m2)] := by unfold item; rw [b2]; rfl
      have c9 : B.get? "THETA".toList = some [([1], t), ([2], tp), ([3], ts)] := by rw [b9]; rfl
      unfold smLha2dict
      rw [c1, c2, q1, q2, q3, c9]
      rfl
    · intro s hs
      simp only [smNames, List.map_cons, List.map_nil, List.mem_cons, List.not_mem_nil, or_false] at hs
      rcases hs with rfl | rfl | rfl | rfl | rfl | rfl | rfl | rfl | rfl | rfl | rfl
      · rw [g']; rfl
      · rw [gp']; rfl
      · rw [gs']; rfl
      · rw [lam']; rfl
      · rw [m2']; rfl
      · rw [gu']; rfl
      · rw [gd']; rfl
      · rw [ge']; rfl
      · rw [t']; rfl
      · rw [tp']; rfl
      · rw [ts']; rfl

/-! ### symmetrizing what was read -/

lemma rec4' {a m : I4 → ℂ} (h : IsClass4 a) (hm : ∀ j, NonRed code4 rels4 j → m j = a j) (i : I4) :
    runProg Gen.symmetrize_4 m i = a i := by
  rw [run_congr Gen.symmetrize_4 (fun i => decide (NonRed code4 rels4 i)) all4I (by decide +kernel)
    (b' := a) (fun j hj => hm j (by simpa using hj)) (mem_all4I i), C20_fixed_class4 a h]
lemma rec6' {a m : I4 → ℂ} (h : IsClass6 a) (hm : ∀ j, NonRed code4 rels6 j → m j = a j) (i : I4) :
    runProg Gen.symmetrize_6 m i = a i := by
  rw [run_congr Gen.symmetrize_6 (fun i => decide (NonRed code4 rels6 i)) all4I (by decide +kernel)
    (b' := a) (fun j hj => hm j (by simpa using hj)) (mem_all4I i), C20_fixed_class6 a h]
lemma rec7' {a m : I4 → ℂ} (h : IsClass7 a) (hm : ∀ j, NonRed code4 rels7 j → m j = a j) (i : I4) :
    runProg Gen.symmetrize_7 m i = a i := by
  rw [run_congr Gen.symmetrize_7 (fun i => decide (NonRed code4 rels7 i)) all4I (by decide +kernel)
    (b' := a) (fun j hj => hm j (by simpa using hj)) (mem_all4I i), C20_fixed_class7 a h]
lemma rec8' {a m : I4 → ℂ} (h : IsClass8 a) (hm : ∀ j, NonRed8 j → m j = a j) (i : I4) :
    runProg Gen.symmetrize_8 m i = a i := by
  rw [run_congr Gen.symmetrize_8 (fun i => decide (NonRed8 i)) all4I (by decide +kernel)
    (b' := a) (fun j hj => hm j (by simpa using hj)) (mem_all4I i), C20_fixed_class8 a h]

lemma symG_rec4 {c : ℕ} (hc : c ∈ [3, 4, 5, 6, 7, 8]) {v : AVal} {a : NDArr}
    (hv : Fits (some [3, 3, 3, 3]) v) (ha : SymVal c (.arr a))
    (hm : ∀ i, NonRedOf4 c i → ent4 v i = a.get (idx4 i)) (i : I4) :
    ent4 (cutF (some [3, 3, 3, 3]) (symG c (padF v))) i = a.get (idx4 i) := by
  have hP : Padded (some [3, 3, 3, 3]) (padF v) := padded_padF (fun l e => by
    cases e
    exact ⟨Or.inr rfl, by simp⟩) hv
  rw [ent4_cutF _ _ _ (in4 i)]
  obtain ⟨-, -, s4, -, s5, s6, s7, -, s8⟩ := ha
  simp only [List.mem_cons, List.not_mem_nil, or_false] at hc
  rcases hc with rfl | rfl | rfl | rfl | rfl | rfl
  · rw [show symG 3 = id from rfl]
    simp only [id, ent4_padF]
    exact hm i (by simp [NonRedOf4])
  · refine (ent_op4 (f := runProg Gen.symmetrize_4) hP i).trans ?_
    rw [ent4_padF]
    exact rec4' (s4 rfl) (fun j hj => hm j (by simpa [NonRedOf4] using hj)) i
  · refine (ent_op4 (f := runProg Gen.symmetrize_5) hP i).trans ?_
    rw [ent4_padF]
    exact rec5 (s5 rfl) (fun j hj => hm j (by simpa [NonRedOf4] using hj)) i
  · refine (ent_op4 (f := runProg Gen.symmetrize_6) hP i).trans ?_
    rw [ent4_padF]
    exact rec6' (s6 rfl) (fun j hj => hm j (by simpa [NonRedOf4] using hj)) i
  · refine (ent_op4 (f := runProg Gen.symmetrize_7) hP i).trans ?_
    rw [ent4_padF]
    exact rec7' (s7 rfl) (fun j hj => hm j (by simpa [NonRedOf4] using hj)) i
  · refine (ent_op4 (f := runProg Gen.symmetrize_8) hP i).trans ?_
    rw [ent4_padF]
    exact rec8' (s8 rfl) (fun j hj => hm j (by simpa [NonRedOf4] using hj)) i

lemma symG_rec2 {c : ℕ} (hc : c ∈ [1, 2, 9]) {v : AVal} {a : NDArr}
    (hv : Fits (some [3, 3]) v) (ha : SymVal c (.arr a))
    (hm : ∀ i, NonRedOf2 c i → ent2 v i = a.get (idx2 i)) (i : I2) :
    ent2 (cutF (some [3, 3]) (symG c (padF v))) i = a.get (idx2 i) := by
  have hP : Padded (some [3, 3]) (padF v) := padded_padF (fun l e => by
    cases e
    exact ⟨Or.inl rfl, by simp⟩) hv
  rw [ent2_cutF _ _ _ (in2 i)]
  obtain ⟨s2, s9, -⟩ := ha
  simp only [List.mem_cons, List.not_mem_nil, or_false] at hc
  rcases hc with rfl | rfl | rfl
  · rw [show symG 1 = id from rfl]
    simp only [id, ent2_padF]
    exact hm i (by simp [NonRedOf2])
  · refine (ent_op2 (f := runProg Gen.symmetrize_2) hP i).trans ?_
    rw [ent2_padF]
    exact rec2 (s2 rfl) (fun j hj => hm j (by simpa [NonRedOf2] using hj)) i
  · refine (ent_op2 (f := runProg Gen.symmetrize_9) hP i).trans ?_
    rw [ent2_padF]
    exact rec9 (s9 rfl) (fun j hj => hm j (by simpa [NonRedOf2] using hj)) i

theorem class2 : ∀ k ∈ keys, rankOf k = 2 → fullClass k ∈ [1, 2, 9] := by decide +kernel
theorem class4 : ∀ k ∈ keys, rankOf k = 4 → fullClass k ∈ [3, 4, 5, 6, 7, 8] := by decide +kernel
theorem class0 : ∀ k ∈ keys, rankOf k = 0 → fullClass k = 0 := by decide +kernel

lemma arr_class (hU : SmeftHelper U) {k : Key} (hk : k ∈ keys) : InClass U (fullClass k) (keyName k) := by
  by_cases h : k ∈ smKeys
  · exact hU.classes k h
  · exact hU.smeft.cls k ((coeff_iff k).2 ⟨hk, h⟩)

lemma keyOK_of (hU : SmeftHelper U) {k : Key} (hk : k ∈ keys) :
    KeyOK U (keyName k) (shapeK k) (fullClass k) := by
  obtain ⟨c, h⟩ := keyOK hU.smeft.regular ((hU.shapes _ _).2 ⟨k, hk, rfl, rfl⟩)
  obtain rfl := InClass.unique h.cls (arr_class hU hk)
  exact h

lemma real_of_fixed4 {k : Key} {c : ℕ} (hk : KeyOK U (keyName k) (some [3, 3, 3, 3]) c) (hc : c ∈ [3, 4, 5, 6, 7, 8])
    {a : NDArr} (hs : a.shape = [3, 3, 3, 3]) (hw : a.WF) (ha : SymVal c (.arr a)) {i : I4} (hn : NonRedOf4 c i)
    (hr : RealOf4 c i) : ((a.get (idx4 i)).re : ℂ) = a.get (idx4 i) := by
  have h1 := symG_rec4 (v := .arr a) hc ⟨hs, hw⟩ ha (fun _ _ => rfl) i
  rw [symG_entry4 (v := .arr a) hk ⟨hs, hw⟩ rfl (in4 i) hn, if_pos hr] at h1
  exact h1

lemma real_of_fixed2 {k : Key} {c : ℕ} (hk : KeyOK U (keyName k) (some [3, 3]) c) (hc : c ∈ [1, 2, 9])
    {a : NDArr} (hs : a.shape = [3, 3]) (hw : a.WF) (ha : SymVal c (.arr a)) {i : I2} (hn : NonRedOf2 c i)
    (hr : RealOf2 c i) : ((a.get (idx2 i)).re : ℂ) = a.get (idx2 i) := by
  have h1 := symG_rec2 (v := .arr a) hc ⟨hs, hw⟩ ha (fun _ _ => rfl) i
  rw [symG_entry2 (v := .arr a) hk ⟨hs, hw⟩ rfl (in2 i) hn, if_pos hr] at h1
  exact h1

/-! ### parameters that are not in the basis are dropped -/

lemma noPad (hU : SmeftHelper U) : U.needsPadding = false := by
  unfold needsPadding
  have hall : ∀ m ∈ U.keysShape.filterMap (fun kv => kv.2.bind List.min?), m = 3 := by
    intro m hm
    obtain ⟨kv, hkv, e⟩ := List.mem_filterMap.1 hm
    obtain ⟨k, hk, -, hs⟩ := (hU.shapes kv.1 kv.2).1 (Dict.get?_of_mem hU.smeft.regular.nodup hkv)
    rw [hs] at e
    rcases rank_cases k hk with h | h | h
    · simp [shapeK, h] at e
    · rw [shapeK_two h] at e; simpa using e.symm
    · rw [shapeK_four h] at e; simpa using e.symm
  cases h : (U.keysShape.filterMap fun kv => kv.2.bind List.min?).min? with
  | none => rfl
  | some m =>
    have := hall m (List.min?_eq_some_iff.1 h).1
    simp [this, hU.smeft.regular.nGen]

lemma classOf_none (hU : SmeftHelper U) {s : Str} (hs : ∀ k ∈ keys, s ≠ keyName k) : U.classOf s = none := by
  have : ∀ c, s ∉ U.symm c := fun c h => by
    obtain ⟨k, hk, e⟩ := hU.only c s h
    exact hs k hk e
  unfold classOf
  simp [this]

lemma mapDictM_filter {f : Str → AVal → Except Err (Option AVal)} (p : Str → Bool)
    (hf : ∀ k v, p k = false → f k v = .ok none) : ∀ C : Dict Str AVal,
    mapDictM f C = mapDictM f (C.filterKV fun k _ => p k)
  | [] => rfl
  | (k, v) :: C => by
    have ih := mapDictM_filter p hf C
    unfold Dict.filterKV at ih ⊢
    rw [List.filter_cons]
    by_cases h : p k = true
    · simp only [h, if_true, mapDictM, ih]
    · have h : p k = false := by simpa using h
      simp only [h, Bool.false_eq_true, if_false, mapDictM, hf k v h, ih]

/-- the key belongs to the basis -/
noncomputable def known (s : Str) : Bool := decide (∃ k ∈ keys, s = keyName k)

lemma symmetrize_filter (hU : SmeftHelper U) (C : Dict Str AVal) :
    U.symmetrize C = U.symmetrize (C.filterKV fun k _ => known k) := by
  have hp := noPad hU
  unfold symmetrize pad unpad
  simp only [hp, Bool.false_eq_true, if_false, Except.bind]
  have : U.symmLoop symmVal C = U.symmLoop symmVal (C.filterKV fun k _ => known k) := by
    unfold symmLoop
    refine mapDictM_filter known (fun k v hk => ?_) C
    rw [classOf_none hU fun k' hk' e => by
      simp only [known, decide_eq_false_iff_not] at hk
      exact hk ⟨k', hk', e⟩]
  rw [this]

/-! ### loading -/

/-- What was read agrees with the value where the operator class does not fix the entry. -/
def Like (k : Key) : AVal → AVal → Prop
  | .num z, v => v = .num (z.re : ℂ)
  | .arr a, v => ∃ a', v = .arr a' ∧ a'.shape = a.shape ∧ a'.WF ∧
      (rankOf k = 2 → ∀ i, NonRedOf2 (fullClass k) i → a'.get (idx2 i) = a.get (idx2 i)) ∧
      (rankOf k = 4 → ∀ i, NonRedOf4 (fullClass k) i → a'.get (idx4 i) = a.get (idx4 i))

lemma like_refl {k : Key} {v : AVal} (hf : Fits (shapeK k) v) (hs : SymVal (fullClass k) v) : Like k v v := by
  cases v with
  | num z =>
    simp only [Like, AVal.num.injEq]
    exact Complex.ext rfl (by simpa [SymVal] using hs)
  | arr a =>
    refine ⟨a, rfl, rfl, ?_, fun _ _ _ => rfl, fun _ _ _ => rfl⟩
    unfold shapeK at hf
    split at hf
    · simp [Fits] at hf
    · exact hf.2

lemma like_fits {k : Key} {v w : AVal} (hf : Fits (shapeK k) v) (h : Like k v w) : Fits (shapeK k) w := by
  cases v with
  | num z =>
    rw [show w = _ from h]
    unfold shapeK at hf ⊢
    split at hf
    · rename_i h0; rw [if_pos h0]; trivial
    · simp [Fits] at hf
  | arr a =>
    obtain ⟨a', rfl, h1, h2, -⟩ := h
    unfold shapeK at hf ⊢
    split at hf
    · simp [Fits] at hf
    · rename_i h0
      rw [if_neg h0]
      exact ⟨h1.trans hf.1, h2⟩

lemma like_symm {k : Key} (hk : k ∈ keys) {v w u : AVal} (hf : Fits (shapeK k) v)
    (hs : SymVal (fullClass k) v) (h : Like k v w)
    (hu : u = cutF (shapeK k) (symG (fullClass k) (padF w))) (fu : Fits (shapeK k) u) : u = v := by
  have hw := like_fits hf h
  rcases rank_cases k hk with h0 | h2 | h4
  · cases v with
    | arr a => simp [shapeK, h0, Fits] at hf
    | num z =>
      rw [show w = _ from h, class0 k hk h0] at hu
      rw [hu]
      simp only [symG, if_true, padF, realVal, cutF, AVal.num.injEq, Complex.ofReal_re]
      exact Complex.ext rfl (by simpa [SymVal] using hs.symm)
  · rw [shapeK_two h2] at *
    cases v with
    | num z => simp [Fits] at hf
    | arr a =>
      refine fits_ext2 fu hf fun i => ?_
      obtain ⟨a', rfl, -, -, h3, -⟩ := h
      rw [hu]
      exact symG_rec2 (class2 k hk h2) hw hs (h3 h2) i
  · rw [shapeK_four h4] at *
    cases v with
    | num z => simp [Fits] at hf
    | arr a =>
      refine fits_ext4 fu hf fun i => ?_
      obtain ⟨a', rfl, -, -, -, h3⟩ := h
      rw [hu]
      exact symG_rec4 (class4 k hk h4) hw hs (h3 h4) i

/-- Symmetrizing what was read restores the values; keys outside the basis are dropped. -/
theorem symm_like (hU : SmeftHelper U) {T R : Dict Str AVal} (hn : R.NodupKeys)
    (h : ∀ k ∈ keys, ∃ v w, T.get? (keyName k) = some v ∧ Fits (shapeK k) v ∧ SymVal (fullClass k) v ∧
      R.get? (keyName k) = some w ∧ Like k v w) :
    ∃ D, U.symmetrize R = .ok D ∧ (∀ k ∈ keys, D.get? (keyName k) = T.get? (keyName k)) ∧
      ∀ s, (∀ k ∈ keys, s ≠ keyName k) → D.get? s = none := by
  have hF : ∀ s, (R.filterKV fun k _ => known k).get? s = if known s = true then R.get? s else none := by
    intro s
    rw [Dict.get?_filterKV _ _ hn]
    cases R.get? s <;> by_cases hs : known s = true <;> simp [Option.filter, hs]
  obtain ⟨D, e, nD, kD, fD, gD⟩ := stage_symmG hU.smeft.regular
    (C := R.filterKV fun k _ => known k) (Dict.nodupKeys_filterKV _ _ hn) (by
      intro s v hv
      rw [hF] at hv
      split at hv
      · rename_i hs
        simp only [known, decide_eq_true_eq] at hs
        obtain ⟨k, hk, rfl⟩ := hs
        obtain ⟨v', w, -, h2, -, h4, h5⟩ := h k hk
        rw [h4, Option.some.injEq] at hv
        subst hv
        exact ⟨_, (hU.shapes _ _).2 ⟨k, hk, rfl, rfl⟩, like_fits h2 h5⟩
      · cases hv)
  refine ⟨D, by rw [symmetrize_filter hU, e], fun k hk => ?_, fun s hs => ?_⟩
  · obtain ⟨v, w, h1, h2, h3, h4, h5⟩ := h k hk
    have hg := gD (keyName k)
    rw [hF, if_pos (by simp only [known, decide_eq_true_eq]; exact ⟨k, hk, rfl⟩), h4, Option.map_some] at hg
    obtain ⟨s, hs1, hs2⟩ := fD _ _ hg
    have hsh := (hU.shapes _ _).2 ⟨k, hk, rfl, rfl⟩
    rw [hsh, Option.some.injEq] at hs1
    subst hs1
    rw [h1, hg]
    congr 1
    refine like_symm hk h2 h3 h5 ?_ hs2
    rw [clsOf_eq (keyOK_of hU hk)]
    unfold shapeOf
    rw [hsh, Option.getD_some]
  · rw [gD, hF, if_neg (by
      simp only [known, decide_eq_true_eq]
      rintro ⟨k, hk, e⟩
      exact hs k hk e)]
    rfl

theorem sm_ranks : ∀ k ∈ smKeys,
    (rankOf k = 0 ∧ keyName k ∈ ["g", "gp", "gs", "Lambda", "m2"].map String.toList) ∨
    (rankOf k = 2 ∧ fullClass k = 1 ∧ keyName k ∈ ["Gu", "Gd", "Ge"].map String.toList) := by decide +kernel
theorem smKeys_sub : ∀ k ∈ smKeys, k ∈ keys := by decide +kernel
theorem coeff_notSm : ∀ k ∈ coeffKeys, keyName k ∉ smNames := by decide +kernel

lemma sm_val {sm : Dict Str AVal} (h : SmParameters sm) {k : Key} (hk : k ∈ smKeys) :
    ∃ v, sm.get? (keyName k) = some v ∧ Fits (shapeK k) v ∧ SymVal (fullClass k) v ∧ keyName k ∈ smNames := by
  rcases sm_ranks k hk with ⟨h0, hm⟩ | ⟨h2, hc, hm⟩
  · obtain ⟨s, hs, e⟩ := List.mem_map.1 hm
    obtain ⟨x, hx⟩ := h.1 s (by
      simp only [List.mem_cons, List.not_mem_nil, or_false] at hs ⊢
      tauto)
    rw [← e]
    refine ⟨_, hx, by simp [shapeK, h0, Fits], by simp [SymVal], ?_⟩
    simp only [List.mem_cons, List.not_mem_nil, or_false] at hs
    rcases hs with rfl | rfl | rfl | rfl | rfl <;> decide
  · obtain ⟨s, hs, e⟩ := List.mem_map.1 hm
    obtain ⟨a, ha, hs', hw⟩ := h.2 s hs
    rw [← e]
    refine ⟨_, ha, by rw [shapeK_two h2]; exact ⟨hs', hw⟩, by simp [SymVal, hc], ?_⟩
    simp only [List.mem_cons, List.not_mem_nil, or_false] at hs
    rcases hs with rfl | rfl | rfl <;> decide

lemma physical_shaped {C : Dict Str AVal} (h : Physical C) : Shaped C := fun k hk => by
  obtain ⟨v, h1, h2, -⟩ := h k hk
  exact ⟨v, h1, h2⟩

lemma kept_like {sr : Bool} {nr re : Prop} {z : ℂ} (hn : nr) (h : re → (z.re : ℂ) = z) : kept sr nr re z = z := by
  unfold kept
  rw [if_pos hn]
  split
  · rename_i hr; exact h hr
  · rfl

/-- what is read from the blocks that were written is `Like` the original -/
theorem read_like (hU : SmeftHelper U) {C : Dict Str AVal} (hC : Physical C) {sr sz : Bool} {B : Blocks}
    (hA : ∀ k ∈ arrKeys, rowsOf B (reBlock (keyName k)) = reOf C sr sz (keyName k) ∧
        rowsOf B (imBlock (keyName k)) = imOf C sr sz (keyName k))
    (h0 : ∀ b ∈ otherBlocks.take 4, rowsOf B b = Gen.dsixWC0f.flatMap fun e => if e.2.1 = b then rows0 C e else []) :
    ∃ C', wcLha2dict U B = .ok C' ∧ C'.NodupKeys ∧
      (∀ s, (∀ k ∈ coeffKeys, s ≠ keyName k) → C'.get? s = none) ∧
      ∀ k ∈ coeffKeys, ∃ v w, C.get? (keyName k) = some v ∧ Fits (shapeK k) v ∧ SymVal (fullClass k) v ∧
        C'.get? (keyName k) = some w ∧ Like k v w := by
  obtain ⟨C', e, n, g0, g1, g2⟩ := read_back hU (physical_shaped hC) hA h0
  refine ⟨C', e, n, g0, fun k hk => ?_⟩
  obtain ⟨v, h1, h2, h3⟩ := hC k hk
  have hk' := ((coeff_iff k).1 hk).1
  cases v with
  | num z => exact ⟨_, _, h1, h2, h3, g1 k hk z h1, rfl⟩
  | arr a =>
    obtain ⟨a', q1, q2, q3, q4, q5⟩ := g2 k hk a h1
    refine ⟨_, _, h1, h2, h3, q1, a', rfl, q2, q3, fun hr i hn => ?_, fun hr i hn => ?_⟩
    · have hK := keyOK_of hU hk'
      rw [shapeK_two hr] at h2 hK
      rw [q4 hr i]
      exact kept_like hn fun h => real_of_fixed2 hK (class2 k hk' hr) h2.1 h2.2 h3 hn h
    · have hK := keyOK_of hU hk'
      rw [shapeK_four hr] at h2 hK
      rw [q5 hr i]
      exact kept_like hn fun h => real_of_fixed4 hK (class4 k hk' hr) h2.1 h2.2 h3 hn h

theorem wc_blocks : ∀ b ∈ otherBlocks.drop 4, ∀ e ∈ Gen.dsixWC0f, e.2.1 ≠ b := by decide +kernel

theorem load_main (hU : SmeftHelper U) {C sm : Dict Str AVal} (hC : Physical C) (hS : SmParameters sm)
    (high : ℝ) (scaleOut : Option ℝ) (sr : Bool) :
    ∃ D S, dump U high C scaleOut sr = .ok D ∧ smDict2lha sm = .ok S ∧
      ∀ streams, (streams = [D, S] ∨ streams = [S, D]) → ∃ C', loadInitial U streams =
        .ok { cIn := some C', scaleIn := some high, scaleHigh := some high } ∧
        (∀ k ∈ coeffKeys, C'.get? (keyName k) = C.get? (keyName k)) ∧
        (∀ k ∈ smKeys, C'.get? (keyName k) = sm.get? (keyName k)) ∧
        ∀ s, (∀ k ∈ keys, s ≠ keyName k) → C'.get? s = none := by
  obtain ⟨W, w1, w2, w3, w4, w5⟩ := write_ok hU (physical_shaped hC) sr true
  obtain ⟨S, s1, s2, s3⟩ := sm_back hS
  have hWnone : ∀ b ∈ otherBlocks.drop 4, W.get? b = none := by
    intro b hb
    rw [Dict.get?_eq_none_iff]
    intro hk
    refine w5 b hk ?_
    rw [w4 b (List.mem_of_mem_drop hb), List.flatMap_eq_nil_iff]
    intro e he
    rw [if_neg (wc_blocks b hb e he)]
  have hSn : S.NodupKeys := by
    unfold Dict.NodupKeys
    rw [s2]
    decide
  have hSnone : ∀ b, b ∉ smBlocks → S.get? b = none := fun b hb => by
    rw [Dict.get?_eq_none_iff, s2]; exact hb
  set sc : List Row := (match scaleOut with
    | some s => [([1], high), ([2], s)]
    | none => [([1], high)]) with hsc
  set D : Blocks := Dict.update [("SCALES".toList, sc)] W with hD
  have hDn : D.NodupKeys := Dict.nodupKeys_update _ _ (by simp [Dict.NodupKeys, Dict.keys])
  have hDg : ∀ b, D.get? b = (W.get? b).or (if "SCALES".toList = b then some sc else none) := fun b => by
    rw [hD, Dict.get?_update _ _ w2]; rfl
  refine ⟨D, S, by unfold dump; rw [w1]; rfl, s1, fun streams hst => ?_⟩
  set B : Blocks := streams.foldl (fun d s => d.update s) [] with hB
  have hSC : "SCALES".toList ∉ smBlocks := by decide
  have hBg : ∀ b, B.get? b = if b ∈ smBlocks then S.get? b else D.get? b := by
    intro b
    have hx : b ∈ smBlocks → D.get? b = none := fun hb => by
      have : b ∈ otherBlocks.drop 4 := by
        rw [show otherBlocks.drop 4 = "SCALES".toList :: smBlocks from rfl]
        exact List.mem_cons_of_mem _ hb
      rw [hDg, hWnone b this, if_neg (by rintro rfl; exact hSC hb)]
      rfl
    rcases hst with rfl | rfl
    · rw [hB]
      simp only [List.foldl_cons, List.foldl_nil]
      rw [Dict.get?_update _ _ hSn, Dict.get?_update _ _ hDn]
      split
      · rename_i hb; rw [hx hb]; simp
      · rename_i hb; rw [hSnone b hb]; simp
    · rw [hB]
      simp only [List.foldl_cons, List.foldl_nil]
      rw [Dict.get?_update _ _ hDn, Dict.get?_update _ _ hSn]
      split
      · rename_i hb; rw [hx hb]; simp
      · rename_i hb; rw [hSnone b hb]; simp
  have hrows : ∀ b, b ∉ otherBlocks.drop 4 → rowsOf B b = rowsOf W b := by
    intro b hb
    have h1 : b ∉ smBlocks := fun h => hb (by
      rw [show otherBlocks.drop 4 = "SCALES".toList :: smBlocks from rfl]
      exact List.mem_cons_of_mem _ h)
    have h2 : "SCALES".toList ≠ b := by
      rintro rfl
      exact hb (by decide)
    unfold rowsOf
    rw [hBg, if_neg h1, hDg, if_neg h2, Option.or_none]
  obtain ⟨C1, c1, c2, c3, c4⟩ := read_like hU hC (B := B) (sr := sr) (sz := true)
    (fun k hk => by
      rw [hrows _ fun h => (block_other k hk).1 (List.mem_of_mem_drop h),
        hrows _ fun h => (block_other k hk).2 (List.mem_of_mem_drop h)]
      exact w3 k hk)
    (fun b hb => by
      have hd : ∀ b ∈ otherBlocks.take 4, b ∉ otherBlocks.drop 4 := by decide
      rw [hrows _ (hd b hb)]
      exact w4 b (List.mem_of_mem_take hb))
  obtain ⟨sm', q1, q2, q3⟩ := s3 B fun b hb => by rw [hBg, if_pos hb]
  have hsmn : sm'.NodupKeys := by unfold Dict.NodupKeys; rw [q2]; decide
  have hscale : lha2scale B = .ok high := by
    have : item B "SCALES".toList = .ok sc := by
      unfold item
      rw [hBg, if_neg hSC, hDg, hWnone _ (by decide), if_pos rfl]
      rfl
    unfold lha2scale
    rw [this]
    cases scaleOut <;> rfl
  have hR : ∀ s, (C1.update sm').get? s = (sm'.get? s).or (C1.get? s) := fun s => Dict.get?_update _ _ hsmn _
  have hRc : ∀ k ∈ coeffKeys, (C1.update sm').get? (keyName k) = C1.get? (keyName k) := fun k hk => by
    rw [hR, (Dict.get?_eq_none_iff sm' _).2 (by rw [q2]; exact coeff_notSm k hk), Option.none_or]
  have hT : ∀ s, (C.update sm').get? s = (sm'.get? s).or (C.get? s) := fun s => Dict.get?_update _ _ hsmn _
  have hTc : ∀ k ∈ coeffKeys, (C.update sm').get? (keyName k) = C.get? (keyName k) := fun k hk => by
    rw [hT, (Dict.get?_eq_none_iff sm' _).2 (by rw [q2]; exact coeff_notSm k hk), Option.none_or]
  have hTs : ∀ k ∈ smKeys, (C.update sm').get? (keyName k) = sm.get? (keyName k) ∧
      (C1.update sm').get? (keyName k) = sm.get? (keyName k) := fun k hk => by
    obtain ⟨v, v1, -, -, v4⟩ := sm_val hS hk
    rw [hT, hR, q3 _ v4, v1]
    exact ⟨rfl, rfl⟩
  obtain ⟨E, e1, e2, e3⟩ := symm_like hU (T := C.update sm') (R := C1.update sm')
    (Dict.nodupKeys_update _ _ c2) (by
      intro k hk
      by_cases h : k ∈ smKeys
      · obtain ⟨v, v1, v2, v3, -⟩ := sm_val hS h
        exact ⟨v, v, (hTs k h).1.trans v1, v2, v3, (hTs k h).2.trans v1, like_refl v2 v3⟩
      · have h' := (coeff_iff k).2 ⟨hk, h⟩
        obtain ⟨v, w, v1, v2, v3, v4, v5⟩ := c4 k h'
        exact ⟨v, w, (hTc k h').trans v1, v2, v3, (hRc k h').trans v4, v5⟩)
  refine ⟨E, ?_, fun k hk => ?_, fun k hk => ?_, e3⟩
  · unfold loadInitial
    simp only [← hB]
    rw [c1, q1, hscale]
    simp only [bind, Except.bind]
    rw [e1]
  · rw [e2 k ((coeff_iff k).1 hk).1, hTc k hk]
  · rw [e2 k (smKeys_sub k hk), (hTs k hk).1]

end Verif.Dsix
