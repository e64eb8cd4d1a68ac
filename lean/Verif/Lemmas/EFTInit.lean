import Verif.Spec.EFTInit
import Verif.Lemmas.Names
import Verif.Lemmas.Symmetrize
import Mathlib.Tactic.IntervalCases

/-! Helper lemmas for C67 (constructor of the EFT helper). -/

set_option autoImplicit false
set_option linter.unusedSimpArgs false

namespace Verif.EFT.Init
open Verif Verif.Spec Verif.EFT Verif.EFT.Util Verif.Reflect

lemma mem_uniq {α : Type} [DecidableEq α] {l : List α} {a : α} : a ∈ uniq l ↔ a ∈ l := by
  simp [uniq]
lemma nodup_uniq {α : Type} [DecidableEq α] (l : List α) : (uniq l).Nodup := by
  simp [uniq, List.nodup_reverse, List.nodup_dedup]
lemma uniq_eq {α : Type} [DecidableEq α] {l : List α} (h : l.Nodup) : uniq l = l := by
  simp [uniq, List.Nodup.dedup (List.nodup_reverse.2 h)]

/-! ### sorting -/

lemma strLe_refl : ∀ s, strLe s s = true
  | [] => rfl
  | a :: s => by simp [strLe, strLe_refl s]

lemma strLe_total : ∀ s t, strLe s t = true ∨ strLe t s = true
  | [], _ => .inl rfl
  | _ :: _, [] => .inr rfl
  | a :: s, b :: t => by
    simp only [strLe, Bool.or_eq_true, Bool.and_eq_true, decide_eq_true_eq]
    rcases lt_trichotomy a.toNat b.toNat with h | h | h
    · exact .inl (.inl h)
    · have : a = b := Char.toNat_inj.1 h
      subst this
      rcases strLe_total s t with h' | h'
      · exact .inl (.inr ⟨rfl, h'⟩)
      · exact .inr (.inr ⟨rfl, h'⟩)
    · exact .inr (.inl h)

lemma strLe_antisymm : ∀ s t, strLe s t = true → strLe t s = true → s = t
  | [], [], _, _ => rfl
  | [], _ :: _, _, h => by simp [strLe] at h
  | _ :: _, [], h, _ => by simp [strLe] at h
  | a :: s, b :: t, h, h' => by
    simp only [strLe, Bool.or_eq_true, Bool.and_eq_true, decide_eq_true_eq] at h h'
    rcases h with h | ⟨rfl, h⟩
    · rcases h' with h' | ⟨rfl, -⟩ <;> omega
    · rcases h' with h' | ⟨-, h'⟩
      · omega
      · rw [strLe_antisymm s t h h']

lemma strLe_trans : ∀ s t u, strLe s t = true → strLe t u = true → strLe s u = true
  | [], _, _, _, _ => rfl
  | _ :: _, [], _, h, _ => by simp [strLe] at h
  | _ :: _, _ :: _, [], _, h => by simp [strLe] at h
  | a :: s, b :: t, c :: u, h, h' => by
    simp only [strLe, Bool.or_eq_true, Bool.and_eq_true, decide_eq_true_eq] at h h' ⊢
    rcases h with h | ⟨rfl, h⟩ <;> rcases h' with h' | ⟨rfl, h'⟩
    · left; omega
    · left; exact h
    · left; exact h'
    · right; exact ⟨rfl, strLe_trans s t u h h'⟩

instance : Std.Total (fun p q : Str × Bool => pairLe p q = true) where
  total p q := by
    obtain ⟨s, a⟩ := p; obtain ⟨t, b⟩ := q
    simp only [pairLe, Bool.or_eq_true, Bool.and_eq_true, decide_eq_true_eq]
    by_cases e : s = t
    · subst e; cases a <;> cases b <;> simp
    · rcases strLe_total s t with h | h
      · exact .inl (.inl ⟨e, h⟩)
      · exact .inr (.inl ⟨Ne.symm e, h⟩)

instance : IsTrans (Str × Bool) (fun p q => pairLe p q = true) where
  trans p q r h h' := by
    obtain ⟨s, a⟩ := p; obtain ⟨t, b⟩ := q; obtain ⟨u, c⟩ := r
    simp only [pairLe, Bool.or_eq_true, Bool.and_eq_true, decide_eq_true_eq] at h h' ⊢
    rcases h with ⟨e, h⟩ | ⟨rfl, h⟩
    · rcases h' with ⟨e', h'⟩ | ⟨rfl, h'⟩
      · left
        refine ⟨?_, strLe_trans s t u h h'⟩
        rintro rfl
        exact e (strLe_antisymm _ _ h h')
      · exact .inl ⟨e, h⟩
    · rcases h' with ⟨e', h'⟩ | ⟨rfl, h'⟩
      · exact .inl ⟨e', h'⟩
      · right; refine ⟨rfl, ?_⟩; revert h h'; cases a <;> cases b <;> cases c <;> simp

instance : Std.Antisymm (fun p q : Str × Bool => pairLe p q = true) where
  antisymm p q h h' := by
    obtain ⟨s, a⟩ := p; obtain ⟨t, b⟩ := q
    simp only [pairLe, Bool.or_eq_true, Bool.and_eq_true, decide_eq_true_eq] at h h'
    rcases h with ⟨e, h⟩ | ⟨rfl, h⟩
    · rcases h' with ⟨e', h'⟩ | ⟨rfl, h'⟩
      · exact absurd (strLe_antisymm _ _ h h') e
      · exact absurd rfl e
    · rcases h' with ⟨e', h'⟩ | ⟨-, h'⟩
      · exact absurd rfl e'
      · revert h h'; cases a <;> cases b <;> simp

/-- the sorted tuple depends only on the set of elements -/
lemma sortedSet_ext {v w : List (Str × Bool)} (h : ∀ p, p ∈ v ↔ p ∈ w) : sortedSet v = sortedSet w := by
  have hp : v.dedup.Perm w.dedup := by
    rw [List.perm_ext_iff_of_nodup (List.nodup_dedup _) (List.nodup_dedup _)]
    intro a; simp [h]
  unfold sortedSet
  refine List.Perm.eq_of_pairwise (le := fun p q : Str × Bool => pairLe p q = true) ?_ ?_ ?_ ?_
  · intro a b _ _ h1 h2; exact antisymm_of (fun p q : Str × Bool => pairLe p q = true) h1 h2
  · exact List.pairwise_insertionSort _ _
  · exact List.pairwise_insertionSort _ _
  · exact ((List.perm_insertionSort _ _).trans hp).trans (List.perm_insertionSort _ _).symm

/-! ### the expected two-flavour index sets -/

instance (c : ℕ) (i : I2) : Decidable (NonRedOf2 c i) := by unfold NonRedOf2; infer_instance
instance (c : ℕ) (i : I4) : Decidable (NonRedOf4 c i) := by unfold NonRedOf4; infer_instance
instance (c : ℕ) (i : I2) : Decidable (RealOf2 c i) := by unfold RealOf2; infer_instance
instance (c : ℕ) (i : I4) : Decidable (RealOf4 c i) := by unfold RealOf4; infer_instance

def ind (l : List ℕ) : Str := l.flatMap digitStr

def small2 : I2 → Bool | (i, j) => decide (i.val < 2) && decide (j.val < 2)
def small4 : I4 → Bool
  | (i, j, k, l) => decide (i.val < 2) && decide (j.val < 2) && decide (k.val < 2) && decide (l.val < 2)

def twoFl (c : ℕ) : List (Str × Bool) :=
  if rank c = 2 then (all2I.filter fun i => small2 i && decide (NonRedOf2 c i)).map
    fun i => (ind (idx2 i), decide (RealOf2 c i))
  else if rank c = 4 then (all4I.filter fun i => small4 i && decide (NonRedOf4 c i)).map
    fun i => (ind (idx4 i), decide (RealOf4 c i))
  else []

theorem lookup_twoFl : ∀ c ∈ classIds, classTable.get? (sortedSet (twoFl c)) = some c := by
  decide +kernel

lemma three_notin2 : ∀ i ∈ all2I, ('3' ∉ ind (idx2 i)) ↔ small2 i = true := by decide +kernel
lemma three_notin4 : ∀ i ∈ all4I, ('3' ∉ ind (idx4 i)) ↔ small4 i = true := by decide +kernel

/-! ### names -/

variable {sectors : Sectors} {desc : List Coeff}

lemma listed_iff_mem (n : Str) : (∃ r, Listed sectors n r) ↔ n ∈ allWcs sectors := by
  simp only [Listed, allWcs, List.mem_flatMap, Dict.keys, List.mem_map]
  constructor
  · rintro ⟨r, s, hs, h⟩; exact ⟨s, hs, (n, r), h, rfl⟩
  · rintro ⟨s, hs, ⟨n', r⟩, h, rfl⟩; exact ⟨r, s, hs, h⟩

lemma flatMap_keys : (sectors.flatMap fun s => s.2).map Prod.fst = allWcs sectors := by
  simp [allWcs, List.map_flatMap, Dict.keys]

lemma realFlags_get (h : (allWcs sectors).Nodup) {n : Str} {r : Bool} (hl : Listed sectors n r) :
    (realFlags sectors).get? n = some r := by
  have hn : Dict.NodupKeys (sectors.flatMap fun s => s.2) := by
    unfold Dict.NodupKeys Dict.keys
    rw [flatMap_keys]; exact h
  unfold realFlags
  rw [Util.foldl_set_eq _ _ hn (by simp [Dict.keys])]
  apply Dict.get?_of_mem
  · exact hn
  · obtain ⟨s, hs, h⟩ := hl
    simp only [List.nil_append, List.mem_flatMap]
    exact ⟨s, hs, h⟩

lemma listed_unique (h : (allWcs sectors).Nodup) {n : Str} {r r' : Bool} (hl : Listed sectors n r)
    (hl' : Listed sectors n r') : r = r' := by
  have := realFlags_get h hl
  rw [realFlags_get h hl'] at this
  simpa using this.symm

lemma small9 {c : ℕ} {l : List ℕ} (h : ShapeOK c l) : Small l := fun n hn => by
  have := (h.1 n hn).2; omega

lemma split_name {k : Str} {c : ℕ} {l idx : List ℕ} (hk : '_' ∉ k) (h : ShapeOK c l)
    (hi : inRange l idx = true) : splitUS (wcName k idx) = [k, ind idx] := by
  rw [splitUS_wcName hk hi (small9 h)]
  rfl

/-- decomposition of an entry name -/
lemma entry_split {x : Coeff} (hx : '_' ∉ x.name)
    (hsh : ∀ l, x.shape = some l → ShapeOK x.cls l) {n : Str} {r : Bool} (h : EntryOf x n r) :
    (x.shape = none ∧ n = x.name ∧ splitUS n = [x.name]) ∨
    (∃ i : I2, rank x.cls = 2 ∧ splitUS n = [x.name, ind (idx2 i)] ∧ NonRedOf2 x.cls i ∧
      r = decide (RealOf2 x.cls i) ∧ (∃ l, x.shape = some l ∧ inRange l (idx2 i) = true) ∧ n = wcName x.name (idx2 i)) ∨
    (∃ i : I4, rank x.cls = 4 ∧ splitUS n = [x.name, ind (idx4 i)] ∧ NonRedOf4 x.cls i ∧
      r = decide (RealOf4 x.cls i) ∧ (∃ l, x.shape = some l ∧ inRange l (idx4 i) = true) ∧ n = wcName x.name (idx4 i)) := by
  have len : ∀ {s idx : List ℕ}, inRange s idx = true → s.length = idx.length := by
    intro s
    induction s with
    | nil => intro idx h; cases idx with
      | nil => rfl
      | cons a b => simp [inRange] at h
    | cons a s ih => intro idx h; cases idx with
      | nil => simp [inRange] at h
      | cons b t => simp only [inRange, Bool.and_eq_true] at h; simp [ih h.2]
  cases h with
  | scalar hs => exact .inl ⟨hs, rfl, splitUS_of_notMem hx⟩
  | @two l i hs hi hn =>
    refine .inr (.inl ⟨i, ?_, split_name hx (hsh l hs) hi, hn, ?_, ⟨l, hs, hi⟩, rfl⟩)
    · rw [← (hsh l hs).2.1, len hi]; obtain ⟨a, b⟩ := i; rfl
    · congr
  | @four l i hs hi hn =>
    refine .inr (.inr ⟨i, ?_, split_name hx (hsh l hs) hi, hn, ?_, ⟨l, hs, hi⟩, rfl⟩)
    · rw [← (hsh l hs).2.1, len hi]; obtain ⟨a, b, c, d⟩ := i; rfl
    · congr

lemma name_inj (hD : Describes sectors desc) {x y : Coeff} (hx : x ∈ desc) (hy : y ∈ desc)
    (h : x.name = y.name) : x = y := List.inj_on_of_nodup_map hD.distinct hx hy h

lemma rank_cases (c : ℕ) : rank c = 0 ∧ c = 0 ∨ rank c = 2 ∨ rank c = 4 := by
  unfold rank; split
  · left; constructor <;> first | rfl | assumption
  · split <;> simp

lemma pre_entry (hD : Describes sectors desc) {x : Coeff} (hx : x ∈ desc) {n : Str} {r : Bool}
    (h : EntryOf x n r) : pre n = x.name := by
  obtain ⟨hu, -, -, hsh⟩ := hD.good x hx
  rcases entry_split hu hsh h with ⟨-, -, e⟩ | ⟨i, -, e, -⟩ | ⟨i, -, e, -⟩ <;> rw [pre, e] <;> rfl

/-- a representative entry: index `(0,1,0,0)` (non-redundant in every class) -/
lemma exists_entry (hD : Describes sectors desc) {x : Coeff} (hx : x ∈ desc) :
    ∃ n r, Listed sectors n r ∧ EntryOf x n r := by
  obtain ⟨hu, hc, h0, hsh⟩ := hD.good x hx
  cases hs : x.shape with
  | none =>
    obtain ⟨r, hr⟩ := (hD.complete x hx).1 hs
    exact ⟨x.name, r, hr, .scalar hs⟩
  | some l =>
    have hok := hsh l hs
    have hne : x.shape ≠ none := by rw [hs]; simp
    have hc0 : x.cls ≠ 0 := fun e => hne (h0.2 e)
    obtain ⟨hdim, hlen, -⟩ := hok
    rcases rank_cases x.cls with ⟨-, h⟩ | h | h
    · exact absurd h hc0
    · rw [h] at hlen
      obtain ⟨a, b, rfl⟩ := List.length_eq_two.1 hlen
      have ha := hdim a (by simp); have hb := hdim b (by simp)
      have e : EntryOf x (wcName x.name (idx2 (0, 1))) _ := .two (i := (0, 1)) hs (by
        simp [idx2, inRange]; omega) (by
        constructor <;> intro <;> decide)
      exact ⟨_, _, (hD.complete x hx).2 hne _ _ e, e⟩
    · rw [h] at hlen
      obtain ⟨a, b, c, d, rfl⟩ : ∃ a b c d, l = [a, b, c, d] := by
        match l, hlen with
        | [a, b, c, d], _ => exact ⟨a, b, c, d, rfl⟩
      have ha := hdim a (by simp); have hb := hdim b (by simp)
      have hc := hdim c (by simp); have hd := hdim d (by simp)
      have e : EntryOf x (wcName x.name (idx4 (0, 1, 1, 1))) _ := .four (i := (0, 1, 1, 1)) hs (by
        simp [idx4, inRange]; omega) (by
        refine ⟨?_, ?_, ?_, ?_, ?_, ?_, ?_⟩ <;> intro <;> decide)
      exact ⟨_, _, (hD.complete x hx).2 hne _ _ e, e⟩

lemma mem_prefixes (hD : Describes sectors desc) (k : Str) :
    k ∈ prefixes sectors ↔ ∃ x ∈ desc, x.name = k := by
  unfold prefixes
  rw [mem_uniq, List.mem_map]
  constructor
  · rintro ⟨n, hn, rfl⟩
    obtain ⟨r, hr⟩ := (listed_iff_mem n).2 hn
    obtain ⟨x, hx, he⟩ := hD.sound n r hr
    exact ⟨x, hx, (pre_entry hD hx he).symm⟩
  · rintro ⟨x, hx, rfl⟩
    obtain ⟨n, r, hl, he⟩ := exists_entry hD hx
    exact ⟨n, (listed_iff_mem n).1 ⟨r, hl⟩, pre_entry hD hx he⟩

lemma inRange_small2 {c : ℕ} {l : List ℕ} {i : I2} (h : ShapeOK c l) (hr : rank c = 2)
    (hs : small2 i = true) : inRange l (idx2 i) = true := by
  obtain ⟨hdim, hlen, -⟩ := h
  rw [hr] at hlen
  obtain ⟨a, b, rfl⟩ := List.length_eq_two.1 hlen
  obtain ⟨i, j⟩ := i
  have ha := hdim a (by simp); have hb := hdim b (by simp)
  simp only [small2, Bool.and_eq_true, decide_eq_true_eq] at hs
  simp only [idx2, inRange, Bool.and_true, Bool.and_eq_true, decide_eq_true_eq]
  omega
lemma inRange_small4 {c : ℕ} {l : List ℕ} {i : I4} (h : ShapeOK c l) (hr : rank c = 4)
    (hs : small4 i = true) : inRange l (idx4 i) = true := by
  obtain ⟨hdim, hlen, -⟩ := h
  rw [hr] at hlen
  obtain ⟨a, b, c, d, rfl⟩ : ∃ a b c d, l = [a, b, c, d] := by
    match l, hlen with
    | [a, b, c, d], _ => exact ⟨a, b, c, d, rfl⟩
  obtain ⟨i, j, k, m⟩ := i
  have ha := hdim a (by simp); have hb := hdim b (by simp)
  have hc := hdim c (by simp); have hd := hdim d (by simp)
  simp only [small4, Bool.and_eq_true, decide_eq_true_eq] at hs
  simp only [idx4, inRange, Bool.and_true, Bool.and_eq_true, decide_eq_true_eq]
  omega

/-- the collected index set of a coefficient is the two-flavour set of its class -/
lemma indexPairs_twoFl (hD : Describes sectors desc) {x : Coeff} (hx : x ∈ desc) (p : Str × Bool) :
    p ∈ indexPairs sectors x.name ↔ p ∈ twoFl x.cls := by
  obtain ⟨hu, hc, h0, hsh⟩ := hD.good x hx
  have fwd : p ∈ indexPairs sectors x.name → p ∈ twoFl x.cls := by
    intro h
    simp only [indexPairs, List.mem_filterMap] at h
    obtain ⟨n, hn, hp⟩ := h
    obtain ⟨r, hr⟩ := (listed_iff_mem n).2 hn
    obtain ⟨y, hy, he⟩ := hD.sound n r hr
    obtain ⟨huy, -, -, hshy⟩ := hD.good y hy
    have hrf := realFlags_get hD.once hr
    rcases entry_split huy hshy he with ⟨-, -, e⟩ | ⟨i, hrk, e, hn', hr', -, -⟩ | ⟨i, hrk, e, hn', hr', -, -⟩
    · rw [e] at hp; simp at hp
    · rw [e] at hp
      simp only [hrf, Option.getD_some] at hp
      split_ifs at hp with hcond
      simp only [Option.some.injEq] at hp
      have := name_inj hD hy hx hcond.1
      subst this
      unfold twoFl
      rw [if_pos hrk, List.mem_map]
      exact ⟨i, List.mem_filter.2 ⟨mem_all2I i, by
        simp only [Bool.and_eq_true, decide_eq_true_eq]
        exact ⟨(three_notin2 i (mem_all2I i)).1 hcond.2, hn'⟩⟩, by rw [← hp, hr']⟩
    · rw [e] at hp
      simp only [hrf, Option.getD_some] at hp
      split_ifs at hp with hcond
      simp only [Option.some.injEq] at hp
      have := name_inj hD hy hx hcond.1
      subst this
      unfold twoFl
      rw [if_neg (by rw [hrk]; decide), if_pos hrk, List.mem_map]
      exact ⟨i, List.mem_filter.2 ⟨mem_all4I i, by
        simp only [Bool.and_eq_true, decide_eq_true_eq]
        exact ⟨(three_notin4 i (mem_all4I i)).1 hcond.2, hn'⟩⟩, by rw [← hp, hr']⟩
  refine ⟨fwd, fun h => ?_⟩
  unfold twoFl at h
  have hne : rank x.cls ≠ 0 → x.shape ≠ none := by
    intro hr e
    apply hr
    rw [h0.1 e]; rfl
  by_cases h2 : rank x.cls = 2
  · rw [if_pos h2, List.mem_map] at h
    obtain ⟨i, hi, rfl⟩ := h
    simp only [List.mem_filter, Bool.and_eq_true, decide_eq_true_eq] at hi
    have hns := hne (by rw [h2]; decide)
    obtain ⟨l, hs⟩ := Option.ne_none_iff_exists'.1 hns
    have hin := inRange_small2 (hsh l hs) h2 hi.2.1
    have he : EntryOf x (wcName x.name (idx2 i)) _ := .two hs hin hi.2.2
    have hl := (hD.complete x hx).2 hns _ _ he
    simp only [indexPairs, List.mem_filterMap]
    refine ⟨_, (listed_iff_mem _).1 ⟨_, hl⟩, ?_⟩
    rw [split_name hu (hsh l hs) hin]
    simp only [realFlags_get hD.once hl, Option.getD_some]
    rw [if_pos ⟨trivial, (three_notin2 i (mem_all2I i)).2 hi.2.1⟩]
    congr
  rw [if_neg h2] at h
  by_cases h4 : rank x.cls = 4
  · rw [if_pos h4, List.mem_map] at h
    obtain ⟨i, hi, rfl⟩ := h
    simp only [List.mem_filter, Bool.and_eq_true, decide_eq_true_eq] at hi
    have hns := hne (by rw [h4]; decide)
    obtain ⟨l, hs⟩ := Option.ne_none_iff_exists'.1 hns
    have hin := inRange_small4 (hsh l hs) h4 hi.2.1
    have he : EntryOf x (wcName x.name (idx4 i)) _ := .four hs hin hi.2.2
    have hl := (hD.complete x hx).2 hns _ _ he
    simp only [indexPairs, List.mem_filterMap]
    refine ⟨_, (listed_iff_mem _).1 ⟨_, hl⟩, ?_⟩
    rw [split_name hu (hsh l hs) hin]
    simp only [realFlags_get hD.once hl, Option.getD_some]
    rw [if_pos ⟨trivial, (three_notin4 i (mem_all4I i)).2 hi.2.1⟩]
    congr
  · rw [if_neg h4] at h; simp at h

lemma lookup_eq (hD : Describes sectors desc) {x : Coeff} (hx : x ∈ desc) :
    classLookup (indexPairs sectors x.name) = .ok x.cls := by
  unfold classLookup
  rw [sortedSet_ext (indexPairs_twoFl hD hx), lookup_twoFl _ (hD.good x hx).2.1]

/-! ### the class lists -/

lemma symmKeysFrom_eq (cl : Str → ℕ) (ks : List Str) : ∀ S : Dict ℕ (List Str),
    (∀ k ∈ ks, classLookup (indexPairs sectors k) = .ok (cl k)) →
    ∃ S', symmKeysFrom sectors S ks = .ok S' ∧
      (∀ c, (S'.get? c).getD [] = (S.get? c).getD [] ++ ks.filter fun k => cl k = c) ∧
      (∀ c, (S'.get? c).isSome = ((S.get? c).isSome || (ks.any fun k => cl k = c))) := by
  induction ks with
  | nil => intro S _; exact ⟨S, rfl, by simp, by simp⟩
  | cons k ks ih =>
    intro S h
    obtain ⟨S', h1, h2, h3⟩ := ih (appendKey S (cl k) k) fun k' hk' => h k' (by simp [hk'])
    refine ⟨S', ?_, fun c => ?_, fun c => ?_⟩
    · simp only [symmKeysFrom, h k (by simp), h1]
    · rw [h2 c, appendKey, Dict.get?_set]
      by_cases e : cl k = c
      · simp [e]
      · simp [e]
    · rw [h3 c, appendKey, Dict.get?_set]
      by_cases e : cl k = c
      · simp [e]
      · simp [e]

lemma addDim4_eq (dim4 : Dict ℕ (List Str)) : ∀ S : Dict ℕ (List Str), dim4.NodupKeys →
    (∀ c ∈ dim4.keys, (S.get? c).isSome) →
    ∃ S', addDim4 S dim4 = .ok S' ∧
      ∀ c, (S'.get? c).getD [] = (S.get? c).getD [] ++ (dim4.get? c).getD [] := by
  induction dim4 with
  | nil => intro S _ _; exact ⟨S, rfl, by simp⟩
  | cons p r ih =>
    intro S hn h
    obtain ⟨c, ks⟩ := p
    simp only [Dict.NodupKeys, Dict.keys, List.map_cons, List.nodup_cons] at hn
    obtain ⟨l, hl⟩ := Option.isSome_iff_exists.1 (h c (by simp [Dict.keys]))
    obtain ⟨S', h1, h2⟩ := ih (S.set c (l ++ ks)) hn.2 (by
      intro c' hc'
      rw [Dict.get?_set]
      by_cases e : c = c'
      · simp [e]
      · simp only [e, if_false]; exact h c' (by simp only [Dict.keys, List.map_cons, List.mem_cons]; exact .inr hc'))
    refine ⟨S', by simp only [addDim4, hl, h1], fun c' => ?_⟩
    rw [h2 c', Dict.get?_set, Dict.get?_cons]
    by_cases e : c = c'
    · subst e
      have : Dict.get? r c = none := (Dict.get?_eq_none_iff _ _).2 hn.1
      simp [hl, this]
    · simp [e]

/-! ### shapes -/

lemma intsOf_digits {s idx : List ℕ} (hs : Small s) (h : inRange s idx = true) :
    intsOf (ind idx) = .ok (idx.map (· + 1)) := by
  induction s generalizing idx with
  | nil => cases idx with
    | nil => rfl
    | cons a b => simp [inRange] at h
  | cons m s ih =>
    cases idx with
    | nil => simp [inRange] at h
    | cons i is =>
      simp only [inRange, Bool.and_eq_true, decide_eq_true_eq] at h
      have hm := hs m (by simp)
      have hi : i < 9 := by omega
      have ih' := ih (fun n hn => hs n (by simp [hn])) h.2
      have key : ∀ j, j < 9 → ∃ c, digitStr j = [c] ∧ Util.intOf c = .ok (j + 1) := by
        intro j hj
        interval_cases j <;> exact ⟨_, rfl, rfl⟩
      obtain ⟨c, hc1, hc2⟩ := key i hi
      simp only [ind, List.flatMap_cons, hc1, List.singleton_append, intsOf, hc2, List.map_cons] at ih' ⊢
      rw [ih']; rfl

lemma mapM'_eq {α β : Type} {f : α → Except Err β} {g : α → β} {l : List α}
    (h : ∀ a ∈ l, f a = .ok (g a)) : mapM' f l = .ok (l.map g) := by
  induction l with
  | nil => rfl
  | cons a l ih =>
    simp only [mapM', h a (by simp), ih fun b hb => h b (by simp [hb]), List.map_cons]
    rfl

lemma zle {r m : List ℕ} (hr : List.Forall₂ (· ≤ ·) r m) : ∀ {x : List ℕ},
    List.Forall₂ (· ≤ ·) x m → List.Forall₂ (· ≤ ·) (List.zipWith max r x) m := by
  induction hr with
  | nil => intro x _; simp
  | cons h _ ih =>
    intro x hx
    cases hx with
    | cons h2 t2 => exact .cons (max_le h h2) (ih t2)

/-- maximum over rows when one row dominates all others -/
lemma maxRows_eq {rows : List (List ℕ)} {m : List ℕ} (hall : ∀ r ∈ rows, List.Forall₂ (· ≤ ·) r m)
    (hm : m ∈ rows) : maxRows rows = .ok m := by
  have zip : ∀ {a b : List ℕ}, List.Forall₂ (· ≤ ·) a b → List.zipWith max a b = b := by
    intro a b h
    induction h with
    | nil => rfl
    | cons h _ ih => simp [h, ih]
  have zip' : ∀ {a b : List ℕ}, List.Forall₂ (· ≤ ·) a b → List.zipWith max b a = b := by
    intro a b h
    induction h with
    | nil => rfl
    | cons h _ ih => simp [h, ih]
  have bound : ∀ (l : List (List ℕ)), l ≠ [] → (∀ r ∈ l, List.Forall₂ (· ≤ ·) r m) →
      ∃ x, maxRows l = .ok x ∧ List.Forall₂ (· ≤ ·) x m ∧ (m ∈ l → x = m) := by
    intro l
    induction l with
    | nil => intro h; exact absurd rfl h
    | cons r l ih =>
      intro _ hl
      cases l with
      | nil => exact ⟨r, rfl, hl r (by simp), fun h => (List.mem_singleton.1 h).symm⟩
      | cons r' l =>
        obtain ⟨x, hx1, hx2, hx3⟩ := ih (by simp) fun q hq => hl q (by simp [List.mem_cons.1 hq])
        have hr := hl r (by simp)
        have hlen : r.length = x.length := by rw [hr.length_eq, hx2.length_eq]
        refine ⟨List.zipWith max r x, by simp only [maxRows, hx1, hlen, if_true], ?_, ?_⟩
        · exact zle hr hx2
        · intro hmem
          rcases List.mem_cons.1 hmem with e | e
          · rw [← e]; exact zip' hx2
          · rw [hx3 e]; exact zip hr
  obtain ⟨x, h1, -, h3⟩ := bound rows (by rintro rfl; simp at hm) hall
  rw [h1, h3 hm]

end Verif.EFT.Init
