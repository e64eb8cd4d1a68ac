import Verif.Lemmas.EFTInit
import Verif.Props.Roundtrip

/-!
# C67: the constructor recognises symmetry class and shape of every coefficient
-/

set_option autoImplicit false
set_option linter.unusedSimpArgs false

namespace Verif.Props
open Verif Verif.Spec Verif.EFT Verif.EFT.Util Verif.EFT.Init Verif.Reflect

variable {sectors : Sectors} {desc : List Coeff}

/-! ### helper lemmas -/

/-- a non-redundant index tuple of class `c` -/
private def IdxOf (c : ℕ) (idx : List ℕ) : Prop :=
  (∃ i : I2, rank c = 2 ∧ idx = idx2 i ∧ NonRedOf2 c i) ∨
  (∃ i : I4, rank c = 4 ∧ idx = idx4 i ∧ NonRedOf4 c i)

private lemma entry_cases (hD : Describes sectors desc) {x : Coeff} (hx : x ∈ desc) {n : Str} {r : Bool}
    (h : EntryOf x n r) :
    (x.shape = none ∧ n = x.name ∧ splitUS n = [x.name]) ∨
    (∃ l idx, x.shape = some l ∧ inRange l idx = true ∧ IdxOf x.cls idx ∧
      splitUS n = [x.name, ind idx] ∧ n = wcName x.name idx) := by
  obtain ⟨hu, -, -, hsh⟩ := hD.good x hx
  rcases entry_split hu hsh h with h | ⟨i, hr, e, hn, -, ⟨l, hl, hi⟩, hname⟩ |
    ⟨i, hr, e, hn, -, ⟨l, hl, hi⟩, hname⟩
  · exact .inl h
  · exact .inr ⟨l, idx2 i, hl, hi, .inl ⟨i, hr, rfl, hn⟩, e, hname⟩
  · exact .inr ⟨l, idx4 i, hl, hi, .inr ⟨i, hr, rfl, hn⟩, e, hname⟩

private lemma entry_of_idx {x : Coeff} {l idx : List ℕ} (hs : x.shape = some l)
    (hi : inRange l idx = true) (h : IdxOf x.cls idx) : ∃ r, EntryOf x (wcName x.name idx) r := by
  rcases h with ⟨i, -, rfl, hn⟩ | ⟨i, -, rfl, hn⟩
  · exact ⟨_, .two hs hi hn⟩
  · exact ⟨_, .four hs hi hn⟩

private lemma idx_length {c : ℕ} {idx : List ℕ} (h : IdxOf c idx) : idx.length = rank c := by
  rcases h with ⟨⟨a, b⟩, hr, rfl, -⟩ | ⟨⟨a, b, c, d⟩, hr, rfl, -⟩ <;> rw [hr] <;> rfl

private lemma ind_length {idx : List ℕ} (h : ∀ n ∈ idx, n < 9) : (ind idx).length = idx.length := by
  have key : ∀ j, j < 9 → (digitStr j).length = 1 := by
    intro j hj
    interval_cases j <;> rfl
  induction idx with
  | nil => rfl
  | cons a l ih =>
    have := ih fun n hn => h n (by simp [hn])
    simp only [ind, List.flatMap_cons, List.length_append, List.length_cons] at this ⊢
    rw [this, key a (h a (by simp))]; omega

private lemma idx_lt {c : ℕ} {idx : List ℕ} (h : IdxOf c idx) : ∀ n ∈ idx, n < 9 := by
  rcases h with ⟨⟨a, b⟩, -, rfl, -⟩ | ⟨⟨a, b, c, d⟩, -, rfl, -⟩ <;>
  · intro n hn
    simp only [idx2, idx4, List.mem_cons, List.not_mem_nil, or_false] at hn
    omega

private lemma ind_len {c : ℕ} {idx : List ℕ} (h : IdxOf c idx) : (ind idx).length = rank c := by
  rw [ind_length (idx_lt h), idx_length h]

private lemma us_mem_wcName (k : Str) (idx : List ℕ) : '_' ∈ wcName k idx := by
  simp [wcName]

private lemma rank_ne_zero {c : ℕ} {idx : List ℕ} (h : IdxOf c idx) : rank c = 2 ∨ rank c = 4 := by
  rcases h with ⟨i, h, -⟩ | ⟨i, h, -⟩ <;> simp [h]

/-! ### the list of keys -/

private lemma exists_idx (hD : Describes sectors desc) {x : Coeff} (hx : x ∈ desc) {l : List ℕ}
    (hs : x.shape = some l) : ∃ idx, inRange l idx = true ∧ IdxOf x.cls idx := by
  obtain ⟨n, r, -, he⟩ := exists_entry hD hx
  rcases entry_cases hD hx he with ⟨h, -⟩ | ⟨l', idx, h1, h2, h3, -⟩
  · rw [h] at hs; simp at hs
  · rw [h1] at hs; cases hs; exact ⟨idx, h2, h3⟩

private lemma listed_idx (hD : Describes sectors desc) {x : Coeff} (hx : x ∈ desc) {l idx : List ℕ}
    (hs : x.shape = some l) (hi : inRange l idx = true) (h : IdxOf x.cls idx) :
    wcName x.name idx ∈ allWcs sectors := by
  obtain ⟨r, hr⟩ := entry_of_idx hs hi h
  exact (listed_iff_mem _).1 ⟨r, (hD.complete x hx).2 (by rw [hs]; simp) _ _ hr⟩

private lemma split_idx (hD : Describes sectors desc) {x : Coeff} (hx : x ∈ desc) {l idx : List ℕ}
    (hs : x.shape = some l) (hi : inRange l idx = true) : splitUS (wcName x.name idx) = [x.name, ind idx] :=
  split_name (hD.good x hx).1 ((hD.good x hx).2.2.2 l hs) hi

private lemma mem_wcKeys (hD : Describes sectors desc) (k : Str) :
    k ∈ wcKeys sectors ↔ ∃ x ∈ desc, x.name = k := by
  have hN : ∀ n, k ∈ wcKeysN sectors n ↔ ∃ x ∈ desc, x.name = k ∧ x.shape ≠ none ∧ rank x.cls = n := by
    intro n
    unfold wcKeysN
    rw [mem_uniq, List.mem_filterMap]
    constructor
    · rintro ⟨v, hv, h⟩
      obtain ⟨r, hr⟩ := (listed_iff_mem v).2 hv
      obtain ⟨x, hx, he⟩ := hD.sound v r hr
      rcases entry_cases hD hx he with ⟨-, -, e⟩ | ⟨l, idx, hs, hi, hI, e, -⟩
      · rw [e] at h; simp at h
      · rw [e] at h
        simp only at h
        split_ifs at h with hl
        simp only [Option.some.injEq] at h
        exact ⟨x, hx, h, by rw [hs]; simp, by rw [← hl, ind_len hI]⟩
    · rintro ⟨x, hx, rfl, hne, hr⟩
      obtain ⟨l, hs⟩ := Option.ne_none_iff_exists'.1 hne
      obtain ⟨idx, hi, hI⟩ := exists_idx hD hx hs
      refine ⟨_, listed_idx hD hx hs hi hI, ?_⟩
      rw [split_idx hD hx hs hi]
      simp only
      rw [if_pos (by rw [ind_len hI, hr])]
  have h0 : k ∈ wcKeys0 sectors ↔ ∃ x ∈ desc, x.name = k ∧ x.shape = none := by
    unfold wcKeys0
    rw [mem_uniq, List.mem_filter]
    constructor
    · rintro ⟨hv, h⟩
      obtain ⟨r, hr⟩ := (listed_iff_mem k).2 hv
      obtain ⟨x, hx, he⟩ := hD.sound k r hr
      rcases entry_cases hD hx he with ⟨hs, e, -⟩ | ⟨l, idx, hs, hi, hI, -, e⟩
      · exact ⟨x, hx, e.symm, hs⟩
      · rw [e] at h
        simp only [decide_eq_true_eq] at h
        exact absurd (us_mem_wcName _ _) h
    · rintro ⟨x, hx, rfl, hs⟩
      obtain ⟨r, hr⟩ := (hD.complete x hx).1 hs
      exact ⟨(listed_iff_mem _).1 ⟨r, hr⟩, by simpa using (hD.good x hx).1⟩
  unfold Init.wcKeys
  rw [List.mem_append, List.mem_append, h0, hN 2, hN 4]
  constructor
  · rintro ((⟨x, hx, rfl, -⟩ | ⟨x, hx, rfl, -⟩) | ⟨x, hx, rfl, -⟩) <;> exact ⟨x, hx, rfl⟩
  · rintro ⟨x, hx, rfl⟩
    cases hs : x.shape with
    | none => exact .inl (.inl ⟨x, hx, rfl, hs⟩)
    | some l =>
      obtain ⟨idx, hi, hI⟩ := exists_idx hD hx hs
      rcases rank_ne_zero hI with hr | hr
      · exact .inl (.inr ⟨x, hx, rfl, by rw [hs]; simp, hr⟩)
      · exact .inr ⟨x, hx, rfl, by rw [hs]; simp, hr⟩

private lemma indexOK_true (hD : Describes sectors desc) : indexOK sectors = true := by
  unfold indexOK
  rw [List.all_eq_true]
  intro v hv
  obtain ⟨r, hr⟩ := (listed_iff_mem v).2 hv
  obtain ⟨x, hx, he⟩ := hD.sound v r hr
  rcases entry_cases hD hx he with ⟨-, -, e⟩ | ⟨l, idx, hs, hi, hI, e, -⟩
  · rw [e]
  · rw [e]
    simp only [decide_eq_true_eq]
    exact (mem_wcKeys hD _).2 ⟨x, hx, rfl⟩

/-! ### shapes -/

private lemma mem_indexList (hD : Describes sectors desc) {x : Coeff} (hx : x ∈ desc) (s : Str) :
    s ∈ indexList sectors x.name ↔
      ∃ l idx, x.shape = some l ∧ inRange l idx = true ∧ IdxOf x.cls idx ∧ s = ind idx := by
  unfold indexList
  rw [List.mem_filterMap]
  constructor
  · rintro ⟨v, hv, h⟩
    obtain ⟨r, hr⟩ := (listed_iff_mem v).2 hv
    obtain ⟨y, hy, he⟩ := hD.sound v r hr
    rcases entry_cases hD hy he with ⟨-, -, e⟩ | ⟨l, idx, hs, hi, hI, e, -⟩
    · rw [e] at h; simp at h
    · rw [e] at h
      simp only at h
      split_ifs at h with hn
      have := name_inj hD hy hx hn
      subst this
      simp only [Option.some.injEq] at h
      exact ⟨l, idx, hs, hi, hI, h.symm⟩
  · rintro ⟨l, idx, hs, hi, hI, rfl⟩
    exact ⟨_, listed_idx hD hx hs hi hI, by rw [split_idx hD hx hs hi]; simp⟩

/-- what `np.max` over the listed indices gives -/
private def rawShape (c : ℕ) : List ℕ → List ℕ
  | n :: r => if c = 71 then (n - 1) :: r else n :: r
  | [] => []

private lemma inRange_le {l idx : List ℕ} (h : inRange l idx = true) :
    List.Forall₂ (· ≤ ·) (idx.map (· + 1)) l := by
  induction l generalizing idx with
  | nil => cases idx with
    | nil => simp
    | cons a b => simp [inRange] at h
  | cons m l ih =>
    cases idx with
    | nil => simp [inRange] at h
    | cons a b =>
      simp only [inRange, Bool.and_eq_true, decide_eq_true_eq] at h
      exact .cons h.1 (ih h.2)

private lemma row_le {c : ℕ} {l idx : List ℕ} (hok : ShapeOK c l) (hi : inRange l idx = true)
    (h : IdxOf c idx) : List.Forall₂ (· ≤ ·) (idx.map (· + 1)) (rawShape c l) := by
  by_cases h71 : c = 71
  · subst h71
    rcases h with ⟨i, hr, -⟩ | ⟨⟨i, j, k, m⟩, -, rfl, hn⟩
    · simp [rank] at hr
    · have hij : i < j := hn.2.2.2.2.2.1 rfl
      obtain ⟨hdim, hlen, hm⟩ := hok
      obtain ⟨a, b, c, d, rfl⟩ : ∃ a b c d, l = [a, b, c, d] := by
        match l, hlen with
        | [a, b, c, d], _ => exact ⟨a, b, c, d, rfl⟩
      have hab : a = b := hm.2.2.2.1 (.inr rfl)
      have := inRange_le hi
      simp only [idx4, List.map_cons, List.map_nil, List.forall₂_cons, rawShape, if_true] at this ⊢
      refine ⟨?_, this.2⟩
      have h2 := this.2.1
      have : i.val < j.val := hij
      omega
  · have : rawShape c l = l := by cases l <;> simp [rawShape, h71]
    rw [this]; exact inRange_le hi

set_option synthInstance.maxSize 4000 in
set_option synthInstance.maxHeartbeats 400000 in
private lemma top4 : ∀ a ∈ [2, 3], ∀ b ∈ [2, 3], ∀ c ∈ [2, 3], ∀ d ∈ [2, 3], ∀ k ∈ classIds, rank k = 4 →
    ((k = 4 ∨ k = 6 → a = b ∧ b = c ∧ c = d) ∧ (k = 41 → a = c ∧ b = d) ∧
      (k = 5 → a = b ∧ c = d) ∧ (k = 7 ∨ k = 71 → a = b) ∧ (k = 8 → a = 3 ∧ b = 3 ∧ c = 3 ∧ d = 3)) →
    ∃ i ∈ all4I, inRange [a, b, c, d] (idx4 i) = true ∧ NonRedOf4 k i ∧
      (idx4 i).map (· + 1) = rawShape k [a, b, c, d] := by
  decide +kernel

private lemma top2 : ∀ a ∈ [2, 3], ∀ b ∈ [2, 3], ∀ k ∈ classIds, rank k = 2 →
    (k = 2 ∨ k = 9 → a = b) →
    ∃ i ∈ all2I, inRange [a, b] (idx2 i) = true ∧ NonRedOf2 k i ∧
      (idx2 i).map (· + 1) = rawShape k [a, b] := by
  decide +kernel

private lemma exists_top {c : ℕ} {l : List ℕ} (hc : c ∈ classIds) (hc0 : c ≠ 0) (hok : ShapeOK c l) :
    ∃ idx, inRange l idx = true ∧ IdxOf c idx ∧ idx.map (· + 1) = rawShape c l := by
  obtain ⟨hdim, hlen, hm⟩ := hok
  have h23 : ∀ n, 2 ≤ n ∧ n ≤ 3 → n ∈ [2, 3] := by
    intro n hn; simp; omega
  rcases rank_cases c with ⟨-, h⟩ | h | h
  · exact absurd h hc0
  · rw [h] at hlen
    obtain ⟨a, b, rfl⟩ := List.length_eq_two.1 hlen
    obtain ⟨i, -, h1, h2, h3⟩ := top2 a (h23 _ (hdim a (by simp))) b (h23 _ (hdim b (by simp))) c hc h hm
    exact ⟨_, h1, .inl ⟨i, h, rfl, h2⟩, h3⟩
  · rw [h] at hlen
    obtain ⟨a, b, p, d, rfl⟩ : ∃ a b c d, l = [a, b, c, d] := by
      match l, hlen with
      | [a, b, c, d], _ => exact ⟨a, b, c, d, rfl⟩
    obtain ⟨i, -, h1, h2, h3⟩ := top4 a (h23 _ (hdim a (by simp))) b (h23 _ (hdim b (by simp)))
      p (h23 _ (hdim p (by simp))) d (h23 _ (hdim d (by simp))) c hc h hm
    exact ⟨_, h1, .inr ⟨i, h, rfl, h2⟩, h3⟩

private lemma shapeOfKey_eq (hD : Describes sectors desc) {x : Coeff} (hx : x ∈ desc) :
    shapeOfKey sectors x.name = .ok (x.shape.map (rawShape x.cls)) := by
  obtain ⟨hu, hc, h0, hsh⟩ := hD.good x hx
  unfold shapeOfKey
  cases hs : x.shape with
  | none =>
    have : indexList sectors x.name = [] := by
      apply List.eq_nil_iff_forall_not_mem.2
      intro s h
      obtain ⟨l, idx, h, -⟩ := (mem_indexList hD hx s).1 h
      rw [hs] at h; simp at h
    rw [this]; rfl
  | some l =>
    have hc0 : x.cls ≠ 0 := fun e => by rw [h0.2 e] at hs; simp at hs
    obtain ⟨idx, hi, hI, htop⟩ := exists_top hc hc0 (hsh l hs)
    have hmem := (mem_indexList hD hx (ind idx)).2 ⟨l, idx, hs, hi, hI, rfl⟩
    have hints : ∀ s ∈ indexList sectors x.name, ∃ jdx, inRange l jdx = true ∧ IdxOf x.cls jdx ∧
        intsOf s = .ok (jdx.map (· + 1)) := by
      intro s h
      obtain ⟨l', jdx, hs', hj, hJ, rfl⟩ := (mem_indexList hD hx s).1 h
      rw [hs] at hs'; cases hs'
      exact ⟨jdx, hj, hJ, intsOf_digits (small9 (hsh l hs)) hj⟩
    have hmap := mapM'_eq (f := intsOf) (g := fun s => ((intsOf s).toOption).getD [])
      (l := indexList sectors x.name) (by
        intro s h
        obtain ⟨jdx, -, -, e⟩ := hints s h
        simp [e, Except.toOption])
    have hmax := maxRows_eq (rows := (indexList sectors x.name).map fun s => ((intsOf s).toOption).getD [])
      (m := rawShape x.cls l) (by
        intro r hr
        obtain ⟨s, h, rfl⟩ := List.mem_map.1 hr
        obtain ⟨jdx, hj, hJ, e⟩ := hints s h
        simp only [e, Except.toOption, Option.getD_some]
        exact row_le (hsh l hs) hj hJ) (by
        refine List.mem_map.2 ⟨_, hmem, ?_⟩
        rw [intsOf_digits (small9 (hsh l hs)) hi]
        simpa [Except.toOption] using htop)
    obtain ⟨s, t, he⟩ : ∃ s t, indexList sectors x.name = s :: t := by
      cases h : indexList sectors x.name with
      | nil => rw [h] at hmem; simp at hmem
      | cons s t => exact ⟨s, t, rfl⟩
    rw [he] at hmap hmax ⊢
    simp only [hmap, hmax]
    rfl

private lemma wcShapes_eq {S : Dict ℕ (List Str)} {t : Str → Shape} {ks : List Str}
    (h : ∀ k ∈ ks, ∃ s, shapeOfKey sectors k = .ok s ∧ fix71 S k s = .ok (t k)) :
    wcShapes sectors S ks = .ok (ks.map fun k => (k, t k)) := by
  induction ks with
  | nil => rfl
  | cons k ks ih =>
    obtain ⟨s, h1, h2⟩ := h k (by simp)
    simp only [wcShapes, h1, h2, ih fun k' hk' => h k' (by simp [hk']), List.map_cons]
    rfl

open Classical in
private noncomputable def clOf (desc : List Coeff) (k : Str) : ℕ :=
  if h : ∃ x ∈ desc, x.name = k then h.choose.cls else 0
open Classical in
private noncomputable def shOf (desc : List Coeff) (k : Str) : Shape :=
  if h : ∃ x ∈ desc, x.name = k then h.choose.shape else none

private lemma clOf_eq (hD : Describes sectors desc) {x : Coeff} (hx : x ∈ desc) :
    clOf desc x.name = x.cls ∧ shOf desc x.name = x.shape := by
  have h : ∃ y ∈ desc, y.name = x.name := ⟨x, hx, rfl⟩
  have := name_inj hD h.choose_spec.1 hx h.choose_spec.2
  unfold clOf shOf
  rw [dif_pos h, dif_pos h, this]
  exact ⟨rfl, rfl⟩

private lemma get?_map (ks : List Str) (t : Str → Shape) (k : Str) :
    Dict.get? (ks.map fun k => (k, t k)) k = if k ∈ ks then some (t k) else none := by
  induction ks with
  | nil => simp
  | cons a ks ih =>
    rw [List.map_cons, Dict.get?_cons, ih]
    by_cases h : a = k
    · subst h; simp
    · have : k ≠ a := fun e => h e.symm
      simp [h, this]

/-! ### the theorem -/

/-- **C67.** For every basis file that lists exactly the non-redundant entries of some
coefficients (of any number, of any of the twelve symmetry classes, with two or three generations
per index), the constructor succeeds, and the helper object it builds assigns to every coefficient
exactly its own symmetry class and its own array shape.  The object is regular, and all names of
the basis are names of non-redundant entries of it. -/
theorem C67_constructor {shapes : Dict Str Shape} {classes : Dict ℕ (List Str)}
    (hD : Describes sectors desc) (h4 : Dim4OK desc shapes classes) :
    ∃ U, construct sectors shapes classes 3 = .ok U ∧ U.allWcs = allWcs sectors ∧
      (∀ x ∈ desc, U.keysShape.get? x.name = some x.shape ∧ InClass U x.cls x.name ∧ x.name ∈ U.wcKeys) ∧
      (∀ k s, shapes.get? k = some s → U.keysShape.get? k = some s ∧
        InClass U (if s = none then 0 else 1) k) ∧
      Regular U ∧ ∀ n ∈ U.allWcs, ∃ r, NonRedName U n r := by
  -- symmetry classes
  obtain ⟨S1, e1, g1, i1⟩ := symmKeysFrom_eq (sectors := sectors) (clOf desc) (prefixes sectors) []
    (by
      intro k hk
      obtain ⟨x, hx, rfl⟩ := (mem_prefixes hD k).1 hk
      rw [lookup_eq hD hx, (clOf_eq hD hx).1])
  obtain ⟨S, e2, g2⟩ := addDim4_eq classes S1 h4.nodupC (by
    intro c hc
    obtain ⟨ks, hks⟩ := Option.isSome_iff_exists.1 ((Dict.isSome_get?_iff _ _).2 hc)
    obtain ⟨x, hx, rfl⟩ := (h4.classes01 c ks hks).2.1
    rw [i1]
    simp only [Dict.get?_nil, Option.isSome_none, Bool.false_or, List.any_eq_true, decide_eq_true_eq]
    exact ⟨x.name, (mem_prefixes hD _).2 ⟨x, hx, rfl⟩, (clOf_eq hD hx).1⟩)
  have eS : symmKeys sectors classes = .ok S := by simp only [Init.symmKeys, e1, e2]
  have hS : ∀ c, (S.get? c).getD [] =
      ((prefixes sectors).filter fun k => clOf desc k = c) ++ (classes.get? c).getD [] := by
    intro c; rw [g2, g1]; simp
  have memS : ∀ c k, k ∈ (S.get? c).getD [] ↔
      (∃ x ∈ desc, x.name = k ∧ x.cls = c) ∨ k ∈ (classes.get? c).getD [] := by
    intro c k
    rw [hS, List.mem_append, List.mem_filter, mem_prefixes hD, decide_eq_true_eq]
    refine or_congr ⟨?_, ?_⟩ Iff.rfl
    · rintro ⟨⟨x, hx, rfl⟩, h⟩; exact ⟨x, hx, rfl, by rw [← h, (clOf_eq hD hx).1]⟩
    · rintro ⟨x, hx, rfl, h⟩; exact ⟨⟨x, hx, rfl⟩, by rw [(clOf_eq hD hx).1, h]⟩
  have dim4 : ∀ c k, k ∈ (classes.get? c).getD [] → (c = 0 ∨ c = 1) ∧ k ∉ desc.map Coeff.name ∧
      ∃ s, shapes.get? k = some s ∧ (s = none ↔ c = 0) := by
    intro c k hk
    cases h : classes.get? c with
    | none => rw [h] at hk; simp at hk
    | some ks =>
      rw [h] at hk
      obtain ⟨hc, -, hks⟩ := h4.classes01 c ks h
      obtain ⟨s, hs, hs0⟩ := hks k hk
      exact ⟨hc, (h4.good k s hs).2.1, s, hs, hs0⟩
  have dn : ∀ x ∈ desc, x.name ∈ desc.map Coeff.name := fun x hx => List.mem_map.2 ⟨x, hx, rfl⟩
  -- shapes
  have esh : wcShapes sectors S (uniq (wcKeys sectors)) =
      .ok ((uniq (wcKeys sectors)).map fun k => (k, shOf desc k)) := by
    apply wcShapes_eq
    intro k hk
    rw [mem_uniq, mem_wcKeys hD] at hk
    obtain ⟨x, hx, rfl⟩ := hk
    refine ⟨_, shapeOfKey_eq hD hx, ?_⟩
    rw [(clOf_eq hD hx).2]
    unfold fix71
    obtain ⟨hu, hc, h0, hsh⟩ := hD.good x hx
    by_cases h71 : x.cls = 71
    · rw [if_pos ((memS 71 _).2 (.inl ⟨x, hx, rfl, h71⟩))]
      cases hs : x.shape with
      | none => rw [h71] at h0; exact absurd (h0.1 hs) (by decide)
      | some l =>
        have hok := hsh l hs
        rw [h71] at hok
        obtain ⟨hdim, hlen, hm⟩ := hok
        obtain ⟨a, b, c, d, rfl⟩ : ∃ a b c d, l = [a, b, c, d] := by
          match l, hlen with
          | [a, b, c, d], _ => exact ⟨a, b, c, d, rfl⟩
        have hab : a = b := hm.2.2.2.1 (.inr rfl)
        simp [rawShape, h71, hab]
    · rw [if_neg (by
        rw [memS]
        rintro (⟨y, hy, e, hy71⟩ | h)
        · exact h71 (name_inj hD hy hx e ▸ hy71)
        · exact absurd (dim4 71 _ h).1 (by decide))]
      cases hs : x.shape with
      | none => rfl
      | some l => cases l <;> simp [rawShape, h71]
  refine ⟨⟨allWcs sectors, S, wcKeys sectors, Dict.update shapes ((uniq (wcKeys sectors)).map fun k => (k, shOf desc k)), 3⟩,
    by simp only [construct, eS, indexOK_true hD, esh, if_true], rfl, ?_⟩
  set U : Util := ⟨allWcs sectors, S, wcKeys sectors, Dict.update shapes ((uniq (wcKeys sectors)).map fun k => (k, shOf desc k)), 3⟩ with hU
  have symmU : ∀ c, U.symm c = (S.get? c).getD [] := fun _ => rfl
  have ndk : Dict.NodupKeys ((uniq (wcKeys sectors)).map fun k => (k, shOf desc k)) := by
    have : Dict.keys ((uniq (wcKeys sectors)).map fun k => (k, shOf desc k)) = uniq (wcKeys sectors) := by
      simp [Dict.keys, List.map_map, Function.comp_def]
    unfold Dict.NodupKeys
    rw [this]; exact nodup_uniq _
  have getU : ∀ k, U.keysShape.get? k =
      if k ∈ desc.map Coeff.name then some (shOf desc k) else shapes.get? k := by
    intro k
    show Dict.get? (Dict.update shapes _) k = _
    rw [Dict.get?_update _ _ ndk, get?_map]
    have : k ∈ uniq (wcKeys sectors) ↔ k ∈ desc.map Coeff.name := by
      rw [mem_uniq, mem_wcKeys hD, List.mem_map]
    by_cases h : k ∈ desc.map Coeff.name
    · rw [if_pos (this.2 h), if_pos h]; rfl
    · rw [if_neg fun e => h (this.1 e), if_neg h]; rfl
  have P1 : ∀ x ∈ desc, U.keysShape.get? x.name = some x.shape ∧ InClass U x.cls x.name ∧ x.name ∈ U.wcKeys := by
    intro x hx
    refine ⟨by rw [getU, if_pos (dn x hx), (clOf_eq hD hx).2], ⟨?_, ?_⟩, (mem_wcKeys hD _).2 ⟨x, hx, rfl⟩⟩
    · rw [symmU, memS]; exact .inl ⟨x, hx, rfl, rfl⟩
    · intro c' hc'
      rw [symmU, memS]
      rintro (⟨y, hy, e, h⟩ | h)
      · exact hc' (by rw [← h, name_inj hD hy hx e])
      · exact (dim4 _ _ h).2.1 (dn x hx)
  have P2 : ∀ k s, shapes.get? k = some s → U.keysShape.get? k = some s ∧
        InClass U (if s = none then 0 else 1) k := by
    intro k s hs
    obtain ⟨hu, hnd, hcl⟩ := h4.good k s hs
    refine ⟨by rw [getU, if_neg hnd, hs], ?_, ?_⟩
    · rw [symmU, memS]
      rcases hcl with ⟨rfl, h⟩ | ⟨l, rfl, -, -, h⟩
      · right; simpa using h
      · right; simpa using h
    · intro c' hc'
      rw [symmU, memS]
      rintro (⟨y, hy, e, h⟩ | h)
      · exact hnd (e ▸ dn y hy)
      · obtain ⟨hc01, -, s', hs', hs0⟩ := dim4 _ _ h
        rw [hs] at hs'; cases hs'
        apply hc'
        by_cases h0 : s = none
        · rw [if_pos h0, hs0.1 h0]
        · rw [if_neg h0]
          rcases hc01 with h | h
          · exact absurd (hs0.2 h) h0
          · exact h
  have hkey : ∀ k s, U.keysShape.get? k = some s → (∃ x ∈ desc, x.name = k ∧ x.shape = s) ∨
      (k ∉ desc.map Coeff.name ∧ shapes.get? k = some s) := by
    intro k s h
    rw [getU] at h
    by_cases hk : k ∈ desc.map Coeff.name
    · rw [if_pos hk] at h
      obtain ⟨x, hx, rfl⟩ := List.mem_map.1 hk
      rw [(clOf_eq hD hx).2] at h
      exact .inl ⟨x, hx, rfl, by simpa using h⟩
    · rw [if_neg hk] at h
      exact .inr ⟨hk, h⟩
  refine ⟨P1, P2, ?_, ?_⟩
  · refine ⟨rfl, Dict.nodupKeys_update _ _ h4.nodup, ?_, ?_, ?_, ?_, ?_⟩
    · intro k s h
      rcases hkey k s h with ⟨x, hx, rfl, rfl⟩ | ⟨-, hs⟩
      · obtain ⟨hu, hc, h0, hsh⟩ := hD.good x hx
        refine ⟨hu, fun l hl => ?_⟩
        have hok := hsh l hl
        have hc0 : x.cls ≠ 0 := fun e => by rw [h0.2 e] at hl; simp at hl
        have hlen := hok.2.1
        refine ⟨?_, ?_, fun n hn => ?_⟩
        · rintro rfl
          rcases rank_cases x.cls with ⟨-, h⟩ | h | h
          · exact hc0 h
          · rw [h] at hlen; simp at hlen
          · rw [h] at hlen; simp at hlen
        · rintro rfl
          have := (hok.1 1 (by simp)).1
          omega
        · have := hok.1 n hn; omega
      · obtain ⟨hu, -, hcl⟩ := h4.good k s hs
        refine ⟨hu, fun l hl => ?_⟩
        rcases hcl with ⟨rfl, -⟩ | ⟨l', rfl, hlen, hdim, -⟩
        · simp at hl
        · cases hl
          refine ⟨?_, ?_, fun n hn => ?_⟩
          · rintro rfl; simp at hlen
          · rintro rfl; simp at hlen
          · have := hdim n hn; omega
    · intro k s h
      rcases hkey k s h with ⟨x, hx, rfl, rfl⟩ | ⟨-, hs⟩
      · obtain ⟨hu, hc, h0, hsh⟩ := hD.good x hx
        refine ⟨x.cls, hc, (P1 x hx).2.1, h0, fun l hl => ⟨(hsh l hl).2.1, fun n hn => ((hsh l hl).1 n hn).2⟩, ?_⟩
        intro h8
        cases hs : x.shape with
        | none => rw [h0.1 hs] at h8; simp at h8
        | some l =>
          have hok := hsh l hs
          rw [h8] at hok
          obtain ⟨hdim, hlen, hm⟩ := hok
          obtain ⟨a, b, c, d, rfl⟩ : ∃ a b c d, l = [a, b, c, d] := by
            match l, hlen with
            | [a, b, c, d], _ => exact ⟨a, b, c, d, rfl⟩
          obtain ⟨rfl, rfl, rfl, rfl⟩ := hm.2.2.2.2 rfl
          rfl
      · have hp := (P2 k s hs).2
        rcases (h4.good k s hs).2.2 with ⟨rfl, -⟩ | ⟨l, rfl, hlen, hdim, -⟩
        · exact ⟨0, by decide, by simpa using hp, by simp, by simp, by simp⟩
        · refine ⟨1, by decide, by simpa using hp, by simp, ?_, by simp⟩
          intro l' hl'; cases hl'
          exact ⟨hlen, fun n hn => (hdim n hn).2⟩
    · intro k hk
      obtain ⟨x, hx, rfl⟩ := (mem_wcKeys hD k).1 hk
      rw [← Dict.isSome_get?_iff, (P1 x hx).1]; rfl
    · rw [symmU, hS]
      have : (classes.get? 8).getD [] = [] := by
        apply List.eq_nil_iff_forall_not_mem.2
        intro k hk
        exact absurd (dim4 8 k hk).1 (by decide)
      rw [this, List.append_nil]
      exact (nodup_uniq _).filter _
    · intro k hk
      rw [symmU, memS] at hk
      rcases hk with ⟨x, hx, rfl, -⟩ | h
      · exact (P1 x hx).2.2
      · exact absurd (dim4 8 k h).1 (by decide)
  · intro n hn
    obtain ⟨r, hr⟩ := (listed_iff_mem n).2 hn
    obtain ⟨x, hx, he⟩ := hD.sound n r hr
    cases he with
    | scalar hs => exact ⟨_, .scalar (by rw [(P1 x hx).1, hs])⟩
    | @two l i hs hi hnr => exact ⟨_, .two (by rw [(P1 x hx).1, hs]) (P1 x hx).2.1 hi hnr⟩
    | @four l i hs hi hnr => exact ⟨_, .four (by rw [(P1 x hx).1, hs]) (P1 x hx).2.1 hi hnr⟩

/-! ### the hypotheses are met by every list of coefficients -/

/-- the entries of one coefficient as a basis file lists them -/
def entriesOf (x : Coeff) : List (Str × Bool) :=
  match x.shape with
  | none => [(x.name, true)]
  | some l =>
    (all2I.filter fun i => inRange l (idx2 i) && decide (NonRedOf2 x.cls i)).map
      (fun i => (wcName x.name (idx2 i), decide (RealOf2 x.cls i))) ++
    (all4I.filter fun i => inRange l (idx4 i) && decide (NonRedOf4 x.cls i)).map
      (fun i => (wcName x.name (idx4 i), decide (RealOf4 x.cls i)))

/-- a basis file with one sector per coefficient -/
def fileOf (desc : List Coeff) : Sectors := desc.map fun x => (x.name, entriesOf x)

private lemma mem_entriesOf (x : Coeff) (n : Str) (r : Bool) :
    (n, r) ∈ entriesOf x ↔ EntryOf x n r ∧ (x.shape = none → r = true) := by
  unfold entriesOf
  cases hs : x.shape with
  | none =>
    simp only [List.mem_singleton, Prod.mk.injEq]
    constructor
    · rintro ⟨rfl, rfl⟩; exact ⟨.scalar hs, fun _ => rfl⟩
    · rintro ⟨h, h'⟩
      cases h with
      | scalar _ => exact ⟨rfl, h' trivial⟩
      | two h => rw [hs] at h; simp at h
      | four h => rw [hs] at h; simp at h
  | some l =>
    simp only [List.mem_append, List.mem_map, List.mem_filter, Bool.and_eq_true, decide_eq_true_eq,
      Prod.mk.injEq, reduceCtorEq, false_implies, and_true]
    constructor
    · rintro (⟨i, ⟨-, hi, hn⟩, rfl, rfl⟩ | ⟨i, ⟨-, hi, hn⟩, rfl, rfl⟩)
      · convert EntryOf.two hs hi hn
      · convert EntryOf.four hs hi hn
    · intro h
      cases h with
      | scalar h => rw [hs] at h; simp at h
      | @two l' i h hi hn =>
        rw [hs] at h; cases h
        exact .inl ⟨i, ⟨mem_all2I i, hi, hn⟩, rfl, by congr⟩
      | @four l' i h hi hn =>
        rw [hs] at h; cases h
        exact .inr ⟨i, ⟨mem_all4I i, hi, hn⟩, rfl, by congr⟩

private lemma nodup_all2I : all2I.Nodup := by decide +kernel
private lemma nodup_all4I : all4I.Nodup := by decide +kernel

/-- Every list of coefficients with distinct names, admissible classes and shapes is described by
some basis file: the hypotheses of `C67_constructor` are satisfiable whatever the coefficients. -/
theorem C67_files_exist {desc : List Coeff} (hdist : (desc.map Coeff.name).Nodup)
    (hgood : ∀ x ∈ desc, '_' ∉ x.name ∧ x.cls ∈ classIds ∧ (x.shape = none ↔ x.cls = 0) ∧
      ∀ l, x.shape = some l → ShapeOK x.cls l) : Describes (fileOf desc) desc := by
  have hl : ∀ n r, Listed (fileOf desc) n r ↔ ∃ x ∈ desc, (n, r) ∈ entriesOf x := by
    intro n r
    simp only [Listed, fileOf, List.mem_map]
    constructor
    · rintro ⟨s, ⟨x, hx, rfl⟩, h⟩; exact ⟨x, hx, h⟩
    · rintro ⟨x, hx, h⟩; exact ⟨_, ⟨x, hx, rfl⟩, h⟩
  have split : ∀ x ∈ desc, ∀ n r, (n, r) ∈ entriesOf x → pre n = x.name := by
    intro x hx n r h
    obtain ⟨hu, -, -, hsh⟩ := hgood x hx
    rcases entry_split hu hsh ((mem_entriesOf x n r).1 h).1 with ⟨-, -, e⟩ | ⟨i, -, e, -⟩ | ⟨i, -, e, -⟩ <;>
      rw [pre, e] <;> rfl
  refine ⟨hdist, hgood, ?_, ?_, ?_⟩
  · have e : allWcs (fileOf desc) = desc.flatMap fun x => Dict.keys (entriesOf x) := by
      simp [Init.allWcs, fileOf, List.flatMap_map]
    rw [e, List.nodup_flatMap]
    constructor
    · intro x hx
      obtain ⟨hu, hc, h0, hsh⟩ := hgood x hx
      unfold Dict.keys entriesOf
      cases hs : x.shape with
      | none => simp
      | some l =>
        have hok := hsh l hs
        have inj : ∀ idx jdx, inRange l idx = true → inRange l jdx = true →
            wcName x.name idx = wcName x.name jdx → idx = jdx := by
          intro idx jdx hi hj h
          have h1 := split_name hu hok hi
          have h2 := split_name hu hok hj
          rw [h, h2] at h1
          simp only [List.cons.injEq, and_true, true_and] at h1
          have h3 := intsOf_digits (small9 hok) hi
          have h4 := intsOf_digits (small9 hok) hj
          rw [← h1, h4] at h3
          simp only [Except.ok.injEq] at h3
          exact (List.map_injective_iff.2 (add_left_injective 1) h3).symm
        have i2 : ∀ i j : I2, idx2 i = idx2 j → i = j := by
          rintro ⟨a, b⟩ ⟨c, d⟩ h
          simp only [idx2, List.cons.injEq, and_true] at h
          exact Prod.ext (Fin.ext h.1) (Fin.ext h.2)
        have i4 : ∀ i j : I4, idx4 i = idx4 j → i = j := by
          rintro ⟨a, b, c, d⟩ ⟨a', b', c', d'⟩ h
          simp only [idx4, List.cons.injEq, and_true] at h
          exact Prod.ext (Fin.ext h.1) (Prod.ext (Fin.ext h.2.1) (Prod.ext (Fin.ext h.2.2.1) (Fin.ext h.2.2.2)))
        simp only [List.map_append, List.map_map]
        rw [List.nodup_append]
        refine ⟨?_, ?_, ?_⟩
        · apply List.Nodup.map_on
          · intro i hi j hj h
            simp only [List.mem_filter, Bool.and_eq_true] at hi hj
            exact i2 _ _ (inj _ _ hi.2.1 hj.2.1 h)
          · exact nodup_all2I.filter _
        · apply List.Nodup.map_on
          · intro i hi j hj h
            simp only [List.mem_filter, Bool.and_eq_true] at hi hj
            exact i4 _ _ (inj _ _ hi.2.1 hj.2.1 h)
          · exact nodup_all4I.filter _
        · rintro a ha b hb rfl
          simp only [List.mem_map, List.mem_filter, Bool.and_eq_true] at ha hb
          obtain ⟨i, ⟨-, hi, -⟩, rfl⟩ := ha
          obtain ⟨j, ⟨-, hj, -⟩, h⟩ := hb
          have := inj _ _ hj hi h
          obtain ⟨a, b⟩ := i
          obtain ⟨a', b', c', d'⟩ := j
          simp [idx2, idx4] at this
    · rw [List.nodup_iff_pairwise_ne, List.pairwise_map] at hdist
      refine List.Pairwise.imp_of_mem ?_ hdist
      intro x y hx hy hne n hn hm
      simp only [Dict.keys, List.mem_map, Prod.exists, exists_and_right, exists_eq_right] at hn hm
      obtain ⟨r, hr⟩ := hn
      obtain ⟨r', hr'⟩ := hm
      exact hne (by rw [← split x hx n r hr, ← split y hy n r' hr'])
  · intro n r h
    obtain ⟨x, hx, h⟩ := (hl n r).1 h
    exact ⟨x, hx, ((mem_entriesOf x n r).1 h).1⟩
  · intro x hx
    refine ⟨fun hs => ⟨true, (hl _ _).2 ⟨x, hx, (mem_entriesOf x _ _).2 ⟨.scalar hs, fun _ => rfl⟩⟩⟩,
      fun hs n r h => (hl _ _).2 ⟨x, hx, (mem_entriesOf x _ _).2 ⟨h, fun e => absurd e hs⟩⟩⟩

/-- **C67 and C23 together.** For every basis file of this kind, the helper object built from it
takes every dictionary of coefficients of the basis to symmetrized arrays and back without loss. -/
theorem C67_roundtrip_of_file {shapes : Dict Str Shape} {classes : Dict ℕ (List Str)}
    (hD : Describes sectors desc) (h4 : Dim4OK desc shapes classes)
    (d : Dict Str ℂ) (hd : d.NodupKeys) (hk : ∀ n ∈ d.keys, n ∈ allWcs sectors)
    (hz : ∀ n z, d.get? n = some z → z ≠ 0)
    (hr : ∀ n z, d.get? n = some z → (∃ x ∈ desc, x.shape = none ∧ n = x.name) ∨
      Listed sectors n true → z.im = 0) :
    ∃ U C d', construct sectors shapes classes 3 = .ok U ∧
      U.wcxf2arraysSymmetrized d = .ok C ∧ U.arrays2wcxfNonred C = .ok d' ∧
      ∀ n, d'.get? n = d.get? n := by
  obtain ⟨U, hU, hall, hP, hQ, hR, hN⟩ := C67_constructor hD h4
  obtain ⟨C, d', h1, h2, h3⟩ := C23_roundtrip_exact hR hN d hd (by rw [hall]; exact hk) hz (by
    rintro n z hn ⟨r, hnr, hr'⟩
    have hmem := hk n ((Dict.isSome_get?_iff _ _).1 (by rw [hn]; rfl))
    obtain ⟨b, hb⟩ := (listed_iff_mem n).2 hmem
    obtain ⟨x, hx, he⟩ := hD.sound n b hb
    have hpre : ∀ {k s}, U.keysShape.get? k = some (some s) → ∀ idx, inRange s idx = true →
        splitUS (wcName k idx) = [k, ind idx] := by
      intro k s hk idx hi
      have g := hR.good k _ hk
      refine splitUS_wcName g.1 hi (fun n hn => ?_)
      have := (g.2 s rfl).2.2 n hn; omega
    apply hr n z hn
    obtain ⟨p1, p2, p3⟩ := hP x hx
    have hE := entry_cases hD hx he
    cases he with
    | scalar hs => exact .inl ⟨x, hx, hs, rfl⟩
    | @two l i hs hi hnr2 =>
      right
      rcases hE with ⟨e, -⟩ | ⟨l', idx, hs', hi', hI, e, e2⟩
      · rw [hs] at e; simp at e
      suffices h : RealOf2 x.cls i by simp only [h, decide_true] at hb; exact hb
      generalize hm : wcName x.name (idx2 i) = m at *
      cases hnr with
      | @scalar k hk =>
        exact absurd (us_mem_wcName x.name (idx2 i)) (by rw [hm]; exact (hR.good _ _ hk).1)
      | @two k s c j hk hc hj hnj =>
        have h1 := hpre hk _ hj
        have h2 := split_idx hD hx hs hi
        rw [hm] at h2
        rw [h1] at h2
        simp only [List.cons.injEq, and_true] at h2
        obtain ⟨rfl, hind⟩ := h2
        have hc' := InClass.unique hc p2
        subst hc'
        have : ∀ a ∈ all2I, ∀ b ∈ all2I, ind (idx2 a) = ind (idx2 b) → a = b := by decide +kernel
        have := this j (mem_all2I j) i (mem_all2I i) hind
        subst this
        exact hr'
      | @four k s c j hk hc hj hnj =>
        have h1 := hpre hk _ hj
        have h2 := split_idx hD hx hs hi
        rw [hm] at h2
        rw [h1] at h2
        simp only [List.cons.injEq, and_true] at h2
        have hlen := congrArg List.length h2.2
        obtain ⟨a, b⟩ := i
        obtain ⟨a', b', c', d'⟩ := j
        rw [ind_length (by simp [idx4]; omega), ind_length (by simp [idx2]; omega)] at hlen
        simp [idx2, idx4] at hlen
    | @four l i hs hi hnr2 =>
      right
      rcases hE with ⟨e, -⟩ | ⟨l', idx, hs', hi', hI, e, e2⟩
      · rw [hs] at e; simp at e
      suffices h : RealOf4 x.cls i by simp only [h, decide_true] at hb; exact hb
      generalize hm : wcName x.name (idx4 i) = m at *
      cases hnr with
      | @scalar k hk =>
        exact absurd (us_mem_wcName x.name (idx4 i)) (by rw [hm]; exact (hR.good _ _ hk).1)
      | @four k s c j hk hc hj hnj =>
        have h1 := hpre hk _ hj
        have h2 := split_idx hD hx hs hi
        rw [hm] at h2
        rw [h1] at h2
        simp only [List.cons.injEq, and_true] at h2
        obtain ⟨rfl, hind⟩ := h2
        have hc' := InClass.unique hc p2
        subst hc'
        have h3 : ((idx4 j).map (· + 1)) = ((idx4 i).map (· + 1)) := by
          have := intsOf_digits (fun n hn => by
            have := ((hR.good _ _ hk).2 s rfl).2.2 n hn; omega) hj
          rw [hind, intsOf_digits (small9 ((hD.good x hx).2.2.2 l hs)) hi] at this
          exact (Except.ok.inj this).symm
        have : j = i := by
          obtain ⟨a, b, c, d⟩ := i
          obtain ⟨a', b', c', d'⟩ := j
          simp only [idx4, List.map_cons, List.map_nil, List.cons.injEq, and_true, Nat.add_right_cancel_iff] at h3
          exact Prod.ext (Fin.ext h3.1) (Prod.ext (Fin.ext h3.2.1) (Prod.ext (Fin.ext h3.2.2.1) (Fin.ext h3.2.2.2)))
        subst this
        exact hr'
      | @two k s c j hk hc hj hnj =>
        have h1 := hpre hk _ hj
        have h2 := split_idx hD hx hs hi
        rw [hm] at h2
        rw [h1] at h2
        simp only [List.cons.injEq, and_true] at h2
        have hlen := congrArg List.length h2.2
        obtain ⟨a, b⟩ := j
        obtain ⟨a', b', c', d'⟩ := i
        rw [ind_length (by simp [idx2]; omega), ind_length (by simp [idx4]; omega)] at hlen
        simp [idx2, idx4] at hlen)
  exact ⟨U, C, d', hU, h1, h2, h3⟩

/-- a concrete list of coefficients meeting the hypotheses: one of every class -/
example : ∃ U, construct (fileOf [⟨"G".toList, 0, none⟩, ⟨"uphi".toList, 1, some [3, 2]⟩,
      ⟨"phil1".toList, 2, some [3, 3]⟩, ⟨"ledq".toList, 3, some [3, 3, 3, 2]⟩, ⟨"ll".toList, 4, some [3, 3, 3, 3]⟩,
      ⟨"S".toList, 41, some [3, 2, 3, 2]⟩, ⟨"lq1".toList, 5, some [3, 3, 2, 2]⟩, ⟨"ee".toList, 6, some [3, 3, 3, 3]⟩,
      ⟨"S7".toList, 7, some [2, 2, 3, 2]⟩, ⟨"A7".toList, 71, some [3, 3, 2, 3]⟩, ⟨"qqql".toList, 8, some [3, 3, 3, 3]⟩,
      ⟨"llphiphi".toList, 9, some [2, 2]⟩])
      [("g".toList, none), ("Gu".toList, some [3, 3])] [(0, ["g".toList]), (1, ["Gu".toList])] 3 = .ok U ∧
    Regular U ∧ InClass U 71 "A7".toList ∧ InClass U 8 "qqql".toList := by
  obtain ⟨U, h1, -, h3, -, h5, -⟩ := C67_constructor (C67_files_exist (desc :=
    [⟨"G".toList, 0, none⟩, ⟨"uphi".toList, 1, some [3, 2]⟩,
      ⟨"phil1".toList, 2, some [3, 3]⟩, ⟨"ledq".toList, 3, some [3, 3, 3, 2]⟩, ⟨"ll".toList, 4, some [3, 3, 3, 3]⟩,
      ⟨"S".toList, 41, some [3, 2, 3, 2]⟩, ⟨"lq1".toList, 5, some [3, 3, 2, 2]⟩, ⟨"ee".toList, 6, some [3, 3, 3, 3]⟩,
      ⟨"S7".toList, 7, some [2, 2, 3, 2]⟩, ⟨"A7".toList, 71, some [3, 3, 2, 3]⟩, ⟨"qqql".toList, 8, some [3, 3, 3, 3]⟩,
      ⟨"llphiphi".toList, 9, some [2, 2]⟩]) (by decide) (by
        simp only [List.forall_mem_cons, List.not_mem_nil, false_implies, implies_true, and_true]
        refine ⟨?_, ?_, ?_, ?_, ?_, ?_, ?_, ?_, ?_, ?_, ?_, ?_⟩ <;>
          refine ⟨by decide, by decide, by decide, ?_⟩ <;> rintro l ⟨⟩ <;>
          exact ⟨by decide, by decide, by simp⟩))
    (shapes := [("g".toList, none), ("Gu".toList, some [3, 3])])
    (classes := [(0, ["g".toList]), (1, ["Gu".toList])])
    ⟨by simp [Dict.NodupKeys, Dict.keys], by simp [Dict.NodupKeys, Dict.keys], by
      intro k s h
      have := Dict.mem_of_get? h
      simp only [List.mem_cons, Prod.mk.injEq, List.not_mem_nil, or_false] at this
      rcases this with ⟨rfl, rfl⟩ | ⟨rfl, rfl⟩
      · exact ⟨by decide, by decide, .inl ⟨rfl, by decide⟩⟩
      · exact ⟨by decide, by decide, .inr ⟨_, rfl, by decide, by decide, by decide⟩⟩, by
      intro c ks h
      have := Dict.mem_of_get? h
      simp only [List.mem_cons, Prod.mk.injEq, List.not_mem_nil, or_false] at this
      rcases this with ⟨rfl, rfl⟩ | ⟨rfl, rfl⟩
      · exact ⟨.inl rfl, ⟨_, List.mem_cons_self, rfl⟩, by
          intro k hk; simp only [List.mem_singleton] at hk; subst hk; exact ⟨none, by decide, by decide⟩⟩
      · exact ⟨.inr rfl, ⟨⟨"uphi".toList, 1, some [3, 2]⟩, by simp, rfl⟩, by
          intro k hk; simp only [List.mem_singleton] at hk; subst hk; exact ⟨some [3, 3], by decide, by decide⟩⟩⟩
  exact ⟨U, h1, h5, (h3 ⟨"A7".toList, 71, some [3, 3, 2, 3]⟩ (by simp)).2.1,
    (h3 ⟨"qqql".toList, 8, some [3, 3, 3, 3]⟩ (by simp)).2.1⟩

/-- The twelve index sets by which the classes are recognised are pairwise different. -/
theorem C67_classes_distinct : (classTable.map Prod.fst).Nodup ∧ (classTable.map Prod.snd).Nodup := by
  decide +kernel

/-- Only indices up to 2 are looked at.  A coefficient all of whose listed indices contain a 3 is
taken for a scalar, though its shape is recorded as a matrix. -/
theorem C67_only_third_generation_violation : ∃ sectors : Sectors, ∃ U,
    construct sectors [] [] 3 = .ok U ∧ allWcs sectors = ["A_33".toList] ∧
      U.symm 0 = ["A".toList] ∧ U.keysShape.get? "A".toList = some (some [3, 3]) := by
  refine ⟨[("sb".toList, [("A_33".toList, false)])], _, rfl, ?_, ?_, ?_⟩ <;> decide +kernel

end Verif.Props
