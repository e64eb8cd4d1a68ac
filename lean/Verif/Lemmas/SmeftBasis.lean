import Verif.Lemmas.WarsawUp

/-!
# A concrete helper object for the Warsaw basis

`smeftUtil` is the helper object with all operators of the Warsaw basis and three generations;
it shows that the assumptions `Regular`, `Complete` and `IsSmeft` are satisfied by the full
basis.
-/

set_option autoImplicit false
set_option linter.unusedSimpArgs false

namespace Verif.Spec
open Verif Verif.EFT Verif.Beta Verif.Bridge Verif.EFT.Util Verif.Props
  Verif.Reflect

instance (c : ℕ) (i : I2) : Decidable (NonRedOf2 c i) := by unfold NonRedOf2; infer_instance
instance (c : ℕ) (i : I4) : Decidable (NonRedOf4 c i) := by unfold NonRedOf4; infer_instance

/-- the names of one coefficient -/
def namesOf (k : Key) : List Str :=
  if rankOf k = 0 then [keyName k]
  else if rankOf k = 2 then
    (all2I.filter fun i => decide (NonRedOf2 (fullClass k) i)).map fun i => wcName (keyName k) (idx2 i)
  else (all4I.filter fun i => decide (NonRedOf4 (fullClass k) i)).map fun i => wcName (keyName k) (idx4 i)

/-- the Warsaw basis with its non-redundant coefficients -/
def smeftUtil : Util where
  allWcs := coeffKeys.flatMap namesOf
  symmKeys := classIds.map fun c => (c, (keys.filter fun k => fullClass k == c).map keyName)
  wcKeys := coeffKeys.map keyName
  keysShape := keys.map fun k => (keyName k, shapeK k)
  nGen := 3

theorem smeft_symm (c : ℕ) : smeftUtil.symm c =
    if c ∈ classIds then (keys.filter fun k => fullClass k == c).map keyName else [] := by
  have : ∀ l : List ℕ, Dict.get? (l.map fun c => (c, (keys.filter fun k => fullClass k == c).map keyName)) c =
      if c ∈ l then some ((keys.filter fun k => fullClass k == c).map keyName) else none := by
    intro l
    induction l with
    | nil => rfl
    | cons a l ih =>
      simp only [List.map_cons, Dict.get?]
      by_cases h : a = c
      · subst h; simp
      · rw [if_neg h, ih]; simp [Ne.symm h]
  unfold Util.symm smeftUtil
  rw [this]
  split <;> rfl

theorem smeft_shape (s : Str) (sh : Shape) :
    smeftUtil.keysShape.get? s = some sh ↔ ∃ k ∈ keys, s = keyName k ∧ sh = shapeK k := by
  have hn : smeftUtil.keysShape.NodupKeys := by
    unfold Dict.NodupKeys Dict.keys smeftUtil
    rw [List.map_map]
    exact List.Nodup.map (fun _ _ h => keyName_inj h) nodup_keys
  constructor
  · intro h
    obtain ⟨k, hk, e⟩ := List.mem_map.1 (Dict.mem_of_get? h)
    simp only [Prod.mk.injEq] at e
    exact ⟨k, hk, e.1.symm, e.2.symm⟩
  · rintro ⟨k, hk, rfl, rfl⟩
    exact Dict.get?_of_mem hn (List.mem_map.2 ⟨k, hk, rfl⟩)

theorem smeft_inClass {k : Key} (hk : k ∈ keys) : InClass smeftUtil (fullClass k) (keyName k) := by
  have hid : ∀ k ∈ keys, fullClass k ∈ classIds := by decide +kernel
  refine ⟨?_, fun c hc hm => ?_⟩
  · rw [smeft_symm, if_pos (hid k hk)]
    exact List.mem_map.2 ⟨k, List.mem_filter.2 ⟨hk, by simp⟩, rfl⟩
  · rw [smeft_symm] at hm
    split at hm
    · obtain ⟨k', hk', e⟩ := List.mem_map.1 hm
      obtain rfl := keyName_inj e
      simp at hk'
      exact hc hk'.2.symm
    · cases hm

theorem noUnderscore : ∀ k ∈ keys, '_' ∉ keyName k := by decide +kernel

theorem takeWhile_name {k : Str} (h : '_' ∉ k) : k.takeWhile (· ≠ '_') = k ∧
    ∀ idx, (wcName k idx).takeWhile (· ≠ '_') = k := by
  have : ∀ x ∈ k, decide (x ≠ '_') = true := by
    intro x hx
    simp only [decide_eq_true_eq]
    rintro rfl
    exact h hx
  refine ⟨?_, fun idx => ?_⟩
  · have := List.takeWhile_append_of_pos (l₂ := []) this
    simpa using this
  · unfold wcName
    rw [List.takeWhile_append_of_pos this]
    simp

theorem mem_names {n : Str} (h : n ∈ smeftUtil.allWcs) : ∃ k ∈ coeffKeys,
    (n = keyName k ∧ rankOf k = 0) ∨
    (∃ i : I2, n = wcName (keyName k) (idx2 i) ∧ rankOf k = 2 ∧ NonRedOf2 (fullClass k) i) ∨
    (∃ i : I4, n = wcName (keyName k) (idx4 i) ∧ rankOf k = 4 ∧ NonRedOf4 (fullClass k) i) := by
  obtain ⟨k, hk, hn⟩ := List.mem_flatMap.1 h
  refine ⟨k, hk, ?_⟩
  unfold namesOf at hn
  rcases rank_c hk with h0 | h2 | h4
  · rw [if_pos h0] at hn
    exact Or.inl ⟨by simpa using hn, h0⟩
  · rw [if_neg (by omega), if_pos h2] at hn
    obtain ⟨i, hi, rfl⟩ := List.mem_map.1 hn
    exact Or.inr (Or.inl ⟨i, rfl, h2, by simpa using (List.mem_filter.1 hi).2⟩)
  · rw [if_neg (by omega), if_neg (by omega)] at hn
    obtain ⟨i, hi, rfl⟩ := List.mem_map.1 hn
    exact Or.inr (Or.inr ⟨i, rfl, h4, by simpa using (List.mem_filter.1 hi).2⟩)

theorem shapeK_two {k : Key} (h : rankOf k = 2) : shapeK k = some [3, 3] := by simp [shapeK, h]
theorem shapeK_four {k : Key} (h : rankOf k = 4) : shapeK k = some [3, 3, 3, 3] := by simp [shapeK, h]

theorem in2 (i : I2) : inRange [3, 3] (idx2 i) = true := by
  obtain ⟨p, q⟩ := i
  simp only [idx2, inRange, p.isLt, q.isLt, decide_true, Bool.and_self]
theorem in4 (i : I4) : inRange [3, 3, 3, 3] (idx4 i) = true := by
  obtain ⟨p, q, r, t⟩ := i
  simp only [idx4, inRange, p.isLt, q.isLt, r.isLt, t.isLt, decide_true, Bool.and_self]

theorem smeft_regular : Regular smeftUtil where
  nGen := rfl
  nodup := by
    unfold Dict.NodupKeys Dict.keys smeftUtil
    rw [List.map_map]
    exact List.Nodup.map (fun _ _ h => keyName_inj h) nodup_keys
  good := by
    intro s sh h
    obtain ⟨k, hk, rfl, rfl⟩ := (smeft_shape s sh).1 h
    refine ⟨noUnderscore k hk, fun l e => ?_⟩
    rcases rank_cases k hk with h | h | h
    · simp [shapeK, h] at e
    · rw [shapeK_two h, Option.some.injEq] at e; subst e; simp
    · rw [shapeK_four h, Option.some.injEq] at e; subst e; simp
  cls := by
    intro s sh h
    obtain ⟨k, hk, rfl, rfl⟩ := (smeft_shape s sh).1 h
    have hall : ∀ k ∈ keys, fullClass k ∈ classIds ∧ (rankOf k = 0 ↔ fullClass k = 0) ∧
        rankOf k = rank (fullClass k) := by decide +kernel
    obtain ⟨h1, h2, h3⟩ := hall k hk
    refine ⟨fullClass k, h1, smeft_inClass hk, ?_, fun l e => ?_, fun h8 => ?_⟩
    · rw [← h2]; unfold shapeK; split <;> simp_all
    · rw [← h3]
      rcases rank_cases k hk with h | h | h
      · simp [shapeK, h] at e
      · rw [shapeK_two h, Option.some.injEq] at e; subst e; simp [h]
      · rw [shapeK_four h, Option.some.injEq] at e; subst e; simp [h]
    · rw [h8] at h3
      exact shapeK_four h3
  wc := by
    intro s hs
    obtain ⟨k, hk, rfl⟩ := List.mem_map.1 hs
    exact List.mem_map.2 ⟨(keyName k, shapeK k), List.mem_map.2 ⟨k, ((coeff_iff k).1 hk).1, rfl⟩, rfl⟩
  nodup8 := by
    rw [smeft_symm]
    split
    · exact List.Nodup.map (fun _ _ h => keyName_inj h) (nodup_keys.filter _)
    · simp
  wc8 := by
    intro s hs
    rw [smeft_symm, if_pos (by decide)] at hs
    obtain ⟨k, hk, rfl⟩ := List.mem_map.1 hs
    have : ∀ k ∈ keys, fullClass k = 8 → k ∈ coeffKeys := by decide +kernel
    simp at hk
    exact List.mem_map.2 ⟨k, this k hk.1 hk.2, rfl⟩

theorem smeft_complete : Complete smeftUtil where
  names := by
    intro n hn
    obtain ⟨k, hk, ⟨rfl, h0⟩ | ⟨i, rfl, h2, hi⟩ | ⟨i, rfl, h4, hi⟩⟩ := mem_names hn
    all_goals have hkk := ((coeff_iff k).1 hk).1
    · exact ⟨_, .scalar ((smeft_shape _ _).2 ⟨k, hkk, rfl, by simp [shapeK, h0]⟩)⟩
    · exact ⟨_, .two ((smeft_shape _ _).2 ⟨k, hkk, rfl, (shapeK_two h2).symm⟩) (smeft_inClass hkk) (in2 i) hi⟩
    · exact ⟨_, .four ((smeft_shape _ _).2 ⟨k, hkk, rfl, (shapeK_four h4).symm⟩) (smeft_inClass hkk) (in4 i) hi⟩
  only := by
    intro n hn s sh hs h
    obtain ⟨k', hk', rfl, rfl⟩ := (smeft_shape _ _).1 hs
    have u' := noUnderscore k' hk'
    have e1 : n.takeWhile (· ≠ '_') = keyName k' := by
      rcases h with rfl | ⟨idx, rfl⟩
      · exact (takeWhile_name u').1
      · exact (takeWhile_name u').2 idx
    obtain ⟨k, hk, h⟩ := mem_names hn
    have u := noUnderscore k ((coeff_iff k).1 hk).1
    have e2 : n.takeWhile (· ≠ '_') = keyName k := by
      rcases h with ⟨rfl, -⟩ | ⟨i, rfl, -⟩ | ⟨i, rfl, -⟩
      · exact (takeWhile_name u).1
      · exact (takeWhile_name u).2 _
      · exact (takeWhile_name u).2 _
    rw [← e1, e2]
    exact List.mem_map.2 ⟨k, hk, rfl⟩
  scalar := by
    intro s hs h
    obtain ⟨k, hk, rfl⟩ := List.mem_map.1 hs
    obtain ⟨k', hk', e, e'⟩ := (smeft_shape _ _).1 h
    obtain rfl := keyName_inj e
    have h0 : rankOf k = 0 := by
      by_contra h; simp [shapeK, h] at e'
    exact List.mem_flatMap.2 ⟨k, hk, by simp [namesOf, h0]⟩
  two := by
    intro s hs l c i h hc hi hn
    obtain ⟨k, hk, rfl⟩ := List.mem_map.1 hs
    obtain ⟨k', hk', e, e'⟩ := (smeft_shape _ _).1 h
    obtain rfl := keyName_inj e
    obtain rfl := InClass.unique hc (smeft_inClass hk')
    have h2 : rankOf k = 2 := by
      rcases rank_c hk with h | h | h
      · simp [shapeK, h] at e'
      · exact h
      · rw [shapeK_four h, Option.some.injEq] at e'
        subst e'
        obtain ⟨p, q⟩ := i
        simp [idx2, inRange] at hi
    refine List.mem_flatMap.2 ⟨k, hk, ?_⟩
    rw [namesOf, if_neg (by omega), if_pos h2]
    exact List.mem_map.2 ⟨i, List.mem_filter.2 ⟨mem_all2I i, by simpa using hn⟩, rfl⟩
  four := by
    intro s hs l c i h hc hi hn
    obtain ⟨k, hk, rfl⟩ := List.mem_map.1 hs
    obtain ⟨k', hk', e, e'⟩ := (smeft_shape _ _).1 h
    obtain rfl := keyName_inj e
    obtain rfl := InClass.unique hc (smeft_inClass hk')
    have h4 : rankOf k = 4 := by
      rcases rank_c hk with h | h | h
      · simp [shapeK, h] at e'
      · rw [shapeK_two h, Option.some.injEq] at e'
        subst e'
        obtain ⟨p, q, r, t⟩ := i
        simp [idx4, inRange] at hi
      · exact h
    refine List.mem_flatMap.2 ⟨k, hk, ?_⟩
    rw [namesOf, if_neg (by omega), if_neg (by omega)]
    exact List.mem_map.2 ⟨i, List.mem_filter.2 ⟨mem_all4I i, by simpa using hn⟩, rfl⟩

/-- the full Warsaw basis satisfies the assumptions -/
theorem smeft_isSmeft : IsSmeft smeftUtil where
  regular := smeft_regular
  complete := smeft_complete
  wc := by
    intro s
    constructor
    · intro h
      obtain ⟨k, hk, rfl⟩ := List.mem_map.1 h
      exact ⟨k, hk, rfl⟩
    · rintro ⟨k, hk, rfl⟩
      exact List.mem_map.2 ⟨k, hk, rfl⟩
  shape := fun k hk => (smeft_shape _ _).2 ⟨k, ((coeff_iff k).1 hk).1, rfl, rfl⟩
  cls := fun _ hk => smeft_inClass ((coeff_iff _).1 hk).1

/-- it has 1635 coefficients: 1350 + 1149 real parameters of the operators conserving baryon
number and lepton number (6 of the latter being real and CP-odd), 273 and 6 complex ones of the
operators violating them -/
example : smeftUtil.allWcs.length = 1350 + 6 + 273 + 6 := by decide +kernel

end Verif.Spec
