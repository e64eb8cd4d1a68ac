import Verif.Lemmas.WetNames
import Mathlib.Data.List.Nodup
import Mathlib.Data.List.Flatten
import Mathlib.Data.Nat.Bitwise

/-!
# Every WET operator is listed exactly once
-/

set_option autoImplicit false

namespace Verif.WetTab
open Verif Verif.Rotation

/-! ## Sets of numbers as numbers -/

/-- the set of the numbers in a list, as a number -/
def bitset : List ℕ → ℕ
  | [] => 0
  | n :: l => Nat.lor (Nat.shiftLeft 1 n) (bitset l)

theorem testBit_one_shift (n m : ℕ) : Nat.testBit (Nat.shiftLeft 1 n) m = decide (m = n) := by
  change (1 <<< n).testBit m = _
  rw [Nat.one_shiftLeft, Nat.testBit_two_pow]
  simp [eq_comm]

theorem testBit_bitset (l : List ℕ) (m : ℕ) : (bitset l).testBit m = decide (m ∈ l) := by
  induction l with
  | nil => simp [bitset]
  | cons n l ih =>
    change ((Nat.shiftLeft 1 n) ||| bitset l).testBit m = _
    rw [Nat.testBit_or, testBit_one_shift, ih]
    simp [List.mem_cons]

/-- the numbers are different from each other and not in the set -/
def distinct : ℕ → List ℕ → Bool
  | _, [] => true
  | acc, n :: l => force acc fun acc =>
      !Nat.testBit acc n && distinct (Nat.lor (Nat.shiftLeft 1 n) acc) l

theorem force_eq {α : Type} (n : ℕ) (k : ℕ → α) : force n k = k n := by cases n <;> rfl

theorem forceIx_eq {α : Type} (l : List ℕ) (k : List ℕ → α) : forceIx l k = k l := by
  rcases l with _ | ⟨p, _ | ⟨r, _ | ⟨s', _ | ⟨t, _ | ⟨u, l⟩⟩⟩⟩⟩ <;> simp [forceIx, force_eq]

theorem distinct_sound (l : List ℕ) (acc : ℕ) (h : distinct acc l = true) :
    l.Nodup ∧ ∀ m ∈ l, acc.testBit m = false := by
  induction l generalizing acc with
  | nil => simp
  | cons n l ih =>
    rw [distinct, force_eq, Bool.and_eq_true] at h
    obtain ⟨h1, h2⟩ := h
    obtain ⟨h3, h4⟩ := ih _ h2
    have h5 : ∀ m ∈ l, m ≠ n ∧ acc.testBit m = false := by
      intro m hm
      have := h4 m hm
      change ((Nat.shiftLeft 1 n) ||| acc).testBit m = false at this
      rw [Nat.testBit_or, testBit_one_shift] at this
      simpa using this
    refine ⟨List.nodup_cons.2 ⟨fun hn => (h5 n hn).1 rfl, h3⟩, ?_⟩
    intro m hm
    rcases List.mem_cons.1 hm with rfl | hm
    · simpa using h1
    · exact (h5 m hm).2

/-! ## The smallest related index tuple -/

/-- number of the smallest related index tuple -/
def canon (k : WKey) (ix : List ℕ) : ℕ :=
  (relatives k ix).foldr (fun y m => force (numOf y.1) fun x => force m fun m =>
    match Nat.ble x m with
    | true => x
    | false => m) 10000

theorem canon_eq (k : WKey) (ix : List ℕ) :
    canon k ix = ((relatives k ix).map fun y => numOf y.1).foldr min 10000 := by
  unfold canon
  rw [List.foldr_map]
  congr 1
  funext y m
  rw [force_eq, force_eq]
  rcases h : Nat.ble (numOf y.1) m with _ | _
  · have : ¬numOf y.1 ≤ m := fun h' => by rw [Nat.ble_eq_true_of_le h'] at h; cases h
    simp [min_eq_right (Nat.le_of_lt (Nat.lt_of_not_le this))]
  · simp [min_eq_left (Nat.le_of_ble_eq_true h)]

theorem foldr_min_le (l : List ℕ) (b : ℕ) : l.foldr min b ≤ b ∧ ∀ x ∈ l, l.foldr min b ≤ x := by
  induction l with
  | nil => simp
  | cons a l ih =>
    refine ⟨(min_le_right _ _).trans ih.1, fun x hx => ?_⟩
    rcases List.mem_cons.1 hx with rfl | hx
    · exact min_le_left _ _
    · exact (min_le_right _ _).trans (ih.2 x hx)

theorem le_foldr_min (l : List ℕ) (a b : ℕ) (hb : a ≤ b) (h : ∀ x ∈ l, a ≤ x) : a ≤ l.foldr min b := by
  induction l with
  | nil => exact hb
  | cons c l ih =>
    exact le_min (h c List.mem_cons_self) (ih fun x hx => h x (List.mem_cons_of_mem _ hx))

theorem foldr_min_subset {l l' : List ℕ} (b : ℕ) (h : l ⊆ l') : l'.foldr min b ≤ l.foldr min b :=
  le_foldr_min _ _ _ (foldr_min_le l' b).1 fun x hx => (foldr_min_le l' b).2 x (h hx)

/-- related components have the same smallest tuple -/
theorem canon_same {k : WKey} {ix jx : List ℕ} {c n : Bool} (h : Same k ix jx c n) :
    canon k ix = canon k jx := by
  have key : ∀ {ix jx : List ℕ} {c n : Bool}, Same k ix jx c n →
      ((relatives k jx).map fun y => numOf y.1) ⊆ ((relatives k ix).map fun y => numOf y.1) := by
    intro ix jx c n h x hx
    obtain ⟨⟨kx, c', n'⟩, hy, rfl⟩ := List.mem_map.1 hx
    exact List.mem_map.2 ⟨(kx, _, _), relatives_complete (h.trans (relatives_sound hy)), rfl⟩
  rw [canon_eq, canon_eq]
  exact le_antisymm (foldr_min_subset _ (key h)) (foldr_min_subset _ (key h.symm)) |>.symm ▸ rfl

/-! ## The table -/

/-- all listed coefficients -/
def listed : List (List Coef) := secs.map Sec.coefs

/-- valid index tuples, for the kernel -/
def validB : List Fld → List ℕ → Bool
  | [], [] => true
  | F :: fs, i :: is => Nat.ble 1 i && Nat.ble i F.sp.gens && validB fs is
  | _, _ => false

theorem validB_iff (fs : List Fld) (ix : List ℕ) :
    validB fs ix = true ↔ List.Forall₂ (fun (F : Fld) i => 1 ≤ i ∧ i ≤ F.sp.gens) fs ix := by
  induction fs generalizing ix with
  | nil => cases ix <;> simp [validB]
  | cons F fs ih =>
    cases ix with
    | nil => simp [validB]
    | cons i is => simp [validB, ih, Nat.ble_eq]

/-- a listed coefficient is well formed -/
def coefOK (c : Coef) : Bool :=
  forceIx (ixOf c) fun ix =>
    Nat.beq (numOf ix) c.2 && validB (fields c.1) ix &&
      (relatives c.1 ix).all fun y => match Nat.beq (numOf y.1) c.2 with
        | true => !y.2.2
        | false => true

theorem listed_coefOK : (listed.all fun l => l.all coefOK) = true := by decide +kernel

/-- the identifying numbers of all operators -/
def canonCodes : List ℕ := listed.flatten.map fun c => ccode c.1 (canon c.1 (ixOf c))

theorem listed_distinct : distinct 0 canonCodes = true := by decide +kernel

theorem sector_names_nodup : (coefTable.map Prod.fst).Nodup := by decide +kernel

theorem listed_eq : listed = coefTable.map Prod.snd := by
  have : ∀ (t : Dict String (List Coef)) (ss : List Sec), List.Forall₂ Matches t ss →
      ss.map Sec.coefs = t.map Prod.snd := by
    intro t ss h
    induction h with
    | nil => rfl
    | cons h _ ih => simp [ih, h.1]
  exact this _ _ secs_matches

/-- the identifying number of the operator of a coefficient -/
def opCode (c : Coef) : ℕ := ccode c.1 (canon c.1 (ixOf c))

theorem listed_codes_nodup :
    (∀ sl ∈ coefTable, (sl.2.map opCode).Nodup) ∧
      coefTable.Pairwise fun a b => List.Disjoint (a.2.map opCode) (b.2.map opCode) := by
  have h := (distinct_sound _ _ listed_distinct).1
  have e : canonCodes = (coefTable.map fun sl => sl.2.map opCode).flatten := by
    rw [canonCodes, listed_eq, List.map_flatten, List.map_map]
    rfl
  rw [e, List.nodup_flatten] at h
  refine ⟨fun sl hsl => h.1 _ (List.mem_map.2 ⟨sl, hsl, rfl⟩), ?_⟩
  have := h.2
  rwa [List.pairwise_map] at this

/-- coefficients of the same operator are at the same place -/
theorem listed_unique {a b : Coef} {s t : String} {i j : ℕ} (ha : Listed a s i) (hb : Listed b t j)
    (h : opCode a = opCode b) : s = t ∧ i = j ∧ a = b := by
  obtain ⟨l, hl, hi⟩ := ha
  obtain ⟨l', hl', hj⟩ := hb
  obtain ⟨h1, h2⟩ := listed_codes_nodup
  have hal : opCode a ∈ l.map opCode := List.mem_map_of_mem (List.mem_of_getElem? hi)
  have hbl : opCode b ∈ l'.map opCode := List.mem_map_of_mem (List.mem_of_getElem? hj)
  have heq : (s, l) = (t, l') := by
    by_contra hne
    have : Std.Symm fun a b : String × List Coef =>
      List.Disjoint (a.2.map opCode) (b.2.map opCode) := ⟨fun _ _ h => h.symm⟩
    have := List.Pairwise.forall (R := fun a b : String × List Coef =>
      List.Disjoint (a.2.map opCode) (b.2.map opCode)) h2 hl hl' hne
    exact this hal (h ▸ hbl)
  obtain ⟨rfl, rfl⟩ := Prod.mk.inj heq
  have hn := h1 _ hl
  obtain ⟨hi', hi⟩ := List.getElem?_eq_some_iff.1 hi
  obtain ⟨hj', hj⟩ := List.getElem?_eq_some_iff.1 hj
  have hij : i = j := by
    have := (List.Nodup.getElem_inj_iff hn (hi := by simpa using hi') (hj := by simpa using hj')).1
      (by simpa [hi, hj] using h)
    exact this
  subst hij
  exact ⟨rfl, rfl, hi.symm.trans hj⟩

/-- facts about every listed coefficient -/
theorem listed_ok {c : Coef} {s : String} {i : ℕ} (h : Listed c s i) :
    numOf (ixOf c) = c.2 ∧ Valid c.1 (ixOf c) ∧
      ∀ y ∈ relatives c.1 (ixOf c), numOf y.1 = c.2 → y.2.2 = false := by
  obtain ⟨l, hl, hi⟩ := h
  have h := listed_coefOK
  rw [List.all_eq_true] at h
  have h1 := h l (by rw [listed_eq]; exact List.mem_map.2 ⟨_, hl, rfl⟩)
  rw [List.all_eq_true] at h1
  have h2 := h1 c (List.mem_of_getElem? hi)
  rw [coefOK, forceIx_eq, Bool.and_eq_true, Bool.and_eq_true] at h2
  refine ⟨Nat.eq_of_beq_eq_true h2.1.1, (validB_iff _ _).1 h2.1.2, fun y hy hy' => ?_⟩
  have h3 := List.all_eq_true.1 h2.2 y hy
  rw [hy', Nat.beq_refl] at h3
  simpa using h3

/-! ## Numbers of index tuples -/

theorem fields_length (k : WKey) :
    (fields k).length = 0 ∨ (fields k).length = 2 ∨ (fields k).length = 4 := by
  cases k <;> decide

/-- digits -/
def Digits (ix : List ℕ) : Prop := ∀ i ∈ ix, i ≤ 9

theorem Valid.digits {k : WKey} {ix : List ℕ} (h : Valid k ix) : ∀ i ∈ ix, 1 ≤ i ∧ i ≤ 3 := by
  unfold Valid at h
  intro i hi
  generalize fields k = fs at h
  induction h with
  | nil => cases hi
  | @cons F j fs ix hF _ ih =>
    rcases List.mem_cons.1 hi with rfl | hi
    · refine ⟨hF.1, hF.2.trans ?_⟩
      cases F.sp <;> simp [Sp.gens]
    · exact ih hi

theorem numOf_inj {k : WKey} {ix jx : List ℕ} (h : Valid k ix) (h' : Valid k jx)
    (e : numOf ix = numOf jx) : ix = jx := by
  have d := h.digits
  have d' := h'.digits
  have l := h.length_eq
  have l' := h'.length_eq
  rcases fields_length k with hk | hk | hk <;> rw [hk] at l l'
  · rw [List.length_eq_zero_iff.1 l.symm, List.length_eq_zero_iff.1 l'.symm]
  · obtain ⟨p, r, rfl⟩ := List.length_eq_two.1 l.symm
    obtain ⟨p', r', rfl⟩ := List.length_eq_two.1 l'.symm
    simp only [List.mem_cons, List.not_mem_nil, or_false, forall_eq_or_imp, forall_eq] at d d'
    simp only [numOf] at e
    simp only [List.cons.injEq, and_true]
    omega
  · obtain ⟨p, r, s, t, rfl⟩ : ∃ p r s t, ix = [p, r, s, t] := by
      rcases ix with _ | ⟨p, _ | ⟨r, _ | ⟨s, _ | ⟨t, _ | ⟨u, ix⟩⟩⟩⟩⟩ <;> simp at l ⊢
    obtain ⟨p', r', s', t', rfl⟩ : ∃ p r s t, jx = [p, r, s, t] := by
      rcases jx with _ | ⟨p, _ | ⟨r, _ | ⟨s, _ | ⟨t, _ | ⟨u, ix⟩⟩⟩⟩⟩ <;> simp at l' ⊢
    simp only [List.mem_cons, List.not_mem_nil, or_false, forall_eq_or_imp, forall_eq] at d d'
    simp only [numOf] at e
    simp only [List.cons.injEq, and_true]
    omega

theorem numOf_lt {k : WKey} {ix : List ℕ} (h : Valid k ix) : numOf ix < 10000 := by
  have d := h.digits
  have l := h.length_eq
  rcases fields_length k with hk | hk | hk <;> rw [hk] at l
  · rw [List.length_eq_zero_iff.1 l.symm]; simp [numOf]
  · obtain ⟨p, r, rfl⟩ := List.length_eq_two.1 l.symm
    simp only [List.mem_cons, List.not_mem_nil, or_false, forall_eq_or_imp, forall_eq] at d
    simp only [numOf]
    omega
  · obtain ⟨p, r, s, t, rfl⟩ : ∃ p r s t, ix = [p, r, s, t] := by
      rcases ix with _ | ⟨p, _ | ⟨r, _ | ⟨s, _ | ⟨t, _ | ⟨u, ix⟩⟩⟩⟩⟩ <;> simp at l ⊢
    simp only [List.mem_cons, List.not_mem_nil, or_false, forall_eq_or_imp, forall_eq] at d
    simp only [numOf]
    omega

theorem ixOf_numOf {k : WKey} {ix : List ℕ} (h : Valid k ix) : ixOf (k, numOf ix) = ix := by
  have d := h.digits
  have l := h.length_eq
  rcases fields_length k with hk | hk | hk <;> rw [hk] at l
  · rw [List.length_eq_zero_iff.1 l.symm]; simp [numOf, ixOf]
  · obtain ⟨p, r, rfl⟩ := List.length_eq_two.1 l.symm
    simp only [List.mem_cons, List.not_mem_nil, or_false, forall_eq_or_imp, forall_eq] at d
    unfold ixOf
    rw [if_neg (by simp only [numOf]; omega), if_pos (by simp only [numOf]; omega)]
    simp only [numOf]
    simp only [List.cons.injEq, and_true]
    omega
  · obtain ⟨p, r, s, t, rfl⟩ : ∃ p r s t, ix = [p, r, s, t] := by
      rcases ix with _ | ⟨p, _ | ⟨r, _ | ⟨s, _ | ⟨t, _ | ⟨u, ix⟩⟩⟩⟩⟩ <;> simp at l ⊢
    simp only [List.mem_cons, List.not_mem_nil, or_false, forall_eq_or_imp, forall_eq] at d
    unfold ixOf
    rw [if_neg (by simp only [numOf]; omega), if_neg (by simp only [numOf]; omega)]
    simp only [numOf]
    simp only [List.cons.injEq, and_true]
    omega

/-- an allowed step permutes the indices of equal species -/
theorem Valid.step {k : WKey} {ix : List ℕ} (h : Valid k ix) {st : Step} (hs : allowed k st = true) :
    Valid k (st.act ix) := by
  have l := h.length_eq
  unfold Valid at h ⊢
  rcases hf : fields k with _ | ⟨a, _ | ⟨b, _ | ⟨c, _ | ⟨d, _ | ⟨e, fs⟩⟩⟩⟩⟩
  · rw [hf] at h l
    rw [List.length_eq_zero_iff.1 l.symm]
    cases st <;> simp [Step.act]
  · have := fields_length k; rw [hf] at this; simp at this
  · rw [hf] at h l
    obtain ⟨p, r, rfl⟩ := List.length_eq_two.1 l.symm
    cases st <;> simpa [Step.act] using h
  · have := fields_length k; rw [hf] at this; simp at this
  · rw [hf] at h l
    obtain ⟨p, r, s, t, rfl⟩ : ∃ p r s t, ix = [p, r, s, t] := by
      rcases ix with _ | ⟨p, _ | ⟨r, _ | ⟨s, _ | ⟨t, _ | ⟨u, ix⟩⟩⟩⟩⟩ <;> simp at l ⊢
    simp only [List.forall₂_cons, List.forall₂_nil_right_iff, and_true] at h
    cases st with
    | swap =>
      simp only [allowed, hf, Bool.and_eq_true, decide_eq_true_eq] at hs
      obtain ⟨⟨_, rfl⟩, rfl⟩ := hs
      simp only [Step.act, List.forall₂_cons, List.forall₂_nil_right_iff, and_true]
      tauto
    | adj =>
      simp only [allowed, hf, Bool.and_eq_true, decide_eq_true_eq] at hs
      obtain ⟨⟨_, rfl⟩, rfl⟩ := hs
      simp only [Step.act, List.forall₂_cons, List.forall₂_nil_right_iff, and_true]
      tauto
    | fierz =>
      simp only [allowed, hf, Bool.and_eq_true, decide_eq_true_eq] at hs
      obtain ⟨⟨⟨_, rfl⟩, rfl⟩, h4⟩ := hs
      simp only [Step.act, List.forall₂_cons, List.forall₂_nil_right_iff, and_true]
      tauto
    | anti =>
      simp only [allowed, hf, Bool.and_eq_true, decide_eq_true_eq] at hs
      obtain ⟨_, rfl⟩ := hs
      simp only [Step.act, List.forall₂_cons, List.forall₂_nil_right_iff, and_true]
      tauto
    | real => simp [allowed, hf] at hs
  · have := fields_length k; rw [hf] at this; simp at this

theorem Same.valid {k : WKey} {ix jx : List ℕ} {c n : Bool} (h : Same k ix jx c n)
    (hv : Valid k ix) : Valid k jx := by
  induction h with
  | refl => exact hv
  | step s hs _ ih => exact ih.step hs

theorem foldr_min_mem (l : List ℕ) (b : ℕ) : l.foldr min b = b ∨ l.foldr min b ∈ l := by
  induction l with
  | nil => simp
  | cons a l ih =>
    rcases le_total a (l.foldr min b) with h | h
    · right; simp [min_eq_left h]
    · rw [List.foldr_cons, min_eq_right h]
      rcases ih with ih | ih
      · exact Or.inl ih
      · exact Or.inr (List.mem_cons_of_mem _ ih)

theorem canon_attained {k : WKey} {ix : List ℕ} (h : Valid k ix) :
    ∃ jx c n, Same k ix jx c n ∧ numOf jx = canon k ix := by
  have hm := foldr_min_mem ((relatives k ix).map fun y => numOf y.1) 10000
  rw [← canon_eq] at hm
  rcases hm with hm | hm
  · have := (foldr_min_le ((relatives k ix).map fun y => numOf y.1) 10000).2 (numOf ix)
      (List.mem_map.2 ⟨_, self_mem_relatives k ix, rfl⟩)
    rw [← canon_eq, hm] at this
    exact absurd (numOf_lt h) (by omega)
  · obtain ⟨y, hy, e⟩ := List.mem_map.1 hm
    exact ⟨y.1, y.2.1, y.2.2, relatives_sound hy, e⟩

theorem canon_lt {k : WKey} {ix : List ℕ} (h : Valid k ix) : canon k ix < 10000 := by
  obtain ⟨jx, c, n, hs, e⟩ := canon_attained h
  rw [← e]
  exact numOf_lt (hs.valid h)

theorem ctorIdx_inj {k k' : WKey} (h : k.ctorIdx = k'.ctorIdx) : k = k' := by
  rw [← WKey.ofNat_ctorIdx k, h, WKey.ofNat_ctorIdx]

theorem ccode_inj {k k' : WKey} {m m' : ℕ} (h : ccode k m = ccode k' m') (hm : m < 10000)
    (hm' : m' < 10000) : k = k' ∧ m = m' := by
  have h : 10000 * k.ctorIdx + m = 10000 * k'.ctorIdx + m' := Nat.succ.inj h
  refine ⟨ctorIdx_inj ?_, ?_⟩ <;> omega

/-- operators with the same number are related -/
theorem same_of_opCode {k k' : WKey} {ix jx : List ℕ} (h : Valid k ix) (h' : Valid k' jx)
    (e : ccode k (canon k ix) = ccode k' (canon k' jx)) :
    k = k' ∧ ∃ c n, Same k ix jx c n := by
  obtain ⟨rfl, e⟩ := ccode_inj e (canon_lt h) (canon_lt h')
  refine ⟨rfl, ?_⟩
  obtain ⟨kx, c, n, h1, e1⟩ := canon_attained h
  obtain ⟨kx', c', n', h2, e2⟩ := canon_attained h'
  have : kx = kx' := numOf_inj (h1.valid h) (h2.valid h') (by rw [e1, e2, e])
  subst this
  exact ⟨_, _, h1.trans h2.symm⟩

/-! ## Completeness -/

/-- all index tuples for some fields -/
def tuples : List Fld → List (List ℕ)
  | [] => [[]]
  | F :: fs => (List.range' 1 F.sp.gens).flatMap fun i => (tuples fs).map fun ix => i :: ix

theorem mem_tuples (fs : List Fld) (ix : List ℕ) :
    ix ∈ tuples fs ↔ List.Forall₂ (fun (F : Fld) i => 1 ≤ i ∧ i ≤ F.sp.gens) fs ix := by
  induction fs generalizing ix with
  | nil => cases ix <;> simp [tuples]
  | cons F fs ih =>
    simp only [tuples, List.mem_flatMap, List.mem_range'_1, List.mem_map]
    constructor
    · rintro ⟨i, ⟨h1, h2⟩, jx, hj, rfl⟩
      exact .cons ⟨h1, by omega⟩ ((ih jx).1 hj)
    · intro h
      cases h with
      | cons h1 h2 => exact ⟨_, ⟨h1.1, by omega⟩, _, (ih _).2 h2, rfl⟩

/-- all names -/
def allKeys : List WKey := (List.range 72).map WKey.ofNat

theorem mem_allKeys (k : WKey) : k ∈ allKeys := by
  refine List.mem_map.2 ⟨k.ctorIdx, List.mem_range.2 ?_, WKey.ofNat_ctorIdx k⟩
  cases k <;> decide

/-- the set of all operators -/
def opSet : ℕ := bitset canonCodes

/-- every component is the negative of itself or listed -/
def completeOK (set : ℕ) : Bool :=
  allKeys.all fun k => (tuples (fields k)).all fun ix => forceIx ix fun ix =>
    Nat.testBit set (ccode k (canon k ix)) ||
      (relatives k ix).any fun y => y.2.2 && Nat.beq (numOf y.1) (numOf ix)

theorem complete_check : (force opSet fun s => completeOK s) = true := by decide +kernel

/-- every component that does not vanish is listed -/
theorem listed_complete {k : WKey} {ix : List ℕ} (h : Valid k ix) (hv : ¬Vanishes k ix) :
    ∃ m s i c n, Listed (k, m) s i ∧ Same k ix (ixOf (k, m)) c n := by
  have h0 := complete_check
  rw [force_eq, completeOK, List.all_eq_true] at h0
  have h1 := List.all_eq_true.1 (h0 k (mem_allKeys k)) ix ((mem_tuples _ _).2 h)
  rw [forceIx_eq, Bool.or_eq_true] at h1
  rcases h1 with h1 | h1
  · rw [opSet, testBit_bitset, decide_eq_true_eq, canonCodes, listed_eq] at h1
    obtain ⟨b, hb, e⟩ := List.mem_map.1 h1
    obtain ⟨l, hl, hbl⟩ := List.mem_flatten.1 hb
    obtain ⟨⟨s, l'⟩, hs, rfl⟩ := List.mem_map.1 hl
    obtain ⟨i, hi⟩ := List.getElem?_of_mem hbl
    have hL : Listed b s i := ⟨_, hs, hi⟩
    obtain ⟨rfl, c, n, hS⟩ := same_of_opCode h (listed_ok hL).2.1 e.symm
    exact ⟨b.2, s, i, c, n, hL, hS⟩
  · obtain ⟨y, hy, hy'⟩ := List.any_eq_true.1 h1
    rw [Bool.and_eq_true] at hy'
    have hs := relatives_sound hy
    rw [hy'.1, numOf_inj (hs.valid h) h (Nat.eq_of_beq_eq_true hy'.2)] at hs
    exact absurd ⟨_, hs⟩ hv

/-- no listed coefficient vanishes -/
theorem listed_not_vanishes {a : Coef} {s : String} {i : ℕ} (h : Listed a s i) :
    ¬Vanishes a.1 (ixOf a) := by
  rintro ⟨c, hc⟩
  have h1 := listed_ok h
  have := h1.2.2 _ (relatives_complete hc) h1.1
  cases this

theorem listed_same_unique {a b : Coef} {s t : String} {i j : ℕ} {c n : Bool} (ha : Listed a s i)
    (hb : Listed b t j) (hk : a.1 = b.1) (h : Same a.1 (ixOf a) (ixOf b) c n) :
    s = t ∧ i = j ∧ a = b := by
  refine listed_unique ha hb ?_
  rw [opCode, opCode, canon_same h, hk]

/-- the relation between two components of a listed coefficient has a definite sign -/
theorem same_sign_unique {k : WKey} {ix jx : List ℕ} {c n n' c' : Bool} (hv : ¬Vanishes k ix)
    (h : Same k ix jx c n) (h' : Same k ix jx c' n') : n = n' := by
  have := h.trans h'.symm
  by_contra hne
  have e : xor n n' = true := by cases n <;> cases n' <;> simp_all
  rw [e] at this
  exact hv ⟨_, this⟩

end Verif.WetTab
