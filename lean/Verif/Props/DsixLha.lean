import Verif.Lemmas.DsixLha
import Verif.Lemmas.SmeftBasis

/-!
# C86: files in the DsixTools format restore the coefficients they were written from

`SMEFTio.dump` writes the Wilson coefficients without the entries that hermiticity and the
other symmetries of the operators determine; `SMEFTio.load_initial` reads the files of the
coefficients and of the Standard Model parameters and restores those entries.
-/

set_option autoImplicit false
set_option linter.unusedSimpArgs false

namespace Verif.Dsix
open Verif Verif.EFT Verif.EFT.Util Verif.Spec Verif.Beta Verif.Bridge Verif.Props

/-! ## what a file lists -/

lemma range2 {ix : List ℕ} : inRange [3, 3] ix = true ↔ ∃ i, ix = idx2 i := by
  constructor
  · intro hi
    match ix, hi with
    | [], hi => simp [inRange] at hi
    | [_], hi => simp [inRange] at hi
    | _ :: _ :: _ :: _, hi => simp [inRange] at hi
    | [i, j], hi =>
      simp only [inRange, Bool.and_true, Bool.and_eq_true, decide_eq_true_eq] at hi
      exact ⟨(⟨i, hi.1⟩, ⟨j, hi.2⟩), rfl⟩
  · rintro ⟨i, rfl⟩; exact in2 i

lemma range4 {ix : List ℕ} : inRange [3, 3, 3, 3] ix = true ↔ ∃ i, ix = idx4 i := by
  constructor
  · intro hi
    match ix, hi with
    | [], hi => simp [inRange] at hi
    | [_], hi => simp [inRange] at hi
    | [_, _], hi => simp [inRange] at hi
    | [_, _, _], hi => simp [inRange] at hi
    | _ :: _ :: _ :: _ :: _ :: _, hi => simp [inRange] at hi
    | [i, j, k, l], hi =>
      simp only [inRange, Bool.and_true, Bool.and_eq_true, decide_eq_true_eq] at hi
      exact ⟨(⟨i, hi.1⟩, ⟨j, hi.2.1⟩, ⟨k, hi.2.2.1⟩, ⟨l, hi.2.2.2⟩), rfl⟩
  · rintro ⟨i, rfl⟩; exact in4 i

lemma listed {shape : List ℕ} (p : List ℕ → Prop) [DecidablePred p] (M : List ℕ → ℝ) :
    (∀ r : Row, r ∈ ((indices shape).filterMap fun i =>
      if p i then some (i.map fun (j : ℕ) => (j : ℤ) + 1, M i) else none) ↔
      ∃ ix, inRange shape ix = true ∧ p ix ∧ r = (oneBased ix, M ix)) ∧
    (((indices shape).filterMap fun i =>
      if p i then some (i.map fun (j : ℕ) => (j : ℤ) + 1, M i) else none).map Prod.fst).Nodup := by
  constructor
  · intro r
    rw [List.mem_filterMap]
    constructor
    · rintro ⟨ix, hix, e⟩
      split at e
      · rename_i hp
        exact ⟨ix, mem_indices.1 hix, hp, (Option.some.inj e).symm⟩
      · cases e
    · rintro ⟨ix, hix, hp, rfl⟩
      exact ⟨ix, mem_indices.2 hix, by rw [if_pos hp]; rfl⟩
  · rw [List.map_filterMap]
    refine List.Nodup.filterMap ?_ (nodup_indices shape)
    intro a a' b hb hb'
    by_cases h : p a <;> by_cases h' : p a' <;> simp only [h, h', if_true, if_false, Option.map_some,
      Option.map_none, Option.mem_def, Option.some.injEq, reduceCtorEq] at hb hb'
    exact oneBased_inj (hb.trans hb'.symm)

/-- The file of a coefficient lists, each once and with indices counted from one: the real
parts of the entries (of those that the symmetries leave independent, if redundant entries are
skipped; of those that are not zero, if zeros are skipped), and the imaginary parts of the
entries that hermiticity does not make real. -/
theorem C86_listed {U : Util} (hU : SmeftHelper U) {C : Dict Str AVal} (hC : Physical C)
    (skipRedundant skipZero : Bool) :
    ∃ B, wcDict2lha U C skipRedundant skipZero = .ok B ∧
      ∀ k ∈ coeffKeys, ∀ a, C.get? (keyName k) = some (.arr a) →
        ((rowsOf B ("WC".toList ++ (keyName k).map Char.toUpper)).map Prod.fst).Nodup ∧
        ((rowsOf B ("IMWC".toList ++ (keyName k).map Char.toUpper)).map Prod.fst).Nodup ∧
        (rankOf k = 2 →
          (∀ r, r ∈ rowsOf B ("WC".toList ++ (keyName k).map Char.toUpper) ↔ ∃ i : I2,
            (skipRedundant = true → NonRedOf2 (fullClass k) i) ∧
            ((a.get (idx2 i)).re ≠ 0 ∨ skipZero = false) ∧
            r = (oneBased (idx2 i), (a.get (idx2 i)).re)) ∧
          (∀ r, r ∈ rowsOf B ("IMWC".toList ++ (keyName k).map Char.toUpper) ↔ ∃ i : I2,
            (skipRedundant = true → NonRedOf2 (fullClass k) i) ∧
            ¬ (NonRedOf2 (fullClass k) i ∧ RealOf2 (fullClass k) i) ∧
            ((a.get (idx2 i)).im ≠ 0 ∨ skipZero = false) ∧
            r = (oneBased (idx2 i), (a.get (idx2 i)).im))) ∧
        (rankOf k = 4 →
          (∀ r, r ∈ rowsOf B ("WC".toList ++ (keyName k).map Char.toUpper) ↔ ∃ i : I4,
            (skipRedundant = true → NonRedOf4 (fullClass k) i) ∧
            ((a.get (idx4 i)).re ≠ 0 ∨ skipZero = false) ∧
            r = (oneBased (idx4 i), (a.get (idx4 i)).re)) ∧
          (∀ r, r ∈ rowsOf B ("IMWC".toList ++ (keyName k).map Char.toUpper) ↔ ∃ i : I4,
            (skipRedundant = true → NonRedOf4 (fullClass k) i) ∧
            ¬ (NonRedOf4 (fullClass k) i ∧ RealOf4 (fullClass k) i) ∧
            ((a.get (idx4 i)).im ≠ 0 ∨ skipZero = false) ∧
            r = (oneBased (idx4 i), (a.get (idx4 i)).im))) := by
  obtain ⟨B, h1, -, h2, -⟩ := write_ok hU (physical_shaped hC) skipRedundant skipZero
  refine ⟨B, h1, fun k hk a ha => ?_⟩
  have hr : rankOf k ≠ 0 := fun h0 => by
    obtain ⟨v, hv, hf, -⟩ := hC k hk
    rw [ha, Option.some.injEq] at hv
    subst hv
    simp [shapeK, h0, Fits] at hf
  have hA : k ∈ arrKeys := List.mem_filter.2 ⟨hk, by simpa using hr⟩
  obtain ⟨e1, e2⟩ := h2 k hA
  have hsh : shapeK k = some a.shape := by
    obtain ⟨a', q, q', -⟩ := shaped_arr (physical_shaped hC) hA
    rw [ha, Option.some.injEq, AVal.arr.injEq] at q
    rw [q']; rw [q]
  unfold reBlock at e1
  unfold imBlock at e2
  rw [e1, e2]
  have ho : arrOf C (keyName k) = a := by unfold arrOf; rw [ha]
  unfold reOf imOf
  rw [ho, reRows_eq, imRows_eq]
  obtain ⟨l1, l2⟩ := listed (shape := a.shape) (fun i => ¬ (i ∈ (Dict.get? Gen.dsixRedundant (keyName k)).getD [] ∧
    skipRedundant = true) ∧ ((a.get i).re ≠ 0 ∨ skipZero = false)) fun i => (a.get i).re
  obtain ⟨l3, l4⟩ := listed (shape := a.shape) (fun i => ¬ (i ∈ (Dict.get? Gen.dsixRedundant (keyName k)).getD [] ∧
    skipRedundant = true) ∧ i ∉ (Dict.get? Gen.dsixVanishingIm (keyName k)).getD [] ∧
    ((a.get i).im ≠ 0 ∨ skipZero = false)) fun i => (a.get i).im
  refine ⟨l2, l4, fun h => ?_, fun h => ?_⟩
  · rw [shapeK_two h, Option.some.injEq] at hsh
    obtain ⟨red, van, t1, t2, ht⟩ := table_at2 hk h
    refine ⟨fun r => (l1 r).trans ?_, fun r => (l3 r).trans ?_⟩
    · rw [← hsh, t1, Option.getD_some]
      constructor
      · rintro ⟨ix, hix, ⟨p1, p2⟩, rfl⟩
        obtain ⟨i, rfl⟩ := range2.1 hix
        rw [(ht i).1] at p1
        exact ⟨i, by tauto, p2, rfl⟩
      · rintro ⟨i, p1, p2, rfl⟩
        refine ⟨_, in2 i, ⟨?_, p2⟩, rfl⟩
        rw [(ht i).1]
        tauto
    · rw [← hsh, t1, t2, Option.getD_some, Option.getD_some]
      constructor
      · rintro ⟨ix, hix, ⟨p1, p2, p3⟩, rfl⟩
        obtain ⟨i, rfl⟩ := range2.1 hix
        rw [(ht i).1] at p1
        rw [(ht i).2] at p2
        exact ⟨i, by tauto, p2, p3, rfl⟩
      · rintro ⟨i, p1, p2, p3, rfl⟩
        refine ⟨_, in2 i, ⟨?_, ?_, p3⟩, rfl⟩
        · rw [(ht i).1]; tauto
        · rw [(ht i).2]; exact p2
  · rw [shapeK_four h, Option.some.injEq] at hsh
    obtain ⟨red, van, t1, t2, ht⟩ := table_at4 hk h
    refine ⟨fun r => (l1 r).trans ?_, fun r => (l3 r).trans ?_⟩
    · rw [← hsh, t1, Option.getD_some]
      constructor
      · rintro ⟨ix, hix, ⟨p1, p2⟩, rfl⟩
        obtain ⟨i, rfl⟩ := range4.1 hix
        rw [(ht i).1] at p1
        exact ⟨i, by tauto, p2, rfl⟩
      · rintro ⟨i, p1, p2, rfl⟩
        refine ⟨_, in4 i, ⟨?_, p2⟩, rfl⟩
        rw [(ht i).1]
        tauto
    · rw [← hsh, t1, t2, Option.getD_some, Option.getD_some]
      constructor
      · rintro ⟨ix, hix, ⟨p1, p2, p3⟩, rfl⟩
        obtain ⟨i, rfl⟩ := range4.1 hix
        rw [(ht i).1] at p1
        rw [(ht i).2] at p2
        exact ⟨i, by tauto, p2, p3, rfl⟩
      · rintro ⟨i, p1, p2, p3, rfl⟩
        refine ⟨_, in4 i, ⟨?_, ?_, p3⟩, rfl⟩
        · rw [(ht i).1]; tauto
        · rw [(ht i).2]; exact p2

/-! ## restoring the coefficients -/

/-- Writing physical coefficients with `dump` and the parameters with `sm_dict2lha`, and
loading the two files in either order: every Wilson coefficient, every parameter of the beta
functions and the scale are restored, whether redundant entries were skipped or not, and with
or without an output scale in the file. -/
theorem C86_dump_load {U : Util} (hU : SmeftHelper U) {C sm : Dict Str AVal} (hC : Physical C)
    (hS : SmParameters sm) (high : ℝ) (scaleOut : Option ℝ) (skipRedundant : Bool) :
    ∃ wc par, dump U high C scaleOut skipRedundant = .ok wc ∧ smDict2lha sm = .ok par ∧
      ∀ streams, (streams = [wc, par] ∨ streams = [par, wc]) → ∃ io C', loadInitial U streams = .ok io ∧
        io.scaleIn = some high ∧ io.scaleHigh = some high ∧ io.cIn = some C' ∧
        (∀ k ∈ coeffKeys, C'.get? (keyName k) = C.get? (keyName k)) ∧
        (∀ s ∈ ["g", "gp", "gs", "Lambda", "m2", "Gu", "Gd", "Ge"], C'.get? s.toList = sm.get? s.toList) := by
  obtain ⟨D, S, h1, h2, h3⟩ := load_main hU hC hS high scaleOut skipRedundant
  refine ⟨D, S, h1, h2, fun st hst => ?_⟩
  obtain ⟨C', e, g1, g2, -⟩ := h3 st hst
  refine ⟨_, C', e, rfl, rfl, rfl, g1, fun s hs => ?_⟩
  have hall : ∀ s ∈ ["g", "gp", "gs", "Lambda", "m2", "Gu", "Gd", "Ge"],
      ∃ k ∈ smKeys, keyName k = s.toList := by decide +kernel
  obtain ⟨k, hk, e⟩ := hall s hs
  rw [← e]
  exact g2 k hk

/-- The vacuum angles are written to the file but are not restored: `load_initial` reads them
and then drops every key that belongs to no symmetry class. -/
theorem C86_theta_violation {U : Util} (hU : SmeftHelper U) {C sm : Dict Str AVal} (hC : Physical C)
    (hS : SmParameters sm) (high : ℝ) (scaleOut : Option ℝ) (skipRedundant : Bool) :
    ∃ wc par io C', dump U high C scaleOut skipRedundant = .ok wc ∧ smDict2lha sm = .ok par ∧
      loadInitial U [wc, par] = .ok io ∧ io.cIn = some C' ∧
      ∀ s ∈ ["Theta", "Thetap", "Thetas"], (sm.get? s.toList).isSome ∧ C'.get? s.toList = none := by
  obtain ⟨D, S, h1, h2, h3⟩ := load_main hU hC hS high scaleOut skipRedundant
  obtain ⟨C', e, -, -, g⟩ := h3 _ (Or.inl rfl)
  refine ⟨D, S, _, C', h1, h2, e, rfl, fun s hs => ⟨?_, g _ fun k hk => ?_⟩⟩
  · obtain ⟨x, hx⟩ := hS.1 s (by
      simp only [List.mem_cons, List.not_mem_nil, or_false] at hs ⊢
      tauto)
    rw [hx]; rfl
  · have hall : ∀ k ∈ keys, ∀ s ∈ ["Theta", "Thetap", "Thetas"], s.toList ≠ keyName k := by decide +kernel
    exact hall k hk s hs

/-! ### a concrete case -/

theorem smeft_helper : SmeftHelper smeftUtil where
  smeft := smeft_isSmeft
  once := List.Nodup.map (fun _ _ h => keyName_inj h) (List.Nodup.filter _ nodup_keys)
  shapes := smeft_shape
  classes k hk := smeft_inClass (smKeys_sub k hk)
  only c s hs := by
    rw [smeft_symm] at hs
    split at hs
    · obtain ⟨k, hk, e⟩ := List.mem_map.1 hs
      exact ⟨k, (List.mem_filter.1 hk).1, e.symm⟩
    · cases hs

/-- all coefficients one, apart from `phiq1_12 = i = conj phiq1_21` -/
noncomputable def exC : Dict Str AVal := coeffKeys.map fun k => (keyName k,
  if rankOf k = 0 then .num 1
  else if rankOf k = 2 then .arr (NDArr.ofFn [3, 3] fun ix =>
    if k = .phiq1 ∧ ix = [0, 1] then Complex.I else if k = .phiq1 ∧ ix = [1, 0] then -Complex.I else 1)
  else .arr (NDArr.ofFn [3, 3, 3, 3] fun _ => 1))

theorem exC_physical : Physical exC := by
  have hn : exC.NodupKeys := by
    unfold Dict.NodupKeys Dict.keys exC
    rw [List.map_map]
    exact List.Nodup.map (fun _ _ h => keyName_inj h) (List.Nodup.filter _ nodup_keys)
  intro k hk
  refine ⟨_, Dict.get?_of_mem hn (List.mem_map.2 ⟨k, hk, rfl⟩), ?_⟩
  have hwf : ∀ (s : List ℕ) f, (NDArr.ofFn s f).WF := fun s f ix h => by
    simp only [NDArr.ofFn] at h ⊢
    simp [h]
  rcases rank_cases k ((coeff_iff k).1 hk).1 with h | h | h
  · rw [if_pos h]
    simp [shapeK, h, Fits, SymVal]
  · rw [if_neg (by omega), if_pos h, shapeK_two h]
    have hc := class2 k ((coeff_iff k).1 hk).1 h
    refine ⟨⟨rfl, hwf _ _⟩, ?_⟩
    have h9 : ∀ k ∈ coeffKeys, fullClass k = 9 → k ≠ .phiq1 := by decide +kernel
    simp only [List.mem_cons, List.not_mem_nil, or_false] at hc
    rcases hc with hc | hc | hc <;> simp only [SymVal, hc] <;> simp only [Nat.reduceEqDiff, false_imp_iff,
      true_imp_iff, true_and, and_true, and_self]
    · intro i j
      by_cases hp : k = .phiq1
      · simp only [NDArr.ofFn, in2, if_true, hp, true_and]
        fin_cases i <;> fin_cases j <;> simp [idx2]
      · simp [NDArr.ofFn, in2, hp]
    · intro i j
      simp [NDArr.ofFn, in2, h9 k hk hc]
  · rw [if_neg (by omega), if_neg (by omega), shapeK_four h]
    have hc := class4 k ((coeff_iff k).1 hk).1 h
    refine ⟨⟨rfl, hwf _ _⟩, ?_⟩
    simp only [List.mem_cons, List.not_mem_nil, or_false] at hc
    rcases hc with hc | hc | hc | hc | hc | hc <;> simp only [SymVal, hc] <;>
      simp only [Nat.reduceEqDiff, false_imp_iff, true_imp_iff, true_and, and_true, and_self] <;>
      intro i j k l <;> simp [NDArr.ofFn, in4]

/-- parameters with a complex Yukawa matrix -/
noncomputable def exSm : Dict Str AVal :=
  [("g".toList, .num ((13 / 20 : ℝ) : ℂ)), ("gp".toList, .num ((7 / 20 : ℝ) : ℂ)),
   ("gs".toList, .num ((6 / 5 : ℝ) : ℂ)), ("Lambda".toList, .num ((1 / 4 : ℝ) : ℂ)),
   ("m2".toList, .num ((8000 : ℝ) : ℂ)), ("Theta".toList, .num ((1 / 10 : ℝ) : ℂ)),
   ("Thetap".toList, .num ((0 : ℝ) : ℂ)), ("Thetas".toList, .num ((0 : ℝ) : ℂ)),
   ("Gu".toList, .arr (NDArr.ofFn [3, 3] fun ix => if ix = [0, 2] then Complex.I else 1)),
   ("Gd".toList, .arr (NDArr.ofFn [3, 3] fun _ => 2)), ("Ge".toList, .arr (NDArr.ofFn [3, 3] fun _ => 3))]

theorem exSm_ok : SmParameters exSm := by
  have hwf : ∀ (s : List ℕ) f, (NDArr.ofFn s f).WF := fun s f ix h => by
    simp only [NDArr.ofFn] at h ⊢
    simp [h]
  constructor
  · intro s hs
    simp only [List.mem_cons, List.not_mem_nil, or_false] at hs
    rcases hs with rfl | rfl | rfl | rfl | rfl | rfl | rfl | rfl <;> exact ⟨_, rfl⟩
  · intro s hs
    simp only [List.mem_cons, List.not_mem_nil, or_false] at hs
    rcases hs with rfl | rfl | rfl <;> exact ⟨_, rfl, rfl, hwf _ _⟩

/-- The hypotheses hold for the full Warsaw basis with these values; the redundant entry
`phiq1_21 = -i` is not in the file and is restored. -/
example : ∃ wc par io C' a, dump smeftUtil 1000 exC none true = .ok wc ∧ smDict2lha exSm = .ok par ∧
    loadInitial smeftUtil [wc, par] = .ok io ∧ io.cIn = some C' ∧
    C'.get? "phiq1".toList = some (.arr a) ∧ a.get [1, 0] = -Complex.I := by
  obtain ⟨wc, par, h1, h2, h3⟩ := C86_dump_load smeft_helper exC_physical exSm_ok 1000 none true
  obtain ⟨io, C', e1, -, -, e2, e3, -⟩ := h3 _ (Or.inl rfl)
  have hk : Key.phiq1 ∈ coeffKeys := by decide +kernel
  have hn : exC.NodupKeys := by
    unfold Dict.NodupKeys Dict.keys exC
    rw [List.map_map]
    exact List.Nodup.map (fun _ _ h => keyName_inj h) (List.Nodup.filter _ nodup_keys)
  have hg := Dict.get?_of_mem hn (List.mem_map.2 ⟨Key.phiq1, hk, rfl⟩)
  rw [← e3 _ hk, if_neg (by decide), if_pos (by decide)] at hg
  refine ⟨wc, par, io, C', _, h1, h2, e1, e2, hg, ?_⟩
  simp [NDArr.ofFn, inRange]

end Verif.Dsix
