import Verif.Lemmas.Stages

/-!
# Reading named entries of array dictionaries

`arrays2wcxf` looked up under the name of an entry, `wcxf2arrays` entry by entry, and
`symmetrize` as a total operation.
-/

set_option autoImplicit false
set_option linter.unusedSimpArgs false

namespace Verif.EFT.Util
open Verif Verif.Spec Verif.EFT Verif.Props Classical

variable {U : Util}

/-- every value has the shape the basis prescribes for its key -/
def FitsAll (U : Util) (C : Dict Str AVal) : Prop :=
  ∀ k v, C.get? k = some v → ∃ s, U.keysShape.get? k = some s ∧ Fits s v

lemma us_of (hU : Regular U) {k : Str} {s : Shape} (hk : U.keysShape.get? k = some s) : '_' ∉ k :=
  (hU.good _ _ hk).1

lemma goodArrays_of (hU : Regular U) {C : Dict Str AVal} (hn : C.NodupKeys) (hF : FitsAll U C) :
    GoodArrays C := by
  refine ⟨hn, fun k v hm => ?_⟩
  obtain ⟨s, hs, hf⟩ := hF k v (Dict.get?_of_mem hn hm)
  refine ⟨us_of hU hs, ?_⟩
  cases v with
  | num z => trivial
  | arr a =>
    cases s with
    | none => simp [Fits] at hf
    | some s =>
      obtain ⟨rfl, -⟩ := hf
      obtain ⟨g1, g2, -⟩ := (hU.good k _ hs).2 _ rfl
      exact ⟨g1, g2, small3 (le3_of_regular hU hs)⟩

/-- a name whose array is absent is absent -/
lemma absent_of (hU : Regular U) {C : Dict Str AVal} (hn : C.NodupKeys) (hF : FitsAll U C)
    {n k : Str} {s : Shape} (hs : U.keysShape.get? k = some s) (hC : C.get? k = none)
    (h1 : s = none → n = k) (h2 : ∀ l, s = some l → ∃ idx, inRange l idx = true ∧ n = wcName k idx) :
    (arrays2wcxf C).get? n = none := by
  have hgood := goodArrays_of hU hn hF
  rw [Dict.get?_eq_none_iff]
  intro hmem
  obtain ⟨k', v', hm', hv'⟩ := (C26_entry_found C hgood).2.2 n hmem
  have hg' := Dict.get?_of_mem hn hm'
  obtain ⟨s', hs', hft'⟩ := hF k' v' hg'
  have : k = k' := by
    cases v' with
    | num z =>
      simp only at hv'
      cases s with
      | none => rw [← h1 rfl, hv']
      | some l =>
        obtain ⟨idx, -, e⟩ := h2 l rfl
        exact absurd (e.symm.trans hv') (wcName_ne_scalar (us_of hU hs'))
    | arr a =>
      obtain ⟨idx', hi', e'⟩ := hv'
      cases s with
      | none => exact absurd (e'.symm.trans (h1 rfl)) (wcName_ne_scalar (us_of hU hs))
      | some l =>
        obtain ⟨idx, hi, e⟩ := h2 l rfl
        exact (wcName_inj (us_of hU hs) (us_of hU hs') hi hi' (small3 (le3_of_regular hU hs))
          (hgood.2 k' _ hm').2.2.2 (e.symm.trans e')).1
  rw [this, hg'] at hC
  simp at hC

/-- the number in a scalar value -/
def numOf : AVal → ℂ
  | .num z => z
  | .arr _ => 0

lemma get_scalar (hU : Regular U) {C : Dict Str AVal} (hn : C.NodupKeys) (hF : FitsAll U C) {k : Str}
    (hs : U.keysShape.get? k = some none) : (arrays2wcxf C).get? k = (C.get? k).map numOf := by
  cases hC : C.get? k with
  | none => exact absent_of hU hn hF hs hC (fun _ => rfl) (by simp)
  | some v =>
    obtain ⟨s, hs', hf⟩ := hF k v hC
    rw [hs] at hs'
    simp only [Option.some.injEq] at hs'
    subst hs'
    cases v with
    | num z => exact (C26_entry_found C (goodArrays_of hU hn hF)).2.1 k z (Dict.mem_of_get? hC)
    | arr a => simp [Fits] at hf

lemma get_entry (hU : Regular U) {C : Dict Str AVal} (hn : C.NodupKeys) (hF : FitsAll U C) {k : Str}
    {s idx : List ℕ} (hs : U.keysShape.get? k = some (some s)) (hi : inRange s idx = true) :
    (arrays2wcxf C).get? (wcName k idx) = (C.get? k).map fun v =>
      match v with
      | .num _ => 0
      | .arr a => a.get idx := by
  cases hC : C.get? k with
  | none => exact absent_of hU hn hF hs hC (by simp) (fun l e => ⟨idx, by
      simp only [Option.some.injEq] at e; rw [← e]; exact hi, rfl⟩)
  | some v =>
    obtain ⟨s', hs', hf⟩ := hF k v hC
    rw [hs] at hs'
    simp only [Option.some.injEq] at hs'
    subst hs'
    cases v with
    | num z => simp [Fits] at hf
    | arr a =>
      refine (C26_entry_found C (goodArrays_of hU hn hF)).1 k a (Dict.mem_of_get? hC) idx ?_
      rw [hf.1]; exact hi

lemma get_two (hU : Regular U) {C : Dict Str AVal} (hn : C.NodupKeys) (hF : FitsAll U C) {k : Str}
    {s : List ℕ} {i : I2} (hs : U.keysShape.get? k = some (some s)) (hi : inRange s (idx2 i) = true) :
    (arrays2wcxf C).get? (wcName k (idx2 i)) = (C.get? k).map fun v => ent2 v i := by
  rw [get_entry hU hn hF hs hi]
  cases C.get? k with
  | none => rfl
  | some v => cases v <;> rfl

lemma get_four (hU : Regular U) {C : Dict Str AVal} (hn : C.NodupKeys) (hF : FitsAll U C) {k : Str}
    {s : List ℕ} {i : I4} (hs : U.keysShape.get? k = some (some s)) (hi : inRange s (idx4 i) = true) :
    (arrays2wcxf C).get? (wcName k (idx4 i)) = (C.get? k).map fun v => ent4 v i := by
  rw [get_entry hU hn hF hs hi]
  cases C.get? k with
  | none => rfl
  | some v => cases v <;> rfl

/-- `wcxf2arrays` succeeds on names of the basis; its values fit and their entries are the
dictionary's, zero where the dictionary has none. -/
lemma read_ok (hU : Regular U) (d : Dict Str ℂ) (hd : d.NodupKeys)
    (hk : ∀ n ∈ d.keys, ∃ r, NonRedName U n r) :
    ∃ C, U.wcxf2arrays d = .ok C ∧ C.NodupKeys ∧ FitsAll U C ∧
      (∀ k, U.keysShape.get? k = some none → C.get? k = (d.get? k).map .num) ∧
      (∀ k s, U.keysShape.get? k = some (some s) →
        ((C.get? k = some (.arr (collect d k s)) ∧ hasEntry d k s) ∨ (C.get? k = none ∧ collect d k s = zeros s))) := by
  have hval : ∀ n ∈ d.keys, ValidKey U n := by
    intro n hn
    obtain ⟨r, hr⟩ := hk n hn
    cases hr with
    | scalar h => exact .scalar h (us_of hU h)
    | two h hc hi => exact .entry h (us_of hU h) (small3 (le3_of_regular hU h)) hi
    | four h hc hi => exact .entry h (us_of hU h) (small3 (le3_of_regular hU h)) hi
  obtain ⟨C0, e0, r1, r2, r3, n0⟩ := wcxf2arrays_represents U d hd hval
  refine ⟨C0, e0, n0, ?_, fun k hs => r1 k hs (us_of hU hs), fun k s hs => ?_⟩
  · intro k v hv
    obtain ⟨hu, s, hs, hsm⟩ := r3 k ((Dict.isSome_get?_iff _ _).1 (by rw [hv]; rfl))
    refine ⟨s, hs, ?_⟩
    cases s with
    | none =>
      rw [r1 k hs hu] at hv
      cases h : d.get? k with
      | none => simp [h] at hv
      | some z => simp only [h, Option.map_some, Option.some.injEq] at hv; rw [← hv]; trivial
    | some s =>
      by_cases hh : hasEntry d k s
      · rw [(r2 k s hs hu (hsm s rfl)).1 hh] at hv
        simp only [Option.some.injEq] at hv
        rw [← hv]
        refine ⟨rfl, fun idx hi => ?_⟩
        simp only [collect] at hi ⊢
        simp [hi]
      · rw [(r2 k s hs hu (hsm s rfl)).2 hh] at hv; simp at hv
  · have hsm := small3 (le3_of_regular hU hs)
    by_cases hh : hasEntry d k s
    · exact .inl ⟨(r2 k s hs (us_of hU hs) hsm).1 hh, hh⟩
    · refine .inr ⟨(r2 k s hs (us_of hU hs) hsm).2 hh, ?_⟩
      simp only [zeros, collect, NDArr.mk.injEq, true_and]
      funext idx
      split
      · rename_i hidx
        rw [(Dict.get?_eq_none_iff _ _).2 fun hm => hh ⟨idx, hidx, hm⟩]; rfl
      · rfl

/-! ### `symmetrize` -/

/-- `symmetrize` on padded values -/
noncomputable def symG (c : ℕ) : AVal → AVal :=
  if c = 0 then realVal
  else if c = 2 then op2 (runProg Gen.symmetrize_2)
  else if c = 9 then op2 (runProg Gen.symmetrize_9)
  else if c = 4 then op4 (runProg Gen.symmetrize_4)
  else if c = 41 then op4 (runProg Gen.symmetrize_41)
  else if c = 5 then op4 (runProg Gen.symmetrize_5)
  else if c = 6 then op4 (runProg Gen.symmetrize_6)
  else if c = 7 then op4 (runProg Gen.symmetrize_7)
  else if c = 71 then op4 (runProg Gen.symmetrize_71)
  else if c = 8 then op4 (runProg Gen.symmetrize_8)
  else id

lemma symmG_step {k : Str} {s : Shape} {c : ℕ} (hk : KeyOK U k s c) {v : AVal} (hv : Padded s v) :
    symmVal (if c = 3 then 1 else c) v = .ok (symG c v) ∧ Padded s (symG c v) := by
  obtain ⟨-, hc, -, h0, hl, -⟩ := hk
  cases s with
  | none =>
    have : c = 0 := h0.1 rfl
    subst this
    refine ⟨rfl, ?_⟩
    cases v with
    | num z => trivial
    | arr a => simp [Padded] at hv
  | some l =>
    have hr := (hl l rfl).1
    simp only [classIds, List.mem_cons, List.not_mem_nil, or_false] at hc
    have h00 : (0 : ℕ) ≠ c := fun e => by simpa using h0.2 e.symm
    rcases hc with rfl | rfl | rfl | rfl | rfl | rfl | rfl | rfl | rfl | rfl | rfl | rfl
    · exact absurd rfl h00
    · exact ⟨rfl, hv⟩
    · exact ⟨onArr2_eq (f := runProg Gen.symmetrize_2) hr hv, padded_op2 hr hv⟩
    · exact ⟨rfl, hv⟩
    · exact ⟨onArr4_eq (f := runProg Gen.symmetrize_4) hr hv, padded_op4 hr hv⟩
    · exact ⟨onArr4_eq (f := runProg Gen.symmetrize_41) hr hv, padded_op4 hr hv⟩
    · exact ⟨onArr4_eq (f := runProg Gen.symmetrize_5) hr hv, padded_op4 hr hv⟩
    · exact ⟨onArr4_eq (f := runProg Gen.symmetrize_6) hr hv, padded_op4 hr hv⟩
    · exact ⟨onArr4_eq (f := runProg Gen.symmetrize_7) hr hv, padded_op4 hr hv⟩
    · exact ⟨onArr4_eq (f := runProg Gen.symmetrize_71) hr hv, padded_op4 hr hv⟩
    · exact ⟨onArr4_eq (f := runProg Gen.symmetrize_8) hr hv, padded_op4 hr hv⟩
    · exact ⟨onArr2_eq (f := runProg Gen.symmetrize_9) hr hv, padded_op2 hr hv⟩

/-- `symmetrize` on dictionaries of fitting values -/
lemma stage_symmG (hU : Regular U) {C : Dict Str AVal} (hn : C.NodupKeys) (h : FitsAll U C) :
    ∃ D, U.symmetrize C = .ok D ∧ D.NodupKeys ∧ D.keys = C.keys ∧ FitsAll U D ∧
      ∀ k, D.get? k = (C.get? k).map fun v => cutF (shapeOf U k) (symG (clsOf U k) (padF v)) := by
  obtain ⟨C1, e1, n1, k1, g1⟩ := stage_pad hU hn h
  have P1 : ∀ k v, C1.get? k = some v → ∃ s, U.keysShape.get? k = some s ∧ Padded s v := by
    intro k v hv
    rw [g1] at hv
    cases hc : C.get? k with
    | none => simp [hc] at hv
    | some w =>
      rw [hc] at hv
      simp only [Option.map_some, Option.some.injEq] at hv
      obtain ⟨s, hs, hf⟩ := h k w hc
      exact ⟨s, hs, hv ▸ padded_padF (fun l e => le3_of_regular hU (by rw [hs, e])) hf⟩
  obtain ⟨C2, e2, n2, k2, g2⟩ := stage_map (f := fun k v =>
    match U.classOf k with
    | none => .ok none
    | some c => (symmVal c v).map some) (g := fun k => symG (clsOf U k)) n1 (by
      intro k v hv
      obtain ⟨s, hs, hp⟩ := P1 k v hv
      obtain ⟨c, hk⟩ := keyOK hU hs
      rw [classOf_eq hk.hc hk.cls, clsOf_eq hk]
      simp only [(symmG_step hk hp).1, Except.map])
  have P2 : ∀ k v, C2.get? k = some v → ∃ s, U.keysShape.get? k = some s ∧ Padded s v := by
    intro k v hv
    rw [g2] at hv
    cases hc : C1.get? k with
    | none => simp [hc] at hv
    | some w =>
      rw [hc] at hv
      simp only [Option.map_some, Option.some.injEq] at hv
      obtain ⟨s, hs, hf⟩ := P1 k w hc
      obtain ⟨c, hk⟩ := keyOK hU hs
      rw [clsOf_eq hk] at hv
      exact ⟨s, hs, hv ▸ (symmG_step hk hf).2⟩
  obtain ⟨C3, e3, n3, k3, g3⟩ := stage_unpad hU n2 P2
  refine ⟨C3, ?_, n3, by rw [k3, k2, k1], ?_, fun k => ?_⟩
  · have e2' : U.symmLoop symmVal C1 = .ok C2 := e2
    unfold symmetrize
    rw [e1]
    simp only [Except.bind]
    simp only [e2', e3]
  · intro k v hv
    rw [g3] at hv
    cases hc : C2.get? k with
    | none => simp [hc] at hv
    | some w =>
      rw [hc] at hv
      obtain ⟨s, hs, hf⟩ := P2 k w hc
      simp only [Option.map_some, Option.some.injEq, shapeOf, hs, Option.getD_some] at hv
      exact ⟨s, hs, hv ▸ fits_cutF hf⟩
  · rw [g3, g2, g1]
    cases C.get? k <;> rfl

/-- symmetrizing keeps the non-redundant entries -/
lemma symG_entry4 {k : Str} {l : List ℕ} {c : ℕ} (hk : KeyOK U k (some l) c) {v : AVal}
    (hv : Fits (some l) v) (hl4 : l.length = 4) {i : I4} (hi : inRange l (idx4 i) = true)
    (hn : NonRedOf4 c i) :
    ent4 (cutF (some l) (symG c (padF v))) i = if RealOf4 c i then ((ent4 v i).re : ℂ) else ent4 v i := by
  have hP := padded_padF (fun l e => (hk.hl l e).2) hv
  rw [ent4_cutF _ _ _ hi]
  obtain ⟨-, hc, -, h0, hl, h8⟩ := hk
  have hr := (hl l rfl).1
  rw [hl4] at hr
  obtain ⟨n4, n41, n5, n6, n7, n71, n8⟩ := hn
  simp only [classIds, List.mem_cons, List.not_mem_nil, or_false] at hc
  rcases hc with rfl | rfl | rfl | rfl | rfl | rfl | rfl | rfl | rfl | rfl | rfl | rfl
  · simp [rank] at hr
  · simp [rank] at hr
  · simp [rank] at hr
  · rw [show symG 3 = id from rfl]
    simp [ent4_padF, RealOf4]
  · refine (ent_op4 (f := runProg Gen.symmetrize_4) hP i).trans ?_
    rw [ent4_padF, C20_nonred_class4 _ i (n4 rfl)]
    simp [RealOf4]
  · refine (ent_op4 (f := runProg Gen.symmetrize_41) hP i).trans ?_
    rw [ent4_padF, C20_nonred_class41 _ i (n41 rfl), if_neg, if_neg]
    · simp [RealOf4]
    · rintro ⟨g, hg, hcc, -⟩
      simp only [rels41, List.mem_cons, List.not_mem_nil, or_false] at hg
      rcases hg with rfl | rfl <;> simp at hcc
  · refine (ent_op4 (f := runProg Gen.symmetrize_5) hP i).trans ?_
    rw [ent4_padF, C20_nonred_class5 _ i (n5 rfl)]
    simp [RealOf4]
  · refine (ent_op4 (f := runProg Gen.symmetrize_6) hP i).trans ?_
    rw [ent4_padF, C20_nonred_class6 _ i (n6 rfl)]
    simp [RealOf4]
  · refine (ent_op4 (f := runProg Gen.symmetrize_7) hP i).trans ?_
    rw [ent4_padF, C20_nonred_class7 _ i (n7 rfl), if_neg, if_neg]
    · simp [RealOf4]
    · rintro ⟨g, hg, hcc, -⟩
      simp only [rels7, List.mem_cons, List.not_mem_nil, or_false] at hg
      rcases hg with rfl | rfl <;> simp at hcc
  · refine (ent_op4 (f := runProg Gen.symmetrize_71) hP i).trans ?_
    rw [ent4_padF, C20_nonred_class71 _ i (n71 rfl), if_neg]
    simp [RealOf4]
  · refine (ent_op4 (f := runProg Gen.symmetrize_8) hP i).trans ?_
    rw [ent4_padF, C20_nonred_class8 _ i (n8 rfl), if_neg]
    simp [RealOf4]
  · simp [rank] at hr

lemma symG_entry2 {k : Str} {l : List ℕ} {c : ℕ} (hk : KeyOK U k (some l) c) {v : AVal}
    (hv : Fits (some l) v) (hl2 : l.length = 2) {i : I2} (hi : inRange l (idx2 i) = true)
    (hn : NonRedOf2 c i) :
    ent2 (cutF (some l) (symG c (padF v))) i = if RealOf2 c i then ((ent2 v i).re : ℂ) else ent2 v i := by
  have hP := padded_padF (fun l e => (hk.hl l e).2) hv
  rw [ent2_cutF _ _ _ hi]
  obtain ⟨-, hc, -, h0, hl, h8⟩ := hk
  have hr := (hl l rfl).1
  rw [hl2] at hr
  obtain ⟨n2, n9⟩ := hn
  simp only [classIds, List.mem_cons, List.not_mem_nil, or_false] at hc
  rcases hc with rfl | rfl | rfl | rfl | rfl | rfl | rfl | rfl | rfl | rfl | rfl | rfl
  · simp [rank] at hr
  · rw [show symG 1 = id from rfl]
    simp [ent2_padF, RealOf2]
  · refine (ent_op2 (f := runProg Gen.symmetrize_2) hP i).trans ?_
    rw [ent2_padF, C20_nonred_class2 _ i (n2 rfl)]
    simp [RealOf2]
  all_goals try (simp [rank] at hr; done)
  · refine (ent_op2 (f := runProg Gen.symmetrize_9) hP i).trans ?_
    rw [ent2_padF, C20_nonred_class9 _ i (n9 rfl), if_neg, if_neg]
    · simp [RealOf2]
    · rintro ⟨g, hg, hcc, -⟩
      simp only [rels9, List.mem_cons, List.not_mem_nil, or_false] at hg
      rcases hg with rfl | rfl <;> simp at hcc

end Verif.EFT.Util
