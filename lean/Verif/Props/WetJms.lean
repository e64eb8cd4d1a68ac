import Verif.Lemmas.WetJms
import Verif.Props.SymmFactors
import Verif.Lemmas.Stages

/-!
# C31, C32, C33: flavour structure of the JMS coefficients
-/

set_option autoImplicit false

namespace Verif.Jms
open Verif Verif.EFT Verif.EFT.Util

/-! ## C31 -/

/-- `JMS_to_array` for every non-redundant list of names and every coefficient dictionary:
each listed coefficient (0 if not given) is found at its place; in the classes with
equivalent entries every entry equivalent to a listed one has the related value, and every
other entry is undefined. -/
theorem C31_completed {r : Str → ℕ} {keys : List Str} (hk : JmsNames r keys) (hnr : NonRedundant keys)
    (C : Dict Str ℂ) : ∃ Ca, jmsToArray keys C = .ok Ca ∧
      (∀ k ∈ keys, '_' ∉ k → Ca.get? k = some (.num (C.getD k 0))) ∧
      (∀ name idx, '_' ∉ name → r name ≠ 0 → inRange (List.replicate (r name) 3) idx = true →
        wcName name idx ∈ keys → (∀ c ∈ relClasses, isClass c name = false) →
        ∃ A, Ca.get? name = some (.arr (r name) A) ∧ A idx = some (C.getD (wcName name idx) 0)) ∧
      ∀ c ∈ relClasses, ∀ name, isClass c name = true → (∃ i, name4 name i ∈ keys) →
        ∃ A, Ca.get? name = some (.arr 4 A) ∧
          (∀ i, name4 name i ∈ keys → Compatible c i (C.getD (name4 name i) 0) →
            ∀ g ∈ jrels c, A (idx4 (g.perm i)) = some (g.act.apply (C.getD (name4 name i) 0))) ∧
          ∀ i, (∀ g ∈ jrels c, name4 name (g.perm i) ∉ keys) → A (idx4 i) = none := by
  obtain ⟨Ca, e, h1, h2, h3, -⟩ := jms_ok hk C
  have raw4 : ∀ name i, rawArr (fillKeys keys C) name 4 (idx4 i) =
      if name4 name i ∈ keys then some (C.getD (name4 name i) 0) else none := by
    intro name i
    unfold rawArr
    rw [if_pos (inRange_idx4 i), get?_fillKeys]
    rfl
  refine ⟨Ca, e, ?_, ?_, ?_⟩
  · intro k hkk hus
    refine h1 k hkk hus fun c hc => ?_
    cases hcl : isClass c k with
    | false => rfl
    | true =>
      have hr := hk.four c hc k hcl
      rcases hk.form k hkk with h | ⟨name, idx, -, rfl, -⟩
      · omega
      · exact absurd (by simp [wcName]) hus
  · intro name idx hus hr hi hm hcl
    refine ⟨_, h2 name hus hr ⟨idx, hi, hm⟩ hcl, ?_⟩
    unfold rawArr
    rw [if_pos hi, get?_fillKeys, if_pos hm]
  · rintro c hc name hcl ⟨i0, hi0⟩
    refine ⟨_, h3 c hc name hcl ⟨idx4 i0, inRange_idx4 i0, hi0⟩, fun i hi hcomp => ?_, fun i hi => ?_⟩
    · refine comp_rel hc _ (by rw [raw4, if_pos hi]) hcomp fun g hg hs => ?_
      rw [raw4] at hs
      by_cases hm : name4 name (g.perm i) ∈ keys
      · exact hnr c hc name hcl g hg i hi hm
      · rw [if_neg hm] at hs; simp at hs
    · refine comp_none hc _ fun g hg => ?_
      rw [raw4, if_neg (hi g hg)]

/-- If the given values are compatible with the symmetry (real for self-conjugate entries),
the arrays satisfy all relations of their class: equivalent entries are both undefined or
both defined and related. -/
theorem C31_symmetric {r : Str → ℕ} {keys : List Str} (hk : JmsNames r keys) (hnr : NonRedundant keys)
    {C : Dict Str ℂ} {Ca : Dict Str JVal} (h : jmsToArray keys C = .ok Ca)
    {c : ℕ} (hc : c ∈ relClasses) {name : Str} (hcl : isClass c name = true)
    (hcomp : ∀ i, name4 name i ∈ keys → Compatible c i (C.getD (name4 name i) 0))
    {A : List ℕ → Option ℂ} (hA : Ca.get? name = some (.arr 4 A)) :
    ∀ g ∈ jrels c, ∀ i, A (idx4 (g.perm i)) = (A (idx4 i)).map g.act.apply := by
  obtain ⟨Ca', e, -, -, h3⟩ := C31_completed hk hnr C
  rw [h] at e
  cases e
  intro g hg i
  by_cases hex : ∃ i, name4 name i ∈ keys
  · obtain ⟨A', hA', a1, a2⟩ := h3 c hc name hcl hex
    rw [hA] at hA'
    cases hA'
    by_cases hl : ∃ m ∈ jrels c, name4 name (m.perm i) ∈ keys
    · obtain ⟨m, hm, hl⟩ := hl
      have := a1 _ hl (hcomp _ hl)
      obtain ⟨n, hn, n1, n2⟩ := rel_comp hc hg hm
      have e1 := this m hm
      have e2 := this n hn
      rw [(rel_invol hc hm i 0).1] at e1
      rw [n1, (rel_invol hc hm i 0).1, n2] at e2
      rw [e1, e2]
      rfl
    · push Not at hl
      rw [a2 i hl, a2 (g.perm i)]
      · rfl
      · intro m hm
        obtain ⟨n, hn, n1, -⟩ := rel_comp hc hm hg
        rw [← n1]
        exact hl n hn
  · -- no entry of the array is listed: there is no such array
    exfalso
    obtain ⟨Ca', e, -, -, -, h5⟩ := jms_ok hk C
    rw [h] at e
    cases e
    have hr := hk.four c hc name hcl
    have := h5 name (isClass_us hc hcl) (by omega) (by
      rintro ⟨idx, hi, hm⟩
      rw [hr] at hi
      obtain ⟨i, rfl⟩ := exists_idx4 hi
      exact hex ⟨i, hm⟩)
    rw [hA] at this
    cases this

/-- all names `name_ijkl` with the given property of the index -/
def listOf (name : Str) (P : I4 → Bool) : List Str := (Reflect.all4I.filter P).map (name4 name)
/-- number of indices: four for the four-fermion classes 4, 41, 5, 6, 71 -/
def rank4 (k : Str) : ℕ :=
  if isClass 4 k || isClass 41 k || isClass 5 k || isClass 6 k || isClass 71 k then 4 else 0

lemma mem_listOf {name name' : Str} (h : '_' ∉ name) (h' : '_' ∉ name') {P : I4 → Bool} {i : I4} :
    name4 name' i ∈ listOf name P ↔ name = name' ∧ P i = true := by
  simp only [listOf, List.mem_map, List.mem_filter]
  constructor
  · rintro ⟨j, ⟨-, hj⟩, e⟩
    obtain ⟨rfl, rfl⟩ := name4_inj h h' e
    exact ⟨rfl, hj⟩
  · rintro ⟨rfl, hi⟩
    exact ⟨i, ⟨Reflect.mem_all4I i, hi⟩, rfl⟩

lemma listOf_names {name : Str} (h : '_' ∉ name) (hr : rank4 name = 4) (P : I4 → Bool) :
    JmsNames rank4 (listOf name P) where
  form := by
    intro k hk
    simp only [listOf, List.mem_map] at hk
    obtain ⟨i, -, rfl⟩ := hk
    refine .inr ⟨name, idx4 i, h, rfl, by omega, ?_⟩
    rw [hr]
    exact inRange_idx4 i
  four := by
    intro c hc k hcl
    simp only [relClasses, List.mem_cons, List.not_mem_nil, or_false] at hc
    rcases hc with rfl | rfl | rfl | rfl <;> simp [rank4, hcl]

/-- Class 6 (`VeeLL`, `VeeRR`, `VnunuLL`) is not completed at all: with the complete
non-redundant list of its entries, the array keeps undefined entries. -/
theorem C31_class6_violation : ∃ (keys : List Str) (r : Str → ℕ), JmsNames r keys ∧
    isClass 6 "VeeLL".toList = true ∧
    (∀ i, name4 "VeeLL".toList i ∈ keys ↔ Spec.NonRed Spec.code4 Spec.rels6 i) ∧
    ∀ C, ∃ Ca A, jmsToArray keys C = .ok Ca ∧ Ca.get? "VeeLL".toList = some (.arr 4 A) ∧
      A [1, 0, 0, 0] = none := by
  have hus : '_' ∉ "VeeLL".toList := by decide
  have hm : ∀ i, name4 "VeeLL".toList i ∈
      listOf "VeeLL".toList (fun i => decide (Spec.NonRed Spec.code4 Spec.rels6 i)) ↔
      Spec.NonRed Spec.code4 Spec.rels6 i := by
    intro i
    rw [mem_listOf hus hus]
    simp
  refine ⟨_, rank4, listOf_names hus (by decide) _, by decide, hm, fun C => ?_⟩
  obtain ⟨Ca, e, -, h2, -⟩ := jms_ok (listOf_names hus (by decide)
    (fun i => decide (Spec.NonRed Spec.code4 Spec.rels6 i))) C
  have hr : rank4 "VeeLL".toList = 4 := by decide
  have hh := h2 "VeeLL".toList hus (by omega)
    ⟨idx4 (0, 0, 0, 0), by rw [hr]; exact inRange_idx4 _, (hm (0, 0, 0, 0)).2 (by decide)⟩ (by decide)
  rw [hr] at hh
  refine ⟨Ca, _, e, hh, ?_⟩
  unfold rawArr
  rw [if_pos (by decide), get?_fillKeys, if_neg]
  intro h
  exact absurd ((hm (1, 0, 0, 0)).1 h) (by decide)

/-- In class 71 the entries with two equal antisymmetric indices, which have to vanish, are
left undefined when the (complete, non-redundant) list has none of them. -/
theorem C31_class71_violation : ∃ (keys : List Str) (r : Str → ℕ), JmsNames r keys ∧
    NonRedundant keys ∧ isClass 71 "SuudLR".toList = true ∧
    (∀ i, name4 "SuudLR".toList i ∈ keys ↔ Spec.NonRed71 i) ∧
    ∀ C, ∃ Ca A, jmsToArray keys C = .ok Ca ∧ Ca.get? "SuudLR".toList = some (.arr 4 A) ∧
      A [0, 0, 0, 0] = none := by
  have hus : '_' ∉ "SuudLR".toList := by decide
  have hm : ∀ i, name4 "SuudLR".toList i ∈
      listOf "SuudLR".toList (fun i => decide (Spec.NonRed71 i)) ↔ Spec.NonRed71 i := by
    intro i
    rw [mem_listOf hus hus]
    simp
  have hnr : NonRedundant (listOf "SuudLR".toList (fun i => decide (Spec.NonRed71 i))) := by
    intro c hc name hcl g hg i h1 h2
    rw [mem_listOf hus (isClass_us hc hcl)] at h1 h2
    obtain ⟨rfl, h1⟩ := h1
    have hc71 : c = 71 := by
      by_contra hne
      have := isClass_ne hc (by decide : 71 ∈ relClasses) hne hcl
      exact absurd this (by decide)
    subst hc71
    obtain ⟨i, j, k, l⟩ := i
    have h1 : i < j := of_decide_eq_true h1
    have h2 := h2.2
    simp only [jrels, List.mem_cons, List.not_mem_nil, or_false] at hg
    rcases hg with rfl | rfl
    · rfl
    · have h2 : j < i := of_decide_eq_true h2
      exact absurd h1 (not_lt.2 (le_of_lt h2))
  have hN := listOf_names hus (by decide) (fun i => decide (Spec.NonRed71 i))
  refine ⟨_, rank4, hN, hnr, by decide, hm, fun C => ?_⟩
  obtain ⟨Ca, e, -, -, h3⟩ := C31_completed hN hnr C
  obtain ⟨A, hA, -, a2⟩ := h3 71 (by decide) "SuudLR".toList (by decide)
    ⟨(0, 1, 0, 0), (hm (0, 1, 0, 0)).2 (by decide)⟩
  refine ⟨Ca, A, e, hA, a2 (0, 0, 0, 0) fun g hg => ?_⟩
  simp only [jrels, List.mem_cons, List.not_mem_nil, or_false] at hg
  rcases hg with rfl | rfl
  · exact fun h => absurd ((hm (0, 0, 0, 0)).1 h) (by decide)
  · exact fun h => absurd ((hm (0, 0, 0, 0)).1 h) (by decide)

/-- a concrete case: `VddLL` with all its non-redundant entries -/
theorem vddLL_names : JmsNames rank4 (listOf "VddLL".toList (fun i => decide (Spec.NonRed Spec.code4 Spec.rels4 i))) ∧
    NonRedundant (listOf "VddLL".toList (fun i => decide (Spec.NonRed Spec.code4 Spec.rels4 i))) ∧
    name4 "VddLL".toList (0, 1, 0, 2) ∈
      listOf "VddLL".toList (fun i => decide (Spec.NonRed Spec.code4 Spec.rels4 i)) := by
  have hus : '_' ∉ "VddLL".toList := by decide
  refine ⟨listOf_names hus (by decide) _, ?_, (mem_listOf hus hus).2 ⟨rfl, by decide⟩⟩
  intro c hc name hcl g hg i h1 h2
  rw [mem_listOf hus (isClass_us hc hcl)] at h1 h2
  obtain ⟨rfl, h1⟩ := h1
  have hc4 : c = 4 := by
    by_contra hne
    have := isClass_ne hc (by decide : 4 ∈ relClasses) hne hcl
    exact absurd this (by decide)
  subst hc4
  have h2 := h2.2
  have key : ∀ i ∈ Reflect.all4I, ∀ n : Fin 4, decide (Spec.NonRed Spec.code4 Spec.rels4 i) = true →
      decide (Spec.NonRed Spec.code4 Spec.rels4 ((jrels 4)[n].perm i)) = true → (jrels 4)[n].perm i = i := by
    decide +kernel
  obtain ⟨n, hn, rfl⟩ := List.mem_iff_getElem.1 hg
  exact key i (Reflect.mem_all4I i) ⟨n, hn⟩ h1 h2

/-- in that case, with `VddLL_1213` given, the equivalent entry `VddLL_3121` is its conjugate -/
example (z : ℂ) : ∃ Ca A, jmsToArray (listOf "VddLL".toList (fun i => decide (Spec.NonRed Spec.code4 Spec.rels4 i)))
      [("VddLL_1213".toList, z)] = .ok Ca ∧ Ca.get? "VddLL".toList = some (.arr 4 A) ∧
      A [2, 0, 1, 0] = some (starRingEnd ℂ z) := by
  obtain ⟨hN, hnr, hmem⟩ := vddLL_names
  obtain ⟨Ca, e, -, -, h3⟩ := C31_completed hN hnr [("VddLL_1213".toList, z)]
  obtain ⟨A, hA, a1, -⟩ := h3 4 (by decide) "VddLL".toList (by decide) ⟨_, hmem⟩
  refine ⟨Ca, A, e, hA, ?_⟩
  have := a1 (0, 1, 0, 2) hmem (by
    intro g hg hgi
    simp only [jrels, List.mem_cons, List.not_mem_nil, or_false] at hg
    rcases hg with rfl | rfl | rfl | rfl
    · rfl
    all_goals exact absurd hgi (by decide))
    ⟨fun (i, j, k, l) => (l, k, j, i), .conj⟩ (by simp [jrels])
  rw [show name4 "VddLL".toList (0, 1, 0, 2) = "VddLL_1213".toList by decide] at this
  simpa [Act.apply, Dict.getD, Dict.get?, idx4] using this

/-! ## C32 -/

/-- The coefficient name is without indices, or `Name_ij...` with one-digit indices (four
indices from 1 to 3 in the classes with equivalent entries). -/
def OpName (op : Str) : Prop :=
  '_' ∉ op ∨ ∃ name ind, '_' ∉ name ∧ '_' ∉ ind ∧ op = name ++ '_' :: ind ∧
    ∀ c ∈ relClasses, isClass c name = true → ∃ i, op = name4 name i

/-- `k` is `op` itself or the name of an equivalent entry, `w` the corresponding value -/
def Equiv (op k : Str) (v w : ℂ) : Prop :=
  (k = op ∧ w = v) ∨ ∃ c ∈ relClasses, ∃ name, isClass c name = true ∧ ∃ i, ∃ g ∈ jrels c,
    op = name4 name i ∧ k = name4 name (g.perm i) ∧ w = g.act.apply v

/-- what one pass of the loop does with a well-formed name -/
lemma symmStep_form (keys : List Str) {op : Str} (h : OpName op) (v : ℂ) :
    (∃ k w, (∀ Cs, symmStep keys Cs op v = .ok (Cs.set k w)) ∧ Equiv op k v w ∧
      (∀ c ∈ relClasses, ∀ name, isClass c name = true → ∀ i, op = name4 name i →
        (∃ g ∈ jrels c, name4 name (g.perm i) ∈ keys) → k ∈ keys) ∧
      ('_' ∉ op ∨ op ∈ keys → k = op ∧ w = v)) ∨
    ((∀ Cs, symmStep keys Cs op v = .ok Cs) ∧ '_' ∈ op ∧ op ∉ keys ∧
      ∀ c ∈ relClasses, ∀ name, isClass c name = true → ∀ i, op ≠ name4 name i) := by
  by_cases h0 : '_' ∉ op ∨ op ∈ keys
  · left
    refine ⟨op, v, fun Cs => by unfold symmStep; rw [if_pos h0], .inl ⟨rfl, rfl⟩, ?_, fun _ => ⟨rfl, rfl⟩⟩
    intro c hc name hcl i e _
    rcases h0 with h0 | h0
    · exact absurd (e ▸ us_mem_name4 name i) h0
    · exact h0
  · rcases h with h | ⟨name, ind, hn, hind, e, h4⟩
    · exact absurd (.inl h) h0
    have hsplit : splitUS op = [name, ind] := by
      rw [e, splitUS_append hn, splitUS_of_notMem hind]
    by_cases hcl : ∃ c ∈ relClasses, isClass c name = true
    · left
      obtain ⟨c, hc, hcl⟩ := hcl
      obtain ⟨⟨i, j, k, l⟩, hi⟩ := h4 c hc hcl
      have hne := fun c' h' e => isClass_ne (c' := c') hc h' e hcl
      have hind4 : ind = [dg i, dg j, dg k, dg l] := by
        have := split_name4 hn i j k l
        rw [← hi, hsplit] at this
        simpa using this
      -- it is enough to exhibit the relation that was used
      have fin : ∀ g ∈ jrels c, (∀ Cs, symmStep keys Cs op v =
            .ok (Cs.set (name4 name (g.perm (i, j, k, l))) (g.act.apply v))) →
          ((∃ m ∈ jrels c, name4 name (m.perm (i, j, k, l)) ∈ keys) →
            name4 name (g.perm (i, j, k, l)) ∈ keys) →
          ∃ k w, (∀ Cs, symmStep keys Cs op v = .ok (Cs.set k w)) ∧ Equiv op k v w ∧
            (∀ c ∈ relClasses, ∀ name, isClass c name = true → ∀ i, op = name4 name i →
              (∃ g ∈ jrels c, name4 name (g.perm i) ∈ keys) → k ∈ keys) ∧
            ('_' ∉ op ∨ op ∈ keys → k = op ∧ w = v) := by
        intro g hg hs hin
        refine ⟨_, _, hs, .inr ⟨c, hc, name, hcl, _, g, hg, hi, rfl, rfl⟩, ?_, fun h => absurd h h0⟩
        intro c' hc' name' hcl' i' e' hex
        obtain ⟨rfl, rfl⟩ := name4_inj hn (isClass_us hc' hcl') (hi.symm.trans e')
        have : c' = c := by
          by_contra hne'
          have := hne c' hc' (Ne.symm hne')
          rw [hcl'] at this
          cases this
        subst this
        exact hin hex
      have hself : op ∉ keys := fun h => h0 (.inr h)
      rw [hi] at hself
      simp only [relClasses, List.mem_cons, List.not_mem_nil, or_false] at hc
      rcases hc with rfl | rfl | rfl | rfl
      · have h1 := hne 5 (by decide) (by decide)
        have h2 := hne 41 (by decide) (by decide)
        by_cases m1 : name4 name (l, k, j, i) ∈ keys
        · refine fin ⟨fun (i, j, k, l) => (l, k, j, i), .conj⟩ (by simp [jrels]) (fun Cs => ?_) fun _ => m1
          unfold symmStep
          rw [if_neg h0, hsplit]
          rw [name4_eq] at m1 ⊢
          simp only [h1, h2, hcl, hind4, m1, if_true]
          rfl
        by_cases m2 : name4 name (j, i, l, k) ∈ keys
        · refine fin ⟨fun (i, j, k, l) => (j, i, l, k), .conj⟩ (by simp [jrels]) (fun Cs => ?_) fun _ => m2
          unfold symmStep
          rw [if_neg h0, hsplit]
          rw [name4_eq] at m1 m2 ⊢
          simp only [h1, h2, hcl, hind4, m1, m2, if_true, if_false]
          rfl
        · refine fin ⟨fun (i, j, k, l) => (k, l, i, j), .same⟩ (by simp [jrels]) (fun Cs => ?_) ?_
          · unfold symmStep
            rw [if_neg h0, hsplit]
            rw [name4_eq] at m1 m2 ⊢
            simp only [h1, h2, hcl, hind4, m1, m2, if_true, if_false]
            rfl
          · rintro ⟨m, hm, hmem⟩
            simp only [jrels, List.mem_cons, List.not_mem_nil, or_false] at hm
            rcases hm with rfl | rfl | rfl | rfl
            · exact absurd hmem hself
            · exact hmem
            · exact absurd hmem m2
            · exact absurd hmem m1
      · have h1 := hne 5 (by decide) (by decide)
        refine fin ⟨fun (i, j, k, l) => (k, l, i, j), .same⟩ (by simp [jrels]) (fun Cs => ?_) ?_
        · unfold symmStep
          rw [if_neg h0, hsplit, name4_eq]
          simp only [h1, hcl, hind4, if_true]
          rfl
        · rintro ⟨m, hm, hmem⟩
          simp only [jrels, List.mem_cons, List.not_mem_nil, or_false] at hm
          rcases hm with rfl | rfl
          · exact absurd hmem hself
          · exact hmem
      · refine fin ⟨fun (i, j, k, l) => (j, i, l, k), .conj⟩ (by simp [jrels]) (fun Cs => ?_) ?_
        · unfold symmStep
          rw [if_neg h0, hsplit, name4_eq]
          simp only [hcl, hind4, if_true]
          rfl
        · rintro ⟨m, hm, hmem⟩
          simp only [jrels, List.mem_cons, List.not_mem_nil, or_false] at hm
          rcases hm with rfl | rfl
          · exact absurd hmem hself
          · exact hmem
      · have h1 := hne 5 (by decide) (by decide)
        have h2 := hne 41 (by decide) (by decide)
        have h3 := hne 4 (by decide) (by decide)
        refine fin ⟨fun (i, j, k, l) => (j, i, k, l), .neg⟩ (by simp [jrels]) (fun Cs => ?_) ?_
        · unfold symmStep
          rw [if_neg h0, hsplit, name4_eq]
          simp only [h1, h2, h3, hcl, hind4, if_true]
          rfl
        · rintro ⟨m, hm, hmem⟩
          simp only [jrels, List.mem_cons, List.not_mem_nil, or_false] at hm
          rcases hm with rfl | rfl
          · exact absurd hmem hself
          · exact hmem
    · right
      push Not at hcl
      have hc5 : isClass 5 name = false := by simpa using hcl 5 (by decide)
      have hc41 : isClass 41 name = false := by simpa using hcl 41 (by decide)
      have hc4 : isClass 4 name = false := by simpa using hcl 4 (by decide)
      have hc71 : isClass 71 name = false := by simpa using hcl 71 (by decide)
      push Not at h0
      refine ⟨fun Cs => ?_, h0.1, h0.2, ?_⟩
      · unfold symmStep
        rw [if_neg (by simp [h0]), hsplit]
        simp [hc5, hc41, hc4, hc71]
      · intro c hc name' hcl' i e'
        obtain ⟨i, j, k, l⟩ := i
        have := split_name4 (isClass_us hc hcl') i j k l
        rw [← e', hsplit] at this
        simp only [List.cons.injEq] at this
        exact hcl c hc (this.1 ▸ hcl')

lemma equiv_unique {D : List Str} (hD : NonRedundant D) {op op' k : Str} {v w v' w' : ℂ}
    (ho : op ∈ D) (ho' : op' ∈ D) (h : Equiv op k v w) (h' : Equiv op' k v' w') : op = op' := by
  rcases h with ⟨rfl, -⟩ | ⟨c, hc, name, hcl, i, g, hg, rfl, rfl, -⟩
  · rcases h' with ⟨rfl, -⟩ | ⟨c, hc, name, hcl, i, g, hg, rfl, rfl, -⟩
    · rfl
    · rw [hD c hc name hcl g hg i ho' ho]
  · rcases h' with ⟨h', -⟩ | ⟨c', hc', name', hcl', i', g', hg', rfl, h', -⟩
    · rw [← h', hD c hc name hcl g hg i ho (h' ▸ ho')]
    · obtain ⟨rfl, e⟩ := name4_inj (isClass_us hc hcl) (isClass_us hc' hcl') h'
      have : c' = c := by
        by_contra hne
        have := isClass_ne hc hc' (Ne.symm hne) hcl
        rw [hcl'] at this
        cases this
      subst this
      obtain ⟨m, hm, m1, -⟩ := rel_comp hc hg' hg
      have hi' : i' = m.perm i := by rw [m1, e, (rel_invol hc hg' i' 0).1]
      rw [hi'] at ho' ⊢
      rw [hD c' hc name hcl m hm i ho ho']

/-- the loop, for names no two of which are equivalent -/
lemma symm_fold (keys : List Str) {D : List Str} (hD : NonRedundant D) :
    ∀ d : Dict Str ℂ, d.NodupKeys → (∀ op ∈ d.keys, op ∈ D ∧ OpName op) →
    ∃ Cs, d.foldlM (fun Cs kv => symmStep keys Cs kv.1 kv.2) [] = .ok Cs ∧
      (∀ op v k w, (op, v) ∈ d → (∀ Cs, symmStep keys Cs op v = .ok (Cs.set k w)) → Cs.get? k = some w) ∧
      ∀ k w, Cs.get? k = some w → ∃ op v, (op, v) ∈ d ∧ Equiv op k v w := by
  intro d
  have func : ∀ op v k w k' w', (∀ Cs, symmStep keys Cs op v = .ok (Cs.set k w)) →
      (∀ Cs, symmStep keys Cs op v = .ok (Cs.set k' w')) → k = k' ∧ w = w' := by
    intro op v k w k' w' h h'
    have := h []
    rw [h' []] at this
    simp only [Dict.set, Except.ok.injEq, List.cons.injEq, Prod.mk.injEq, and_true] at this
    exact ⟨this.1.symm, this.2.symm⟩
  induction d using List.reverseRecOn with
  | nil => intro _ _; exact ⟨[], rfl, fun _ _ _ _ h => by simp at h, fun _ _ h => by simp at h⟩
  | append_singleton d kv ih =>
    obtain ⟨op0, v0⟩ := kv
    intro hd hk
    have hkeys : Dict.keys (d ++ [(op0, v0)]) = Dict.keys d ++ [op0] := by simp [Dict.keys]
    have hd' : Dict.NodupKeys d ∧ op0 ∉ Dict.keys d := by
      unfold Dict.NodupKeys at hd ⊢
      rw [hkeys, List.nodup_append] at hd
      exact ⟨hd.1, fun h => hd.2.2 op0 h op0 (by simp) rfl⟩
    obtain ⟨Cs, e, h1, h2⟩ := ih hd'.1 fun op h => hk op (by rw [hkeys]; simp [h])
    have hk0 := hk op0 (by rw [hkeys]; simp)
    have hfold : ∀ x, symmStep keys Cs op0 v0 = .ok x →
        (d ++ [(op0, v0)]).foldlM (fun Cs kv => symmStep keys Cs kv.1 kv.2) [] = .ok x := by
      intro x hx
      rw [List.foldlM_append, e]
      show (do let y ← symmStep keys Cs op0 v0; List.foldlM _ y []) = _
      rw [hx]
      rfl
    rcases symmStep_form keys hk0.2 v0 with ⟨k0, w0, hT, hE, -, -⟩ | ⟨hT, -⟩
    · refine ⟨_, hfold _ (hT Cs), ?_, ?_⟩
      · intro op v k w hm ht
        rcases List.mem_append.1 hm with hm | hm
        · have hop : op ∈ Dict.keys d := by
            simp only [Dict.keys, List.mem_map]; exact ⟨_, hm, rfl⟩
          have hko := hk op (by rw [hkeys]; simp [hop])
          have hEq : Equiv op k v w := by
            rcases symmStep_form keys hko.2 v with ⟨k', w', hT', hE', -, -⟩ | ⟨hT', -⟩
            · obtain ⟨rfl, rfl⟩ := func _ _ _ _ _ _ ht hT'
              exact hE'
            · have := ht []
              rw [hT' []] at this
              simp [Dict.set] at this
          have hne : k0 ≠ k := by
            rintro rfl
            have := equiv_unique hD hko.1 hk0.1 hEq hE
            exact hd'.2 (this ▸ hop)
          rw [Dict.get?_set_ne _ _ hne]
          exact h1 op v k w hm ht
        · simp only [List.mem_singleton, Prod.mk.injEq] at hm
          obtain ⟨rfl, rfl⟩ := hm
          obtain ⟨rfl, rfl⟩ := func _ _ _ _ _ _ ht hT
          exact Dict.get?_set_self _ _ _
      · intro k w hkw
        rw [Dict.get?_set] at hkw
        by_cases hkk : k0 = k
        · subst hkk
          simp only [if_true, Option.some.injEq] at hkw
          subst hkw
          exact ⟨op0, v0, by simp, hE⟩
        · rw [if_neg hkk] at hkw
          obtain ⟨op, v, hm, he⟩ := h2 k w hkw
          exact ⟨op, v, List.mem_append_left _ hm, he⟩
    · refine ⟨Cs, hfold _ (hT Cs), ?_, ?_⟩
      · intro op v k w hm ht
        rcases List.mem_append.1 hm with hm | hm
        · exact h1 op v k w hm ht
        · simp only [List.mem_singleton, Prod.mk.injEq] at hm
          obtain ⟨rfl, rfl⟩ := hm
          have := ht []
          rw [hT []] at this
          simp [Dict.set] at this
      · intro k w hkw
        obtain ⟨op, v, hm, he⟩ := h2 k w hkw
        exact ⟨op, v, List.mem_append_left _ hm, he⟩

/-- `symmetrize_JMS_dict`, for every list of basis names and every dictionary of well-formed
names no two of which are equivalent: names without indices and basis names are kept;
a name equivalent to a basis name is replaced by such a basis name, with the correspondingly
conjugated or sign-flipped value; nothing else is in the result. -/
theorem C32_maps (keys : List Str) {C : Dict Str ℂ} (hC : C.NodupKeys)
    (hop : ∀ op ∈ C.keys, OpName op) (hnr : NonRedundant C.keys) :
    ∃ Cs, symmetrizeJms keys C = .ok Cs ∧
      (∀ op v, C.get? op = some v → '_' ∉ op ∨ op ∈ keys → Cs.get? op = some v) ∧
      (∀ c ∈ relClasses, ∀ name, isClass c name = true → ∀ i v, C.get? (name4 name i) = some v →
        (∃ g ∈ jrels c, name4 name (g.perm i) ∈ keys) →
        ∃ g ∈ jrels c, name4 name (g.perm i) ∈ keys ∧
          Cs.get? (name4 name (g.perm i)) = some (g.act.apply v)) ∧
      ∀ k w, Cs.get? k = some w → ∃ op v, C.get? op = some v ∧ Equiv op k v w := by
  obtain ⟨Cs, e, h1, h2⟩ := symm_fold keys hnr C hC fun op h => ⟨h, hop op h⟩
  have hmem : ∀ {op : Str} {v : ℂ}, C.get? op = some v → op ∈ C.keys := fun h =>
    (Dict.isSome_get?_iff _ _).1 (by rw [h]; rfl)
  refine ⟨Cs, e, ?_, ?_, ?_⟩
  · intro op v hv h0
    rcases symmStep_form keys (hop op (hmem hv)) v with ⟨k, w, hT, -, -, h4⟩ | ⟨-, h3, h4, -⟩
    · obtain ⟨rfl, rfl⟩ := h4 h0
      exact h1 _ _ _ _ (Dict.mem_of_get? hv) hT
    · rcases h0 with h0 | h0
      · exact absurd h3 h0
      · exact absurd h0 h4
  · intro c hc name hcl i v hv hex
    rcases symmStep_form keys (hop _ (hmem hv)) v with ⟨k, w, hT, hE, h3, -⟩ | ⟨-, -, -, h4⟩
    · have hk := h3 c hc name hcl i rfl hex
      have hg := h1 _ _ _ _ (Dict.mem_of_get? hv) hT
      rcases hE with ⟨rfl, rfl⟩ | ⟨c', hc', name', hcl', i', g, hgm, e1, rfl, rfl⟩
      · have hid : (⟨id, .same⟩ : JRel) ∈ jrels c := by
          simp only [relClasses, List.mem_cons, List.not_mem_nil, or_false] at hc
          rcases hc with rfl | rfl | rfl | rfl <;> simp [jrels]
        exact ⟨_, hid, hk, hg⟩
      · obtain ⟨rfl, rfl⟩ := name4_inj (isClass_us hc hcl) (isClass_us hc' hcl') e1
        have : c' = c := by
          by_contra hne
          have := isClass_ne hc hc' (Ne.symm hne) hcl
          rw [hcl'] at this
          cases this
        subst this
        exact ⟨g, hgm, hk, hg⟩
    · exact absurd rfl (h4 c hc name hcl i)
  · intro k w hkw
    obtain ⟨op, v, hm, hE⟩ := h2 k w hkw
    exact ⟨op, v, Dict.get?_of_mem hC hm, hE⟩

/-- Filling the arrays from the result reproduces every original entry that is equivalent to
a basis entry (and compatible with its own symmetry). -/
theorem C32_roundtrip {r : Str → ℕ} {keys : List Str} (hk : JmsNames r keys) (hnk : NonRedundant keys)
    {C : Dict Str ℂ} (hC : C.NodupKeys) (hop : ∀ op ∈ C.keys, OpName op) (hnr : NonRedundant C.keys) :
    ∃ Cs Ca, symmetrizeJms keys C = .ok Cs ∧ jmsToArray keys Cs = .ok Ca ∧
      ∀ c ∈ relClasses, ∀ name, isClass c name = true → ∀ i v, C.get? (name4 name i) = some v →
        (∃ g ∈ jrels c, name4 name (g.perm i) ∈ keys) → Compatible c i v →
        ∃ A, Ca.get? name = some (.arr 4 A) ∧ A (idx4 i) = some v := by
  obtain ⟨Cs, e, -, h2, -⟩ := C32_maps keys hC hop hnr
  obtain ⟨Ca, e', -, -, h3⟩ := C31_completed hk hnk Cs
  refine ⟨Cs, Ca, e, e', fun c hc name hcl i v hv hex hcomp => ?_⟩
  obtain ⟨g, hg, hmem, hget⟩ := h2 c hc name hcl i v hv hex
  obtain ⟨A, hA, a1, -⟩ := h3 c hc name hcl ⟨_, hmem⟩
  refine ⟨A, hA, ?_⟩
  have hD : Cs.getD (name4 name (g.perm i)) 0 = g.act.apply v := by
    unfold Dict.getD
    rw [hget]
    rfl
  have hc2 : Compatible c (g.perm i) (g.act.apply v) := by
    intro h hh hfix
    obtain ⟨m, hm, m1, m2⟩ := rel_comp hc hh hg
    obtain ⟨n, hn, n1, n2⟩ := rel_comp hc hg hm
    have : n.perm i = i := by rw [n1, m1, hfix, (rel_invol hc hg i v).1]
    have := hcomp n hn this
    rw [n2, m2] at this
    have := congrArg g.act.apply this
    rwa [(rel_invol hc hg i _).2] at this
  have := a1 _ hmem (by rw [hD]; exact hc2) g hg
  rw [hD, (rel_invol hc hg i v).1, (rel_invol hc hg i v).2] at this
  exact this

/-- a concrete case: the redundant name `VddLL_3121` is replaced by `VddLL_1213` -/
example (z : ℂ) : ∃ Cs Ca A, symmetrizeJms (listOf "VddLL".toList
      (fun i => decide (Spec.NonRed Spec.code4 Spec.rels4 i))) [("VddLL_3121".toList, z)] = .ok Cs ∧
    jmsToArray (listOf "VddLL".toList (fun i => decide (Spec.NonRed Spec.code4 Spec.rels4 i))) Cs = .ok Ca ∧
    Ca.get? "VddLL".toList = some (.arr 4 A) ∧ A [2, 0, 1, 0] = some z := by
  obtain ⟨hN, hnr, hmem⟩ := vddLL_names
  have hn4 : "VddLL_3121".toList = name4 "VddLL".toList (2, 0, 1, 0) := by decide
  have hnames : ∀ op ∈ Dict.keys [("VddLL_3121".toList, z)], OpName op := by
    intro op h
    simp only [Dict.keys, List.map_cons, List.map_nil, List.mem_singleton] at h
    subst h
    exact .inr ⟨"VddLL".toList, "3121".toList, by decide, by decide, by decide, fun c _ _ => ⟨_, hn4⟩⟩
  have hnrC : NonRedundant (Dict.keys [("VddLL_3121".toList, z)]) := by
    intro c hc name hcl g hg i h1 h2
    simp only [Dict.keys, List.map_cons, List.map_nil, List.mem_singleton] at h1 h2
    exact (name4_inj (isClass_us hc hcl) (isClass_us hc hcl) (h2.trans h1.symm)).2
  obtain ⟨Cs, Ca, e1, e2, h⟩ := C32_roundtrip hN hnr (C := [("VddLL_3121".toList, z)])
    (by simp [Dict.NodupKeys, Dict.keys]) hnames hnrC
  obtain ⟨A, hA, hv⟩ := h 4 (by decide) "VddLL".toList (by decide) (2, 0, 1, 0) z
    (by rw [← hn4]; simp [Dict.get?])
    ⟨⟨fun (i, j, k, l) => (l, k, j, i), .conj⟩, by simp [jrels], hmem⟩ (by
      intro g hg hgi
      simp only [jrels, List.mem_cons, List.not_mem_nil, or_false] at hg
      rcases hg with rfl | rfl | rfl | rfl
      · rfl
      all_goals exact absurd hgi (by decide))
  exact ⟨Cs, Ca, A, e1, e2, hA, hv⟩

/-- Class 6: a redundant name (`VeeLL_1221`, equivalent to `VeeLL_1122` by the Fierz identity)
is dropped, although the basis has the equivalent entry. -/
theorem C32_class6_violation (z : ℂ) :
    isClass 6 "VeeLL".toList = true ∧
    name4 "VeeLL".toList (0, 0, 1, 1) ∈
      listOf "VeeLL".toList (fun i => decide (Spec.NonRed Spec.code4 Spec.rels6 i)) ∧
    (∃ g ∈ Spec.rels6, g.cc = false ∧ g.perm (0, 1, 1, 0) = (0, 0, 1, 1)) ∧
    symmetrizeJms (listOf "VeeLL".toList (fun i => decide (Spec.NonRed Spec.code4 Spec.rels6 i)))
      [("VeeLL_1221".toList, z)] = .ok [] := by
  have hus : '_' ∉ "VeeLL".toList := by decide
  have hn4 : "VeeLL_1221".toList = name4 "VeeLL".toList (0, 1, 1, 0) := by decide
  refine ⟨by decide, (mem_listOf hus hus).2 ⟨rfl, by decide⟩,
    ⟨⟨fun (i, j, k, l) => (i, l, k, j), false⟩, by simp [Spec.rels6], rfl, rfl⟩, ?_⟩
  have hop : OpName "VeeLL_1221".toList :=
    .inr ⟨"VeeLL".toList, "1221".toList, by decide, by decide, by decide, fun c _ _ => ⟨_, hn4⟩⟩
  unfold symmetrizeJms
  rw [List.foldlM_cons]
  have : symmStep (listOf "VeeLL".toList (fun i => decide (Spec.NonRed Spec.code4 Spec.rels6 i))) []
      "VeeLL_1221".toList z = .ok [] := by
    rcases symmStep_form (listOf "VeeLL".toList (fun i => decide (Spec.NonRed Spec.code4 Spec.rels6 i)))
      hop z with ⟨k, w, hT, hE, -, -⟩ | ⟨hT, -⟩
    · unfold symmStep
      rw [if_neg]
      · have : splitUS "VeeLL_1221".toList = ["VeeLL".toList, "1221".toList] := by decide
        rw [this]
        rfl
      · rw [hn4, mem_listOf hus hus]
        push Not
        exact ⟨by decide, fun _ => by decide⟩
    · exact hT []
  show symmStep _ [] "VeeLL_1221".toList z >>= _ = _
  rw [this]
  rfl

/-! ## C33 -/

/-- the value has the shape of its class: a number (0), a matrix (1), a four-index array -/
def FitsClass (k : Str) : WVal → Prop
  | .num _ => isClass 0 k = true
  | .two _ => isClass 1 k = true
  | .four _ => isClass 3 k = true ∨ isClass 4 k = true ∨ isClass 41 k = true ∨ isClass 5 k = true ∨
      isClass 6 k = true ∨ isClass 71 k = true

/-- the number of entries equivalent to `i` under the exchange of identical fields or currents -/
noncomputable def orbitSize (k : Str) (i : I4) : ℕ :=
  if isClass 4 k || isClass 41 k then (Spec.orbit [Props.exch] i).ncard
  else if isClass 6 k then (Spec.orbit [Props.exch, Props.fierz] i).ncard
  else if isClass 71 k then (Spec.orbit [Props.exch12] i).ncard else 1

/-- Each name is in one class only. -/
lemma class_unique {c c' : ℕ} (hc : c ∈ [0, 1, 3, 4, 41, 5, 6, 71]) (hc' : c' ∈ [0, 1, 3, 4, 41, 5, 6, 71])
    (hne : c ≠ c') {k : Str} (h : isClass c k = true) : isClass c' k = false := by
  have key : ∀ c ∈ [0, 1, 3, 4, 41, 5, 6, 71], ∀ c' ∈ [0, 1, 3, 4, 41, 5, 6, 71], c ≠ c' →
      ∀ s ∈ symmKeys c, isClass c' s.toList = false := by decide +kernel
  simp only [isClass, List.any_eq_true, beq_iff_eq] at h
  obtain ⟨s, hs, rfl⟩ := h
  exact key c hc c' hc' hne s hs

/-- the effect of a factor on a value of fitting shape -/
noncomputable def scaled (f : ℂ → ℂ → ℂ) (k : Str) : WVal → WVal
  | .num z => .num (f z 1)
  | .two a => .two fun i => f (a i) 1
  | .four a => .four fun i => f (a i) (orbitSize k i)

lemma applyFactor_fits (f : ℂ → ℂ → ℂ) {k : Str} {v : WVal} (h : FitsClass k v) :
    applyFactor f k v = .ok (scaled f k v) := by
  have no : ∀ {c c' : ℕ}, c ∈ [0, 1, 3, 4, 41, 5, 6, 71] → c' ∈ [0, 1, 3, 4, 41, 5, 6, 71] → c ≠ c' →
      isClass c k = true → isClass c' k = false := fun h1 h2 h3 h4 => class_unique h1 h2 h3 h4
  cases v with
  | num z =>
    have h : isClass 0 k = true := h
    simp [applyFactor, scaleDict, scaled, h, no (c' := 1) (by decide) (by decide) (by decide) h,
      no (c' := 3) (by decide) (by decide) (by decide) h, no (c' := 4) (by decide) (by decide) (by decide) h,
      no (c' := 41) (by decide) (by decide) (by decide) h, no (c' := 5) (by decide) (by decide) (by decide) h,
      no (c' := 6) (by decide) (by decide) (by decide) h, no (c' := 71) (by decide) (by decide) (by decide) h]
  | two a =>
    have h : isClass 1 k = true := h
    simp [applyFactor, scaleDict, scaled, h,
      no (c' := 3) (by decide) (by decide) (by decide) h, no (c' := 4) (by decide) (by decide) (by decide) h,
      no (c' := 41) (by decide) (by decide) (by decide) h, no (c' := 5) (by decide) (by decide) (by decide) h,
      no (c' := 6) (by decide) (by decide) (by decide) h, no (c' := 71) (by decide) (by decide) (by decide) h]
  | four a =>
    rcases h with h | h | h | h | h | h
    · simp [applyFactor, scaleDict, scaled, orbitSize, h, no (c' := 4) (by decide) (by decide) (by decide) h,
        no (c' := 41) (by decide) (by decide) (by decide) h, no (c' := 5) (by decide) (by decide) (by decide) h,
        no (c' := 6) (by decide) (by decide) (by decide) h, no (c' := 71) (by decide) (by decide) (by decide) h]
    · simp [applyFactor, scaleDict, scaled, orbitSize, h, ← Props.C21_class4,
        no (c' := 6) (by decide) (by decide) (by decide) h, no (c' := 71) (by decide) (by decide) (by decide) h]
    · simp [applyFactor, scaleDict, scaled, orbitSize, h, ← Props.C21_class4,
        no (c' := 6) (by decide) (by decide) (by decide) h, no (c' := 71) (by decide) (by decide) (by decide) h]
    · simp [applyFactor, scaleDict, scaled, orbitSize, h, no (c' := 4) (by decide) (by decide) (by decide) h,
        no (c' := 41) (by decide) (by decide) (by decide) h,
        no (c' := 6) (by decide) (by decide) (by decide) h, no (c' := 71) (by decide) (by decide) (by decide) h]
    · simp [applyFactor, scaleDict, scaled, orbitSize, h, ← Props.C21_class6,
        no (c' := 4) (by decide) (by decide) (by decide) h,
        no (c' := 41) (by decide) (by decide) (by decide) h, no (c' := 71) (by decide) (by decide) (by decide) h]
    · simp [applyFactor, scaleDict, scaled, orbitSize, h, ← Props.C21_class7,
        no (c' := 4) (by decide) (by decide) (by decide) h,
        no (c' := 41) (by decide) (by decide) (by decide) h, no (c' := 6) (by decide) (by decide) (by decide) h]

lemma loop_fits (f : ℂ → ℂ → ℂ) {C : Dict Str WVal} (h : ∀ kv ∈ C, FitsClass kv.1 kv.2) :
    C.mapM (fun kv => (applyFactor f kv.1 kv.2).map fun v => (kv.1, v)) =
      .ok (C.map fun kv => (kv.1, scaled f kv.1 kv.2)) := by
  induction C with
  | nil => rfl
  | cons kv C ih =>
    rw [List.mapM_cons, applyFactor_fits f (h kv List.mem_cons_self),
      ih fun kv hkv => h kv (List.mem_cons_of_mem _ hkv)]
    rfl

/-- The factors: every entry is divided (multiplied) by the number of entries equivalent to it
under the exchange of identical fields or currents, for every dictionary of the JMS shape. -/
theorem C33_factors {C : Dict Str WVal} (h : ∀ kv ∈ C, FitsClass kv.1 kv.2) :
    scaleDictWet C = .ok (C.map fun kv => (kv.1, match kv.2 with
      | .num z => .num z
      | .two a => .two a
      | .four a => .four fun i => a i / orbitSize kv.1 i)) ∧
    unscaleDictWet C = .ok (C.map fun kv => (kv.1, match kv.2 with
      | .num z => .num z
      | .two a => .two a
      | .four a => .four fun i => orbitSize kv.1 i * a i)) := by
  constructor
  · unfold scaleDictWet
    rw [loop_fits _ h]
    congr 1
    refine List.map_congr_left fun kv _ => ?_
    obtain ⟨k, v⟩ := kv
    cases v <;> simp [scaled]
  · unfold unscaleDictWet
    rw [loop_fits _ h]
    congr 1
    refine List.map_congr_left fun kv _ => ?_
    obtain ⟨k, v⟩ := kv
    cases v <;> simp [scaled]

lemma orbitSize_ne (k : Str) (i : I4) : (orbitSize k i : ℂ) ≠ 0 := by
  unfold orbitSize
  rw [← Props.C21_class4, ← Props.C21_class6, ← Props.C21_class7]
  split
  · exact Util.d4_ne i
  split
  · exact Util.d6_ne i
  split
  · exact Util.d7_ne i
  · simp

/-- Scaling and unscaling are inverse to each other, in both orders. -/
theorem C33_inverse {C : Dict Str WVal} (h : ∀ kv ∈ C, FitsClass kv.1 kv.2) :
    (scaleDictWet C >>= unscaleDictWet) = .ok C ∧ (unscaleDictWet C >>= scaleDictWet) = .ok C := by
  have h' : ∀ (f : ℂ → ℂ → ℂ), ∀ kv ∈ C.map (fun kv => (kv.1, scaled f kv.1 kv.2)), FitsClass kv.1 kv.2 := by
    intro f kv hkv
    simp only [List.mem_map] at hkv
    obtain ⟨⟨k, v⟩, hm, rfl⟩ := hkv
    have := h _ hm
    cases v <;> exact this
  constructor
  · unfold scaleDictWet unscaleDictWet
    rw [loop_fits _ h]
    show List.mapM _ _ = _
    rw [loop_fits _ (h' _), List.map_map]
    congr 1
    conv_rhs => rw [← List.map_id C]
    refine List.map_congr_left fun kv _ => ?_
    obtain ⟨k, v⟩ := kv
    cases v with
    | num z => simp [scaled]
    | two a => simp [scaled]
    | four a =>
      simp only [scaled, Function.comp, id, Prod.mk.injEq, WVal.four.injEq, true_and]
      funext i
      rw [mul_div_cancel₀ _ (orbitSize_ne k i)]
  · unfold scaleDictWet unscaleDictWet
    rw [loop_fits _ h]
    show List.mapM _ _ = _
    rw [loop_fits _ (h' _), List.map_map]
    congr 1
    conv_rhs => rw [← List.map_id C]
    refine List.map_congr_left fun kv _ => ?_
    obtain ⟨k, v⟩ := kv
    cases v with
    | num z => simp [scaled]
    | two a => simp [scaled]
    | four a =>
      simp only [scaled, Function.comp, id, Prod.mk.injEq, WVal.four.injEq, true_and]
      funext i
      rw [mul_div_cancel_left₀ _ (orbitSize_ne k i)]

/-- A name outside the table raises. -/
theorem C33_rejects {C : Dict Str WVal} {k : Str} {v : WVal} (hm : (k, v) ∈ C)
    (hk : ∀ c ∈ [0, 1, 3, 4, 41, 5, 6, 71], isClass c k = false) :
    (∃ e, scaleDictWet C = .error e) ∧ ∃ e, unscaleDictWet C = .error e := by
  have h1 : ∀ f, applyFactor f k v = .error .keyError := by
    intro f
    simp [applyFactor, scaleDict, hk 0, hk 1, hk 3, hk 4, hk 41, hk 5, hk 6, hk 71]
  have h2 : ∀ f, ∃ e, C.mapM (fun kv => (applyFactor f kv.1 kv.2).map fun v => (kv.1, v)) = .error e := by
    intro f
    induction C with
    | nil => simp at hm
    | cons kv C ih =>
      rw [List.mapM_cons]
      rcases List.mem_cons.1 hm with rfl | hm
      · rw [h1]; exact ⟨_, rfl⟩
      · cases he : applyFactor f kv.1 kv.2 with
        | error e => exact ⟨e, rfl⟩
        | ok w =>
          obtain ⟨e, hee⟩ := ih hm
          rw [hee]
          exact ⟨e, rfl⟩
  exact ⟨h2 _, h2 _⟩

/-- a concrete case with a factor 2 -/
example (a : I4 → ℂ) : FitsClass "VddLL".toList (.four a) ∧ FitsClass "G".toList (.num 1) ∧
    orbitSize "VddLL".toList (0, 0, 0, 1) = 2 := by
  refine ⟨.inr (.inl (by decide)), by show isClass 0 _ = true; decide, ?_⟩
  unfold orbitSize
  rw [if_pos (by decide), ← Props.C21_class4]
  decide

end Verif.Jms
