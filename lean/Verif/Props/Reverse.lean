import Verif.Lemmas.Reverse

/-!
# C75: symmetrized arrays → WCxf dictionary → symmetrized arrays

The counterpart of C23, starting from arrays.
-/

set_option autoImplicit false
set_option linter.unusedSimpArgs false

namespace Verif.Props
open Verif Verif.Spec Verif.EFT Verif.EFT.Util Classical

variable {U : Util}

/-- **C75.** A complete set of arrays with the symmetries of their classes, converted to the
non-redundant WCxf dictionary and back, is returned unchanged: the dictionary (which omits
zeros and redundant entries) loses nothing.  No exception is raised on the way, and all names
in the dictionary are names of the basis. -/
theorem C75_reverse (hU : Regular U) (hB : Complete U) (C : Dict Str AVal) (hn : C.NodupKeys)
    (hkeys : ∀ k, k ∈ C.keys ↔ k ∈ U.wcKeys)
    (hval : ∀ k v, C.get? k = some v → ∃ s, U.keysShape.get? k = some s ∧ Fits s v ∧
      ∀ c, InClass U c k → SymVal c v) :
    ∃ d C', U.arrays2wcxfNonred C = .ok d ∧ d.NodupKeys ∧ (∀ n ∈ d.keys, n ∈ U.allWcs) ∧
      U.wcxf2arraysSymmetrized d = .ok C' ∧ C'.NodupKeys ∧ ∀ k, C'.get? k = C.get? k := by
  have hF : FitsAll U C := fun k v h => let ⟨s, h1, h2, _⟩ := hval k v h; ⟨s, h1, h2⟩
  obtain ⟨C3, e3, n3, g3⟩ := stage_unscale hU hn hF (fun k h8 => (hkeys k).2 (hU.wc8 k h8))
  have G3 : ∀ k v s c, C.get? k = some v → KeyOK U k s c → C3.get? k = some (unsc s c v) := by
    intro k v s c hv hK
    rw [g3, hv]
    simp only [Option.map_some, shapeOf, hK.hs, Option.getD_some, clsOf_eq hK, unsc]
  have F3 : FitsAll U C3 := by
    intro k v hv
    cases hc : C.get? k with
    | none => rw [g3, hc] at hv; simp at hv
    | some w =>
      obtain ⟨s, hs, hf⟩ := hF k w hc
      obtain ⟨c, hK⟩ := keyOK hU hs
      rw [G3 k w s c hc hK, Option.some.injEq] at hv
      exact ⟨s, hs, hv ▸ fits_unsc hK hf⟩
  have ng : (arrays2wcxf C3).NodupKeys := nodup_arrays2wcxf (goodArrays_of hU n3 F3)
  obtain ⟨d, hd⟩ : ∃ d, d = (arrays2wcxf C3).filterKV fun k v => decide (k ∈ U.allWcs) && decide (v ≠ 0) :=
    ⟨_, rfl⟩
  have nd : d.NodupKeys := hd ▸ Dict.nodupKeys_filterKV _ _ ng
  have gd : ∀ n, d.get? n = ((arrays2wcxf C3).get? n).filter
      fun v => decide (n ∈ U.allWcs) && decide (v ≠ 0) := fun n => by
    rw [hd, Dict.get?_filterKV _ _ ng]
  have hall : ∀ n ∈ d.keys, n ∈ U.allWcs := by
    intro n hm
    rw [← Dict.isSome_get?_iff, gd n] at hm
    by_contra h
    simp [h, Option.filter] at hm
    cases hh : (arrays2wcxf C3).get? n with
    | none => rw [hh] at hm; simp at hm
    | some v => rw [hh] at hm; simp at hm
  obtain ⟨C', e', n', F', hno, hyes⟩ := readSym hU hB d nd hall
  refine ⟨d, C', by unfold arrays2wcxfNonred; rw [e3, hd]; rfl, nd, hall, e', n', fun k => ?_⟩
  by_cases hkw : k ∈ U.wcKeys
  swap
  · rw [hno k hkw]
    exact ((Dict.get?_eq_none_iff _ _).2 fun h => hkw ((hkeys k).1 h)).symm
  obtain ⟨v, hv⟩ := Option.isSome_iff_exists.1 ((Dict.isSome_get?_iff _ _).2 ((hkeys k).2 hkw))
  obtain ⟨s, hs, hf, hsym⟩ := hval k v hv
  obtain ⟨c, hK⟩ := keyOK hU hs
  have hsym := hsym c hK.cls
  rw [hyes k hkw s c hK, hv, Option.some.injEq]
  have hC3 := G3 k v s c hv hK
  -- entries of the dictionary
  have ent : ∀ {l idx}, s = some l → inRange l idx = true →
      (wcName k idx ∈ U.allWcs → (d.get? (wcName k idx)).getD 0 =
        (match unsc s c v with
          | .num _ => 0
          | .arr a => a.get idx)) ∧ (wcName k idx ∉ U.allWcs → (d.get? (wcName k idx)).getD 0 = 0) := by
    intro l idx e hi
    subst e
    rw [gd, get_entry hU n3 F3 hs hi, hC3]
    refine ⟨fun h => ?_, fun h => ?_⟩
    · cases unsc (some l) c v with
      | num z => simp [h, Option.filter]
      | arr a =>
        by_cases hz : a.get idx = 0
        · simp [h, Option.filter, hz]
        · simp [h, Option.filter, hz]
    · simp [h, Option.filter]
  have hred4 : ∀ {l} {i : I4}, s = some l → inRange l (idx4 i) = true →
      wcName k (idx4 i) ∈ U.allWcs → NonRedOf4 c i := by
    intro l i e hi hm
    subst e
    obtain ⟨r, hr⟩ := hB.names _ hm
    generalize hnm : wcName k (idx4 i) = n at hr
    have inj : ∀ {k' : Str} {s' idx' : List ℕ}, U.keysShape.get? k' = some (some s') →
        inRange s' idx' = true → wcName k (idx4 i) = wcName k' idx' → k = k' ∧ idx4 i = idx' := by
      intro k' s' idx' h2 hi' e
      obtain ⟨e1, e2⟩ := wcName_inj (us_of hU hs) (us_of hU h2) hi hi' (small3 (le3_of_regular hU hs))
        (small3 (le3_of_regular hU h2)) e
      subst e1
      rw [hs] at h2
      exact ⟨rfl, e2 (by simpa using h2)⟩
    cases hr with
    | scalar h2 => exact absurd hnm (wcName_ne_scalar (us_of hU h2))
    | @two k' s' c' i' h2 hc' hi' hn' =>
      obtain ⟨-, e⟩ := inj h2 hi' hnm
      exact absurd (congrArg List.length e) (by obtain ⟨a, b⟩ := i'; obtain ⟨_, _, _, _⟩ := i; simp [idx2, idx4])
    | @four k' s' c' i' h2 hc' hi' hn' =>
      obtain ⟨rfl, e⟩ := inj h2 hi' hnm
      obtain rfl := InClass.unique hK.cls hc'
      have : i = i' := by
        obtain ⟨a, b, c, d⟩ := i; obtain ⟨a', b', c', d'⟩ := i'
        simp only [idx4, List.cons.injEq, Fin.val_inj, and_true] at e
        rw [e.1, e.2.1, e.2.2.1, e.2.2.2]
      subst this; exact hn'
  have g0 : ∀ {l}, s = some l → ∀ i : I4, inRange l (idx4 i) = true →
      ent4 (given d k s) i = (d.get? (wcName k (idx4 i))).getD 0 := by
    intro l e i hi
    subst e
    simp [given, ent4, collect, hi]
  refine ext_val (fits_cutF (symm_step hK (padded_padF (fun l e => (hK.hl l e).2)
    (fits_given d k s))).2) hf (fun l e => (hK.hl l e).2) ?_ ?_ ?_
  · intro e
    subst e
    obtain rfl : c = 0 := hK.h0.1 rfl
    cases v with
    | arr a => simp [Fits] at hf
    | num z =>
      have hz : z.im = 0 := hsym
      have hin := hB.scalar k hkw hs
      have hdk : (d.get? k).getD 0 = z := by
        rw [gd, get_scalar hU n3 F3 hs, hC3]
        simp only [hin, decide_true, Bool.true_and, Option.map_some, Option.filter_some]
        have : numOf (unsc none 0 (.num z)) = z := rfl
        rw [this]
        split
        · rfl
        · rename_i hz'
          simp only [ne_eq, decide_eq_true_eq, not_not] at hz'
          rw [Option.getD_none, hz']
      show numOf (cutF none (realVal (.num ((d.get? k).getD 0)))) = z
      rw [hdk]
      show ((z.re : ℝ) : ℂ) = z
      apply Complex.ext
      · simp
      · simpa using hz.symm
  · intro l e hl2 i hi
    subst e
    refine recover2 hK hf hsym hl2 (fits_given d k _) (fun j hj hnr => ?_) hi
    have hj' := (ent rfl hj).1 (hB.two k hkw l c j hs hK.cls hj hnr)
    have : ent2 (given d k (some l)) j = (d.get? (wcName k (idx2 j))).getD 0 := by
      simp [given, ent2, collect, hj]
    rw [this, hj']
    cases unsc (some l) c v <;> rfl
  · intro l e hl4 i hi
    subst e
    refine recover4 hK hf hsym hl4 (fits_given d k _) (fun j hj hnr => ?_) (fun j hj hnr => ?_) hi
    · rw [g0 rfl j hj, (ent rfl hj).1 (hB.four k hkw l c j hs hK.cls hj hnr)]
      cases unsc (some l) c v <;> rfl
    · rw [g0 rfl j hj]
      exact (ent rfl hj).2 (fun hm => hnr (hred4 rfl hj hm))

end Verif.Props
