import Verif.Lemmas.Depend
import Verif.Lemmas.Entries
import Verif.Spec.Complete

/-!
# Names → symmetrized arrays, array by array

`readSym` describes the result of `wcxf2arrays_symmetrized` by one formula per key;
`recover` says that an array with the symmetry of its class is recovered from the (rescaled)
non-redundant entries.
-/

set_option autoImplicit false
set_option linter.unusedSimpArgs false

namespace Verif.EFT.Util
open Verif Verif.Spec Verif.EFT Verif.Props Classical

variable {U : Util}

/-- what the dictionary of names says about key `k` -/
noncomputable def given (d : Dict Str ℂ) (k : Str) : Shape → AVal
  | none => .num ((d.get? k).getD 0)
  | some s => .arr (collect d k s)

lemma fits_given (d : Dict Str ℂ) (k : Str) (s : Shape) : Fits s (given d k s) := by
  cases s with
  | none => trivial
  | some s =>
    refine ⟨rfl, fun idx hi => ?_⟩
    simp only [collect] at hi ⊢
    simp [hi]

lemma readSym (hU : Regular U) (hC : Complete U) (d : Dict Str ℂ) (hd : d.NodupKeys)
    (hk : ∀ n ∈ d.keys, n ∈ U.allWcs) :
    ∃ C, U.wcxf2arraysSymmetrized d = .ok C ∧ C.NodupKeys ∧ FitsAll U C ∧
      (∀ k, k ∉ U.wcKeys → C.get? k = none) ∧
      ∀ k ∈ U.wcKeys, ∀ s c, KeyOK U k s c →
        C.get? k = some (cutF s (symF c (padF (given d k s)))) := by
  obtain ⟨C0, e0, n0, F0, r1, r2⟩ := read_ok hU d hd (fun n hn => hC.names n (hk n hn))
  obtain ⟨C1, e1, n1, k1, g1⟩ := stage_symm hU n0 F0
  obtain ⟨C2, e2, n2, g2⟩ := stage_add (U := U) U.wcKeys C1 n1 (fun k hkw =>
    Option.isSome_iff_exists.1 ((Dict.isSome_get?_iff _ _).2 (hU.wc k hkw)))
  have hno : ∀ k, k ∉ U.wcKeys → C2.get? k = none := by
    intro k hkw
    rw [g2, if_neg hkw, Option.or_none, g1]
    cases hC0 : C0.get? k with
    | none => rfl
    | some v =>
      exfalso
      obtain ⟨s, hs, hf⟩ := F0 k v hC0
      cases s with
      | none =>
        rw [r1 k hs] at hC0
        have : k ∈ d.keys := by
          rw [← Dict.isSome_get?_iff]
          cases h : d.get? k with
          | none => rw [h] at hC0; simp at hC0
          | some z => rfl
        exact hkw (hC.only k (hk k this) k none hs (Or.inl rfl))
      | some s =>
        rcases r2 k s hs with ⟨-, idx, -, hm⟩ | ⟨h, -⟩
        · exact hkw (hC.only _ (hk _ hm) k _ hs (Or.inr ⟨idx, rfl⟩))
        · rw [h] at hC0; simp at hC0
  have hyes : ∀ k ∈ U.wcKeys, ∀ s c, KeyOK U k s c →
        C2.get? k = some (cutF s (symF c (padF (given d k s)))) := by
    intro k hkw s c hK
    have hs := hK.hs
    rw [g2, if_pos hkw, g1]
    simp only [shapeOf, hs, Option.getD_some, clsOf_eq hK]
    cases s with
    | none =>
      rw [r1 k hs]
      cases h : d.get? k with
      | none =>
        simp only [Option.map_none, Option.none_or, given, h, Option.getD_none]
        rw [show (AVal.num 0) = zeroVal none from rfl, sym_zero hK]
      | some z => simp only [Option.map_some, Option.some_or, given, h, Option.getD_some]
    | some s =>
      rcases r2 k s hs with ⟨h, -⟩ | ⟨h, hz⟩
      · rw [h]; rfl
      · rw [h]
        simp only [Option.map_none, Option.none_or, given, hz]
        rw [show (AVal.arr (zeros s)) = zeroVal (some s) from rfl, sym_zero hK]
  refine ⟨C2, ?_, n2, ?_, hno, hyes⟩
  · unfold wcxf2arraysSymmetrized addMissing
    rw [e0]; simp only [Except.bind]; rw [e1]; exact e2
  · intro k v hv
    by_cases hkw : k ∈ U.wcKeys
    · obtain ⟨s, hs⟩ := Option.isSome_iff_exists.1 ((Dict.isSome_get?_iff _ _).2 (hU.wc k hkw))
      obtain ⟨c, hK⟩ := keyOK hU hs
      rw [hyes k hkw s c hK, Option.some.injEq] at hv
      exact ⟨s, hs, hv ▸ fits_cutF (symm_step hK (padded_padF (fun l e => (hK.hl l e).2)
        (fits_given d k s))).2⟩
    · rw [hno k hkw] at hv; cases hv

/-- the rescaled value whose entries carry the WCxf names -/
noncomputable def unsc (s : Shape) (c : ℕ) (v : AVal) : AVal := cutF s (u8F c (scaF c (padF v)))

lemma unsc_padded {k : Str} {s : Shape} {c : ℕ} (hK : KeyOK U k s c) {v : AVal} (hf : Fits s v) :
    Padded s (u8F c (scaF c (padF v))) := by
  have hp := padded_padF (fun l e => (hK.hl l e).2) hf
  have hp2 := (scale_step hK hp).2
  unfold u8F
  split
  · rename_i h8
    have := hK.h8 h8
    subst this
    exact padded_op4 rfl hp2
  · exact hp2

lemma fits_unsc {k : Str} {s : Shape} {c : ℕ} (hK : KeyOK U k s c) {v : AVal} (hf : Fits s v) :
    Fits s (unsc s c v) := fits_cutF (unsc_padded hK hf)

lemma ent4_out {l : List ℕ} {v : AVal} (h : Fits (some l) v) {i : I4} (hi : inRange l (idx4 i) = false) :
    ent4 v i = 0 := by
  cases v with
  | num z => rfl
  | arr a => obtain ⟨rfl, hw⟩ := h; exact hw _ hi
lemma ent2_out {l : List ℕ} {v : AVal} (h : Fits (some l) v) {i : I2} (hi : inRange l (idx2 i) = false) :
    ent2 v i = 0 := by
  cases v with
  | num z => rfl
  | arr a => obtain ⟨rfl, hw⟩ := h; exact hw _ hi

lemma recover4 {k : Str} {l : List ℕ} {c : ℕ} (hk : KeyOK U k (some l) c) {v m : AVal}
    (hv : Fits (some l) v) (hs : SymVal c v) (hl4 : l.length = 4) (hfm : Fits (some l) m)
    (hm : ∀ i, inRange l (idx4 i) = true → NonRedOf4 c i → ent4 m i = ent4 (unsc (some l) c v) i)
    (hm0 : ∀ i, inRange l (idx4 i) = true → ¬ NonRedOf4 c i → ent4 m i = 0)
    {i : I4} (hi : inRange l (idx4 i) = true) :
    ent4 (cutF (some l) (symF c (padF m))) i = ent4 v i := by
  have hP := padded_padF (fun l e => (hk.hl l e).2) hv
  have hPm := padded_padF (fun l e => (hk.hl l e).2) hfm
  rw [ent4_cutF _ _ _ hi]
  obtain ⟨a, rfl⟩ : ∃ a, v = .arr a := by
    cases v with
    | num z => simp [Fits] at hv
    | arr a => exact ⟨a, rfl⟩
  have hu : ∀ i, inRange l (idx4 i) = true → ent4 (unsc (some l) c (.arr a)) i =
      ent4 (u8F c (scaF c (padF (.arr a)))) i := fun i hi => ent4_cutF _ _ _ hi
  obtain ⟨-, hc, -, h0, hl, h8⟩ := hk
  have hr := (hl l rfl).1
  rw [hl4] at hr
  obtain ⟨-, -, s4, s41, s5, s6, s7, s71, s8⟩ := hs
  simp only [classIds, List.mem_cons, List.not_mem_nil, or_false] at hc
  rcases hc with rfl | rfl | rfl | rfl | rfl | rfl | rfl | rfl | rfl | rfl | rfl | rfl
  · simp [rank] at hr
  · simp [rank] at hr
  · simp [rank] at hr
  · have := hm i hi (by simp [NonRedOf4])
    rw [hu i hi, show u8F 3 = id from rfl, show scaF 3 = id from rfl] at this
    rw [show symF 3 = id from rfl]
    simpa [ent4_padF] using this
  · refine (ent_op4 (f := fun b i => runProg Gen.symmetrize_4 b i / d4 i) hPm i).trans ?_
    refine rec4 (s4 rfl) (fun j hj => ?_) i
    rw [ent4_padF]
    by_cases hij : inRange l (idx4 j) = true
    · rw [hm j hij (by simpa [NonRedOf4] using hj), hu j hij]
      refine (ent_op4 (f := fun b i => (d4 i : ℂ) * b i) hP j).trans ?_
      rw [ent4_padF]; rfl
    · rw [ent4_out hfm (by simpa using hij), show a.get (idx4 j) = 0 from ent4_out hv (by simpa using hij),
        mul_zero]
  · refine (ent_op4 (f := fun b i => runProg Gen.symmetrize_41 b i / d4 i) hPm i).trans ?_
    refine rec41 (s41 rfl) (fun j hj => ?_) i
    rw [ent4_padF]
    by_cases hij : inRange l (idx4 j) = true
    · rw [hm j hij (by simpa [NonRedOf4] using hj), hu j hij]
      refine (ent_op4 (f := fun b i => (d4 i : ℂ) * b i) hP j).trans ?_
      rw [ent4_padF]; rfl
    · rw [ent4_out hfm (by simpa using hij), show a.get (idx4 j) = 0 from ent4_out hv (by simpa using hij),
        mul_zero]
  · refine (ent_op4 (f := runProg Gen.symmetrize_5) hPm i).trans ?_
    refine rec5 (s5 rfl) (fun j hj => ?_) i
    rw [ent4_padF]
    by_cases hij : inRange l (idx4 j) = true
    · rw [hm j hij (by simpa [NonRedOf4] using hj), hu j hij]
      rw [show u8F 5 = id from rfl, show scaF 5 = id from rfl, id, id, ent4_padF]; rfl
    · rw [ent4_out hfm (by simpa using hij), show a.get (idx4 j) = 0 from ent4_out hv (by simpa using hij)]
  · refine (ent_op4 (f := fun b i => runProg Gen.symmetrize_6 b i / d6 i) hPm i).trans ?_
    refine rec6 (s6 rfl) (fun j hj => ?_) i
    rw [ent4_padF]
    by_cases hij : inRange l (idx4 j) = true
    · rw [hm j hij (by simpa [NonRedOf4] using hj), hu j hij]
      refine (ent_op4 (f := fun b i => (d6 i : ℂ) * b i) hP j).trans ?_
      rw [ent4_padF]; rfl
    · rw [ent4_out hfm (by simpa using hij), show a.get (idx4 j) = 0 from ent4_out hv (by simpa using hij),
        mul_zero]
  · refine (ent_op4 (f := fun b i => runProg Gen.symmetrize_7 b i / d7 i) hPm i).trans ?_
    refine rec7 (s7 rfl) (fun j hj => ?_) i
    rw [ent4_padF]
    by_cases hij : inRange l (idx4 j) = true
    · rw [hm j hij (by simpa [NonRedOf4] using hj), hu j hij]
      refine (ent_op4 (f := fun b i => (d7 i : ℂ) * b i) hP j).trans ?_
      rw [ent4_padF]; rfl
    · rw [ent4_out hfm (by simpa using hij), show a.get (idx4 j) = 0 from ent4_out hv (by simpa using hij),
        mul_zero]
  · refine (ent_op4 (f := fun b i => runProg Gen.symmetrize_71 b i / d7 i) hPm i).trans ?_
    refine rec71 (s71 rfl) (fun j hj => ?_) (fun p q r => ?_) i
    · rw [ent4_padF]
      by_cases hij : inRange l (idx4 j) = true
      · rw [hm j hij (by simpa [NonRedOf4] using hj), hu j hij]
        refine (ent_op4 (f := fun b i => (d7 i : ℂ) * b i) hP j).trans ?_
        rw [ent4_padF]; rfl
      · rw [ent4_out hfm (by simpa using hij), show a.get (idx4 j) = 0 from ent4_out hv (by simpa using hij),
          mul_zero]
    · rw [ent4_padF]
      by_cases hij : inRange l (idx4 (p, p, q, r)) = true
      · exact hm0 _ hij (fun h => by simpa [NonRed71] using h.2.2.2.2.2.1 rfl)
      · exact ent4_out hfm (by simpa using hij)
  · obtain rfl : l = [3, 3, 3, 3] := by simpa using h8 rfl
    refine (ent_op4 (f := fun b => runProg Gen.symmetrize_8 (runProg Gen.scale_8 b)) hPm i).trans ?_
    refine rec8 (s8 rfl) (fun j hj => ?_) i
    rw [ent4_padF]
    have hij : inRange [3, 3, 3, 3] (idx4 j) = true := by
      obtain ⟨a, b, c, d⟩ := j
      simp only [idx4, inRange, a.isLt, b.isLt, c.isLt, d.isLt, decide_true, Bool.and_self]
    rw [hm j hij (by simpa [NonRedOf4] using hj), hu j hij]
    refine (ent_op4 (f := runProg Gen.unscale_8) (v := scaF 8 (padF (.arr a))) hP j).trans ?_
    rw [show scaF 8 = id from rfl, id, ent4_padF]; rfl
  · simp [rank] at hr

lemma recover2 {k : Str} {l : List ℕ} {c : ℕ} (hk : KeyOK U k (some l) c) {v m : AVal}
    (hv : Fits (some l) v) (hs : SymVal c v) (hl2 : l.length = 2) (hfm : Fits (some l) m)
    (hm : ∀ i, inRange l (idx2 i) = true → NonRedOf2 c i → ent2 m i = ent2 (unsc (some l) c v) i)
    {i : I2} (hi : inRange l (idx2 i) = true) :
    ent2 (cutF (some l) (symF c (padF m))) i = ent2 v i := by
  have hP := padded_padF (fun l e => (hk.hl l e).2) hv
  have hPm := padded_padF (fun l e => (hk.hl l e).2) hfm
  rw [ent2_cutF _ _ _ hi]
  obtain ⟨a, rfl⟩ : ∃ a, v = .arr a := by
    cases v with
    | num z => simp [Fits] at hv
    | arr a => exact ⟨a, rfl⟩
  have hu : ∀ i, inRange l (idx2 i) = true → ent2 (unsc (some l) c (.arr a)) i =
      ent2 (u8F c (scaF c (padF (.arr a)))) i := fun i hi => ent2_cutF _ _ _ hi
  obtain ⟨-, hc, -, h0, hl, h8⟩ := hk
  have hr := (hl l rfl).1
  rw [hl2] at hr
  obtain ⟨s2, s9, -⟩ := hs
  simp only [classIds, List.mem_cons, List.not_mem_nil, or_false] at hc
  rcases hc with rfl | rfl | rfl | rfl | rfl | rfl | rfl | rfl | rfl | rfl | rfl | rfl
  · simp [rank] at hr
  · have := hm i hi (by simp [NonRedOf2])
    rw [hu i hi, show u8F 1 = id from rfl, show scaF 1 = id from rfl] at this
    rw [show symF 1 = id from rfl]
    simpa [ent2_padF] using this
  · refine (ent_op2 (f := runProg Gen.symmetrize_2) hPm i).trans ?_
    refine rec2 (s2 rfl) (fun j hj => ?_) i
    rw [ent2_padF]
    by_cases hij : inRange l (idx2 j) = true
    · rw [hm j hij (by simpa [NonRedOf2] using hj), hu j hij]
      rw [show u8F 2 = id from rfl, show scaF 2 = id from rfl, id, id, ent2_padF]; rfl
    · rw [ent2_out hfm (by simpa using hij), show a.get (idx2 j) = 0 from ent2_out hv (by simpa using hij)]
  all_goals try (simp [rank] at hr; done)
  · refine (ent_op2 (f := runProg Gen.symmetrize_9) hPm i).trans ?_
    refine rec9 (s9 rfl) (fun j hj => ?_) i
    rw [ent2_padF]
    by_cases hij : inRange l (idx2 j) = true
    · rw [hm j hij (by simpa [NonRedOf2] using hj), hu j hij]
      rw [show u8F 9 = id from rfl, show scaF 9 = id from rfl, id, id, ent2_padF]; rfl
    · rw [ent2_out hfm (by simpa using hij), show a.get (idx2 j) = 0 from ent2_out hv (by simpa using hij)]

/-- a value is determined by its entries -/
lemma ext_val {s : Shape} {v w : AVal} (hv : Fits s v) (hw : Fits s w)
    (hl : ∀ l, s = some l → Le3 l) (h0 : s = none → numOf v = numOf w)
    (h2 : ∀ l, s = some l → l.length = 2 → ∀ i, inRange l (idx2 i) = true → ent2 v i = ent2 w i)
    (h4 : ∀ l, s = some l → l.length = 4 → ∀ i, inRange l (idx4 i) = true → ent4 v i = ent4 w i) :
    v = w := by
  cases s with
  | none =>
    cases v with
    | arr a => simp [Fits] at hv
    | num z =>
      cases w with
      | arr a => simp [Fits] at hw
      | num z' => exact congrArg AVal.num (h0 rfl)
  | some l =>
    cases v with
    | num z => simp [Fits] at hv
    | arr a =>
      cases w with
      | num z => simp [Fits] at hw
      | arr b =>
        obtain ⟨ha, hwa⟩ := hv
        obtain ⟨hb, hwb⟩ := hw
        obtain ⟨sa, fa⟩ := a
        obtain ⟨sb, fb⟩ := b
        simp only at ha hb
        subst ha
        subst hb
        congr 2
        funext idx
        by_cases hi : inRange sb idx = true
        · have hlen := length_of_inRange hi
          have hle := inRange_of_le hi (fun m hm => ((hl _ rfl).2 m hm).2)
          rcases (hl _ rfl).1 with e | e
          · have e' : idx.length = 2 := by rw [← hlen, e]
            obtain ⟨p, q, rfl⟩ := List.length_eq_two.1 e'
            rw [e] at hle
            simp only [List.replicate, inRange, Bool.and_eq_true, decide_eq_true_eq, and_true] at hle
            exact h2 sb rfl e (⟨p, hle.1⟩, ⟨q, hle.2⟩) hi
          · have e' : idx.length = 4 := by rw [← hlen, e]
            obtain ⟨p, q, r, t, rfl⟩ : ∃ p q r t, idx = [p, q, r, t] := by
              match idx, e' with
              | [p, q, r, t], _ => exact ⟨p, q, r, t, rfl⟩
            rw [e] at hle
            simp only [List.replicate, inRange, Bool.and_eq_true, decide_eq_true_eq, and_true] at hle
            exact h4 sb rfl e (⟨p, hle.1⟩, ⟨q, hle.2.1⟩, ⟨r, hle.2.2.1⟩, ⟨t, hle.2.2.2⟩) hi
        · have hi' : inRange sb idx = false := by simpa using hi
          rw [show fa idx = 0 from hwa idx hi', show fb idx = 0 from hwb idx hi']

end Verif.EFT.Util
