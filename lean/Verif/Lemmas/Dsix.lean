import Verif.Spec.Dsix
import Verif.Lemmas.Entries
import Mathlib.Tactic.Linarith

set_option autoImplicit false
set_option linter.unusedSimpArgs false

namespace Verif.Dsix
open Verif Verif.EFT Verif.EFT.Util Classical

/-! ### LHA rows -/

lemma oneBased_inj {a b : List ℕ} (h : oneBased a = oneBased b) : a = b := by
  refine List.map_injective_iff.2 (fun x y e => ?_) h
  simpa using e

lemma npIndex_ok : ∀ {s ix : List ℕ}, inRange s ix = true →
    npIndex s ((oneBased ix).map fun i => i - 1) = some ix
  | [], [], _ => rfl
  | s :: ss, i :: is, h => by
    simp only [inRange, Bool.and_eq_true, decide_eq_true_eq] at h
    have ih := npIndex_ok h.2
    have hp : npPos s ((i : ℤ) + 1 - 1) = some i := by
      unfold npPos
      rw [if_pos (by omega)]
      simp
    have e : (oneBased (i :: is)).map (fun i => i - 1)
        = ((i : ℤ) + 1 - 1) :: (oneBased is).map fun i => i - 1 := rfl
    rw [e]
    simp only [npIndex, hp, ih]

lemma length_eq_of_inRange {s a b : List ℕ} (ha : inRange s a = true) (hb : inRange s b = true) :
    a.length = b.length := by
  rw [← length_of_inRange ha, length_of_inRange hb]

/-- the value of the last row with index `i`, `x` if there is none -/
noncomputable def lastVal (i : List ℤ) (rows : List Row) (x : ℝ) : ℝ :=
  rows.foldl (fun acc r => if r.1 = i then r.2 else acc) x

lemma lha_fold {shape : List ℕ} : ∀ (rows : List Row) (M : List ℕ → ℝ),
    (∀ r ∈ rows, ∃ ix, inRange shape ix = true ∧ r.1 = oneBased ix) →
    ∃ M', rows.foldlM (lhaStep shape) M = .ok M' ∧
      ∀ ix, inRange shape ix = true → M' ix = lastVal (oneBased ix) rows (M ix)
  | [], M, _ => ⟨M, rfl, fun _ _ => rfl⟩
  | r :: rows, M, h => by
    obtain ⟨p, hp, e⟩ := h r (by simp)
    have hstep : lhaStep shape M r = .ok fun ix => if p <+: ix then r.2 else M ix := by
      unfold lhaStep
      rw [e, npIndex_ok hp]
    obtain ⟨M', h1, h2⟩ := lha_fold rows (fun ix => if p <+: ix then r.2 else M ix)
      fun r hr => h r (by simp [hr])
    refine ⟨M', ?_, fun ix hix => ?_⟩
    · rw [List.foldlM_cons, hstep]; exact h1
    · rw [h2 ix hix]
      simp only [lastVal, List.foldl_cons]
      congr 1
      have hl := length_eq_of_inRange hp hix
      by_cases hpi : p = ix
      · subst hpi
        rw [if_pos (List.prefix_refl _), if_pos e]
      · rw [if_neg (fun hh => hpi (hh.eq_of_length hl)), if_neg]
        rw [e]; exact fun hh => hpi (oneBased_inj hh)

lemma lastVal_none {i : List ℤ} : ∀ {rows : List Row} {x : ℝ}, (∀ r ∈ rows, r.1 ≠ i) →
    lastVal i rows x = x
  | [], _, _ => rfl
  | r :: rows, x, h => by
    simp only [lastVal, List.foldl_cons]
    rw [if_neg (h r (by simp))]
    exact lastVal_none fun r hr => h r (by simp [hr])

lemma lastVal_last {i : List ℤ} {rows : List Row} {x y : ℝ} (h : LastAt rows i x) :
    lastVal i rows y = x := by
  obtain ⟨pre, post, rfl, hp⟩ := h
  unfold lastVal
  rw [List.foldl_append, List.foldl_cons, if_pos rfl]
  exact lastVal_none hp

/-! ### `SMEFTio` -/

lemma get?_toChars (d : Dict String ℂ) (n : String) : (toChars d).get? n.toList = d.get? n := by
  induction d with
  | nil => rfl
  | cons p d ih =>
    obtain ⟨k, v⟩ := p
    show (if k.toList = n.toList then some v else (toChars d).get? n.toList) = if k = n then some v else Dict.get? d n
    simp only [String.toList_inj, ih]

lemma get?_ofChars (d : Dict Str ℂ) (n : String) : (ofChars d).get? n = d.get? n.toList := by
  induction d with
  | nil => rfl
  | cons p d ih =>
    obtain ⟨k, v⟩ := p
    show (if String.ofList k = n then some v else (ofChars d).get? n) = if k = n.toList then some v else Dict.get? d n.toList
    rw [ih]
    by_cases h : k = n.toList
    · subst h; simp
    · rw [if_neg h, if_neg]
      rintro rfl
      exact h (by simp)

lemma nodup_toChars {d : Dict String ℂ} (h : d.NodupKeys) : (toChars d).NodupKeys := by
  unfold Dict.NodupKeys Dict.keys toChars at *
  rw [List.map_map]
  have : (Prod.fst ∘ fun kv : String × ℂ => (kv.1.toList, kv.2)) = String.toList ∘ Prod.fst := rfl
  rw [this, ← List.map_map]
  exact h.map fun a b e => String.toList_inj.1 e

lemma mem_keys_toChars {d : Dict String ℂ} {n : Str} (h : n ∈ (toChars d).keys) :
    ∃ m ∈ d.keys, n = m.toList := by
  unfold Dict.keys toChars at h
  rw [List.map_map, List.mem_map] at h
  obtain ⟨kv, hm, rfl⟩ := h
  exact ⟨kv.1, List.mem_map.2 ⟨kv, hm, rfl⟩, rfl⟩

lemma get?_map_fun {α : Type} (g : Str → α → α) (C : Dict Str α) (k : Str) :
    Dict.get? (C.map fun kv => (kv.1, g kv.1 kv.2)) k = (C.get? k).map (g k) := by
  induction C with
  | nil => rfl
  | cons p C ih =>
    obtain ⟨a, v⟩ := p
    simp only [List.map_cons, Dict.get?_cons, ih]
    split
    · rename_i h; subst h; rfl
    · rfl

lemma nodup_map_fun {α : Type} (g : Str → α → α) {C : Dict Str α} (h : C.NodupKeys) :
    Dict.NodupKeys (C.map fun kv => (kv.1, g kv.1 kv.2)) := by
  unfold Dict.NodupKeys Dict.keys at *
  rw [List.map_map]
  exact h

lemma fits_mulVal {s : Shape} {v : AVal} (x : ℂ) (h : Spec.Fits s v) : Spec.Fits s (mulVal x v) := by
  cases v with
  | num z => cases s with
    | none => trivial
    | some l => simp [Spec.Fits] at h
  | arr a => cases s with
    | none => simp [Spec.Fits] at h
    | some l =>
      refine ⟨h.1, fun idx hi => ?_⟩
      have := h.2 idx hi
      simp [this]

/-- the factor applied on loading -/
noncomputable def upFactor (U : Util) (high : ℝ) (k : Str) : ℂ :=
  if k ∈ keysDim5 then (high : ℂ) else if isDim6 U k then (high : ℂ) ^ 2 else 1

lemma mulVal_one {s : Shape} (v : AVal) (_ : Spec.Fits s v) : mulVal 1 v = v := by
  cases v <;> simp [mulVal]

lemma get?_scaleUp (U : Util) (high : ℝ) (C : Dict Str AVal) (k : Str) :
    (scaleUp U high C).get? k = (C.get? k).map (mulVal (upFactor U high k)) := by
  unfold scaleUp
  rw [get?_map_fun (fun k v => if k ∈ keysDim5 then mulVal (high : ℂ) v
    else if isDim6 U k then mulVal ((high : ℂ) ^ 2) v else v)]
  congr 1
  funext v
  unfold upFactor
  split
  · rfl
  · split
    · rfl
    · cases v <;> simp [mulVal]

lemma fillZeros_spec (dim4 : List Str) : ∀ (ks : List (Str × Shape)) (C : Dict Str AVal),
    Dict.NodupKeys ks → C.NodupKeys →
    (fillZeros dim4 ks C).NodupKeys ∧ ∀ k, (fillZeros dim4 ks C).get? k =
      (C.get? k).or (if k ∈ dim4 then none else (Dict.get? ks k).map zeroVal)
  | [], C, _, hn => ⟨hn, fun k => by simp [fillZeros]⟩
  | (a, s) :: ks, C, hks, hn => by
    have hks' : Dict.NodupKeys ks ∧ a ∉ Dict.keys ks := by
      unfold Dict.NodupKeys Dict.keys at *
      simp only [List.map_cons, List.nodup_cons] at hks
      exact ⟨hks.2, hks.1⟩
    unfold fillZeros
    set D := (if (!C.mem a && !decide (a ∈ dim4)) = true then C.set a (zeroVal s) else C) with hD
    have hDn : D.NodupKeys := by
      rw [hD]; split
      · exact Dict.nodupKeys_set _ _ _ hn
      · exact hn
    obtain ⟨h1, h2⟩ := fillZeros_spec dim4 ks D hks'.1 hDn
    refine ⟨h1, fun k => ?_⟩
    rw [h2 k, Dict.get?_cons]
    by_cases e : a = k
    · subst e
      have hno : Dict.get? ks a = none := (Dict.get?_eq_none_iff _ _).2 hks'.2
      rw [if_pos rfl, hno]
      cases hc : C.get? a with
      | some v =>
        have : D = C := by rw [hD, if_neg]; simp [Dict.mem, hc]
        rw [this, hc]; rfl
      | none =>
        by_cases hd : a ∈ dim4
        · have : D = C := by rw [hD, if_neg]; simp [hd]
          rw [this, hc]; simp [hd]
        · have : D = C.set a (zeroVal s) := by rw [hD, if_pos]; simp [Dict.mem, hc, hd]
          rw [this]; simp [hd]
    · rw [if_neg e]
      congr 1
      rw [hD]
      split
      · rw [Dict.get?_set_ne _ _ e]
      · rfl

lemma headD_wcName {k : Str} {idx : List ℕ} (hk : '_' ∉ k) :
    (splitUS (wcName k idx)).headD [] = k := by
  unfold wcName
  rw [splitUS_append hk]; rfl

lemma headD_scalar {k : Str} (hk : '_' ∉ k) : (splitUS k).headD [] = k := by
  rw [splitUS_of_notMem hk]; rfl

lemma get?_scaleDown (U : Util) (high : ℝ) (d : Dict Str ℂ) (n : Str) :
    (scaleDown U high d).get? n = (d.get? n).map fun z =>
      z / upFactor U high ((splitUS n).headD []) := by
  unfold scaleDown
  rw [get?_map_fun (fun k v => if (splitUS k).headD [] ∈ keysDim5 then v / (high : ℂ)
      else if isDim6 U ((splitUS k).headD []) then v / (high : ℂ) ^ 2 else v)]
  congr 1
  funext z
  unfold upFactor
  split
  · rfl
  · split
    · rfl
    · simp


variable {U : Util} {dim4 : List Str}

lemma nonRed_base (hU : SmeftUtil U dim4) {n : Str} (hn : n ∈ U.allWcs) {k : Str} {s : Shape}
    (hk : U.keysShape.get? k = some s) (h : (splitUS n).headD [] = k) : k ∈ U.wcKeys ∧ k ∉ dim4 := by
  have := hU.base n hn
  rw [h] at this
  exact ⟨this, fun h4 => (hU.split k ((Dict.isSome_get?_iff _ _).1 (by rw [hk]; rfl))).1 h4 this⟩

lemma allowed_mul (U : Util) (n : Str) (z : ℂ) (x : ℝ) :
    allowed U n (z * (x : ℂ)) = allowed U n z * (x : ℂ) := by
  unfold allowed
  split
  · simp
  · rfl

lemma upFactor_eq (hU : SmeftUtil U dim4) {n : Str} (hn : n ∈ U.allWcs) (high : ℝ) :
    upFactor U high ((splitUS n).headD []) = (dimFactor high n : ℂ) := by
  unfold upFactor dimFactor isDim6 keysDim5
  simp only [List.mem_singleton]
  split
  · rfl
  · rename_i h
    rw [if_pos (by rw [decide_eq_true (hU.base n hn), decide_eq_false h]; rfl)]
    push_cast; rfl

/-- the arrays after loading: their entries -/
lemma load_ok (hU : SmeftUtil U dim4) (d : Dict Str ℂ) (hd : d.NodupKeys)
    (hk : ∀ n ∈ d.keys, n ∈ U.allWcs) (high : ℝ) :
    ∃ C0 C1, U.wcxf2arrays d = .ok C0 ∧ U.symmetrize (scaleUp U high C0) = .ok C1 ∧
      (fillZeros dim4 U.keysShape C1).NodupKeys ∧ FitsAll U (fillZeros dim4 U.keysShape C1) ∧
      (∀ k ∈ U.wcKeys, k ∈ (fillZeros dim4 U.keysShape C1).keys) ∧
      (∀ k ∈ dim4, k ∈ U.keysShape.keys → (fillZeros dim4 U.keysShape C1).get? k = none) ∧
      (∀ n ∈ U.allWcs, (arrays2wcxf (fillZeros dim4 U.keysShape C1)).get? n =
        some (allowed U n ((d.get? n).getD 0) * (dimFactor high n : ℂ))) := by
  have reg := hU.reg
  obtain ⟨C0, e0, n0, F0, r1, r2⟩ := read_ok reg d hd fun n hn => hU.names n (hk n hn)
  have nS : (scaleUp U high C0).NodupKeys := nodup_map_fun (fun k v => if k ∈ keysDim5 then mulVal (high : ℂ) v
    else if isDim6 U k then mulVal ((high : ℂ) ^ 2) v else v) n0
  have FS : FitsAll U (scaleUp U high C0) := by
    intro k v hv
    rw [get?_scaleUp] at hv
    cases hc : C0.get? k with
    | none => simp [hc] at hv
    | some w =>
      rw [hc] at hv
      simp only [Option.map_some, Option.some.injEq] at hv
      obtain ⟨s, hs, hf⟩ := F0 k w hc
      exact ⟨s, hs, hv ▸ fits_mulVal _ hf⟩
  obtain ⟨C1, e1, n1, k1, F1, g1⟩ := stage_symmG reg nS FS
  obtain ⟨nF, gF⟩ := fillZeros_spec dim4 U.keysShape C1 reg.nodup n1
  have FF : FitsAll U (fillZeros dim4 U.keysShape C1) := by
    intro k v hv
    rw [gF] at hv
    cases hc : C1.get? k with
    | some w => rw [hc] at hv; simp only [Option.some_or, Option.some.injEq] at hv; exact F1 k v (hv ▸ hc)
    | none =>
      rw [hc] at hv
      simp only [Option.none_or] at hv
      split at hv
      · simp at hv
      · cases hs : U.keysShape.get? k with
        | none => rw [hs] at hv; simp at hv
        | some s =>
          rw [hs] at hv
          simp only [Option.map_some, Option.some.injEq] at hv
          exact ⟨s, rfl, hv ▸ fits_zero s⟩
  have present : ∀ k ∈ U.wcKeys, k ∈ (fillZeros dim4 U.keysShape C1).keys := by
    intro k hkw
    rw [← Dict.isSome_get?_iff, gF]
    have hks := reg.wc k hkw
    have h4 : k ∉ dim4 := fun h4 => (hU.split k hks).1 h4 hkw
    obtain ⟨s, hs⟩ := Option.isSome_iff_exists.1 ((Dict.isSome_get?_iff _ _).2 hks)
    rw [if_neg h4, hs]
    cases C1.get? k <;> rfl
  have absent : ∀ k ∈ dim4, k ∈ U.keysShape.keys → (fillZeros dim4 U.keysShape C1).get? k = none := by
    intro k h4 hks
    have hw := (hU.split k hks).1 h4
    obtain ⟨s, hs⟩ := Option.isSome_iff_exists.1 ((Dict.isSome_get?_iff _ _).2 hks)
    have hC0 : C0.get? k = none := by
      cases s with
      | none =>
        rw [r1 k hs]
        cases hg : d.get? k with
        | none => rfl
        | some z =>
          have := hU.base k (hk k ((Dict.isSome_get?_iff _ _).1 (by rw [hg]; rfl)))
          rw [headD_scalar (us_of reg hs)] at this
          exact absurd this hw
      | some s =>
        rcases r2 k s hs with ⟨-, idx, hi, hm⟩ | ⟨h, -⟩
        · have := hU.base _ (hk _ hm)
          rw [headD_wcName (us_of reg hs)] at this
          exact absurd this hw
        · exact h
    rw [gF, if_pos h4, g1, get?_scaleUp, hC0]
    rfl
  refine ⟨C0, C1, e0, e1, nF, FF, present, absent, fun n hn => ?_⟩
  obtain ⟨r, hr⟩ := hU.names n hn
  have hreal : Spec.RealName U n ↔ r :=
    ⟨fun ⟨r', h', hr'⟩ => (name_unique reg h' hr).1 hr', fun h => ⟨r, hr, h⟩⟩
  have hfac := upFactor_eq hU hn high
  rw [← allowed_mul]
  unfold allowed
  rw [hreal]
  cases hr with
  | scalar hs =>
    have hb := headD_scalar (us_of reg hs)
    obtain ⟨hw, h4⟩ := nonRed_base hU hn hs hb
    rw [hb] at hfac
    obtain ⟨c, hK⟩ := keyOK reg hs
    obtain rfl : c = 0 := hK.h0.1 rfl
    rw [get_scalar reg nF FF hs, gF, if_neg h4, hs, g1, get?_scaleUp, r1 n hs]
    cases d.get? n with
    | none => simp [zeroVal, numOf]
    | some z =>
      simp only [Option.map_some, Option.some_or, shapeOf, hs, Option.getD_some, clsOf_eq hK, mulVal, hfac]
      rfl
  | @two k s c i hs hcl hi hnr =>
    have hb := headD_wcName (idx := idx2 i) (us_of reg hs)
    obtain ⟨hw, h4⟩ := nonRed_base hU hn hs hb
    rw [hb] at hfac
    obtain ⟨c', hK⟩ := keyOK reg hs
    obtain rfl := InClass.unique hcl hK.cls
    have hl2 : s.length = 2 := by rw [length_of_inRange hi]; obtain ⟨a, b⟩ := i; rfl
    have hcol : (collect d k s).get (idx2 i) = (d.get? (wcName k (idx2 i))).getD 0 := by simp [collect, hi]
    rw [get_two reg nF FF hs hi, gF, if_neg h4, hs, g1, get?_scaleUp]
    rcases r2 k s hs with ⟨hC, -⟩ | ⟨hC, hz⟩
    · have hft : Spec.Fits (some s) (mulVal (upFactor U high k) (.arr (collect d k s))) := by
        obtain ⟨s', hs', hf⟩ := F0 k _ hC
        rw [hs] at hs'; simp only [Option.some.injEq] at hs'; subst hs'
        exact fits_mulVal _ hf
      rw [hC]
      simp only [Option.map_some, Option.some_or, shapeOf, hs, Option.getD_some, clsOf_eq hK]
      rw [symG_entry2 hK hft hl2 hi hnr]
      simp only [mulVal, ent2, hcol, hfac]
    · rw [hz] at hcol
      rw [hC, ← hcol]
      simp [zeroVal, ent2, zeros]
  | @four k s c i hs hcl hi hnr =>
    have hb := headD_wcName (idx := idx4 i) (us_of reg hs)
    obtain ⟨hw, h4⟩ := nonRed_base hU hn hs hb
    rw [hb] at hfac
    obtain ⟨c', hK⟩ := keyOK reg hs
    obtain rfl := InClass.unique hcl hK.cls
    have hl4 : s.length = 4 := by rw [length_of_inRange hi]; obtain ⟨a, b, c, d⟩ := i; rfl
    have hcol : (collect d k s).get (idx4 i) = (d.get? (wcName k (idx4 i))).getD 0 := by simp [collect, hi]
    rw [get_four reg nF FF hs hi, gF, if_neg h4, hs, g1, get?_scaleUp]
    rcases r2 k s hs with ⟨hC, -⟩ | ⟨hC, hz⟩
    · have hft : Spec.Fits (some s) (mulVal (upFactor U high k) (.arr (collect d k s))) := by
        obtain ⟨s', hs', hf⟩ := F0 k _ hC
        rw [hs] at hs'; simp only [Option.some.injEq] at hs'; subst hs'
        exact fits_mulVal _ hf
      rw [hC]
      simp only [Option.map_some, Option.some_or, shapeOf, hs, Option.getD_some, clsOf_eq hK]
      rw [symG_entry4 hK hft hl4 hi hnr]
      simp only [mulVal, ent4, hcol, hfac]
    · rw [hz] at hcol
      rw [hC, ← hcol]
      simp [zeroVal, ent4, zeros]

end Verif.Dsix
