import Verif.Lemmas.Dsix
import Verif.Props.WCxf
import Verif.Props.Roundtrip

/-!
# C58, C59, C72: DsixTools converter
-/

set_option autoImplicit false
set_option linter.unusedSimpArgs false

namespace Verif.Dsix
open Verif Verif.EFT Verif.EFT.Util Classical

/-! ## C58 -/

/-- Reading a list of rows whose indices are within the shape: every entry is the value of
the last row with its index, entries without a row are zero. -/
theorem C58_lookup (rows : List Row) (shape : List ℕ)
    (h : ∀ r ∈ rows, ∃ ix, inRange shape ix = true ∧ r.1 = oneBased ix) :
    ∃ M, lha2matrix rows shape = .ok M ∧ ∀ ix, inRange shape ix = true →
      (∀ x, LastAt rows (oneBased ix) x → M ix = x) ∧
      ((∀ r ∈ rows, r.1 ≠ oneBased ix) → M ix = 0) := by
  obtain ⟨M, h1, h2⟩ := lha_fold rows (fun _ => 0) h
  refine ⟨M, h1, fun ix hix => ⟨fun x hx => ?_, fun hn => ?_⟩⟩
  · rw [h2 ix hix, lastVal_last hx]
  · rw [h2 ix hix, lastVal_none hn]

/-- Writing a tensor of any shape and reading it back restores every entry. -/
theorem C58_roundtrip (shape : List ℕ) (M : List ℕ → ℝ) :
    ∃ M', lha2matrix (matrix2lha shape M) shape = .ok M' ∧
      ∀ ix, inRange shape ix = true → M' ix = M ix := by
  obtain ⟨M', h1, h2⟩ := C58_lookup (matrix2lha shape M) shape (by
    intro r hr
    obtain ⟨ix, hix, rfl⟩ := List.mem_map.1 hr
    exact ⟨ix, mem_indices.1 hix, rfl⟩)
  refine ⟨M', h1, fun ix hix => (h2 ix hix).1 _ ?_⟩
  obtain ⟨pre, post, e⟩ := List.append_of_mem (mem_indices.2 hix)
  refine ⟨pre.map fun i => (oneBased i, M i), post.map fun i => (oneBased i, M i), ?_, ?_⟩
  · unfold matrix2lha
    rw [e, List.map_append, List.map_cons]
    rfl
  · intro r hr
    obtain ⟨i, hi, rfl⟩ := List.mem_map.1 hr
    have hnd := nodup_indices shape
    rw [e, List.nodup_append] at hnd
    intro hh
    have := oneBased_inj hh
    subst this
    exact (List.nodup_cons.1 hnd.2.1).1 hi

/-- Every entry is written exactly once, with its 1-based index, in row-major order. -/
theorem C58_rows (shape : List ℕ) (M : List ℕ → ℝ) :
    ((matrix2lha shape M).map Prod.fst).Nodup ∧
    (∀ ix, inRange shape ix = true → (oneBased ix, M ix) ∈ matrix2lha shape M) ∧
    (∀ r ∈ matrix2lha shape M, ∃ ix, inRange shape ix = true ∧ r = (oneBased ix, M ix)) ∧
    (matrix2lha shape M).length = shape.prod := by
  refine ⟨?_, fun ix hix => List.mem_map.2 ⟨ix, mem_indices.2 hix, rfl⟩, fun r hr => ?_, ?_⟩
  · unfold matrix2lha
    rw [List.map_map]
    exact (nodup_indices shape).map (fun a b e => oneBased_inj e)
  · obtain ⟨ix, hix, rfl⟩ := List.mem_map.1 hr
    exact ⟨ix, mem_indices.1 hix, rfl⟩
  · unfold matrix2lha; rw [List.length_map, length_indices]

/-- An index beyond the shape, or more indices than dimensions, is rejected. -/
theorem C58_rejects (shape : List ℕ) (pre post : List Row) (i : List ℤ) (x : ℝ)
    (hpre : ∀ r ∈ pre, ∃ ix, inRange shape ix = true ∧ r.1 = oneBased ix)
    (hi : shape.length < i.length ∨ ∃ (n : ℕ) (h : n < i.length) (h' : n < shape.length), (shape[n] : ℤ) < i[n]) :
    lha2matrix (pre ++ (i, x) :: post) shape = .error .indexError := by
  have key : ∀ (s : List ℕ) (i : List ℤ),
      (s.length < i.length ∨ ∃ (n : ℕ) (h : n < i.length) (h' : n < s.length), (s[n] : ℤ) < i[n]) →
      npIndex s (i.map fun i => i - 1) = none := by
    intro s
    induction s with
    | nil =>
      intro i hi
      cases i with
      | nil => rcases hi with h | ⟨n, h, -⟩ <;> simp at h
      | cons j js => rfl
    | cons m s ih =>
      intro i hi
      cases i with
      | nil => rcases hi with h | ⟨n, h, -⟩ <;> simp at h
      | cons j js =>
        simp only [List.map_cons, npIndex]
        by_cases hj : (m : ℤ) < j
        · have : npPos m (j - 1) = none := by
            unfold npPos
            rw [if_neg (by omega), if_neg (by omega)]
          rw [this]
        · have := ih js (by
            rcases hi with h | ⟨n, h, h', hl⟩
            · left; simpa using h
            · cases n with
              | zero => exact absurd hl hj
              | succ n => exact .inr ⟨n, by simpa using h, by simpa using h', by simpa using hl⟩)
          rw [this]
          cases npPos m (j - 1) <;> rfl
  obtain ⟨M, h1, -⟩ := lha_fold pre (fun _ => 0) hpre
  unfold lha2matrix
  rw [List.foldlM_append, h1]
  show List.foldlM (lhaStep shape) M ((i, x) :: post) = _
  rw [List.foldlM_cons]
  have : lhaStep shape M (i, x) = .error .indexError := by
    unfold lhaStep
    simp only [key shape i hi]
  rw [this]
  rfl

/-- Indices are not checked from below: the index 0 is accepted and addresses the last row
or column, e.g. `[0, 1, 5]` sets the (3,1) entry. -/
theorem C58_zero_index_violation :
    ∃ M, lha2matrix [([0, 1], 5)] [3, 3] = .ok M ∧ M [2, 0] = 5 := by
  refine ⟨fun ix => if [2, 0] <+: ix then 5 else 0, ?_, if_pos (List.prefix_refl _)⟩
  have : npIndex [3, 3] ([0, 1].map fun i : ℤ => i - 1) = some [2, 0] := by decide
  simp only [lha2matrix, List.foldlM_cons, List.foldlM_nil, lhaStep, this]
  rfl

/-- a concrete case: two rows for the same entry of a 3x3 matrix, one for another -/
example : (∀ r ∈ ([([1, 2], 1), ([3, 3], 2), ([1, 2], 4)] : List Row),
    ∃ ix, inRange [3, 3] ix = true ∧ r.1 = oneBased ix) ∧
    LastAt [([1, 2], 1), ([3, 3], 2), ([1, 2], 4)] (oneBased [0, 1]) 4 := by
  constructor
  · intro r hr
    simp only [List.mem_cons, List.not_mem_nil, or_false] at hr
    rcases hr with rfl | rfl | rfl
    · exact ⟨[0, 1], by decide, by decide⟩
    · exact ⟨[2, 2], by decide, by decide⟩
    · exact ⟨[0, 1], by decide, by decide⟩
  · exact ⟨[([1, 2], 1), ([3, 3], 2)], [], rfl, by simp⟩

/-! ## C59 -/

variable {U : Util} {dim4 : List Str}

/-- the high scale in use: the argument, else the one set before, else that of the WC -/
noncomputable def highScale (io : IO) (wc : WC) (arg : Option ℝ) : ℝ :=
  (arg.or io.scaleHigh).getD wc.scale

/-- Loading a Warsaw-basis `WC` object, into a fresh or an already used object: it succeeds;
afterwards *every* coefficient of the basis is stored, multiplied by the high scale to the
power of the operator dimension minus four (zero if it was not given, the real part if it has
to be real); exporting divides by the same factors and returns exactly the given non-zero
coefficients, for every non-zero high scale. -/
theorem C59_roundtrip (hU : SmeftUtil U dim4) (io : IO) (arg : Option ℝ) (wc : WC)
    (heft : wc.eft = "SMEFT") (hbasis : wc.basis = "Warsaw") (hd : wc.dict.NodupKeys)
    (hk : ∀ n ∈ wc.dict.keys, n.toList ∈ U.allWcs)
    (hio : ∀ C, io.cIn = some C → C.NodupKeys ∧
      ∀ k v, C.get? k = some v → ∃ s, U.keysShape.get? k = some s ∧ Spec.Fits s v)
    (hhigh : highScale io wc arg ≠ 0) (scaleOut : ℝ) :
    ∃ io' C, setInitialWcxf U dim4 io wc arg = .ok io' ∧ io'.cIn = some C ∧
      io'.scaleIn = some wc.scale ∧ io'.scaleHigh = some (highScale io wc arg) ∧
      (∀ n : String, n.toList ∈ U.allWcs → (arrays2wcxf C).get? n.toList =
        some (allowed U n.toList (wc.getItem n) * (dimFactor (highScale io wc arg) n.toList : ℂ))) ∧
      (∀ C0, io.cIn = some C0 → ∀ k ∈ dim4, k ∈ U.keysShape.keys → C.get? k = C0.get? k) ∧
      (let out := getWcxf U (highScale io wc arg) C scaleOut
       out.eft = "SMEFT" ∧ out.basis = "Warsaw" ∧ out.scale = scaleOut ∧
       ∀ n, out.dict.get? n =
        ((wc.dict.get? n).map (allowed U n.toList)).filter fun z => decide (z ≠ 0)) := by
  obtain ⟨C0, C1, e0, e1, nF, FF, pF, aF, vF⟩ := load_ok hU (toChars wc.dict) (nodup_toChars hd)
    (fun n hn => by obtain ⟨m, hm, rfl⟩ := mem_keys_toChars hn; exact hk m hm) (highScale io wc arg)
  obtain ⟨F, hF⟩ : ∃ F, F = fillZeros dim4 U.keysShape C1 := ⟨_, rfl⟩
  rw [← hF] at nF FF pF aF vF
  obtain ⟨C, hC⟩ : ∃ C, C = (match io.cIn with
    | none => F
    | some C0 => C0.update F) := ⟨_, rfl⟩
  have hset : setInitialWcxf U dim4 io wc arg = .ok ⟨some C, some wc.scale, some (highScale io wc arg)⟩ := by
    unfold setInitialWcxf
    rw [if_neg (by simp [heft]), if_neg (by simp [hbasis])]
    simp only [e0, liftErr, bind, Except.bind]
    have e1' : U.symmetrize (scaleUp U ((arg.or io.scaleHigh).getD wc.scale) C0) = .ok C1 := e1
    simp only [e1', ← hF]
    rw [hC]
    rfl
  have gC : ∀ k, C.get? k = (F.get? k).or (match io.cIn with
      | none => none
      | some C0 => C0.get? k) := by
    intro k
    rw [hC]
    cases io.cIn with
    | none => cases F.get? k <;> rfl
    | some C0 => exact Dict.get?_update _ _ nF k
  have nC : C.NodupKeys := by
    rw [hC]
    cases h : io.cIn with
    | none => exact nF
    | some C0 => exact Dict.nodupKeys_update _ _ (hio C0 h).1
  have FC : FitsAll U C := by
    intro k v hv
    rw [gC] at hv
    cases hc : F.get? k with
    | some w => rw [hc] at hv; simp only [Option.some_or, Option.some.injEq] at hv; exact FF k v (hv ▸ hc)
    | none =>
      rw [hc] at hv
      simp only [Option.none_or] at hv
      cases h : io.cIn with
      | none => rw [h] at hv; simp at hv
      | some C0 => rw [h] at hv; exact (hio C0 h).2 k v hv
  -- the values of the coefficients of the basis are those just loaded
  have same : ∀ n ∈ U.allWcs, (arrays2wcxf C).get? n = (arrays2wcxf F).get? n := by
    intro n hn
    have hw := hU.base n hn
    obtain ⟨v, hv⟩ := Option.isSome_iff_exists.1 ((Dict.isSome_get?_iff _ _).2 (pF _ hw))
    have hCk : C.get? ((splitUS n).headD []) = F.get? ((splitUS n).headD []) := by
      rw [gC, hv]; rfl
    obtain ⟨r, hr⟩ := hU.names n hn
    cases hr with
    | scalar hs =>
      rw [headD_scalar (us_of hU.reg hs)] at hCk
      rw [get_scalar hU.reg nC FC hs, get_scalar hU.reg nF FF hs, hCk]
    | two hs hcl hi =>
      rw [headD_wcName (us_of hU.reg hs)] at hCk
      rw [get_two hU.reg nC FC hs hi, get_two hU.reg nF FF hs hi, hCk]
    | four hs hcl hi =>
      rw [headD_wcName (us_of hU.reg hs)] at hCk
      rw [get_four hU.reg nC FC hs hi, get_four hU.reg nF FF hs hi, hCk]
  have val : ∀ n : String, n.toList ∈ U.allWcs → (arrays2wcxf C).get? n.toList =
      some (allowed U n.toList (wc.getItem n) * (dimFactor (highScale io wc arg) n.toList : ℂ)) := by
    intro n hn
    rw [same _ hn, vF _ hn, get?_toChars]
    congr 3
    unfold WC.getItem
    cases wc.dict.get? n <;> rfl
  refine ⟨_, C, hset, rfl, rfl, rfl, val, ?_, rfl, rfl, rfl, fun n => ?_⟩
  · intro C0' h0 k hk4 hks
    rw [gC, h0]
    rw [aF k hk4 hks]; rfl
  · have hout : (getWcxf U (highScale io wc arg) C scaleOut).dict.get? n =
        (((arrays2wcxf C).get? n.toList).filter fun v => decide (n.toList ∈ U.allWcs) && decide (v ≠ 0)).map
          fun z => z / upFactor U (highScale io wc arg) ((splitUS n.toList).headD []) := by
      show (Dict.mapVal Val.toNumber (dict2values (ofChars _))).get? n = _
      unfold dict2values
      simp only [Dict.get?_mapVal, get?_ofChars, get?_scaleDown, Option.map_map]
      rw [Dict.get?_filterKV _ _ (nodup_arrays2wcxf (goodArrays_of hU.reg nC FC))]
      congr 1
      funext z
      exact toNumber_ofNumber _
    show (getWcxf U (highScale io wc arg) C scaleOut).dict.get? n = _
    rw [hout]
    by_cases hn : n.toList ∈ U.allWcs
    · rw [val n hn, upFactor_eq hU hn]
      have hne : (dimFactor (highScale io wc arg) n.toList : ℂ) ≠ 0 := by
        unfold dimFactor
        split
        · exact_mod_cast hhigh
        · exact_mod_cast pow_ne_zero 2 hhigh
      have hget : wc.getItem n = (wc.dict.get? n).getD 0 := by
        unfold WC.getItem
        cases wc.dict.get? n <;> rfl
      rw [hget]
      have h00 : allowed U n.toList 0 = 0 := by unfold allowed; split <;> simp
      cases wc.dict.get? n with
      | none => simp [Option.filter, h00]
      | some z =>
        by_cases h0 : allowed U n.toList z = 0
        · simp [Option.filter, h0]
        · simp [Option.filter, hn, h0, hne]
    · have : wc.dict.get? n = none := (Dict.get?_eq_none_iff _ _).2 fun h => hn (hk n h)
      rw [this]
      cases (arrays2wcxf C).get? n.toList <;> simp [Option.filter, hn]

/-- A `WC` object of another EFT or another basis is rejected, whatever the state. -/
theorem C59_rejects (io : IO) (arg : Option ℝ) (wc : WC)
    (h : wc.eft ≠ "SMEFT" ∨ wc.basis ≠ "Warsaw") :
    setInitialWcxf U dim4 io wc arg = .error .valueError := by
  unfold setInitialWcxf
  by_cases h1 : wc.eft = "SMEFT"
  · rw [if_neg (by simp [h1]), if_pos (by simpa [h1] using h)]
  · rw [if_pos h1]

/-- a concrete case: the helper object of `Props/Roundtrip` with a dimension-4 parameter `g` -/
theorem exU_smeft : SmeftUtil Props.exU ["g".toList] where
  reg := Props.exU_regular
  names := Props.exU_names
  base := by decide
  split := by decide

/-- `g` was set before, then two coefficients are loaded with a high scale of 1000 -/
example : ∃ io' C, setInitialWcxf Props.exU ["g".toList]
        ⟨some [("g".toList, .num ((1 / 2 : ℝ) : ℂ))], none, some 1000⟩
        { eft := "SMEFT", basis := "Warsaw", scale := 500,
          values := [("phiu_12", .reim (some 1) (some 2)), ("G", .num 3)] } none = .ok io' ∧
      io'.cIn = some C ∧ io'.scaleHigh = some 1000 ∧
      C.get? "g".toList = some (.num ((1 / 2 : ℝ) : ℂ)) ∧
      (arrays2wcxf C).get? "G".toList = some (3 * 1000 ^ 2) := by
  obtain ⟨io', C, h1, h2, -, h4, h5, h6, -⟩ := C59_roundtrip exU_smeft
    ⟨some [("g".toList, .num ((1 / 2 : ℝ) : ℂ))], none, some 1000⟩ none
    { eft := "SMEFT", basis := "Warsaw", scale := 500,
      values := [("phiu_12", .reim (some 1) (some 2)), ("G", .num 3)] } rfl rfl
    (by simp [Dict.NodupKeys, Dict.keys, WC.dict, Dict.mapVal])
    (by intro n hn
        simp only [WC.dict, Dict.mapVal, Dict.keys, List.map_cons, List.map_nil, List.mem_cons,
          List.not_mem_nil, or_false] at hn
        rcases hn with rfl | rfl <;> decide)
    (by rintro C ⟨⟩
        refine ⟨by simp [Dict.NodupKeys, Dict.keys], fun k v hv => ⟨none, ?_⟩⟩
        have := Dict.mem_of_get? hv
        simp only [List.mem_cons, Prod.mk.injEq, List.not_mem_nil, or_false] at this
        obtain ⟨rfl, rfl⟩ := this
        exact ⟨by decide, trivial⟩)
    (by simp [highScale]) 500
  refine ⟨io', C, h1, h2, h4, ?_, ?_⟩
  · rw [h6 _ rfl _ (by simp) (by decide)]; rfl
  · rw [h5 "G" (by decide)]
    have hr : Spec.RealName Props.exU "G".toList := ⟨True, .scalar (by decide), trivial⟩
    have hv : ∀ w : WC, w.values = [("phiu_12", .reim (some 1) (some 2)), ("G", .num 3)] →
        w.getItem "G" = 3 := by
      intro w hw
      simp [WC.getItem, WC.dict, hw, Dict.mapVal, Dict.get?, Val.toNumber]
    rw [hv _ rfl]
    have hs : (splitUS "G".toList).headD [] ≠ "llphiphi".toList := by decide
    simp only [allowed, if_pos hr, dimFactor, if_neg hs, highScale]
    simp

end Verif.Dsix
