import Verif.Lemmas.SmeftSim

/-!
# C91: SMEFTsim parameter cards

The card written by `wcxf2smeftsim` stands for the same Wilson coefficients as the WCxf file:
reading `Abs · exp(i Ph) / Λ²` off the card gives the entries of the symmetrized arrays, for
every coefficient SMEFTsim knows, in both model sets and both input schemes.  This fails for
real coefficients of which the code prints the absolute value (diagonal entries of the
Higgs-fermion currents; `ee_3333` in model set A) if they are negative, and for real coefficients
given as a `Re`/`Im` record.
-/

set_option autoImplicit false
set_option linter.unusedSimpArgs false

namespace Verif.Props
open Verif Verif.EFT Verif.EFT.Util Verif.Beta Verif.Bridge Verif.Spec Verif.Reflect Verif.Dsix Verif.SmeftSim Classical

attribute [local irreducible] Gen.rowsA Gen.rowsB

variable {U : Util}

/-! ## positions and labels -/

private theorem lexB_trans : ∀ a b c : List ℕ, lexB a b = true → lexB b c = true → lexB a c = true := by
  intro a
  induction a with
  | nil =>
    intro b c h1 h2
    cases c with
    | nil => cases b <;> simp [lexB] at h2
    | cons => rfl
  | cons x a ih =>
    intro b c h1 h2
    cases b with
    | nil => simp [lexB] at h1
    | cons y b =>
      cases c with
      | nil => simp [lexB] at h2
      | cons z c =>
        simp only [lexB, Bool.or_eq_true, Bool.and_eq_true, Nat.blt_eq, Nat.beq_eq] at h1 h2 ⊢
        rcases h1 with h1 | ⟨rfl, h1⟩ <;> rcases h2 with h2 | ⟨rfl, h2⟩
        · exact .inl (h1.trans h2)
        · exact .inl h1
        · exact .inl h2
        · exact .inr ⟨rfl, ih _ _ h1 h2⟩

private theorem lexB_irrefl : ∀ a : List ℕ, lexB a a = false := by
  intro a
  induction a with
  | nil => rfl
  | cons x a ih =>
    simp only [lexB, ih, Bool.and_false, Bool.or_false]
    cases h : Nat.blt x x with
    | false => rfl
    | true => rw [Nat.blt_eq] at h; omega

private theorem increasing_nodup : ∀ l : List (List ℕ), increasing l = true → l.Nodup ∧ ∀ a ∈ l.head?, ∀ b ∈ l.tail, lexB a b = true := by
  intro l
  induction l with
  | nil => intro _; simp
  | cons a l ih =>
    cases l with
    | nil => intro _; simp
    | cons b l =>
      intro h
      simp only [increasing, Bool.and_eq_true] at h
      obtain ⟨h1, h2⟩ := ih h.2
      have hall : ∀ c ∈ b :: l, lexB a c = true := by
        intro c hc
        rcases List.mem_cons.1 hc with rfl | hc
        · exact h.1
        · exact lexB_trans _ _ _ h.1 (h2 b rfl c hc)
      refine ⟨List.nodup_cons.2 ⟨fun hm => ?_, h1⟩, fun x hx c hc => ?_⟩
      · have := hall a hm
        rw [lexB_irrefl] at this
        cases this
      · simp only [List.head?_cons, Option.mem_def, Option.some.injEq] at hx
        subst hx
        exact hall c hc

/-- No two rows of the card have the same block and indices (MadGraph would use only one of them),
and no two rows have the same label. -/
theorem C91_rows_distinct (U : Util) (wc : WC) (set : ModelSet) (lam : ℝ) (scheme : Scheme) :
    ((cardFill U wc set lam scheme).map fun e => (e.block, e.pos)).Nodup ∧
    ((cardFill U wc set lam scheme).map (·.label)).Nodup := by
  refine ⟨?_, labels_nodup U wc set lam scheme⟩
  have hinc : ((rowsOf set).map place).Nodup := by
    have : increasing ((rowsOf set).map place) = true := by
      cases set with
      | A => exact placesA
      | B => exact placesB
    exact (increasing_nodup _ this).1
  have hlt : ∀ r ∈ rowsOf set, (place r).headD 0 < (blocksOf set).length ∧ place r ≠ [0, 1475] := by
    intro r hr
    have := List.all_eq_true.1 (blocks_lt set) (place r) (List.mem_map.2 ⟨r, hr, rfl⟩)
    simp only [Bool.and_eq_true, Nat.blt_eq, Bool.not_eq_true', beq_eq_false_iff_ne] at this
    exact this
  have hblk : ∀ {b b' : ℕ}, b < (blocksOf set).length → b' < (blocksOf set).length →
      ((blocksOf set).getD b "").toList = ((blocksOf set).getD b' "").toList → b = b' := by
    intro b b' hb hb' e
    have hn := blocks_nodup set
    have h1 : ((blocksOf set).map String.toList)[b]? = some ((blocksOf set).getD b "").toList := by
      rw [List.getElem?_map, List.getElem?_eq_getElem hb, List.getD_eq_getElem?_getD, List.getElem?_eq_getElem hb]; rfl
    have h2 : ((blocksOf set).map String.toList)[b']? = some ((blocksOf set).getD b' "").toList := by
      rw [List.getElem?_map, List.getElem?_eq_getElem hb', List.getD_eq_getElem?_getD, List.getElem?_eq_getElem hb']; rfl
    rw [← e] at h2
    exact (List.getElem?_inj (by simpa using hb) hn).1 (h1.trans h2.symm)
  have hfill : ∀ r, ((fillRow U wc lam (blocksOf set) (stemsOf set) r).block, (fillRow U wc lam (blocksOf set) (stemsOf set) r).pos)
      = (((blocksOf set).getD ((place r).headD 0) "").toList, (place r).tail) := by
    intro r; cases r <;> rfl
  have hpl : ∀ r, place r = (place r).headD 0 :: (place r).tail := by intro r; cases r <;> rfl
  unfold cardFill
  rw [List.map_append, List.map_map]
  refine List.nodup_append.2 ⟨?_, ?_, ?_⟩
  · refine List.Nodup.map_on (fun r hr r' hr' e => ?_) (List.Nodup.of_map _ hinc)
    refine List.inj_on_of_nodup_map hinc hr hr' ?_
    simp only [Function.comp, hfill, Prod.mk.injEq] at e
    rw [hpl r, hpl r', hblk (hlt r hr).1 (hlt r' hr').1 e.1, e.2]
  · split <;> simp
  · intro a ha b hb e
    subst e
    obtain ⟨r, hr, rfl⟩ := List.mem_map.1 ha
    split at hb
    · rename_i hA
      obtain ⟨rfl, -⟩ := hA
      simp only [List.map_cons, List.map_nil, List.mem_singleton, Function.comp, hfill, Prod.mk.injEq] at hb
      rw [mwA] at hb
      have h0 : (0 : ℕ) < (blocksOf .A).length := by decide
      have := hblk (hlt r hr).1 h0 hb.1
      exact (hlt r hr).2 (by rw [hpl r, this, hb.2])
    · simp at hb

/-! ## the coefficients -/

private theorem get_dict (wc : WC) (n : Str) :
    wc.getItem (String.ofList n) = ((toChars wc.dict).get? n).getD 0 := by
  have : (toChars wc.dict).get? n = wc.dict.get? (String.ofList n) := by
    rw [← get?_toChars]; simp
  rw [this]
  unfold WC.getItem
  cases wc.dict.get? (String.ofList n) <;> rfl

private theorem real_name (hS : IsSmeft U) {k : Key} (hk : k ∈ coeffKeys) {fl : List ℕ} {r : Prop} (h : IsEntry k fl r)
    (hr : r) : RealName U (fullName k fl) := by
  cases h with
  | scalar h => exact ⟨True, .scalar (by rw [fullName, if_pos rfl, hS.shape k hk]; simp [shapeK, h]), trivial⟩
  | two i h hn =>
    have hne : idx2 i ≠ [] := by obtain ⟨a, b⟩ := i; simp [idx2]
    rw [fullName, if_neg hne]
    exact ⟨_, .two (by rw [hS.shape k hk, shape_two h]) (hS.cls k hk) (in2 i) hn, hr⟩
  | four i h hn =>
    have hne : idx4 i ≠ [] := by obtain ⟨a, b, c, d⟩ := i; simp [idx4]
    rw [fullName, if_neg hne]
    exact ⟨_, .four (by rw [hS.shape k hk, shape_four h]) (hS.cls k hk) (in4 i) hn, hr⟩

private theorem orbit_label {k : Key} (fl : List ℕ) : labelDigits k fl ∈ orbit (permsOf k) fl := by
  unfold labelDigits
  split
  · rename_i h
    obtain ⟨rfl, hm⟩ := h
    have : ∀ k ∈ [Key.ll, .qq1, .qq3, .uu, .dd, .ee], fullClass k = 4 ∨ fullClass k = 6 := by decide +kernel
    refine .tail .refl ⟨exchL, ?_, rfl⟩
    rcases this k hm with h | h <;> simp [permsOf, h]
  split
  · rename_i h
    obtain ⟨rfl, rfl⟩ := h
    have : fullClass .ee = 6 := by decide +kernel
    exact .tail .refl ⟨fierzL, by simp [permsOf, this], rfl⟩
  · exact .refl

private theorem digits_nil (k : Key) (fl : List ℕ) : labelDigits k fl = [] ↔ fl = [] := by
  unfold labelDigits
  split
  · rename_i h; simp [h.1]
  split
  · rename_i h; simp [h.1]
  · rfl

/-- The property, for a card in which the real coefficients were given as numbers: the card gives
the symmetrized coefficients; of the real ones listed in `unsigned` it gives the modulus.  (The
full property would have the coefficient itself there and no hypothesis `hnum`; both fail, see
below.) -/
theorem C91_card_partial (hS : IsSmeft U) (wc : WC) (hd : wc.values.NodupKeys)
    (hk : ∀ n ∈ wc.values.keys, n.toList ∈ U.allWcs)
    (hnum : ∀ n x y, wc.values.get? n = some (.reim x y) → ¬ RealName U n.toList)
    (set : ModelSet) (scheme : Scheme) (lam : ℝ) (hl : lam ≠ 0) :
    ∃ C, U.wcxf2arraysSymmetrized (toChars wc.dict) = .ok C ∧
      ∀ k ∈ coeffKeys, k ∉ notInSim → ∀ fl r, IsEntry k fl r → ∃ fl' ∈ orbit (permsOf k) fl,
        cardCoeff (cardFill U wc set lam scheme) (simName set k) fl' =
          some (if unsigned set k fl then (‖entryOf C k fl'‖ : ℂ) else entryOf C k fl') := by
  have hkeys : wc.dict.keys = wc.values.keys := by
    unfold WC.dict Dict.keys Dict.mapVal; rw [List.map_map]; rfl
  have hd' : (toChars wc.dict).NodupKeys := nodup_toChars (by unfold Dict.NodupKeys at *; rw [hkeys]; exact hd)
  have hk' : ∀ n ∈ (toChars wc.dict).keys, n ∈ U.allWcs := by
    intro n hn
    obtain ⟨m, hm, rfl⟩ := mem_keys_toChars hn
    exact hk m (hkeys ▸ hm)
  obtain ⟨C, hC, -⟩ := good_read hS _ hd' hk'
  refine ⟨C, hC, fun k hkc hs fl r h => ⟨labelDigits k fl, orbit_label fl, ?_⟩⟩
  rw [entry_sym hS _ hd' hk' hC hkc h]
  have hent := entry_read hS _ hd' hk' hC hkc hs h
  rw [← get_dict wc] at hent
  have hfac : (symmFac U k fl : ℂ) ≠ 0 := by exact_mod_cast symmFac_ne hS hkc fl
  obtain ⟨st, hst, ⟨b, pos, kind, hrow, hkind⟩, hph, hnoph⟩ := rows_of set hkc hs h
  have hname := stem_name set hst
  have hnd := labels_nodup U wc set lam scheme
  have mem : ∀ {r : SmeftSim.Row}, r ∈ rowsOf set → fillRow U wc lam (blocksOf set) (stemsOf set) r ∈ cardFill U wc set lam scheme :=
    fun hr => List.mem_append_left _ (List.mem_map.2 ⟨_, hr, rfl⟩)
  obtain ⟨b0, pos0, hcut⟩ := cutoff_row set
  have r0 : realAt (cardFill U wc set lam scheme) .cutoff = some lam := realAt_mem hnd (mem hcut)
  have hlab : (Label.coef (simName set k) (if labelDigits k fl = [] then .none else .abs) (labelDigits k fl)) =
      .coef ((stemsOf set).getD st "").toList (if fl = [] then .none else .abs) (labelDigits k fl) := by
    rw [hname]; simp only [digits_nil]
  have hlam : (lam : ℂ) ≠ 0 := by exact_mod_cast hl
  -- phase of a real coefficient
  have nophase : r → ¬ hasRow (cardFill U wc set lam scheme) (.coef (simName set k) .ph (labelDigits k fl)) := by
    rintro hr ⟨e, he, hle⟩
    rcases List.mem_append.1 he with he | he
    · obtain ⟨row, hrow', rfl⟩ := List.mem_map.1 he
      cases row with
      | cutoff => simp [fillRow] at hle
      | coef b' pos' kind' k' fl' st' p' dg' =>
        simp only [fillRow, Label.coef.injEq] at hle
        obtain ⟨e1, rfl, rfl⟩ := hle
        have hok := row_ok set hrow'
        simp only [rowOK, Bool.and_eq_true, decide_eq_true_eq] at hok
        obtain rfl := stem_inj set hok.1.1.1.1.1 hst (e1.trans hname.symm)
        exact hnoph hr _ _ _ _ _ hrow'
    · split at he
      · simp only [List.mem_singleton] at he; subst he; simp at hle
      · simp at he
  have typed : r → ¬ isComplexTyped wc (fullName k fl) := by
    rintro hr ⟨x, y, hxy⟩
    exact hnum _ x y hxy (by simpa using real_name hS hkc h hr)
  have hreal : r → entryOf C k fl = ((scaledWc U wc k fl).re : ℂ) := by
    intro hr
    rw [if_pos hr] at hent
    have : entryOf C k fl = ((wc.getItem (String.ofList (fullName k fl))).re : ℂ) / (symmFac U k fl : ℂ) := by
      rw [eq_div_iff hfac, mul_comm]; exact hent
    rw [this, scaledWc, ← Complex.ofReal_natCast (symmFac U k fl), Complex.div_ofReal_re]
    push_cast; rfl
  have hcplx : ¬ r → entryOf C k fl = scaledWc U wc k fl := by
    intro hr
    rw [if_neg hr] at hent
    rw [scaledWc, eq_div_iff hfac, mul_comm]; exact hent
  have himre : r → scaledWc U wc k fl = ((scaledWc U wc k fl).re : ℂ) := by
    intro hr
    have : (wc.getItem (String.ofList (fullName k fl))).im = 0 := by
      unfold WC.getItem WC.dict
      rw [Dict.get?_mapVal]
      cases hv : wc.values.get? (String.ofList (fullName k fl)) with
      | none => rfl
      | some v =>
        cases v with
        | num x => simp [Val.toNumber]
        | reim x y => exact absurd ⟨x, y, hv⟩ (typed hr)
    apply Complex.ext
    · simp
    · rw [Complex.ofReal_im, scaledWc, ← Complex.ofReal_natCast (symmFac U k fl), Complex.div_ofReal_im, this, zero_div]
  unfold cardCoeff
  rw [r0, hlab]
  rcases hkind with ⟨rfl, hr, hu⟩ | ⟨hkd, hcase⟩
  · -- a real coefficient
    have ra : realAt (cardFill U wc set lam scheme)
        (.coef ((stemsOf set).getD st "").toList (if fl = [] then .none else .abs) (labelDigits k fl)) =
        some ((scaledWc U wc k fl).re * lam ^ 2) := by
      refine realAt_mem hnd (b := ((blocksOf set).getD b "").toList) (pos := pos) ?_
      have := mem hrow
      simp only [fillRow, cellOf, if_neg (typed hr)] at this
      exact this
    rw [ra, if_neg (nophase hr), if_neg hu, hreal hr]
    simp only [Option.bind_some, Option.map_some, Option.some.injEq]
    push_cast
    rw [mul_div_assoc, div_self (pow_ne_zero 2 hlam)]
    simp
  · have ra : realAt (cardFill U wc set lam scheme)
        (.coef ((stemsOf set).getD st "").toList (if fl = [] then .none else .abs) (labelDigits k fl)) =
        some (‖scaledWc U wc k fl‖ * lam ^ 2) := by
      refine realAt_mem hnd (b := ((blocksOf set).getD b "").toList) (pos := pos) ?_
      have := mem hrow
      rcases hkd with rfl | rfl
      · exact this
      · simp only [fillRow, cellOf] at this
        rw [norm_mul, norm_pow, Complex.norm_real, Real.norm_eq_abs, sq_abs] at this
        exact this
    rw [ra]
    simp only [Option.bind_some]
    by_cases hr : r
    · have hu : unsigned set k fl := hcase.resolve_left (fun h => h hr)
      rw [if_neg (nophase hr), if_pos hu, hreal hr, ← himre hr]
      refine congrArg some ?_
      push_cast
      rw [mul_div_assoc, div_self (pow_ne_zero 2 hlam)]
      simp
    · obtain ⟨b', pos', hrow'⟩ := hph hr
      have hm := mem hrow'
      have rp : realAt (cardFill U wc set lam scheme) (.coef (simName set k) .ph (labelDigits k fl)) =
          some (scaledWc U wc k fl).arg := by
        rw [← hname]
        exact realAt_mem hnd hm
      have hh : hasRow (cardFill U wc set lam scheme) (.coef (simName set k) .ph (labelDigits k fl)) :=
        ⟨_, hm, by simp only [fillRow, hname]⟩
      have hu : ¬ unsigned set k fl := by
        have hnu : ∀ k ∈ [Key.phil1, .phil3, .phie, .phiq1, .phiq3, .phiu, .phid],
            ∀ fl ∈ [[0, 0], [1, 1], [2, 2]], isReal k fl = true := by decide +kernel
        have hne : isReal .ee [2, 2, 2, 2] = true := by decide +kernel
        rintro (⟨h1, h2⟩ | ⟨-, rfl, rfl⟩)
        · exact hr ((entry_mem h).2.2.1 (hnu k h1 fl h2))
        · exact hr ((entry_mem h).2.2.1 hne)
      rw [if_pos hh, rp, if_neg hu, hcplx hr]
      refine congrArg some ?_
      push_cast
      rw [mul_div_assoc, div_self (pow_ne_zero 2 hlam), mul_one, Complex.norm_mul_exp_arg_mul_I]

/-- In particular the card determines the coefficients: two files with the same card agree in
every coefficient SMEFTsim knows, up to the sign of the `unsigned` ones. -/
theorem C91_determines_partial (hS : IsSmeft U) (wc wc' : WC)
    (hnum : ∀ n x y, wc.values.get? n = some (.reim x y) → ¬ RealName U n.toList)
    (hnum' : ∀ n x y, wc'.values.get? n = some (.reim x y) → ¬ RealName U n.toList)
    (set : ModelSet) (scheme : Scheme) (lam : ℝ) (hl : lam ≠ 0)
    (e : cardFill U wc set lam scheme = cardFill U wc' set lam scheme)
    (k : Key) (hkc : k ∈ coeffKeys) (hs : k ∉ notInSim) (fl : List ℕ) (r : Prop) (h : IsEntry k fl r)
    (hu : ¬ unsigned set k fl) :
    wc.getItem (String.ofList (fullName k fl)) = wc'.getItem (String.ofList (fullName k fl)) := by
  have hkeys : ∀ wc : WC, wc.dict.keys = wc.values.keys := by
    intro wc; unfold WC.dict Dict.keys Dict.mapVal; rw [List.map_map]; rfl
  -- the rows of the coefficient
  obtain ⟨st, hst, ⟨b, pos, kind, hrow, hkind⟩, hph, -⟩ := rows_of set hkc hs h
  have hfac : (symmFac U k fl : ℂ) ≠ 0 := by exact_mod_cast symmFac_ne hS hkc fl
  have cell : ∀ {row : SmeftSim.Row}, row ∈ rowsOf set →
      (fillRow U wc lam (blocksOf set) (stemsOf set) row).cell = (fillRow U wc' lam (blocksOf set) (stemsOf set) row).cell := by
    intro row hr
    have e' := List.append_cancel_right (show (rowsOf set).map _ ++ _ = (rowsOf set).map _ ++ _ from e)
    rw [List.map_inj_left.1 e' row hr]
  have typed : ∀ wc : WC, (∀ n x y, wc.values.get? n = some (.reim x y) → ¬ RealName U n.toList) → r →
      ¬ isComplexTyped wc (fullName k fl) := by
    rintro wc hnum hr ⟨x, y, hxy⟩
    exact hnum _ x y hxy (by simpa using real_name hS hkc h hr)
  have himre : ∀ wc : WC, (∀ n x y, wc.values.get? n = some (.reim x y) → ¬ RealName U n.toList) → r →
      (wc.getItem (String.ofList (fullName k fl))).im = 0 := by
    intro wc hnum hr
    unfold WC.getItem WC.dict
    rw [Dict.get?_mapVal]
    cases hv : wc.values.get? (String.ofList (fullName k fl)) with
    | none => rfl
    | some v =>
      cases v with
      | num x => simp [Val.toNumber]
      | reim x y => exact absurd ⟨x, y, hv⟩ (typed wc hnum hr)
  have hl2 : lam ^ 2 ≠ 0 := pow_ne_zero 2 hl
  suffices hsc : scaledWc U wc k fl = scaledWc U wc' k fl by
    unfold scaledWc at hsc
    exact (div_left_inj' hfac).1 hsc
  rcases hkind with ⟨rfl, hr, -⟩ | ⟨hkd, hcase⟩
  · have hc := cell hrow
    simp only [fillRow, cellOf, if_neg (typed wc hnum hr), if_neg (typed wc' hnum' hr), Cell.real.injEq] at hc
    have hre := mul_right_cancel₀ hl2 hc
    apply Complex.ext hre
    simp only [scaledWc, ← Complex.ofReal_natCast (symmFac U k fl), Complex.div_ofReal_im, himre wc hnum hr, himre wc' hnum' hr]
  · have hr : ¬ r := hcase.resolve_right hu
    obtain ⟨b', pos', hrow'⟩ := hph hr
    have ha := cell hrow'
    have hm := cell hrow
    simp only [fillRow, cellOf, Cell.real.injEq] at ha
    have hn : ‖scaledWc U wc k fl‖ = ‖scaledWc U wc' k fl‖ := by
      rcases hkd with rfl | rfl
      · simp only [fillRow, cellOf, Cell.real.injEq] at hm
        exact mul_right_cancel₀ hl2 hm
      · simp only [fillRow, cellOf, Cell.real.injEq, norm_mul, norm_pow, Complex.norm_real, Real.norm_eq_abs, sq_abs] at hm
        exact mul_right_cancel₀ hl2 hm
    exact Complex.ext_norm_arg hn ha

/-! ## a concrete file, and the violations -/

/-- a file with a real, a complex and a negative real coefficient -/
def simFile (x : ℝ) : WC := ⟨"SMEFT", "Warsaw mass", 1000,
  [("ll_1122", .num 2), ("uphi_12", .reim (some 1) (some 1)), ("phil1_11", .num x)], []⟩

private theorem simFile_ok (x : ℝ) : (simFile x).values.NodupKeys ∧ (∀ n ∈ (simFile x).values.keys, n.toList ∈ smeftUtil.allWcs) ∧
    ∀ n a b, (simFile x).values.get? n = some (.reim a b) → ¬ RealName smeftUtil n.toList := by
  have hm : ∀ n ∈ ["ll_1122", "uphi_12", "phil1_11"], n.toList ∈ smeftUtil.allWcs := by decide +kernel
  refine ⟨by simp [simFile, Dict.NodupKeys, Dict.keys], fun n hn => hm n hn, ?_⟩
  intro n a b h
  have hn : n = "uphi_12" := by
    by_contra hne
    simp only [simFile, Dict.get?] at h
    split at h
    · cases h
    · rw [if_neg (fun h => hne h.symm)] at h
      split at h <;> cases h
  subst hn
  rintro ⟨r, hr, hrr⟩
  have h2 : NonRedName smeftUtil "uphi_12".toList (RealOf2 1 (0, 1)) := by
    have : "uphi_12".toList = wcName (keyName .uphi) (idx2 (0, 1)) := by decide +kernel
    rw [this]
    have hk : Key.uphi ∈ coeffKeys := by decide +kernel
    have hc : fullClass .uphi = 1 := by decide +kernel
    have hr : rankOf .uphi = 2 := by decide +kernel
    refine .two (by rw [smeft_isSmeft.shape _ hk, shape_two hr]) (hc ▸ smeft_isSmeft.cls _ hk) (in2 _) ⟨fun h => ?_, fun h => ?_⟩ <;> cases h
  have := (name_unique smeft_isSmeft.regular hr h2).1 hrr
  simp [RealOf2] at this

/-- the hypotheses of `C91_card_partial` are met by this file, for both signs -/
example (x : ℝ) (set : ModelSet) (scheme : Scheme) :
    ∃ C, smeftUtil.wcxf2arraysSymmetrized (toChars (simFile x).dict) = .ok C ∧
      ∀ k ∈ coeffKeys, k ∉ notInSim → ∀ fl r, IsEntry k fl r → ∃ fl' ∈ orbit (permsOf k) fl,
        cardCoeff (cardFill smeftUtil (simFile x) set 1000 scheme) (simName set k) fl' =
          some (if unsigned set k fl then (‖entryOf C k fl'‖ : ℂ) else entryOf C k fl') :=
  C91_card_partial smeft_isSmeft _ (simFile_ok x).1 (simFile_ok x).2.1 (simFile_ok x).2.2 set scheme 1000 (by norm_num)

private theorem phil1_entry : IsEntry .phil1 [0, 0] (RealOf2 (fullClass .phil1) (0, 0)) :=
  .two (0, 0) (by decide +kernel) (by decide +kernel)

/-- The card of a file with `phil1_11 = -1` stands for `phil1_11 = +1`. -/
theorem C91_sign_violation (set : ModelSet) (scheme : Scheme) :
    ∃ C, smeftUtil.wcxf2arraysSymmetrized (toChars (simFile (-1)).dict) = .ok C ∧ entryOf C .phil1 [0, 0] = -1 ∧
      cardCoeff (cardFill smeftUtil (simFile (-1)) set 1000 scheme) (simName set .phil1) [0, 0] = some 1 := by
  have hk : Key.phil1 ∈ coeffKeys := by decide +kernel
  have hs : Key.phil1 ∉ notInSim := by decide
  obtain ⟨C, hC, hcard⟩ := C91_card_partial smeft_isSmeft _ (simFile_ok (-1)).1 (simFile_ok (-1)).2.1 (simFile_ok (-1)).2.2 set scheme 1000 (by norm_num)
  obtain ⟨fl', hfl, hval⟩ := hcard .phil1 hk hs _ _ phil1_entry
  have hperm : permsOf .phil1 = [] := by decide +kernel
  have : fl' = [0, 0] := by
    rw [hperm] at hfl
    induction hfl with
    | refl => rfl
    | tail _ h _ => obtain ⟨g, hg, -⟩ := h; cases hg
  subst this
  have hent : entryOf C .phil1 [0, 0] = -1 := by
    have hkeys : (simFile (-1)).dict.keys = (simFile (-1)).values.keys := by
      unfold WC.dict Dict.keys Dict.mapVal; rw [List.map_map]; rfl
    have hd' : (toChars (simFile (-1)).dict).NodupKeys :=
      nodup_toChars (by have := (simFile_ok (-1)).1; unfold Dict.NodupKeys at *; rw [hkeys]; exact this)
    have h := entry_read smeft_isSmeft _ hd' (fun n hn => by
      obtain ⟨m, hm, rfl⟩ := mem_keys_toChars hn
      exact (simFile_ok (-1)).2.1 m (hkeys ▸ hm)) hC hk hs phil1_entry
    have hfac : symmFac smeftUtil .phil1 [0, 0] = 1 := by
      refine symmFac_none ?_ _
      rw [C21_scale_factor smeftUtil _ _ (smeft_isSmeft.cls _ hk)]
      have : fullClass .phil1 = 2 := by decide +kernel
      simp [this]
    have hreal : RealOf2 (fullClass .phil1) (0, 0) := by decide +kernel
    rw [hfac, if_pos hreal, ← get_dict] at h
    have hn : String.ofList (fullName .phil1 [0, 0]) = "phil1_11" := by
      have : fullName .phil1 [0, 0] = "phil1_11".toList := by decide +kernel
      rw [this]; simp
    rw [hn] at h
    have hget : (simFile (-1)).getItem "phil1_11" = -1 := by
      simp [WC.getItem, WC.dict, simFile, Dict.mapVal, Dict.get?, Val.toNumber]
    rw [hget] at h
    simpa using h
  refine ⟨C, hC, hent, ?_⟩
  have hu : unsigned set .phil1 [0, 0] := .inl (by decide)
  rw [hval, if_pos hu, hent]
  simp

/-- A real coefficient given as a record `{Re: 1}` is printed as a complex number, so the card has
no number for it. -/
theorem C91_record_violation (set : ModelSet) (scheme : Scheme) :
    cardCoeff (cardFill smeftUtil ⟨"SMEFT", "Warsaw mass", 1000, [("phiBox", .reim (some 1) none)], []⟩ set 1000 scheme)
      (simName set .phiBox) [] = none := by
  have hk : Key.phiBox ∈ coeffKeys := by decide +kernel
  have hs : Key.phiBox ∉ notInSim := by decide
  have h : IsEntry .phiBox [] True := .scalar (by decide +kernel)
  obtain ⟨st, hst, ⟨b, pos, kind, hrow, hkind⟩, -, -⟩ := rows_of set hk hs h
  have hu : ¬ unsigned set .phiBox [] := by simp [unsigned]
  obtain ⟨rfl, -, -⟩ := hkind.resolve_right fun h => h.2.elim (fun h => h trivial) hu
  have hld : labelDigits .phiBox [] = [] := by decide
  rw [hld] at hrow
  generalize hwc : (⟨"SMEFT", "Warsaw mass", 1000, [("phiBox", .reim (some 1) none)], []⟩ : WC) = wc
  have hnd := labels_nodup smeftUtil wc set 1000 scheme
  have hm : fillRow smeftUtil wc 1000 (blocksOf set) (stemsOf set) _ ∈ cardFill smeftUtil wc set 1000 scheme :=
    List.mem_append_left _ (List.mem_map.2 ⟨_, hrow, rfl⟩)
  have hf := find_label hnd hm
  have hn : fullName .phiBox [] = "phiBox".toList := by decide +kernel
  have ht : isComplexTyped wc (fullName .phiBox []) := by
    refine ⟨some 1, none, ?_⟩
    rw [hn, ← hwc]
    simp [Dict.get?]
  have hr : realAt (cardFill smeftUtil wc set 1000 scheme) (.coef (simName set .phiBox) .none []) = none := by
    unfold realAt
    simp only [fillRow, cellOf, if_pos ht, if_true, stem_name set hst] at hf
    rw [hf]
  unfold cardCoeff
  rw [if_pos rfl, hr]
  cases realAt (cardFill smeftUtil wc set 1000 scheme) .cutoff <;> rfl

end Verif.Props
