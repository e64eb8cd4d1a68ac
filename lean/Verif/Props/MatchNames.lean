import Verif.Props.MatchLinear
import Verif.Props.MatchLoopPhase
import Verif.Props.MatchLoopCP
import Verif.Props.MatchAll
import Verif.Lemmas.WetScale

/-!
# Properties C30, C88, C89 and C90 for the named coefficients given to and returned by the matcher
-/

set_option autoImplicit false
set_option linter.unusedSimpArgs false

namespace Verif.Loop
open Verif Verif.Spec Verif.Tens Verif.Beta Verif.Rotation Verif.Match Verif.Flavour Verif.TranslateSmeft
open Verif.EFT Verif.EFT.Util Verif.Bridge
open Verif.WetRun (ok_bind)

/-! ### Specification -/

/-- every coefficient has `a` times the value in the first plus `b` times the value in the
second dictionary (coefficients not listed vanish) -/
def Sum (a b : ℝ) (d d₁ d₂ : Dict Str ℂ) : Prop := ∀ n,
  (d.get? n).getD 0 = a * (d₁.get? n).getD 0 + b * (d₂.get? n).getD 0

/-- the names of the Warsaw coefficients modifying the relations between the inputs `GF`,
`m_W`, `alpha_e` and the Lagrangian parameters -/
def shiftNames : List Str :=
  ["ll_1221", "ll_2112", "phil3_11", "phil3_22", "phiWB", "phiD"].map String.toList

/-- the WCxf name of an entry: the name of the operator, an underscore and the generations
counted from one -/
def wetName (k : WKey) (ix : Ix) : Str :=
  if ix = [] then wkeyName k else wcName (wkeyName k) (ix.map Fin.val)

/-- the WCxf name of an entry of a Warsaw coefficient -/
def smeftName (k : Key) (ix : Ix) : Str :=
  if ix = [] then keyName k else wcName (keyName k) (ix.map Fin.val)

/-- the factor by which WCxf counts an entry: how often it appears in the sum over flavours
(table `_scale_dict`) -/
noncomputable def multiplicity (k : WKey) (ix : Ix) : ℂ :=
  match Jms.scaleDict (wkeyName k), ix with
  | some (.four d), [i, j, l, m] => d (i, j, l, m)
  | _, _ => 1

/-- the coefficients of the CP-odd bosonic operators -/
def oddNames : List Str :=
  ["Gtilde", "Wtilde", "phiGtilde", "phiBtilde", "phiWtilde", "phiWtildeB"].map String.toList

/-- the coefficients of the CP-conjugate Lagrangian: complex conjugates, with the opposite sign for
the CP-odd bosonic operators -/
def CpConjugate (d d' : Dict Str ℂ) : Prop := ∀ n,
  (d'.get? n).getD 0 = (if n ∈ oddNames then -1 else 1) * (starRingEnd ℂ) ((d.get? n).getD 0)

/-! ### Reading the coefficients is linear -/

section
variable {ι : Type} [DecidableEq ι]

theorem evalLF_lin {a b : ℝ} {x x₁ x₂ : ι → ℂ} (h : ∀ i, x i = a * x₁ i + b * x₂ i) (l : Reflect.LF ι) :
    Reflect.evalLF x l = a * Reflect.evalLF x₁ l + b * Reflect.evalLF x₂ l := by
  induction l with
  | nil => simp
  | cons t l ih =>
    rw [Reflect.evalLF_cons, Reflect.evalLF_cons, Reflect.evalLF_cons, ih]
    have : Reflect.slotVal x t.2 = a * Reflect.slotVal x₁ t.2 + b * Reflect.slotVal x₂ t.2 := by
      unfold Reflect.slotVal
      rw [h]
      split <;> simp
    rw [this]
    ring

theorem run_lin (p : List (Instr ι)) {a b : ℝ} {x x₁ x₂ : ι → ℂ}
    (h : ∀ i, x i = a * x₁ i + b * x₂ i) (i : ι) :
    runProg p x i = a * runProg p x₁ i + b * runProg p x₂ i := by
  rw [Reflect.symRun_sound, Reflect.symRun_sound, Reflect.symRun_sound]
  apply Complex.ext <;> simp [Reflect.evalSV, evalLF_lin h]

end

/-- the array is the combination of the two others -/
def Lin (a b : ℝ) (A A₁ A₂ : NDArr) : Prop := ∀ idx, A.get idx = a * A₁.get idx + b * A₂.get idx

theorem cut_lin {a b : ℝ} {A A₁ A₂ : NDArr} (h : Lin a b A A₁ A₂) (l : List ℕ) (ix : Ix) :
    toTen (cutF (some l) (.arr A)) ix =
      a * toTen (cutF (some l) (.arr A₁)) ix + b * toTen (cutF (some l) (.arr A₂)) ix := by
  show (NDArr.ofFn l A.get).get _ = a * (NDArr.ofFn l A₁.get).get _ + b * (NDArr.ofFn l A₂.get).get _
  unfold NDArr.ofFn
  simp only
  split
  · exact h _
  · simp

/-- real-linear operations on arrays -/
def LinOp {ι : Type} (f : (ι → ℂ) → ι → ℂ) : Prop := ∀ (a b : ℝ) (x x₁ x₂ : ι → ℂ),
  (∀ i, x i = a * x₁ i + b * x₂ i) → ∀ i, f x i = a * f x₁ i + b * f x₂ i

theorem op4_lin {f : (I4 → ℂ) → I4 → ℂ} (hf : LinOp f) {a b : ℝ} {A A₁ A₂ : NDArr} (h : Lin a b A A₁ A₂)
    (l : List ℕ) (ix : Ix) : toTen (cutF (some l) (op4 f (.arr A))) ix =
      a * toTen (cutF (some l) (op4 f (.arr A₁))) ix + b * toTen (cutF (some l) (op4 f (.arr A₂))) ix := by
  refine cut_lin (fun idx => ?_) l ix
  show (match idx with | [i, j, k, l] => _ | _ => _) = (a : ℂ) * (match idx with | [i, j, k, l] => _ | _ => _) +
    b * (match idx with | [i, j, k, l] => _ | _ => _)
  split
  · split
    · exact hf a b _ _ _ (fun m => h _) _
    · simp
  · simp

theorem op2_lin {f : (I2 → ℂ) → I2 → ℂ} (hf : LinOp f) {a b : ℝ} {A A₁ A₂ : NDArr} (h : Lin a b A A₁ A₂)
    (l : List ℕ) (ix : Ix) : toTen (cutF (some l) (op2 f (.arr A))) ix =
      a * toTen (cutF (some l) (op2 f (.arr A₁))) ix + b * toTen (cutF (some l) (op2 f (.arr A₂))) ix := by
  refine cut_lin (fun idx => ?_) l ix
  show (match idx with | [i, j] => _ | _ => _) = (a : ℂ) * (match idx with | [i, j] => _ | _ => _) +
    b * (match idx with | [i, j] => _ | _ => _)
  split
  · split
    · exact hf a b _ _ _ (fun m => h _) _
    · simp
  · simp

theorem lin_div (p : List (Instr I4)) (d : I4 → ℕ) : LinOp fun x i => runProg p x i / (d i : ℂ) := by
  intro a b x x₁ x₂ h i
  simp only
  rw [run_lin p h]
  ring

theorem read_lin {U : Util} {a b : ℝ} {d d₁ d₂ : Dict Str ℂ} (h : Sum a b d d₁ d₂) {k : Str} {s : Shape} {c : ℕ}
    (hk : KeyOK U k s c) (ix : Ix) :
    toTen (cutF s (symF c (padF (given d k s)))) ix =
      a * toTen (cutF s (symF c (padF (given d₁ k s)))) ix + b * toTen (cutF s (symF c (padF (given d₂ k s)))) ix := by
  obtain ⟨-, hc, -, h0, hl, -⟩ := hk
  cases s with
  | none =>
    have : c = 0 := h0.1 rfl
    subst this
    show ((((d.get? k).getD 0).re : ℝ) : ℂ) = a * ((((d₁.get? k).getD 0).re : ℝ) : ℂ) + b * ((((d₂.get? k).getD 0).re : ℝ) : ℂ)
    rw [h]
    simp
  | some l =>
    have hr := (hl l rfl).1
    have hg : Lin a b ⟨List.replicate l.length 3, (collect d k l).get⟩ ⟨List.replicate l.length 3, (collect d₁ k l).get⟩
        ⟨List.replicate l.length 3, (collect d₂ k l).get⟩ := by
      intro idx
      simp only [collect]
      split
      · exact h _
      · simp
    have h00 : (0 : ℕ) ≠ c := fun e => by simpa using h0.2 e.symm
    have run : ∀ {ι : Type} [DecidableEq ι] (p : List (Instr ι)), LinOp (runProg p) :=
      fun p a b x x₁ x₂ h i => run_lin p h i
    simp only [classIds, List.mem_cons, List.not_mem_nil, or_false] at hc
    rcases hc with rfl | rfl | rfl | rfl | rfl | rfl | rfl | rfl | rfl | rfl | rfl | rfl
    · exact absurd rfl h00
    · exact cut_lin hg l ix
    · exact op2_lin (run Gen.symmetrize_2) hg l ix
    · exact cut_lin hg l ix
    · exact op4_lin (lin_div Gen.symmetrize_4 d4) hg l ix
    · exact op4_lin (lin_div Gen.symmetrize_41 d4) hg l ix
    · exact op4_lin (run Gen.symmetrize_5) hg l ix
    · exact op4_lin (lin_div Gen.symmetrize_6 d6) hg l ix
    · exact op4_lin (lin_div Gen.symmetrize_7 d7) hg l ix
    · exact op4_lin (lin_div Gen.symmetrize_71 d7) hg l ix
    · exact op4_lin (f := fun b => runProg Gen.symmetrize_8 (runProg Gen.scale_8 b))
        (fun a b x x₁ x₂ h i => run_lin _ (run_lin _ h) i) hg l ix
    · exact op2_lin (run Gen.symmetrize_9) hg l ix

/-- the arrays read from a dictionary of coefficients -/
theorem read_get {U : Util} (hS : IsSmeft U) (d : Dict Str ℂ) (hd : d.NodupKeys) (hk : ∀ n ∈ d.keys, n ∈ U.allWcs) :
    ∃ C, U.wcxf2arraysSymmetrized d = .ok C ∧ (∀ k, k ∉ coeffKeys → (typed C).get? k = none) ∧
      ∀ k ∈ coeffKeys, (typed C).get? k =
        some (toTen (cutF (shapeK k) (symF (fullClass k) (padF (given d (keyName k) (shapeK k)))))) := by
  obtain ⟨C, e, -, -, hno, hyes⟩ := readSym hS.regular hS.complete d hd hk
  refine ⟨C, e, fun k hk => ?_, fun k hk => ?_⟩
  · rw [get?_typed]
    split
    · rw [hno _ fun h' => ?_]
      · rfl
      · obtain ⟨k', hk', e⟩ := (hS.wc _).1 h'
        exact hk (keyName_inj e ▸ hk')
    · rfl
  · rw [get?_typed, if_pos ((coeff_iff k).1 hk).1, hyes _ ((hS.wc _).2 ⟨k, hk, rfl⟩) _ _ (keyOK_of hS hk)]
    rfl

theorem read_comb {U : Util} (hS : IsSmeft U) {a b : ℝ} {d d₁ d₂ : Dict Str ℂ} (h : Sum a b d d₁ d₂)
    (hd : d.NodupKeys) (hd₁ : d₁.NodupKeys) (hd₂ : d₂.NodupKeys) (hk : ∀ n ∈ d.keys, n ∈ U.allWcs)
    (hk₁ : ∀ n ∈ d₁.keys, n ∈ U.allWcs) (hk₂ : ∀ n ∈ d₂.keys, n ∈ U.allWcs) {C C₁ C₂ : Dict Str AVal}
    (e : U.wcxf2arraysSymmetrized d = .ok C) (e₁ : U.wcxf2arraysSymmetrized d₁ = .ok C₁)
    (e₂ : U.wcxf2arraysSymmetrized d₂ = .ok C₂) : Combination a b (typed C) (typed C₁) (typed C₂) := by
  obtain ⟨_, x, n, y⟩ := read_get hS d hd hk
  obtain rfl := Except.ok.inj (x.symm.trans e)
  obtain ⟨_, x, n₁, y₁⟩ := read_get hS d₁ hd₁ hk₁
  obtain rfl := Except.ok.inj (x.symm.trans e₁)
  obtain ⟨_, x, n₂, y₂⟩ := read_get hS d₂ hd₂ hk₂
  obtain rfl := Except.ok.inj (x.symm.trans e₂)
  intro k
  by_cases hc : k ∈ coeffKeys
  · refine Or.inr ⟨_, _, y₁ k hc, y₂ k hc, ?_⟩
    rw [y k hc]
    congr 1
    funext ix
    exact read_lin h (keyOK_of hS hc) ix
  · exact Or.inl ⟨n k hc, n₁ k hc, n₂ k hc⟩

/-! ### No shift of the inputs -/

theorem evalLF_slots {ι : Type} [DecidableEq ι] (x : ι → ℂ) (l : Reflect.LF ι) (h : ∀ t ∈ l, x t.2.1 = 0) : Reflect.evalLF x l = 0 := by
  induction l with
  | nil => rfl
  | cons t l ih =>
    rw [Reflect.evalLF_cons, ih fun t ht => h t (by simp [ht])]
    unfold Reflect.slotVal
    rw [h t (by simp)]
    simp

theorem run_slots {ι : Type} [DecidableEq ι] (p : List (Instr ι)) (x : ι → ℂ) (i : ι) (S : List ι)
    (hS : ∀ t ∈ (Reflect.look (Reflect.symRun p) i).1 ++ (Reflect.look (Reflect.symRun p) i).2, t.2.1 ∈ S)
    (h : ∀ j ∈ S, x j = 0) : runProg p x i = 0 := by
  rw [Reflect.symRun_sound]
  apply Complex.ext
  · exact evalLF_slots _ _ fun t ht => h _ (hS t (List.mem_append_left _ ht))
  · exact evalLF_slots _ _ fun t ht => h _ (hS t (List.mem_append_right _ ht))

theorem slots_ll : ∀ i ∈ [((1, 0, 0, 1) : I4), (0, 1, 1, 0)],
    ∀ t ∈ (Reflect.look (Reflect.symRun Gen.symmetrize_4) i).1 ++ (Reflect.look (Reflect.symRun Gen.symmetrize_4) i).2,
      t.2.1 ∈ [((1, 0, 0, 1) : I4), (0, 1, 1, 0)] := by decide +kernel

theorem slots_phil3 : ∀ i ∈ [((0, 0) : I2), (1, 1)],
    ∀ t ∈ (Reflect.look (Reflect.symRun Gen.symmetrize_2) i).1 ++ (Reflect.look (Reflect.symRun Gen.symmetrize_2) i).2,
      t.2.1 ∈ [i] := by decide +kernel

theorem noShift {U : Util} (hS : IsSmeft U) {d : Dict Str ℂ} (hd : d.NodupKeys) (hk : ∀ n ∈ d.keys, n ∈ U.allWcs)
    (hn : ∀ n ∈ shiftNames, d.get? n = none) {C : Dict Str AVal} (e : U.wcxf2arraysSymmetrized d = .ok C) :
    NoInputShift (typed C) := by
  obtain ⟨_, x, -, y⟩ := read_get hS d hd hk
  obtain rfl := Except.ok.inj (x.symm.trans e)
  have c1 : Key.ll ∈ coeffKeys ∧ Key.phil3 ∈ coeffKeys ∧ Key.phiWB ∈ coeffKeys ∧ Key.phiD ∈ coeffKeys := by decide
  have f1 : fullClass .ll = 4 ∧ fullClass .phil3 = 2 ∧ fullClass .phiWB = 0 ∧ fullClass .phiD = 0 := by decide
  have w1 : d.get? (wcName (keyName .ll) [1, 0, 0, 1]) = none := hn _ (by decide)
  have w2 : d.get? (wcName (keyName .ll) [0, 1, 1, 0]) = none := hn _ (by decide)
  have w3 : d.get? (wcName (keyName .phil3) [0, 0]) = none := hn _ (by decide)
  have w4 : d.get? (wcName (keyName .phil3) [1, 1]) = none := hn _ (by decide)
  have w5 : d.get? (keyName .phiWB) = none := hn _ (by decide)
  have w6 : d.get? (keyName .phiD) = none := hn _ (by decide)
  have zl : ∀ j ∈ [((1, 0, 0, 1) : I4), (0, 1, 1, 0)], (collect d (keyName .ll) [3, 3, 3, 3]).get (idx4 j) = 0 := by
    intro j hj
    simp only [List.mem_cons, List.not_mem_nil, or_false] at hj
    simp only [collect]
    rcases hj with rfl | rfl
    · show (if _ then (d.get? (wcName (keyName .ll) [1, 0, 0, 1])).getD 0 else 0) = 0
      rw [w1]; simp
    · show (if _ then (d.get? (wcName (keyName .ll) [0, 1, 1, 0])).getD 0 else 0) = 0
      rw [w2]; simp
  have zp : ∀ j ∈ [((0, 0) : I2), (1, 1)], (collect d (keyName .phil3) [3, 3]).get (idx2 j) = 0 := by
    intro j hj
    simp only [List.mem_cons, List.not_mem_nil, or_false] at hj
    simp only [collect]
    rcases hj with rfl | rfl
    · show (if _ then (d.get? (wcName (keyName .phil3) [0, 0])).getD 0 else 0) = 0
      rw [w3]; simp
    · show (if _ then (d.get? (wcName (keyName .phil3) [1, 1])).getD 0 else 0) = 0
      rw [w4]; simp
  refine ⟨fun A hA => ?_, fun A hA => ?_, fun A hA => ?_, fun A hA => ?_⟩
  · rw [y _ c1.1, f1.1] at hA
    obtain rfl := Option.some.inj hA
    have v : ∀ i ∈ [((1, 0, 0, 1) : I4), (0, 1, 1, 0)],
        runProg Gen.symmetrize_4 (fun m => (collect d (keyName .ll) [3, 3, 3, 3]).get (idx4 m)) i / (d4 i : ℂ) = 0 := by
      intro i hi
      rw [run_slots _ _ _ _ (slots_ll i hi) zl, zero_div]
    exact ⟨v (1, 0, 0, 1) (by simp), v (0, 1, 1, 0) (by simp)⟩
  · rw [y _ c1.2.1, f1.2.1] at hA
    obtain rfl := Option.some.inj hA
    have v : ∀ i ∈ [((0, 0) : I2), (1, 1)],
        runProg Gen.symmetrize_2 (fun m => (collect d (keyName .phil3) [3, 3]).get (idx2 m)) i = 0 := by
      intro i hi
      refine run_slots _ _ _ _ (slots_phil3 i hi) fun j hj => zp j ?_
      rw [List.mem_singleton] at hj
      exact hj ▸ hi
    exact ⟨v (0, 0) (by simp), v (1, 1) (by simp)⟩
  · rw [y _ c1.2.2.1, f1.2.2.1] at hA
    obtain rfl := Option.some.inj hA
    show ((((d.get? (keyName .phiWB)).getD 0).re : ℝ) : ℂ) = 0
    rw [w5]; simp
  · rw [y _ c1.2.2.2, f1.2.2.2] at hA
    obtain rfl := Option.some.inj hA
    show ((((d.get? (keyName .phiD)).getD 0).re : ℝ) : ℂ) = 0
    rw [w6]; simp

/-! ### Naming the matched coefficients -/

theorem us_wkey (k : WKey) : '_' ∉ wkeyName k := WetTab.wkeyName_noUS k

theorem mem_ix2 {i : List ℕ} (h : i ∈ indices [3, 3]) : ∃ a b : Fin 3, i = [a.1, b.1] := by
  have := mem_indices.1 h
  match i, this with
  | [a, b], h =>
    simp only [inRange, Bool.and_eq_true, decide_eq_true_eq] at h
    exact ⟨⟨a, h.1⟩, ⟨b, h.2.1⟩, rfl⟩

theorem mem_ix4 {i : List ℕ} (h : i ∈ indices [3, 3, 3, 3]) : ∃ a b c e : Fin 3, i = [a.1, b.1, c.1, e.1] := by
  have h := mem_indices.1 h
  rcases i with _ | ⟨a, _ | ⟨b, _ | ⟨c, _ | ⟨e, _ | ⟨_, _⟩⟩⟩⟩⟩ <;>
    simp only [inRange, Bool.and_eq_true, decide_eq_true_eq, Bool.false_eq_true, and_false, and_true] at h
  exact ⟨⟨a, h.1⟩, ⟨b, h.2.1⟩, ⟨c, h.2.2.1⟩, ⟨e, h.2.2.2⟩, rfl⟩

/-- the names, factors and indices of the entries of an array in the result -/
theorem fac_entries (k : WKey) : ∃ L : List (Str × ℂ × Ix), (∀ l ∈ L, l.2.2.length = (wetTy k).length) ∧
    (∀ ix : Ix, ix.length = (wetTy k).length → (wetName k ix, multiplicity k ix, ix) ∈ L) ∧ ∀ B, ∃ v, Jms.applyFactor (fun x n => n * x) (wkeyName k) (wval k B) = .ok v ∧ GoodVal (toAVal v) ∧
      entries (wkeyName k) (toAVal v) = L.map fun l => (l.1, l.2.1 * B l.2.2) := by
  obtain ⟨h1, h2, h3⟩ := scale_ok k (wall k)
  rw [wrank k (wall k)]
  unfold wval Jms.applyFactor multiplicity
  cases e0 : Jms.isClass 0 (wkeyName k) with
  | true =>
    have := h1 e0
    split at this
    · rename_i hs
      rw [hs]
      simp only [if_true]
      refine ⟨[(wkeyName k, 1, [])], by simp, fun ix hix => ?_, fun B => ⟨_, rfl, trivial, rfl⟩⟩
      obtain rfl := List.length_eq_zero_iff.1 hix
      simp [wetName]
    · exact absurd this (by simp)
  | false =>
    cases e1 : Jms.isClass 1 (wkeyName k) with
    | true =>
      have := h2 e0 e1
      split at this
      · rename_i hs
        rw [hs]
        simp only [Bool.false_eq_true, if_false, if_true]
        refine ⟨(indices [3, 3]).map fun i => (wcName (wkeyName k) i, 1, i.map (Fin.ofNat 3)), ?_, ?_,
          fun B => ⟨_, rfl, ?_, ?_⟩⟩
        · intro l hl
          obtain ⟨i, hi, rfl⟩ := List.mem_map.1 hl
          obtain ⟨a, b, rfl⟩ := mem_ix2 hi
          rfl
        · intro ix hix
          match ix, hix with
          | [a, b], _ => exact List.mem_map.2 ⟨[a.1, b.1], mem_indices.2 (by simp [inRange]), by simp [wetName]⟩
        · exact ⟨by simp [NDArr.ofFn], by simp [NDArr.ofFn], by simp [NDArr.ofFn, Util.Small]⟩
        · simp only [toAVal, entries]
          rw [if_neg (by simp [NDArr.ofFn]), if_neg (by simp [NDArr.ofFn]), List.map_map]
          refine List.map_congr_left fun i hi => ?_
          obtain ⟨a, b, rfl⟩ := mem_ix2 hi
          simp [NDArr.ofFn, inRange]
      · exact absurd this (by simp)
    | false =>
      have := h3 e0 e1
      split at this
      · rename_i d hs
        rw [hs]
        simp only [Bool.false_eq_true, if_false, if_true]
        refine ⟨(indices [3, 3, 3, 3]).map fun i => (wcName (wkeyName k) i, (match i with
            | [i, j, k, l] => (d (Fin.ofNat 3 i, Fin.ofNat 3 j, Fin.ofNat 3 k, Fin.ofNat 3 l) : ℂ)
            | _ => 0), i.map (Fin.ofNat 3)), ?_, ?_,
          fun B => ⟨_, rfl, ?_, ?_⟩⟩
        · intro l hl
          obtain ⟨i, hi, rfl⟩ := List.mem_map.1 hl
          obtain ⟨a, b, c, e, rfl⟩ := mem_ix4 hi
          rfl
        · intro ix hix
          match ix, hix with
          | [a, b, c, e], _ =>
            exact List.mem_map.2 ⟨[a.1, b.1, c.1, e.1], mem_indices.2 (by simp [inRange]), by simp [wetName]⟩
        · exact ⟨by simp [NDArr.ofFn], by simp [NDArr.ofFn], by simp [NDArr.ofFn, Util.Small]⟩
        · simp only [toAVal, entries]
          rw [if_neg (by simp [NDArr.ofFn]), if_neg (by simp [NDArr.ofFn]), List.map_map]
          refine List.map_congr_left fun i hi => ?_
          obtain ⟨a, b, c, e, rfl⟩ := mem_ix4 hi
          simp [NDArr.ofFn, inRange]
      · exact absurd this (by simp)

/-- names, factors and indices of the entries -/
noncomputable def rows (k : WKey) : List (Str × ℂ × Ix) := (fac_entries k).choose

theorem rows_len (k : WKey) : ∀ l ∈ rows k, l.2.2.length = (wetTy k).length := (fac_entries k).choose_spec.1

theorem rows_mem (k : WKey) : ∀ ix : Ix, ix.length = (wetTy k).length → (wetName k ix, multiplicity k ix, ix) ∈ rows k :=
  (fac_entries k).choose_spec.2.1

/-- the array with the symmetry factors -/
noncomputable def facArr (k : WKey) (B : Ten) : Jms.WVal := ((fac_entries k).choose_spec.2.2 B).choose

theorem facArr_spec (k : WKey) (B : Ten) :
    Jms.applyFactor (fun x n => n * x) (wkeyName k) (wval k B) = .ok (facArr k B) ∧ GoodVal (toAVal (facArr k B)) ∧
      entries (wkeyName k) (toAVal (facArr k B)) = (rows k).map fun l => (l.1, l.2.1 * B l.2.2) :=
  ((fac_entries k).choose_spec.2.2 B).choose_spec

theorem unscale_eq (R : Dict WKey Ten) : Jms.unscaleDictWet (R.map fun kv => (wkeyName kv.1, wval kv.1 kv.2)) =
    .ok (R.map fun kv => (wkeyName kv.1, facArr kv.1 kv.2)) := by
  unfold Jms.unscaleDictWet
  induction R with
  | nil => rfl
  | cons a R ih =>
    rw [List.map_cons, List.mapM_cons, ih, (facArr_spec a.1 a.2).1]
    rfl

/-- the named coefficients in the result, one by one -/
theorem names_get (names : List Str) (V : Mat) (W : Dict WKey Ten) (hn : W.NodupKeys) (hk : ∀ k, k ∈ W.keys) :
    ∃ e, matchNames names V W = .ok e ∧ ∀ n z, e.get? n = some z ↔ n ∈ names ∧ ∃ k, ∃ l ∈ rows k, l.1 = n ∧
      ∃ A, W.get? k = some A ∧ z = l.2.1 * rot (downOnly V) (wetTy k) A l.2.2 := by
  obtain ⟨R, h1, hR, h2⟩ := RotationProps.C30_rotates V W hn (fun k _ => hk k)
  have good : GoodArrays (R.map fun kv => (wkeyName kv.1, toAVal (facArr kv.1 kv.2))) := by
    refine ⟨?_, ?_⟩
    · unfold Dict.NodupKeys Dict.keys at hR ⊢
      rw [List.map_map]
      have : (Prod.fst ∘ fun kv : WKey × Ten => (wkeyName kv.1, toAVal (facArr kv.1 kv.2))) = wkeyName ∘ Prod.fst := rfl
      rw [this, ← List.map_map]
      exact hR.map fun _ _ h => WetTab.wkeyName_inj h
    · intro k v hkv
      obtain ⟨kv, -, e⟩ := List.mem_map.1 hkv
      obtain ⟨rfl, rfl⟩ := Prod.mk.inj e
      exact ⟨us_wkey _, (facArr_spec _ _).2.1⟩
  refine ⟨(arrays2wcxf (R.map fun kv => (wkeyName kv.1, toAVal (facArr kv.1 kv.2)))).filterKV
    fun k _ => decide (k ∈ names), ?_, fun n z => ?_⟩
  · unfold matchNames
    rw [h1]
    show (lift (Jms.unscaleDictWet (R.map fun kv => (wkeyName kv.1, wval kv.1 kv.2))) >>= _) = _
    rw [unscale_eq]
    show Except.ok ((arrays2wcxf ((R.map fun kv => (wkeyName kv.1, facArr kv.1 kv.2)).map
      fun kv => (kv.1, toAVal kv.2))).filterKV fun k _ => decide (k ∈ names)) = _
    rw [List.map_map]
    rfl
  · show Dict.get? (Dict.filterKV _ (arrays2wcxf (R.map fun kv => (wkeyName kv.1, toAVal (facArr kv.1 kv.2))))) n = _ ↔ _
    rw [Dict.get?_filterKV _ _ (nodup_arrays2wcxf good), Option.filter_eq_some_iff]
    have hnd := nodup_arrays2wcxf good
    rw [arrays2wcxf_eq good] at hnd ⊢
    have key : Dict.get? ((R.map fun kv => (wkeyName kv.1, toAVal (facArr kv.1 kv.2))).flatMap
        fun kv => entries kv.1 kv.2) n = some z ↔
        ∃ k, ∃ l ∈ rows k, l.1 = n ∧ ∃ A, W.get? k = some A ∧ z = l.2.1 * rot (downOnly V) (wetTy k) A l.2.2 := by
      constructor
      · intro h
        obtain ⟨kv, hkv, he⟩ := List.mem_flatMap.1 (Dict.mem_of_get? h)
        obtain ⟨kv', hm, rfl⟩ := List.mem_map.1 hkv
        simp only [(facArr_spec _ _).2.2] at he
        obtain ⟨l, hl, e⟩ := List.mem_map.1 he
        obtain ⟨rfl, rfl⟩ := Prod.mk.inj e
        obtain ⟨A, hA⟩ := Option.isSome_iff_exists.1 ((Dict.isSome_get?_iff _ _).2 (hk kv'.1))
        obtain ⟨B, hB, hr⟩ := (h2 kv'.1).2 A hA
        rw [Dict.get?_of_mem hR (v := kv'.2) hm, Option.some.injEq] at hB
        exact ⟨kv'.1, l, hl, rfl, A, hA, by rw [hB, hr _ (rows_len _ l hl)]⟩
      · rintro ⟨k, l, hl, rfl, A, hA, rfl⟩
        obtain ⟨B, hB, hr⟩ := (h2 k).2 A hA
        refine Dict.get?_of_mem hnd (List.mem_flatMap.2 ⟨_, List.mem_map.2 ⟨(k, B), Dict.mem_of_get? hB, rfl⟩, ?_⟩)
        simp only [(facArr_spec _ _).2.2]
        exact List.mem_map.2 ⟨l, hl, by rw [hr _ (rows_len _ l hl)]⟩
    rw [key]
    simp only [decide_eq_true_eq]
    exact and_comm

theorem arrays_keys {raw : LoopRaw} {C : Dict Key Ten} {p : Dict String ℝ} {scale : ℝ} {W : Dict WKey Ten}
    (h : matchArrays raw C p scale = .ok W) : W.NodupKeys ∧ ∀ k, k ∈ W.keys := by
  unfold matchArrays at h
  obtain ⟨T, h1, h⟩ := ok_bind h
  have hT : T.NodupKeys ∧ ∀ k, k ∈ T.keys := by
    obtain ⟨s, s0, -, -, -, rfl⟩ := tree_ok h1
    exact ⟨nodup_tree _, keys_tree _⟩
  by_cases hl : p.get? "loop_order" = some 1
  · rw [if_pos hl] at h
    obtain ⟨L, -, h⟩ := ok_bind h
    unfold addLoop at h
    obtain ⟨rfl, -⟩ := mapM_item (f := fun A B ix => A ix + B ix) h
    have hk : Dict.keys (T.map fun kv => (kv.1, fun ix => kv.2 ix + ((L.get? kv.1).getD fun _ => 0) ix)) = T.keys := by
      simp [Dict.keys, Function.comp_def]
    exact ⟨by unfold Dict.NodupKeys; rw [hk]; exact hT.1, by rw [hk]; exact hT.2⟩
  · rw [if_neg hl] at h
    rw [← Except.ok.inj h]; exact hT

/-- **C30 (results of the matching).** Every JMS coefficient in the result of the SMEFT → WET
matching is the entry of the matched array with each index of a left-handed down quark rotated by
the CKM matrix of the parameters, times its multiplicity in WCxf; every entry whose name is in the
basis is there, and no other name. -/
theorem C30_matched {U : Util} (hS : IsSmeft U) (names : List Str) (raw : LoopRaw) (ckm : Ckm)
    (defaults : Dict String ℝ) (d : Dict Str ℂ) (hd : d.NodupKeys) (hk : ∀ n ∈ d.keys, n ∈ U.allWcs)
    (scale : ℝ) (par : Option (Dict String ℝ)) (e : Dict Str ℂ)
    (h : matchAll U names raw ckm defaults d scale par = .ok e) :
    ∃ C W V, U.wcxf2arraysSymmetrized d = .ok C ∧ ckmOf ckm (params defaults par) = .ok V ∧
      matchArrays raw (typed C) (params defaults par) scale = .ok W ∧ (∀ n ∈ e.keys, n ∈ names) ∧
      ∀ k, ∃ A, W.get? k = some A ∧ ∀ ix : Ix, ix.length = (wetTy k).length → wetName k ix ∈ names →
        e.get? (wetName k ix) = some (multiplicity k ix * rot (downOnly V) (wetTy k) A ix) := by
  obtain ⟨C, eC, -, -⟩ := read_get hS d hd hk
  unfold matchAll at h
  rw [eC] at h
  obtain ⟨_, hc, h⟩ := ok_bind h
  obtain rfl := Except.ok.inj hc
  obtain ⟨W, hW, h⟩ := ok_bind h
  obtain ⟨V, hV, h⟩ := ok_bind h
  obtain ⟨m, kk⟩ := arrays_keys hW
  obtain ⟨e', he', g⟩ := names_get names V W m kk
  obtain rfl := Except.ok.inj (h.symm.trans he')
  refine ⟨_, W, V, eC, hV, hW, fun n hn => ?_, fun k => ?_⟩
  · obtain ⟨z, hz⟩ := Option.isSome_iff_exists.1 ((Dict.isSome_get?_iff _ _).2 hn)
    exact ((g n z).1 hz).1
  obtain ⟨A, hA⟩ := Option.isSome_iff_exists.1 ((Dict.isSome_get?_iff _ _).2 (kk k))
  exact ⟨A, hA, fun ix hix hn => (g _ _).2 ⟨hn, k, _, rows_mem k ix hix, rfl, A, hA, rfl⟩⟩

/-- **C90 (named coefficients).** If the Warsaw coefficients `d` are real multiples
`a d₁ + b d₂` of two sets of coefficients without those modifying the relations between inputs
and parameters, and both sets can be matched, so can `d`; the result has the same JMS
coefficients, and each is the same multiple of those matched from `d₁` and `d₂`; at tree level
and at one loop, for all parameters and scales. -/
theorem C90_names {U : Util} (hS : IsSmeft U) (names : List Str) (ckm : Ckm) (defaults : Dict String ℝ) (a b : ℝ)
    (d d₁ d₂ : Dict Str ℂ) (h : Sum a b d d₁ d₂) (hd : d.NodupKeys) (hd₁ : d₁.NodupKeys) (hd₂ : d₂.NodupKeys)
    (hk : ∀ n ∈ d.keys, n ∈ U.allWcs) (hk₁ : ∀ n ∈ d₁.keys, n ∈ U.allWcs) (hk₂ : ∀ n ∈ d₂.keys, n ∈ U.allWcs)
    (hn₁ : ∀ n ∈ shiftNames, d₁.get? n = none) (hn₂ : ∀ n ∈ shiftNames, d₂.get? n = none)
    (scale : ℝ) (par : Option (Dict String ℝ)) (e₁ e₂ : Dict Str ℂ)
    (h₁ : matchAll U names (loopRaw ckm) ckm defaults d₁ scale par = .ok e₁)
    (h₂ : matchAll U names (loopRaw ckm) ckm defaults d₂ scale par = .ok e₂) :
    ∃ e, matchAll U names (loopRaw ckm) ckm defaults d scale par = .ok e ∧ ∀ n,
      (e.get? n = none ∧ e₁.get? n = none ∧ e₂.get? n = none) ∨
      ∃ z₁ z₂, e₁.get? n = some z₁ ∧ e₂.get? n = some z₂ ∧ e.get? n = some (a * z₁ + b * z₂) := by
  obtain ⟨C, eC, -, -⟩ := read_get hS d hd hk
  obtain ⟨C₁, eC₁, -, -⟩ := read_get hS d₁ hd₁ hk₁
  obtain ⟨C₂, eC₂, -, -⟩ := read_get hS d₂ hd₂ hk₂
  have hC := read_comb hS h hd hd₁ hd₂ hk hk₁ hk₂ eC eC₁ eC₂
  have s₁ := noShift hS hd₁ hk₁ hn₁ eC₁
  have s₂ := noShift hS hd₂ hk₂ hn₂ eC₂
  unfold matchAll at h₁ h₂ ⊢
  rw [eC₁] at h₁
  rw [eC₂] at h₂
  obtain ⟨_, hc, h₁⟩ := ok_bind h₁
  obtain rfl := Except.ok.inj hc
  obtain ⟨_, hc, h₂⟩ := ok_bind h₂
  obtain rfl := Except.ok.inj hc
  obtain ⟨W₁, hW₁, h₁⟩ := ok_bind h₁
  obtain ⟨W₂, hW₂, h₂⟩ := ok_bind h₂
  obtain ⟨V, hV, h₁⟩ := ok_bind h₁
  obtain ⟨V', hV', h₂⟩ := ok_bind h₂
  obtain rfl := Except.ok.inj (hV.symm.trans hV')
  obtain ⟨W, hW, hl⟩ := C90_superposition ckm a b _ _ _ hC s₁ s₂ _ scale W₁ W₂ hW₁ hW₂
  obtain ⟨m, k⟩ := arrays_keys hW
  obtain ⟨m₁, k₁⟩ := arrays_keys hW₁
  obtain ⟨m₂, k₂⟩ := arrays_keys hW₂
  obtain ⟨e, he, g⟩ := names_get names V W m k
  obtain ⟨e', he', g₁⟩ := names_get names V W₁ m₁ k₁
  obtain rfl := Except.ok.inj (h₁.symm.trans he')
  obtain ⟨e', he', g₂⟩ := names_get names V W₂ m₂ k₂
  obtain rfl := Except.ok.inj (h₂.symm.trans he')
  refine ⟨e, ?_, fun n => ?_⟩
  · rw [eC]
    show (matchArrays (loopRaw ckm) (typed C) (params defaults par) scale >>= fun W => _) = _
    rw [hW]
    show (ckmOf ckm (params defaults par) >>= fun V => _) = _
    rw [hV]
    exact he
  · by_cases hin : n ∈ names ∧ ∃ k, ∃ l ∈ rows k, l.1 = n
    · obtain ⟨hm, k, l, hlr, hln⟩ := hin
      obtain ⟨B₁, B₂, x₁, x₂, x⟩ := hl k
      refine Or.inr ⟨_, _, (g₁ n _).2 ⟨hm, k, l, hlr, hln, B₁, x₁, rfl⟩, (g₂ n _).2 ⟨hm, k, l, hlr, hln, B₂, x₂, rfl⟩,
        (g n _).2 ⟨hm, k, l, hlr, hln, _, x, ?_⟩⟩
      rw [rot_add, rot_const_mul, rot_const_mul]
      ring
    · have none_of : ∀ {W : Dict WKey Ten} {e : Dict Str ℂ}, (∀ n z, e.get? n = some z ↔ n ∈ names ∧ ∃ k, ∃ l ∈ rows k,
          l.1 = n ∧ ∃ A, W.get? k = some A ∧ z = l.2.1 * rot (downOnly V) (wetTy k) A l.2.2) → e.get? n = none := by
        intro W e g
        refine Option.eq_none_iff_forall_ne_some.2 fun z hz => hin ?_
        obtain ⟨hm, k, l, hlr, hln, -⟩ := (g n z).1 hz
        exact ⟨hm, k, l, hlr, hln⟩
      exact Or.inl ⟨none_of g, none_of g₁, none_of g₂⟩

theorem read_none {U : Util} (hS : IsSmeft U) {d : Dict Str ℂ} {k : Key} (hc : k ∈ coeffKeys)
    (h0 : d.get? (keyName k) = none ∧ ∀ idx, d.get? (wcName (keyName k) idx) = none) :
    toTen (cutF (shapeK k) (symF (fullClass k) (padF (given d (keyName k) (shapeK k))))) = fun _ => 0 := by
  have hg : given d (keyName k) (shapeK k) = zeroVal (shapeK k) := by
    obtain ⟨x, y⟩ := h0
    cases shapeK k with
    | none => simp only [given, x, zeroVal]; rfl
    | some l =>
      simp only [given, zeroVal, collect, zeros, y]
      simp [ite_self]
  rw [hg, sym_zero (keyOK_of hS hc)]
  unfold zeroVal
  split <;> rfl

/-- the matching succeeds, at tree level and at one loop, for physical inputs, a non-zero scale and
all coefficients of operators other than `ll`, `phil3`, `phiWB` and `phiD` -/
theorem C90_succeeds {U : Util} (hS : IsSmeft U) (names : List Str) (ckm : Ckm) (defaults : Dict String ℝ)
    (d : Dict Str ℂ) (hd : d.NodupKeys) (hk : ∀ n ∈ d.keys, n ∈ U.allWcs)
    (h0 : ∀ k ∈ [Key.ll, .phil3, .phiWB, .phiD], d.get? (keyName k) = none ∧ ∀ idx, d.get? (wcName (keyName k) idx) = none)
    (scale : ℝ) (hs : scale ≠ 0) (par : Option (Dict String ℝ)) (hp : Physical ckm (params defaults par)) :
    ∃ e, matchAll U names (loopRaw ckm) ckm defaults d scale par = .ok e := by
  obtain ⟨C, eC, -, hC⟩ := read_get hS d hd hk
  obtain ⟨W, hW⟩ := C87_succeeds ckm (typed C) (fun k hk => by unfold Dict.mem; rw [hC k hk]; rfl) (fun k hk => by
    have hc : k ∈ coeffKeys := by revert hk; revert k; decide
    rw [hC k hc, read_none hS hc (h0 k hk)]) _ hp scale hs
  obtain ⟨m, kk⟩ := arrays_keys hW
  have ⟨_, _, _, _, _, _, _, V, _, _, _, _, _, _, _, hV, _⟩ := hp
  obtain ⟨e, h', -⟩ := names_get names V W m kk
  refine ⟨e, ?_⟩
  unfold matchAll
  rw [eC]
  show (matchArrays (loopRaw ckm) (typed C) (params defaults par) scale >>= fun W => _) = _
  rw [hW]
  show (ckmOf ckm (params defaults par) >>= fun V => _) = _
  rw [hV]
  exact h'

/-- **C89, baryon number (named coefficients).** If no coefficient of a baryon-number violating
operator is given, all baryon-number violating WET coefficients in the result vanish. -/
theorem C89_baryon_names {U : Util} (hS : IsSmeft U) (names : List Str) (ckm : Ckm) (defaults : Dict String ℝ)
    (d : Dict Str ℂ) (hd : d.NodupKeys) (hk : ∀ n ∈ d.keys, n ∈ U.allWcs)
    (h0 : ∀ k ∈ bnvSMEFT, d.get? (keyName k) = none ∧ ∀ idx, d.get? (wcName (keyName k) idx) = none)
    (scale : ℝ) (par : Option (Dict String ℝ)) (e : Dict Str ℂ)
    (h : matchAll U names (loopRaw ckm) ckm defaults d scale par = .ok e) (k : WKey) (hb : k ∈ bnvWET) (ix : Ix)
    (hix : ix.length = (wetTy k).length) (z : ℂ) (hz : e.get? (wetName k ix) = some z) : z = 0 := by
  obtain ⟨C, W, V, eC, -, hW, hn, hv⟩ := C30_matched hS names (loopRaw ckm) ckm defaults d hd hk scale par e h
  obtain ⟨_, eC', -, hC⟩ := read_get hS d hd hk
  obtain rfl := Except.ok.inj (eC.symm.trans eC')
  obtain ⟨B, hB, hB0⟩ := C89_baryon ckm (typed C) (fun k hk ix => by
    have hc : k ∈ coeffKeys := by revert hk; revert k; decide
    unfold val
    rw [hC k hc, read_none hS hc (h0 k hk)]
    rfl) (fun k hk => by unfold Dict.mem; rw [hC k hk]; rfl) _ scale W hW k hb
  obtain ⟨A, hA, hA'⟩ := hv k
  rw [hB] at hA
  obtain rfl := Option.some.inj hA
  rw [hA' ix hix (hn _ ((Dict.isSome_get?_iff _ _).1 (by rw [hz]; rfl))), Option.some.injEq] at hz
  rw [← hz, rot_congr _ _ B (fun _ => 0) ix (fun j hj => hB0 j hj), rot_zero, mul_zero]

/-! ### CP conjugation -/

section
variable {ι : Type} [DecidableEq ι]

omit [DecidableEq ι] in
theorem combC_conj (x : ι → ℂ) (r : List (ℚ × Bool × ι)) :
    Instr.combC (fun i => (starRingEnd ℂ) (x i)) r = (starRingEnd ℂ) (Instr.combC x r) := by
  unfold Instr.combC
  rw [map_list_sum, List.map_map]
  congr 1
  refine List.map_congr_left fun t _ => ?_
  cases h : t.2.1 <;> simp [h]

omit [DecidableEq ι] in
theorem combR_re (x : ι → ℂ) (r : List (ℚ × ι)) :
    Instr.combR (fun i => (starRingEnd ℂ) (x i)) Complex.re r = Instr.combR x Complex.re r := by
  simp [Instr.combR]

omit [DecidableEq ι] in
theorem combR_im (x : ι → ℂ) (r : List (ℚ × ι)) :
    Instr.combR (fun i => (starRingEnd ℂ) (x i)) Complex.im r = -Instr.combR x Complex.im r := by
  induction r with
  | nil => simp [Instr.combR]
  | cons t r ih =>
    simp only [Instr.combR, List.map_cons, List.sum_cons] at ih ⊢
    rw [ih, Complex.conj_im]
    ring

theorem step_conj (a b : ι → ℂ) (p : Instr ι) : p.step (fun i => (starRingEnd ℂ) (b i)) (fun i => (starRingEnd ℂ) (a i)) =
    fun i => (starRingEnd ℂ) (p.step b a i) := by
  cases p <;> funext j <;>
    simp only [Instr.step, combC_conj, combR_re, combR_im, Function.update_apply, apply_ite (starRingEnd ℂ)] <;>
    split <;> rfl

theorem run_conj (p : List (Instr ι)) (x : ι → ℂ) (i : ι) :
    runProg p (fun i => (starRingEnd ℂ) (x i)) i = (starRingEnd ℂ) (runProg p x i) := by
  unfold runProg
  suffices h : ∀ a : ι → ℂ, p.foldl (fun a s => s.step (fun i => (starRingEnd ℂ) (x i)) a) (fun i => (starRingEnd ℂ) (a i)) =
      fun i => (starRingEnd ℂ) (p.foldl (fun a s => s.step x a) a i) by rw [h]
  induction p with
  | nil => intro a; rfl
  | cons s p ih =>
    intro a
    rw [List.foldl_cons, List.foldl_cons, step_conj, ih]

end

/-- the array is the complex conjugate of the other one -/
def Cj (A A' : NDArr) : Prop := ∀ idx, A'.get idx = (starRingEnd ℂ) (A.get idx)

theorem cut_cj {A A' : NDArr} (h : Cj A A') (l : List ℕ) (ix : Ix) :
    toTen (cutF (some l) (.arr A')) ix = (starRingEnd ℂ) (toTen (cutF (some l) (.arr A)) ix) := by
  show (NDArr.ofFn l A'.get).get _ = (starRingEnd ℂ) ((NDArr.ofFn l A.get).get _)
  unfold NDArr.ofFn
  simp only
  split
  · exact h _
  · simp

def CjOp {ι : Type} (f : (ι → ℂ) → ι → ℂ) : Prop := ∀ (x : ι → ℂ) i,
  f (fun i => (starRingEnd ℂ) (x i)) i = (starRingEnd ℂ) (f x i)

theorem op4_cj {f : (I4 → ℂ) → I4 → ℂ} (hf : CjOp f) {A A' : NDArr} (h : Cj A A')
    (l : List ℕ) (ix : Ix) : toTen (cutF (some l) (op4 f (.arr A'))) ix =
      (starRingEnd ℂ) (toTen (cutF (some l) (op4 f (.arr A))) ix) := by
  refine cut_cj (fun idx => ?_) l ix
  show (match idx with | [i, j, k, l] => _ | _ => _) = (starRingEnd ℂ) (match idx with | [i, j, k, l] => _ | _ => _)
  have e : (fun m => A'.get (idx4 m)) = fun m => (starRingEnd ℂ) (A.get (idx4 m)) := funext fun m => h _
  rw [e]
  split
  · split
    · exact hf _ _
    · simp
  · simp

theorem op2_cj {f : (I2 → ℂ) → I2 → ℂ} (hf : CjOp f) {A A' : NDArr} (h : Cj A A')
    (l : List ℕ) (ix : Ix) : toTen (cutF (some l) (op2 f (.arr A'))) ix =
      (starRingEnd ℂ) (toTen (cutF (some l) (op2 f (.arr A))) ix) := by
  refine cut_cj (fun idx => ?_) l ix
  show (match idx with | [i, j] => _ | _ => _) = (starRingEnd ℂ) (match idx with | [i, j] => _ | _ => _)
  have e : (fun m => A'.get (idx2 m)) = fun m => (starRingEnd ℂ) (A.get (idx2 m)) := funext fun m => h _
  rw [e]
  split
  · split
    · exact hf _ _
    · simp
  · simp

theorem cj_div (p : List (Instr I4)) (d : I4 → ℕ) : CjOp fun x i => runProg p x i / (d i : ℂ) := by
  intro x i
  simp only [run_conj, map_div₀, map_natCast]

theorem odd_scalar : ∀ k ∈ coeffKeys, shapeK k = none → (keyName k ∈ oddNames ↔ CP.smeftOdd k = true) := by decide +kernel
theorem odd_flavour : ∀ k ∈ coeffKeys, shapeK k ≠ none → CP.smeftOdd k = false := by decide +kernel

theorem us_odd (k : Str) (idx : List ℕ) : wcName k idx ∉ oddNames := by
  intro h
  have h1 : '_' ∈ wcName k idx := by simp [wcName]
  have h2 : ∀ n ∈ oddNames, '_' ∉ n := by decide
  exact h2 _ h h1

theorem read_cp {U : Util} (hS : IsSmeft U) {d d' : Dict Str ℂ} (h : CpConjugate d d') {k : Key} (hc : k ∈ coeffKeys) :
    toTen (cutF (shapeK k) (symF (fullClass k) (padF (given d' (keyName k) (shapeK k))))) = CP.cpConj (CP.smeftOdd k)
      (toTen (cutF (shapeK k) (symF (fullClass k) (padF (given d (keyName k) (shapeK k)))))) := by
  obtain ⟨-, hcl, -, h0, hl, -⟩ := keyOK_of hS hc
  have o1 := odd_scalar k hc
  have o2 := odd_flavour k hc
  revert hcl h0 hl o1 o2
  generalize shapeK k = s
  generalize fullClass k = c
  intro hcl h0 hl o1 o2
  funext ix
  cases s with
  | none =>
    have : c = 0 := h0.1 rfl
    subst this
    show ((((d'.get? (keyName k)).getD 0).re : ℝ) : ℂ) = (if CP.smeftOdd k = true then -1 else 1) *
      (starRingEnd ℂ) ((((d.get? (keyName k)).getD 0).re : ℝ) : ℂ)
    rw [h]
    simp only [o1 rfl]
    split <;> simp
  | some l =>
    have hg : Cj ⟨List.replicate l.length 3, (collect d (keyName k) l).get⟩
        ⟨List.replicate l.length 3, (collect d' (keyName k) l).get⟩ := by
      intro idx
      simp only [collect]
      split
      · rw [h, if_neg (us_odd _ _), one_mul]
      · simp
    have h00 : (0 : ℕ) ≠ c := fun e => by simpa using h0.2 e.symm
    have run : ∀ {ι : Type} [DecidableEq ι] (p : List (Instr ι)), CjOp (runProg p) := fun p x i => run_conj p x i
    simp only [CP.cpConj, o2 (by simp), Bool.false_eq_true, if_false, one_mul]
    simp only [classIds, List.mem_cons, List.not_mem_nil, or_false] at hcl
    rcases hcl with rfl | rfl | rfl | rfl | rfl | rfl | rfl | rfl | rfl | rfl | rfl | rfl
    · exact absurd rfl h00
    · exact cut_cj hg l ix
    · exact op2_cj (run Gen.symmetrize_2) hg l ix
    · exact cut_cj hg l ix
    · exact op4_cj (cj_div Gen.symmetrize_4 d4) hg l ix
    · exact op4_cj (cj_div Gen.symmetrize_41 d4) hg l ix
    · exact op4_cj (run Gen.symmetrize_5) hg l ix
    · exact op4_cj (cj_div Gen.symmetrize_6 d6) hg l ix
    · exact op4_cj (cj_div Gen.symmetrize_7 d7) hg l ix
    · exact op4_cj (cj_div Gen.symmetrize_71 d7) hg l ix
    · exact op4_cj (f := fun b => runProg Gen.symmetrize_8 (runProg Gen.scale_8 b))
        (fun x i => by
          beta_reduce
          rw [show runProg Gen.scale_8 (fun i => (starRingEnd ℂ) (x i)) = fun i => (starRingEnd ℂ) (runProg Gen.scale_8 x i)
            from funext (run_conj _ x), run_conj]) hg l ix
    · exact op2_cj (run Gen.symmetrize_9) hg l ix

theorem rot_cp (V : Mat) (τ : List (Ty WFl)) (A : Ten) (ix : Ix) :
    rot (downOnly (V.map (starRingEnd ℂ))) τ (fun j => (starRingEnd ℂ) (A j)) ix = (starRingEnd ℂ) (rot (downOnly V) τ A ix) := by
  induction τ generalizing A ix with
  | nil => rfl
  | cons t τ ih =>
    cases ix with
    | nil => simp [rot]
    | cons i is =>
      simp only [rot, map_sum, map_mul]
      refine Finset.sum_congr rfl fun j _ => ?_
      rw [ih]
      congr 1
      rcases t with ⟨f, b⟩
      cases f <;> cases b <;> simp [fac, downOnly, Matrix.one_apply, apply_ite (starRingEnd ℂ)]

theorem mult_conj (k : WKey) (ix : Ix) : (starRingEnd ℂ) (multiplicity k ix) = multiplicity k ix := by
  unfold multiplicity
  split <;> simp

/-- **C88 (named coefficients).** If the Warsaw coefficients `d` can be matched, so can those of the
CP-conjugate Lagrangian with the complex-conjugate CKM matrix; the result has the same JMS
coefficients, and each is the CP conjugate of the one matched from `d` (complex conjugate, with the
opposite sign for `Gtilde`); at tree level and at one loop, for all parameters and scales. -/
theorem C88_names {U : Util} (hS : IsSmeft U) (names : List Str) (ckm ckm' : Ckm)
    (hV : ∀ a b c d, ckm' a b c d = (ckm a b c d).map (starRingEnd ℂ)) (defaults : Dict String ℝ)
    (d d' : Dict Str ℂ) (hcp : CpConjugate d d') (hd : d.NodupKeys) (hd' : d'.NodupKeys)
    (hk : ∀ n ∈ d.keys, n ∈ U.allWcs) (hk' : ∀ n ∈ d'.keys, n ∈ U.allWcs)
    (scale : ℝ) (par : Option (Dict String ℝ)) (e : Dict Str ℂ)
    (h : matchAll U names (loopRaw ckm) ckm defaults d scale par = .ok e) :
    ∃ e', matchAll U names (loopRaw ckm') ckm' defaults d' scale par = .ok e' ∧
      ∀ k, ∀ ix : Ix, ix.length = (wetTy k).length → e'.get? (wetName k ix) =
        (e.get? (wetName k ix)).map fun z => (if k = .Gtilde then -1 else 1) * (starRingEnd ℂ) z := by
  obtain ⟨C, W, V, eC, eV, hW, hn, hv⟩ := C30_matched hS names (loopRaw ckm) ckm defaults d hd hk scale par e h
  obtain ⟨_, eC1, n1, g1⟩ := read_get hS d hd hk
  obtain rfl := Except.ok.inj (eC.symm.trans eC1)
  obtain ⟨C', eC', n2, g2⟩ := read_get hS d' hd' hk'
  obtain ⟨W', hW', hR⟩ := C88_match ckm ckm' hV (typed C) (typed C') (fun k => by
    by_cases hc : k ∈ coeffKeys
    · rw [g1 k hc, g2 k hc, read_cp hS hcp hc]; rfl
    · rw [n1 k hc, n2 k hc]; rfl) _ scale W hW
  have eV' : ckmOf ckm' (params defaults par) = .ok (V.map (starRingEnd ℂ)) := by
    unfold ckmOf at eV ⊢
    obtain ⟨us, h1, eV⟩ := ok_bind eV
    obtain ⟨ub, h2, eV⟩ := ok_bind eV
    obtain ⟨cb, h3, eV⟩ := ok_bind eV
    obtain ⟨ga, h4, eV⟩ := ok_bind eV
    rw [← Except.ok.inj eV, h1, h2, h3, h4, ← hV]
    rfl
  obtain ⟨m, kk⟩ := arrays_keys hW'
  obtain ⟨e', he', -⟩ := names_get names (V.map (starRingEnd ℂ)) W' m kk
  have hm : matchAll U names (loopRaw ckm') ckm' defaults d' scale par = .ok e' := by
    unfold matchAll
    rw [eC']
    show (matchArrays (loopRaw ckm') (typed C') (params defaults par) scale >>= fun W => _) = _
    rw [hW']
    show (ckmOf ckm' (params defaults par) >>= fun V => _) = _
    rw [eV']
    exact he'
  refine ⟨e', hm, fun k ix hix => ?_⟩
  obtain ⟨_, _, _, x1, x2, x3, hn', hv'⟩ := C30_matched hS names (loopRaw ckm') ckm' defaults d' hd' hk' scale par e' hm
  obtain rfl := Except.ok.inj (eC'.symm.trans x1)
  obtain rfl := Except.ok.inj (eV'.symm.trans x2)
  obtain rfl := Except.ok.inj (hW'.symm.trans x3)
  by_cases hin : wetName k ix ∈ names
  · obtain ⟨A, hA, y⟩ := hv k
    obtain ⟨A', hA', y'⟩ := hv' k
    obtain ⟨B, hB, hB'⟩ := hR k
    rw [hA] at hB
    obtain rfl := Option.some.inj hB
    rw [hA'] at hB'
    obtain rfl := Option.some.inj hB'
    rw [y ix hix hin, y' ix hix hin, Option.map_some, map_mul, mult_conj, ← rot_cp]
    congr 1
    have : CP.cpConj (CP.wetOdd k) A = fun ix => (if k = .Gtilde then -1 else 1) * (starRingEnd ℂ) (A ix) := by
      funext ix
      simp [CP.cpConj, CP.wetOdd]
    rw [this, rot_const_mul]
    ring
  · have no : ∀ {e : Dict Str ℂ}, (∀ n ∈ e.keys, n ∈ names) → e.get? (wetName k ix) = none := fun hn =>
      (Dict.get?_eq_none_iff _ _).2 fun h => hin (hn _ h)
    rw [no hn, no hn']
    rfl

/-! ### Lepton family numbers -/

/-- the entry an assignment changes -/
def dst {ι : Type} : Instr ι → ι
  | .cplx d _ | .cplxB d _ | .real d _ | .imag d _ => d
/-- the entries it reads -/
def srcs {ι : Type} : Instr ι → List ι
  | .cplx _ r | .cplxB _ r => r.map fun t => t.2.2
  | .real _ r | .imag _ r => r.map fun t => t.2

theorem run_support {ι : Type} [DecidableEq ι] (p : List (Instr ι)) (Z : ι → Prop)
    (hp : ∀ s ∈ p, Z (dst s) → ∀ t ∈ srcs s, Z t) (x : ι → ℂ) (hx : ∀ i, Z i → x i = 0) (i : ι) (hi : Z i) :
    runProg p x i = 0 := by
  have comb : ∀ (a : ι → ℂ) (r : List (ℚ × Bool × ι)), (∀ i, Z i → a i = 0) → (∀ t ∈ r.map fun t => t.2.2, Z t) →
      Instr.combC a r = 0 := by
    intro a r ha hr
    refine List.sum_eq_zero fun z hz => ?_
    obtain ⟨t, ht, rfl⟩ := List.mem_map.1 hz
    rw [ha _ (hr _ (List.mem_map.2 ⟨t, ht, rfl⟩))]
    simp
  have combR : ∀ (f : ℂ → ℝ) (_ : f 0 = 0) (a : ι → ℂ) (r : List (ℚ × ι)), (∀ i, Z i → a i = 0) →
      (∀ t ∈ r.map fun t => t.2, Z t) → Instr.combR a f r = 0 := by
    intro f hf a r ha hr
    refine List.sum_eq_zero fun z hz => ?_
    obtain ⟨t, ht, rfl⟩ := List.mem_map.1 hz
    rw [ha _ (hr _ (List.mem_map.2 ⟨t, ht, rfl⟩)), hf, mul_zero]
  unfold runProg
  suffices h : ∀ a : ι → ℂ, (∀ i, Z i → a i = 0) → ∀ i, Z i → p.foldl (fun a s => s.step x a) a i = 0 from h x hx i hi
  induction p with
  | nil => intro a ha; exact ha
  | cons s p ih =>
    intro a ha
    refine ih (fun s hs => hp s (List.mem_cons_of_mem _ hs)) _ fun i hi => ?_
    have h := hp s List.mem_cons_self
    cases s with
    | cplx d r =>
      simp only [Instr.step, Function.update_apply]
      split
      · rename_i e; exact comb a r ha (h (by simpa [dst, ← e] using hi))
      · exact ha i hi
    | cplxB d r =>
      simp only [Instr.step, Function.update_apply]
      split
      · rename_i e; exact comb x r hx (h (by simpa [dst, ← e] using hi))
      · exact ha i hi
    | real d r =>
      simp only [Instr.step, Function.update_apply]
      split
      · rename_i e
        subst e
        rw [combR _ Complex.zero_re a r ha (h hi), ha i hi]; rfl
      · exact ha i hi
    | imag d r =>
      simp only [Instr.step, Function.update_apply]
      split
      · rename_i e
        subst e
        rw [combR _ Complex.zero_im a r ha (h hi), ha i hi]; rfl
      · exact ha i hi

/-- the entries related to a given one by the symmetries of a class -/
def rel4 : ℕ → I4 → List I4
  | 4, (i, j, k, l) => [(i, j, k, l), (k, l, i, j), (j, i, l, k), (l, k, j, i)]
  | 5, (i, j, k, l) => [(i, j, k, l), (j, i, l, k)]
  | 6, (i, j, k, l) => [(i, j, k, l), (k, l, i, j), (j, i, l, k), (l, k, j, i), (i, l, k, j), (k, j, i, l), (j, k, l, i),
      (l, i, j, k)]
  | 7, (i, j, k, l) => [(i, j, k, l), (j, i, k, l)]
  | 8, (i, j, k, l) => [(i, j, k, l), (j, i, k, l), (i, k, j, l), (k, j, i, l), (j, k, i, l), (k, i, j, l)]
  | _, ix => [ix]

def code4 (i : I4) : ℕ := i.1.1 + 4 * i.2.1.1 + 16 * i.2.2.1.1 + 64 * i.2.2.2.1

noncomputable def sound4 (c : ℕ) (p : List (Instr I4)) : Bool :=
  p.all fun s => (srcs s).all fun t => (rel4 c (dst s)).any fun u => Nat.beq (code4 t) (code4 u)

theorem sound4_ok : sound4 4 Gen.symmetrize_4 = true ∧ sound4 5 Gen.symmetrize_5 = true ∧ sound4 6 Gen.symmetrize_6 = true ∧
  sound4 7 Gen.symmetrize_7 = true ∧ sound4 8 Gen.symmetrize_8 = true ∧ sound4 8 Gen.scale_8 = true := by decide +kernel

theorem code4_inj {t u : I4} (h : Nat.beq (code4 t) (code4 u) = true) : t = u := by
  have h := Nat.eq_of_beq_eq_true h
  obtain ⟨a, b, c, e⟩ := t
  obtain ⟨a', b', c', e'⟩ := u
  unfold code4 at h
  simp only [Prod.mk.injEq, Fin.ext_iff] at h ⊢
  omega

theorem sound4_iff {c : ℕ} {p : List (Instr I4)} (h : sound4 c p = true) : ∀ s ∈ p, ∀ t ∈ srcs s, t ∈ rel4 c (dst s) := by
  intro s hs t ht
  have h := List.all_eq_true.1 (List.all_eq_true.1 h s hs) t ht
  obtain ⟨u, hu, e⟩ := List.any_eq_true.1 h
  exact code4_inj e ▸ hu

theorem sound2_ok : (∀ s ∈ Gen.symmetrize_2, ∀ t ∈ srcs s, t = ((dst s).2, (dst s).1)) ∧
    (∀ s ∈ Gen.symmetrize_9, ∀ t ∈ srcs s, t = ((dst s).2, (dst s).1)) := by decide +kernel

theorem types4 : ∀ k ∈ coeffKeys, (fullClass k = 4 ∨ fullClass k = 6 → ∃ f ∈ [Fl.q, .u, .d, .l, .e],
      smeftTy k = some [Fl.b f, Fl.x f, Fl.b f, Fl.x f]) ∧
    (fullClass k = 5 → ∃ f ∈ [Fl.q, .u, .d, .l, .e], ∃ h ∈ [Fl.q, .u, .d, .l, .e],
      smeftTy k = some [Fl.b f, Fl.x f, Fl.b h, Fl.x h]) ∧
    (fullClass k = 7 → smeftTy k = some [Fl.x .q, Fl.x .q, Fl.x .u, Fl.x .e]) ∧
    (fullClass k = 8 → smeftTy k = some [Fl.x .q, Fl.x .q, Fl.x .q, Fl.x .l]) ∧
    (fullClass k = 2 → ∃ f ∈ [Fl.q, .u, .d, .l, .e], smeftTy k = some [Fl.b f, Fl.x f]) ∧
    (fullClass k = 9 → smeftTy k = some [Fl.x .l, Fl.x .l]) ∧ fullClass k ∈ [0, 1, 2, 3, 4, 5, 6, 7, 8, 9] := by
  intro k hk
  cases k <;> first | (exfalso; revert hk; decide) | simp [fullClass, smeftClass, rankOf, smeftTy]

/-- one for the leptons of generation `g` -/
def fam (g : Fin 3) (f : Fl) (i : Fin 3) : ℤ := if leptonFamily g f i then 1 else 0

theorem number_fam (g : Fin 3) (t1 t2 t3 t4 : Ty Fl) (i j k l : Fin 3) :
    number (leptonFamily g) [t1, t2, t3, t4] [i, j, k, l] = (if t1.bar then -fam g t1.f i else fam g t1.f i) +
      (if t2.bar then -fam g t2.f j else fam g t2.f j) + (if t3.bar then -fam g t3.f k else fam g t3.f k) +
      (if t4.bar then -fam g t4.f l else fam g t4.f l) := by
  have h : ∀ (t : Ty Fl) i, (if leptonFamily g t.f i then (if t.bar then -1 else 1) else 0) =
      (if t.bar then -fam g t.f i else fam g t.f i) := by
    intro t i
    unfold fam
    split <;> split <;> rfl
  simp only [number, h]
  ring

/-- the symmetries do not change whether a family number is conserved -/
theorem rel4_number (g : Fin 3) {k : Key} (hk : k ∈ coeffKeys) {τ : List (Ty Fl)} (hτ : smeftTy k = some τ)
    (i j l m : Fin 3) (t : I4) (ht : t ∈ rel4 (fullClass k) (i, j, l, m))
    (h : number (leptonFamily g) τ [i, j, l, m] ≠ 0) :
    number (leptonFamily g) τ [t.1, t.2.1, t.2.2.1, t.2.2.2] ≠ 0 := by
  obtain ⟨h4, h5, h7, h8, -, -, hc⟩ := types4 k hk
  simp only [List.mem_cons, List.not_mem_nil, or_false] at hc
  rcases hc with e | e | e | e | e | e | e | e | e | e <;> rw [e] at ht <;>
    simp only [rel4, List.mem_cons, List.not_mem_nil, or_false] at ht
  iterate 4 (subst ht; exact h)
  · obtain ⟨f, -, e'⟩ := h4 (Or.inl e)
    obtain rfl := Option.some.inj (e'.symm.trans hτ)
    rw [number_fam] at h ⊢
    simp only [Fl.b, Fl.x, if_true, Bool.false_eq_true, if_false] at h ⊢
    rcases ht with rfl | rfl | rfl | rfl <;> simp only at h ⊢ <;> omega
  · obtain ⟨f, -, f', -, e'⟩ := h5 e
    obtain rfl := Option.some.inj (e'.symm.trans hτ)
    rw [number_fam] at h ⊢
    simp only [Fl.b, Fl.x, if_true, Bool.false_eq_true, if_false] at h ⊢
    rcases ht with rfl | rfl <;> simp only at h ⊢ <;> omega
  · obtain ⟨f, -, e'⟩ := h4 (Or.inr e)
    obtain rfl := Option.some.inj (e'.symm.trans hτ)
    rw [number_fam] at h ⊢
    simp only [Fl.b, Fl.x, if_true, Bool.false_eq_true, if_false] at h ⊢
    rcases ht with rfl | rfl | rfl | rfl | rfl | rfl | rfl | rfl <;> simp only at h ⊢ <;> omega
  · obtain rfl := Option.some.inj ((h7 e).symm.trans hτ)
    rw [number_fam] at h ⊢
    simp only [Fl.b, Fl.x, if_true, Bool.false_eq_true, if_false] at h ⊢
    rcases ht with rfl | rfl <;> simpa [fam, leptonFamily] using h
  · obtain rfl := Option.some.inj ((h8 e).symm.trans hτ)
    rw [number_fam] at h ⊢
    simp only [Fl.b, Fl.x, if_true, Bool.false_eq_true, if_false] at h ⊢
    rcases ht with rfl | rfl | rfl | rfl | rfl | rfl <;> simpa [fam, leptonFamily] using h
  · subst ht; exact h

theorem cut2_get (f : (I2 → ℂ) → I2 → ℂ) (A : NDArr) (a b : Fin 3) (h : f (fun m => A.get (idx2 m)) (a, b) = 0) :
    toTen (cutF (some [3, 3]) (op2 f (.arr A))) [a, b] = 0 := by
  show (NDArr.ofFn _ _).get _ = 0
  unfold NDArr.ofFn
  simp only
  split
  · show (if h : a.1 < 3 ∧ b.1 < 3 then f (fun m => A.get (idx2 m)) (⟨a.1, h.1⟩, ⟨b.1, h.2⟩) else 0) = 0
    rw [dif_pos ⟨a.2, b.2⟩]
    exact h
  · rfl

theorem cut4_get (f : (I4 → ℂ) → I4 → ℂ) (A : NDArr) (a b c e : Fin 3) (h : f (fun m => A.get (idx4 m)) (a, b, c, e) = 0) :
    toTen (cutF (some [3, 3, 3, 3]) (op4 f (.arr A))) [a, b, c, e] = 0 := by
  show (NDArr.ofFn _ _).get _ = 0
  unfold NDArr.ofFn
  simp only
  split
  · show (if h : a.1 < 3 ∧ b.1 < 3 ∧ c.1 < 3 ∧ e.1 < 3 then
      f (fun m => A.get (idx4 m)) (⟨a.1, h.1⟩, ⟨b.1, h.2.1⟩, ⟨c.1, h.2.2.1⟩, ⟨e.1, h.2.2.2⟩) else 0) = 0
    rw [dif_pos ⟨a.2, b.2, c.2, e.2⟩]
    exact h
  · rfl

theorem cut_get (A : NDArr) (l : List ℕ) (ix : Ix) (h : A.get (ix.map Fin.val) = 0) :
    toTen (cutF (some l) (.arr A)) ix = 0 := by
  show (NDArr.ofFn _ _).get _ = 0
  unfold NDArr.ofFn
  simp only
  split
  · exact h
  · rfl

/-- reading coefficients that conserve a family number gives arrays that conserve it -/
theorem read_family (g : Fin 3) {d : Dict Str ℂ} {k : Key} (hk : k ∈ coeffKeys) {τ : List (Ty Fl)}
    (hτ : smeftTy k = some τ) (h : ∀ ix : Ix, ix.length = τ.length → number (leptonFamily g) τ ix ≠ 0 →
      (d.get? (smeftName k ix)).getD 0 = 0) (ix : Ix) (hix : ix.length = τ.length)
    (hne : number (leptonFamily g) τ ix ≠ 0) :
    toTen (cutF (shapeK k) (symF (fullClass k) (padF (given d (keyName k) (shapeK k))))) ix = 0 := by
  have hr : rankOf k = τ.length := by unfold rankOf; rw [hτ]; rfl
  have hcol : ∀ (l : List ℕ) (ix : Ix), ix ≠ [] → ix.length = τ.length → number (leptonFamily g) τ ix ≠ 0 →
      (collect d (keyName k) l).get (ix.map Fin.val) = 0 := by
    intro l ix h0 hl hn
    simp only [collect]
    split
    · have := h ix hl hn
      rwa [smeftName, if_neg h0] at this
    · rfl
  rcases rank_c hk with h0 | h2 | h4
  · obtain rfl : τ = [] := List.length_eq_zero_iff.1 (hr.symm.trans h0)
    exact absurd (by cases ix <;> rfl) hne
  · obtain ⟨a, b, rfl⟩ := List.length_eq_two.1 (hix.trans (hr.symm.trans h2))
    have hs : shapeK k = some [3, 3] := by unfold shapeK; rw [if_neg (by omega), h2]; rfl
    have hc : fullClass k = 1 ∨ fullClass k = 2 ∨ fullClass k = 9 := by
      have : ∀ k ∈ coeffKeys, rankOf k = 2 → fullClass k = 1 ∨ fullClass k = 2 ∨ fullClass k = 9 := by decide +kernel
      exact this k hk h2
    rw [hs]
    have hx : ∀ i : I2, number (leptonFamily g) τ [i.1, i.2] ≠ 0 → (collect d (keyName k) [3, 3]).get (idx2 i) = 0 :=
      fun i hi => hcol _ [i.1, i.2] (by simp) hix hi
    rcases hc with e | e | e <;> rw [e]
    · exact cut_get _ _ _ (hx (a, b) hne)
    · obtain ⟨f, -, e'⟩ := (types4 k hk).2.2.2.2.1 e
      obtain rfl := Option.some.inj (e'.symm.trans hτ)
      refine cut2_get _ _ a b (run_support _ (fun i => number (leptonFamily g) [Fl.b f, Fl.x f] [i.1, i.2] ≠ 0)
        (fun s hs hn t ht => ?_) _ hx _ hne)
      rw [sound2_ok.1 s hs t ht]
      simp only [number, Fl.b, Fl.x] at hn ⊢
      intro h'
      apply hn
      split_ifs at h' ⊢ <;> simp_all
    · obtain rfl := Option.some.inj (((types4 k hk).2.2.2.2.2.1 e).symm.trans hτ)
      refine cut2_get _ _ a b (run_support _ (fun i => number (leptonFamily g) [Fl.x .l, Fl.x .l] [i.1, i.2] ≠ 0)
        (fun s hs hn t ht => ?_) _ hx _ hne)
      rw [sound2_ok.2 s hs t ht]
      simp only [number, Fl.b, Fl.x] at hn ⊢
      intro h'
      apply hn
      split_ifs at h' ⊢ <;> simp_all
  · obtain ⟨a, b, c, e0, rfl⟩ : ∃ a b c e, ix = [a, b, c, e] := by
      match ix, hix.trans (hr.symm.trans h4) with
      | [a, b, c, e], _ => exact ⟨a, b, c, e, rfl⟩
    have hs : shapeK k = some [3, 3, 3, 3] := by unfold shapeK; rw [if_neg (by omega), h4]; rfl
    have hc : fullClass k = 3 ∨ fullClass k = 4 ∨ fullClass k = 5 ∨ fullClass k = 6 ∨ fullClass k = 7 ∨ fullClass k = 8 := by
      have : ∀ k ∈ coeffKeys, rankOf k = 4 → fullClass k = 3 ∨ fullClass k = 4 ∨ fullClass k = 5 ∨ fullClass k = 6 ∨
        fullClass k = 7 ∨ fullClass k = 8 := by decide +kernel
      exact this k hk h4
    rw [hs]
    have hx : ∀ i : I4, number (leptonFamily g) τ [i.1, i.2.1, i.2.2.1, i.2.2.2] ≠ 0 →
        (collect d (keyName k) [3, 3, 3, 3]).get (idx4 i) = 0 :=
      fun i hi => hcol _ [i.1, i.2.1, i.2.2.1, i.2.2.2] (by simp) hix hi
    have run : ∀ (p : List (Instr I4)), sound4 (fullClass k) p = true → ∀ x : I4 → ℂ,
        (∀ i : I4, number (leptonFamily g) τ [i.1, i.2.1, i.2.2.1, i.2.2.2] ≠ 0 → x i = 0) →
        ∀ i : I4, number (leptonFamily g) τ [i.1, i.2.1, i.2.2.1, i.2.2.2] ≠ 0 → runProg p x i = 0 :=
      fun p hp x hx i hi => run_support p _ (fun s hs hn t ht =>
        rel4_number g hk hτ _ _ _ _ t (sound4_iff hp s hs t ht) hn) x hx i hi
    obtain ⟨s4, s5, s6, s7, s8, s8'⟩ := sound4_ok
    rcases hc with e | e | e | e | e | e <;> rw [e] at run ⊢
    · exact cut_get _ _ _ (hx (a, b, c, e0) hne)
    · exact cut4_get (fun x i => runProg Gen.symmetrize_4 x i / (d4 i : ℂ)) _ a b c e0
        ((congrArg (· / ((d4 (a, b, c, e0) : ℕ) : ℂ)) (run _ s4 _ hx (a, b, c, e0) hne)).trans (zero_div _))
    · exact cut4_get _ _ a b c e0 (run _ s5 _ hx _ hne)
    · exact cut4_get (fun x i => runProg Gen.symmetrize_6 x i / (d6 i : ℂ)) _ a b c e0
        ((congrArg (· / ((d6 (a, b, c, e0) : ℕ) : ℂ)) (run _ s6 _ hx (a, b, c, e0) hne)).trans (zero_div _))
    · exact cut4_get (fun x i => runProg Gen.symmetrize_7 x i / (d7 i : ℂ)) _ a b c e0
        ((congrArg (· / ((d7 (a, b, c, e0) : ℕ) : ℂ)) (run _ s7 _ hx (a, b, c, e0) hne)).trans (zero_div _))
    · exact cut4_get (fun x => runProg Gen.symmetrize_8 (runProg Gen.scale_8 x)) _ a b c e0
        (run _ s8 _ (run _ s8' _ hx) (a, b, c, e0) hne)

/-- the CKM rotation does not change family numbers -/
theorem rot_family (g : Fin 3) (V : Mat) (τ : List (Ty WFl)) (A : Ten) (ix : Ix)
    (h : ∀ jx : Ix, jx.length = τ.length → number (fun f => leptonFamily g (parent f)) τ jx =
      number (fun f => leptonFamily g (parent f)) τ ix → A jx = 0) (hl : ix.length = τ.length) :
    rot (downOnly V) τ A ix = 0 := by
  induction τ generalizing A ix with
  | nil => exact h [] rfl (by cases ix <;> rfl)
  | cons t τ ih =>
    cases ix with
    | nil => rfl
    | cons i is =>
      simp only [rot]
      refine Finset.sum_eq_zero fun j _ => ?_
      by_cases hd : t.f = .dL
      · rw [ih (fun js => A (j :: js)) is (fun js hjs hn => h (j :: js) (by simp [hjs]) ?_) (by simpa using hl), mul_zero]
        simp only [number, hn, hd]
        simp [leptonFamily, parent]
      · by_cases hj : j = i
        · subst hj
          rw [ih (fun js => A (j :: js)) is (fun js hjs hn => h (j :: js) (by simp [hjs]) ?_) (by simpa using hl), mul_zero]
          simp only [number, hn]
        · have : fac (downOnly V) t j i = 0 := by
            have : downOnly V t.f = 1 := by
              revert hd
              cases t.f <;> simp [downOnly]
            unfold fac
            rw [this, Matrix.one_apply_ne hj]
            simp
          rw [this, zero_mul]

/-- **C89, lepton family numbers (named coefficients).** If every given coefficient of an operator
that does not conserve the number of leptons of generation `g` vanishes, so does every WET
coefficient in the result that does not conserve it. -/
theorem C89_family_names {U : Util} (hS : IsSmeft U) (names : List Str) (ckm : Ckm) (defaults : Dict String ℝ)
    (g : Fin 3) (d : Dict Str ℂ) (hd : d.NodupKeys) (hk : ∀ n ∈ d.keys, n ∈ U.allWcs)
    (h0 : ∀ k ∈ coeffKeys, ∀ τ, smeftTy k = some τ → ∀ ix : Ix, ix.length = τ.length →
      number (leptonFamily g) τ ix ≠ 0 → (d.get? (smeftName k ix)).getD 0 = 0)
    (scale : ℝ) (par : Option (Dict String ℝ)) (e : Dict Str ℂ)
    (h : matchAll U names (loopRaw ckm) ckm defaults d scale par = .ok e) (k : WKey) (ix : Ix)
    (hix : ix.length = (wetTy k).length) (hne : number (fun f => leptonFamily g (parent f)) (wetTy k) ix ≠ 0)
    (z : ℂ) (hz : e.get? (wetName k ix) = some z) : z = 0 := by
  obtain ⟨C, W, V, eC, -, hW, hn, hv⟩ := C30_matched hS names (loopRaw ckm) ckm defaults d hd hk scale par e h
  obtain ⟨_, eC', hno, hC⟩ := read_get hS d hd hk
  obtain rfl := Except.ok.inj (eC.symm.trans eC')
  obtain ⟨B, hB, hB0⟩ := C89_lepton_family g ckm (typed C) (fun k τ hτ ix hl hn => by
    unfold val
    by_cases hc : k ∈ coeffKeys
    · rw [hC k hc]
      exact read_family g hc hτ (h0 k hc τ hτ) ix hl hn
    · rw [hno k hc]
      rfl) (fun k hk => by unfold Dict.mem; rw [hC k hk]; rfl) _ scale W hW k
  obtain ⟨A, hA, hA'⟩ := hv k
  rw [hB] at hA
  obtain rfl := Option.some.inj hA
  rw [hA' ix hix (hn _ ((Dict.isSome_get?_iff _ _).1 (by rw [hz]; rfl))), Option.some.injEq] at hz
  rw [← hz, rot_family g V (wetTy k) B ix (fun jx hjx hnum => hB0 jx hjx (by rw [hnum]; exact hne)) hix, mul_zero]


/-- the hypotheses of `C90_names`, `C88_names`, `C89_baryon_names`, `C89_family_names` and `C30_matched` are met by the full Warsaw basis, an imaginary
flavour-violating coefficient and three times this coefficient minus itself -/
example (ckm : Ckm) (names : List Str) : ∃ defaults : Dict String ℝ, defaults.get? "loop_order" = some 1 ∧
    Sum 3 (-1) [("phiq1_12".toList, 2 * Complex.I)] [("phiq1_12".toList, Complex.I)] [("phiq1_12".toList, Complex.I)] ∧
    (∀ n ∈ shiftNames, Dict.get? [("phiq1_12".toList, Complex.I)] n = none) ∧
    (∀ k ∈ bnvSMEFT, Dict.get? [("phiq1_12".toList, Complex.I)] (keyName k) = none ∧
      ∀ idx, Dict.get? [("phiq1_12".toList, Complex.I)] (wcName (keyName k) idx) = none) ∧
    CpConjugate [("phiq1_12".toList, Complex.I)] [("phiq1_12".toList, -Complex.I)] ∧
    (∀ g, ∀ k ∈ coeffKeys, ∀ τ, smeftTy k = some τ → ∀ ix : Ix, ix.length = τ.length →
      number (leptonFamily g) τ ix ≠ 0 → (Dict.get? [("phiq1_12".toList, Complex.I)] (smeftName k ix)).getD 0 = 0) ∧
    ∃ e, matchAll smeftUtil names (loopRaw ckm) ckm defaults [("phiq1_12".toList, Complex.I)] 160 none = .ok e := by
  refine ⟨_, rfl, fun n => ?_, ?_, ?_, fun n => ?_, fun g k hk τ hτ ix hix hn => ?_, C90_succeeds smeft_isSmeft names ckm _ _ (by simp [Dict.NodupKeys, Dict.keys]) ?_ ?_ 160
    (by norm_num) none (physical_ex ckm)⟩
  · simp only [Dict.get?]
    split
    · simp only [Option.getD_some]; push_cast; ring
    · simp
  · decide
  · intro k hk
    refine ⟨by revert hk; revert k; decide, fun idx => ?_⟩
    simp only [Dict.get?]
    rw [if_neg]
    intro e
    simp only [bnvSMEFT, List.mem_cons, List.not_mem_nil, or_false] at hk
    rcases hk with rfl | rfl | rfl | rfl
    all_goals
      have := congrArg List.head? e
      simp [wcName, keyName, keyString] at this
  · simp only [Dict.get?]
    split
    · rename_i h
      rw [if_neg (by rw [← h]; decide)]
      simp
    · simp
  · simp only [Dict.get?]
    rw [if_neg]
    · rfl
    · intro e
      unfold smeftName at e
      split at e
      · have := congrArg (List.elem '_') e
        rw [show List.elem '_' "phiq1_12".toList = true by decide] at this
        exact noUnderscore k ((coeff_iff k).1 hk).1 (by simpa using this)
      · obtain ⟨rfl, -⟩ : k = .phiq1 ∧ True := by
          have h1 := congrArg splitUS e
          rw [wcName, splitUS_append (noUnderscore k ((coeff_iff k).1 hk).1)] at h1
          have h2 := congrArg List.head? h1
          rw [show (splitUS "phiq1_12".toList).head? = some (keyName .phiq1) by decide] at h2
          exact ⟨(keyName_inj (Option.some.inj h2)).symm, trivial⟩
        obtain rfl := Option.some.inj hτ
        exact hn (by match ix, hix with | [a, b], _ => simp [number, leptonFamily, Fl.b, Fl.x])
  · intro n hn
    simp only [Dict.keys, List.map_cons, List.map_nil, List.mem_cons, List.not_mem_nil, or_false] at hn
    subst hn
    exact List.mem_flatMap.2 ⟨.phiq1, by decide, List.mem_map.2 ⟨(0, 1), by decide, by decide⟩⟩
  · intro k hk
    refine ⟨by revert hk; revert k; decide, fun idx => ?_⟩
    simp only [Dict.get?]
    rw [if_neg]
    intro e
    simp only [List.mem_cons, List.not_mem_nil, or_false] at hk
    rcases hk with rfl | rfl | rfl | rfl
    · have := congrArg List.head? e
      simp [wcName, keyName, keyString] at this
    all_goals
      have := congrArg List.head? (congrArg (List.drop 3) e)
      simp [wcName, keyName, keyString] at this

end Verif.Loop
