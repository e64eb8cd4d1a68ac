import Verif.Spec.WetRun
import Mathlib.Algebra.BigOperators.Field
import Mathlib.Data.List.OfFn
import Mathlib.Data.List.Nodup
import Mathlib.Tactic.Ring
import Mathlib.Tactic.FieldSimp
import Mathlib.Tactic.Linarith
import Mathlib.Tactic.NormNum
import Mathlib.Tactic.LinearCombination
import Mathlib.Analysis.SpecialFunctions.Pow.Deriv
import Mathlib.Analysis.SpecialFunctions.Log.Deriv
import Mathlib.Analysis.Calculus.Deriv.Add
import Mathlib.Analysis.Complex.RealDeriv

/-! # Lemmas on the WET running model -/

open Classical

set_option autoImplicit false
set_option linter.unusedSectionVars false
set_option linter.unusedSimpArgs false

namespace Verif.WetRun

/-- the dictionary with the given keys and values -/
noncomputable def toDict (keys : List String) (g : Fin keys.length → ℂ) : Dict String ℂ :=
  Dict.update [] (keys.zip (List.ofFn g))

theorem zip_keys (keys : List String) (g : Fin keys.length → ℂ) :
    Dict.keys (keys.zip (List.ofFn g)) = keys := by
  unfold Dict.keys
  rw [List.map_fst_zip]
  simp

theorem update_nil {α : Type} (e : Dict String α) (he : e.NodupKeys) (d : Dict String α)
    (hd : ∀ k ∈ e.keys, k ∉ d.keys) : d.update e = d ++ e := by
  unfold Dict.update
  induction e generalizing d with
  | nil => simp
  | cons p e ih =>
    obtain ⟨a, b⟩ := p
    simp only [Dict.NodupKeys, Dict.keys, List.map_cons, List.nodup_cons] at he hd
    have hset : Dict.set d a b = d ++ [(a, b)] := by
      have hmem : a ∉ List.map Prod.fst d := hd a (by simp)
      clear ih hd
      induction d with
      | nil => rfl
      | cons q d ih =>
        obtain ⟨c, x⟩ := q
        simp only [List.map_cons, List.mem_cons, not_or] at hmem
        have : ¬ (c = a) := fun h => hmem.1 h.symm
        simp only [Dict.set, this, if_false, List.cons_append]
        rw [ih hmem.2]
    rw [List.foldl_cons, hset, ih he.2]
    · simp
    · intro k hk
      simp only [Dict.keys, List.map_append, List.map_cons, List.map_nil, List.mem_append,
        List.mem_singleton, not_or]
      refine ⟨hd k (by simp [Dict.keys] at hk ⊢; tauto), ?_⟩
      rintro rfl
      exact he.1 hk

theorem toDict_eq (keys : List String) (g : Fin keys.length → ℂ) (h : keys.Nodup) :
    toDict keys g = keys.zip (List.ofFn g) := by
  unfold toDict
  rw [update_nil _ (by rw [Dict.NodupKeys, zip_keys]; exact h) [] (by simp [Dict.keys])]
  rfl

theorem toDict_keys (keys : List String) (g : Fin keys.length → ℂ) (h : keys.Nodup) :
    (toDict keys g).keys = keys := by
  rw [toDict_eq _ _ h, zip_keys]

theorem toDict_nodup (keys : List String) (g : Fin keys.length → ℂ) : (toDict keys g).NodupKeys :=
  Dict.nodupKeys_update _ _ (by simp [Dict.NodupKeys, Dict.keys])

theorem toDict_get? (keys : List String) (g : Fin keys.length → ℂ) (h : keys.Nodup)
    (i : Fin keys.length) : (toDict keys g).get? keys[i] = some (g i) := by
  apply Dict.get?_of_mem (toDict_nodup _ _)
  rw [toDict_eq _ _ h, List.mem_iff_getElem]
  refine ⟨i, by simp, ?_⟩
  simp

theorem toDict_get?_none (keys : List String) (g : Fin keys.length → ℂ) (h : keys.Nodup)
    (k : String) (hk : k ∉ keys) : (toDict keys g).get? k = none := by
  rw [Dict.get?_eq_none_iff, toDict_keys _ _ h]
  exact hk

theorem toDict_getD (keys : List String) (g : Fin keys.length → ℂ) (h : keys.Nodup)
    (i : Fin keys.length) : (toDict keys g).getD keys[i] 0 = g i := by
  unfold Dict.getD
  rw [toDict_get? _ _ h]
  rfl

theorem toDict_congr (keys : List String) (g g' : Fin keys.length → ℂ) (h : g = g') :
    toDict keys g = toDict keys g' := by rw [h]

theorem map_eq_ofFn (keys : List String) (C : Dict String ℂ) :
    (keys.map fun k => C.getD k 0) = List.ofFn fun i : Fin keys.length => C.getD keys[i] 0 := by
  apply List.ext_getElem
  · simp
  · intro i h1 h2
    simp

theorem scales_length {keys : List String} {p : Par} {s : List ℝ} (h : scales keys p = .ok s) :
    s.length = keys.length := by
  unfold scales at h
  induction keys generalizing s with
  | nil =>
    simp only [List.mapM_nil, pure, Except.pure, Except.ok.injEq] at h
    rw [← h]; rfl
  | cons k ks ih =>
    rw [List.mapM_cons] at h
    cases hk : scaleC k p with
    | error e => rw [hk] at h; simp [bind, Except.bind] at h
    | ok x =>
      rw [hk] at h
      cases hks : ks.mapM (fun k => scaleC k p) with
      | error e => rw [hks] at h; simp [bind, Except.bind] at h
      | ok xs =>
        rw [hks] at h
        simp only [bind, Except.bind, pure, Except.pure, Except.ok.injEq] at h
        rw [← h]
        simp [ih hks]

theorem scales_get {keys : List String} {p : Par} {s : List ℝ} (h : scales keys p = .ok s)
    (i : Fin keys.length) : scaleC keys[i] p = .ok (s.getD i 0) := by
  unfold scales at h
  induction keys generalizing s with
  | nil => exact i.elim0
  | cons k ks ih =>
    rw [List.mapM_cons] at h
    cases hk : scaleC k p with
    | error e => rw [hk] at h; simp [bind, Except.bind] at h
    | ok x =>
      rw [hk] at h
      cases hks : ks.mapM (fun k => scaleC k p) with
      | error e => rw [hks] at h; simp [bind, Except.bind] at h
      | ok xs =>
        rw [hks] at h
        simp only [bind, Except.bind, pure, Except.pure, Except.ok.injEq] at h
        rw [← h]
        refine Fin.cases ?_ (fun j => ?_) i
        · simpa using hk
        · simpa using ih hks j

/-- the transfer matrix of a sector: evolution with the normalisation factors -/
noncomputable def transfer {n : ℕ} (U : Matrix (Fin n) (Fin n) ℂ) (s_in s_out : List ℝ) :
    Matrix (Fin n) (Fin n) ℂ :=
  fun i j => U i j * (s_in.getD j 0 : ℂ) / (s_out.getD i 0 : ℂ)

theorem transfer_mulVec {n : ℕ} (U : Matrix (Fin n) (Fin n) ℂ) (s_in s_out : List ℝ)
    (x : Fin n → ℂ) (i : Fin n) :
    (U.mulVec fun j => x j * (s_in.getD j 0 : ℂ)) i / (s_out.getD i 0 : ℂ)
      = (transfer U s_in s_out).mulVec x i := by
  simp only [Matrix.mulVec, dotProduct, transfer]
  rw [Finset.sum_div]
  apply Finset.sum_congr rfl
  intro j _
  ring

/-- the values of the coefficients of a list -/
noncomputable def vec (keys : List String) (C : Dict String ℂ) : Fin keys.length → ℂ :=
  fun i => C.getD keys[i] 0

variable (B : Backend)

/-- the evolution part of `run_sector` -/
noncomputable def evolved (classname : String) (keys : List String) (eta : ℝ) (f : ℕ)
    (p_in p_out : Par) (qed qcd : ℕ) :
    Except Exc (Matrix (Fin keys.length) (Fin keys.length) ℂ) := do
  let s_in ← scales keys p_in
  let U ← evolution B classname eta f p_in qed qcd keys.length
  let s_out ← scales keys p_out
  pure (transfer U s_in s_out)

theorem runSector_eq (sector : String) (C : Dict String ℂ) (eta : ℝ) (f : ℕ) (p_in p_out : Par)
    (qed qcd : ℕ) :
    runSector B sector C eta f p_in p_out qed qcd =
      (lookup B.sectors sector >>= fun cls => keylist B sector f >>= fun keys =>
        if vec keys C = 0 ∨ cls = "inv" then .ok (toDict keys (vec keys C))
        else evolved B cls keys eta f p_in p_out qed qcd >>= fun T =>
          .ok (toDict keys (T.mulVec (vec keys C)))) := by
  unfold runSector
  cases lookup B.sectors sector with
  | error e => rfl
  | ok cls =>
    cases keylist B sector f with
    | error e => rfl
    | ok keys =>
      simp only [bind, Except.bind, pure, Except.pure]
      have hz : ((keys.map fun k => C.getD k 0).all (fun x => decide (x = 0)) = true)
          ↔ vec keys C = 0 := by
        rw [List.all_eq_true]
        constructor
        · intro h
          funext i
          have := h (C.getD keys[i] 0) (List.mem_map.2 ⟨keys[i], List.getElem_mem _, rfl⟩)
          simpa [vec] using this
        · intro h x hx
          obtain ⟨k, hk, rfl⟩ := List.mem_map.1 hx
          obtain ⟨i, hi, rfl⟩ := List.mem_iff_getElem.1 hk
          have := congrFun h ⟨i, hi⟩
          simpa [vec] using this
      by_cases hc : vec keys C = 0 ∨ cls = "inv"
      · rw [if_pos hc, if_pos (by rw [hz]; exact hc)]
        rw [map_eq_ofFn]
        rfl
      · rw [if_neg hc, if_neg (by rw [hz]; exact hc)]
        unfold evolved
        simp only [bind, Except.bind, pure, Except.pure]
        cases scales keys p_in with
        | error e => rfl
        | ok s_in =>
          dsimp only
          cases evolution B cls eta f p_in qed qcd keys.length with
          | error e => rfl
          | ok U =>
            dsimp only
            cases scales keys p_out with
            | error e => rfl
            | ok s_out =>
              dsimp only
              unfold toDict
              congr 4
              funext i
              rw [← transfer_mulVec]
              congr 2
              funext j
              simp [vec, List.getD_eq_getElem?_getD]

theorem ok_bind {α β : Type} {x : Except Exc α} {g : α → Except Exc β} {y : β}
    (h : (x >>= g) = .ok y) : ∃ a, x = .ok a ∧ g a = .ok y := by
  cases x with
  | error e => simp [bind, Except.bind] at h
  | ok a => exact ⟨a, rfl, h⟩

/-- what a successful run of a sector returns -/
theorem runSector_ok {sector : String} {C : Dict String ℂ} {eta : ℝ} {f : ℕ} {p_in p_out : Par}
    {qed qcd : ℕ} {d : Dict String ℂ} (h : runSector B sector C eta f p_in p_out qed qcd = .ok d) :
    ∃ cls keys, lookup B.sectors sector = .ok cls ∧ keylist B sector f = .ok keys ∧
      (((vec keys C = 0 ∨ cls = "inv") ∧ d = toDict keys (vec keys C)) ∨
       (¬(vec keys C = 0 ∨ cls = "inv") ∧ ∃ T, evolved B cls keys eta f p_in p_out qed qcd = .ok T ∧
          d = toDict keys (T.mulVec (vec keys C)))) := by
  rw [runSector_eq] at h
  obtain ⟨cls, h1, h⟩ := ok_bind h
  obtain ⟨keys, h2, h⟩ := ok_bind h
  refine ⟨cls, keys, h1, h2, ?_⟩
  by_cases hc : vec keys C = 0 ∨ cls = "inv"
  · rw [if_pos hc] at h
    left
    exact ⟨hc, by injection h with h; exact h.symm⟩
  · rw [if_neg hc] at h
    obtain ⟨T, h3, h⟩ := ok_bind h
    right
    exact ⟨hc, T, h3, by injection h with h; exact h.symm⟩

/-! ## The names of a sector -/

theorem lookup_ok {α : Type} {d : Dict String α} {k : String} {x : α} :
    lookup d k = .ok x ↔ d.get? k = some x := by
  unfold lookup
  cases d.get? k <;> simp

theorem filter_range_map (l : List String) (q : String → Bool) :
    (((List.range l.length).filter fun i => q (l[i]?.getD "")).map fun i => l[i]?.getD "")
      = l.filter q := by
  induction l with
  | nil => rfl
  | cons a l ih =>
    rw [List.length_cons, List.range_succ_eq_map, List.filter_cons]
    have hrest : (((List.range l.length).map Nat.succ).filter
        fun i => q ((a :: l)[i]?.getD "")).map (fun i => (a :: l)[i]?.getD "") = l.filter q := by
      rw [List.filter_map, List.map_map, ← ih]
      rfl
    by_cases h : q a
    · simp [h, hrest]
    · simp [h, hrest]

theorem permissible_some {cls : String} {f : ℕ} {perm : List ℕ}
    (h : permissible B cls f = .ok (some perm)) :
    cls ∈ reducedClasses ∧ (f = 3 ∨ f = 4) ∧
    ∃ b all, B.basisKeys f (if cls = "dF0" then "dF=0" else cls) = .ok b ∧
      B.coeffs.get? (if cls = "dF0" then "dF=0" else cls) = some all ∧
      perm = (List.range all.length).filter (fun i => decide ((all[i]?.getD "") ∈ b)) := by
  unfold permissible at h
  by_cases hA : cls ∉ reducedClasses ∨ f = 5
  · rw [if_pos hA] at h; simp at h
  · rw [if_neg hA] at h
    by_cases hB : f ∉ [3, 4]
    · rw [if_pos hB] at h; simp at h
    · rw [if_neg hB] at h
      obtain ⟨b, h3, h⟩ := ok_bind h
      obtain ⟨all, h4, h⟩ := ok_bind h
      simp only [pure, Except.pure, Except.ok.injEq, Option.some.injEq] at h
      simp only [not_or, not_not] at hA hB
      refine ⟨hA.1, by simpa using hB, b, all, h3, lookup_ok.1 h4, h.symm⟩

theorem permissible_none {cls : String} {f : ℕ} (h : permissible B cls f = .ok none) :
    cls ∉ reducedClasses ∨ f = 5 := by
  unfold permissible at h
  by_cases hA : cls ∉ reducedClasses ∨ f = 5
  · exact hA
  · rw [if_neg hA] at h
    by_cases hB : f ∉ [3, 4]
    · rw [if_pos hB] at h; simp at h
    · rw [if_neg hB] at h
      obtain ⟨b, h3, h⟩ := ok_bind h
      obtain ⟨all, h4, h⟩ := ok_bind h
      simp [pure, Except.pure] at h

theorem sector_of_class {B : Backend} (hB : Tables B) {sector : String} {all : List String}
    (h : B.coeffs.get? sector = some all) :
    (if classOfSector sector = "dF0" then "dF=0" else classOfSector sector) = sector := by
  unfold classOfSector
  by_cases hs : sector = "dF=0"
  · simp [hs]
  · rw [if_neg hs]
    by_cases hs' : sector = "dF0"
    · rw [hs', hB.noDF0] at h; simp at h
    · rw [if_neg hs']

/-- the two possible forms of the list of names of a sector -/
theorem keylist_cases {B : Backend} (hB : Tables B) {sector : String} {f : ℕ} {keys : List String}
    (h : keylist B sector f = .ok keys) :
    ∃ all, B.coeffs.get? sector = some all ∧
      ((permissible B (classOfSector sector) f = .ok none ∧ keys = all) ∨
       ∃ b perm, classOfSector sector ∈ reducedClasses ∧ (f = 3 ∨ f = 4) ∧
        permissible B (classOfSector sector) f = .ok (some perm) ∧
        B.basisKeys f sector = .ok b ∧ keys = all.filter (fun k => decide (k ∈ b)) ∧
        keys = perm.map (fun i => all[i]?.getD "") ∧
        perm = (List.range all.length).filter (fun i => decide ((all[i]?.getD "") ∈ b))) := by
  unfold keylist at h
  obtain ⟨all, h1, h⟩ := ok_bind h
  obtain ⟨pm, h2, h⟩ := ok_bind h
  rw [lookup_ok] at h1
  refine ⟨all, h1, ?_⟩
  cases pm with
  | none =>
    simp only [pure, Except.pure, Except.ok.injEq] at h
    exact Or.inl ⟨h2, h.symm⟩
  | some perm =>
    simp only [pure, Except.pure, Except.ok.injEq] at h
    obtain ⟨hr, hf, b, all', hb, ha, hp⟩ := permissible_some B h2
    change B.basisKeys f (if classOfSector sector = "dF0" then _ else classOfSector sector) = _ at hb
    change B.coeffs.get? (if classOfSector sector = "dF0" then _ else classOfSector sector) = _ at ha
    rw [sector_of_class hB h1] at hb ha
    rw [h1] at ha
    injection ha with ha
    subst ha
    refine Or.inr ⟨b, perm, hr, hf, h2, hb, ?_, h.symm, hp⟩
    rw [← h, hp, filter_range_map all fun k => decide (k ∈ b)]

theorem keylist_sub {B : Backend} (hB : Tables B) {sector : String} {f : ℕ} {keys : List String}
    (h : keylist B sector f = .ok keys) :
    ∃ all, B.coeffs.get? sector = some all ∧ keys.Sublist all := by
  obtain ⟨all, h1, h2 | ⟨b, perm, -, -, -, -, h2, -⟩⟩ := keylist_cases hB h
  · exact ⟨all, h1, by rw [h2.2]⟩
  · exact ⟨all, h1, by rw [h2]; exact List.filter_sublist⟩

theorem keylist_nodup {B : Backend} (hB : Tables B) {sector : String} {f : ℕ} {keys : List String}
    (h : keylist B sector f = .ok keys) : keys.Nodup := by
  obtain ⟨all, h1, h2⟩ := keylist_sub hB h
  exact (hB.nodup _ _ h1).sublist h2

theorem keylist_kept {B : Backend} (hB : Tables B) {sector : String} {f : ℕ} {keys : List String}
    (h : keylist B sector f = .ok keys) (k : String) : k ∈ keys ↔ Kept B sector f k := by
  obtain ⟨all, h1, h2 | ⟨b, perm, hr, hf, -, hb, h2, -⟩⟩ := keylist_cases hB h
  · constructor
    · intro hk
      exact .all all h1 (by rw [← h2.2]; exact hk) (permissible_none B h2.1)
    · rintro (⟨l, hl, hk, -⟩ | ⟨l, b, hl, hk, hr, hf, hb, hkb⟩)
      · rw [h1] at hl; injection hl with hl; rw [h2.2, hl]; exact hk
      · rw [h1] at hl; injection hl with hl; rw [h2.2, hl]; exact hk
  · constructor
    · intro hk
      rw [h2, List.mem_filter] at hk
      exact .reduced all b h1 hk.1 hr hf hb (by simpa using hk.2)
    · rintro (⟨l, hl, hk, h3⟩ | ⟨l, b', hl, hk, -, -, hb', hkb⟩)
      · rcases h3 with h3 | h3
        · exact absurd hr h3
        · omega
      · rw [h1] at hl; injection hl with hl
        rw [hb] at hb'; injection hb' with hb'
        rw [h2, List.mem_filter, hl, hb']
        exact ⟨hk, by simpa using hkb⟩

theorem vec_congr (keys : List String) (C C' : Dict String ℂ)
    (h : ∀ k ∈ keys, val C k = val C' k) : vec keys C = vec keys C' := by
  funext i
  exact h _ (List.getElem_mem _)

end Verif.WetRun

namespace Verif.WetRun

/-! ## Matrices -/

theorem us_one {n : ℕ} (w : Fin n → ℂ) (v : Matrix (Fin n) (Fin n) ℂ) (f : ℕ) (hv : IsUnit v) :
    usMatrix w v 1 f = 1 := by
  unfold usMatrix
  have : (fun i => ((1 : ℝ) : ℂ) ^ (w i / (2 * b0s f))) = fun _ => 1 := by
    funext i; simp
  rw [this, Matrix.diagonal_one, mul_one]
  exact Matrix.mul_nonsing_inv _ ((Matrix.isUnit_iff_isUnit_det _).1 hv)

theorem ue_one {n : ℕ} (w : Fin n → ℂ) (v A : Matrix (Fin n) (Fin n) ℂ) (f : ℕ) (p : Par) :
    ueMatrix w v A 1 f p = 0 := by
  unfold ueMatrix
  have : (fun i j : Fin n =>
      if w i / (2 * b0s f) - w j / (2 * b0s f) ≠ 1 then
        (v⁻¹ * A.transpose * v) i j * ((((1 : ℝ) : ℂ) ^ (w j / (2 * b0s f) + 1)
          - ((1 : ℝ) : ℂ) ^ (w i / (2 * b0s f))) / (w i / (2 * b0s f) - w j / (2 * b0s f) - 1))
      else (v⁻¹ * A.transpose * v) i j * (((1 : ℝ) : ℂ) ^ (w i / (2 * b0s f)) *
        (Real.log (1 / 1) : ℂ))) = (0 : Matrix (Fin n) (Fin n) ℂ) := by
    funext i j
    split_ifs <;> simp
  simp only [this]
  simp

theorem us_mul {n : ℕ} (w : Fin n → ℂ) (v : Matrix (Fin n) (Fin n) ℂ) (f : ℕ) (hv : IsUnit v)
    {e₁ e₂ : ℝ} (h1 : 0 < e₁) (h2 : 0 < e₂) :
    usMatrix w v e₁ f * usMatrix w v e₂ f = usMatrix w v (e₁ * e₂) f := by
  unfold usMatrix
  have hvv : v⁻¹ * v = 1 := Matrix.nonsing_inv_mul _ ((Matrix.isUnit_iff_isUnit_det _).1 hv)
  have hd : (fun i => ((e₁ * e₂ : ℝ) : ℂ) ^ (w i / (2 * b0s f)))
      = fun i => (e₁ : ℂ) ^ (w i / (2 * b0s f)) * (e₂ : ℂ) ^ (w i / (2 * b0s f)) := by
    funext i
    rw [Complex.ofReal_mul, Complex.mul_cpow_ofReal_nonneg h1.le h2.le]
  rw [hd, ← Matrix.diagonal_mul_diagonal]
  simp only [Matrix.mul_assoc]
  rw [← Matrix.mul_assoc v⁻¹ v, hvv, Matrix.one_mul]

theorem transfer_mul {n : ℕ} (U₁ U₂ : Matrix (Fin n) (Fin n) ℂ) (a b c : List ℝ)
    (hb : ∀ i : Fin n, b.getD i 0 ≠ 0) :
    transfer U₂ b c * transfer U₁ a b = transfer (U₂ * U₁) a c := by
  funext i k
  simp only [Matrix.mul_apply, transfer]
  rw [Finset.sum_mul, Finset.sum_div]
  apply Finset.sum_congr rfl
  intro j _
  have : (b.getD j 0 : ℂ) ≠ 0 := by exact_mod_cast hb j
  field_simp

theorem transfer_one {n : ℕ} (a : List ℝ) (ha : ∀ i : Fin n, a.getD i 0 ≠ 0) :
    transfer (1 : Matrix (Fin n) (Fin n) ℂ) a a = 1 := by
  funext i j
  unfold transfer
  by_cases h : i = j
  · subst h
    have : (a.getD i 0 : ℂ) ≠ 0 := by exact_mod_cast ha i
    simp only [Matrix.one_apply_eq, one_mul]
    exact div_self this
  · simp [Matrix.one_apply_ne h]

/-! ## Normalisation factors -/

theorem dipoleMass_pos {p : Par} (hp : p.Positive) {k : EFT.Str} {m : ℝ}
    (h : dipoleMass p k = .ok m) : 0 < m := by
  obtain ⟨-, -, h1, h2, h3, h4, h5, h6, h7, h8⟩ := hp
  unfold dipoleMass at h
  dsimp only at h
  split at h
  · simp at h
  · split_ifs at h <;> split at h <;> simp only [Except.ok.injEq, reduceCtorEq] at h <;>
      (rw [← h]; assumption)

theorem scaleC_pos {p : Par} (hp : p.Positive) {k : String} {s : ℝ} (h : scaleC k p = .ok s) :
    0 < s := by
  have hg : 0 < Real.sqrt (4 * Real.pi * p.alpha_s) :=
    Real.sqrt_pos.2 (mul_pos (mul_pos (by norm_num) Real.pi_pos) hp.1)
  have he : 0 < Real.sqrt (4 * Real.pi * p.alpha_e) :=
    Real.sqrt_pos.2 (mul_pos (mul_pos (by norm_num) Real.pi_pos) hp.2.1)
  unfold scaleC at h
  dsimp only at h
  split_ifs at h
  · obtain ⟨m, hm, h⟩ := ok_bind h
    simp only [pure, Except.pure, Except.ok.injEq] at h
    rw [← h]
    exact div_pos hg (dipoleMass_pos hp hm)
  · obtain ⟨m, hm, h⟩ := ok_bind h
    simp only [pure, Except.pure, Except.ok.injEq] at h
    rw [← h]
    exact div_pos (div_pos (pow_pos hg 2) he) (dipoleMass_pos hp hm)
  · injection h with h
    rw [← h]; exact hg
  · injection h with h
    rw [← h]; norm_num

theorem scales_ne {p : Par} (hp : p.Positive) {keys : List String} {s : List ℝ}
    (h : scales keys p = .ok s) (i : Fin keys.length) : s.getD i 0 ≠ 0 :=
  (scaleC_pos hp (scales_get h i)).ne'

/-! ## The evolution matrix -/

variable (B : Backend)

theorem sized_ok {M : Mat} {n : ℕ} {U : Matrix (Fin n) (Fin n) ℂ} (h : M.sized n = .ok U) :
    M = ⟨n, U⟩ := by
  unfold Mat.sized at h
  split_ifs at h with hn
  obtain ⟨k, m⟩ := M
  dsimp only at hn
  subst hn
  injection h with h
  rw [← h]
  rfl

theorem getUs_ok {cls : String} {eta : ℝ} {f : ℕ} {p : Par} {n : ℕ} {U : Matrix (Fin n) (Fin n) ℂ}
    (h : getUs B cls eta f p = .ok ⟨n, U⟩) :
    ∃ M, QcdAdm B cls f p.masses n M ∧
      U = usMatrix (B.eig n M.transpose).1 (B.eig n M.transpose).2 eta f := by
  unfold getUs at h
  obtain ⟨⟨n', w, v⟩, h1, h⟩ := ok_bind h
  unfold admeig at h1
  obtain ⟨A, hA, h1⟩ := ok_bind h1
  obtain ⟨⟨n'', M⟩, hA', h1⟩ := ok_bind h1
  simp only [pure, Except.pure, Except.ok.injEq, Sigma.mk.injEq] at h1
  obtain ⟨hn, hwv⟩ := h1
  subst hn
  rw [heq_eq_eq] at hwv
  simp only [pure, Except.pure, Except.ok.injEq, Mat.mk.injEq] at h
  obtain ⟨hn, hU⟩ := h
  subst hn
  rw [heq_eq_eq] at hU
  refine ⟨M, ⟨A, hA, hA'⟩, ?_⟩
  rw [hwv, ← hU]

theorem getUe_ok {cls : String} {eta : ℝ} {f : ℕ} {p : Par} {n : ℕ} {U : Matrix (Fin n) (Fin n) ℂ}
    (h : getUe B cls eta f p = .ok ⟨n, U⟩) :
    ∃ M E A, QcdAdm B cls f p.masses n M ∧ B.admE cls f p.masses = .ok A ∧
      reduce B cls f A = .ok ⟨n, E⟩ ∧
      U = ueMatrix (B.eig n M.transpose).1 (B.eig n M.transpose).2 E eta f p := by
  unfold getUe at h
  obtain ⟨A, hA, h⟩ := ok_bind h
  obtain ⟨A', hA', h⟩ := ok_bind h
  obtain ⟨⟨n', w, v⟩, h1, h⟩ := ok_bind h
  obtain ⟨E, hE, h⟩ := ok_bind h
  unfold admeig at h1
  obtain ⟨S, hS, h1⟩ := ok_bind h1
  obtain ⟨⟨n'', M⟩, hS', h1⟩ := ok_bind h1
  simp only [pure, Except.pure, Except.ok.injEq, Sigma.mk.injEq] at h1
  obtain ⟨hn, hwv⟩ := h1
  subst hn
  rw [heq_eq_eq] at hwv
  simp only [pure, Except.pure, Except.ok.injEq, Mat.mk.injEq] at h
  obtain ⟨hn, hU⟩ := h
  subst hn
  rw [heq_eq_eq] at hU
  refine ⟨M, E, A, ⟨S, hS, hS'⟩, hA, ?_, ?_⟩
  · rw [hA', sized_ok hE]
  · rw [hwv, ← hU]

theorem qcdAdm_unique {cls : String} {f : ℕ} {m : Masses} {n : ℕ} {M M' : Matrix (Fin n) (Fin n) ℂ}
    (h : QcdAdm B cls f m n M) (h' : QcdAdm B cls f m n M') : M = M' := by
  obtain ⟨A, h1, h2⟩ := h
  obtain ⟨A', h1', h2'⟩ := h'
  rw [h1] at h1'
  injection h1' with h1'
  subst h1'
  rw [h2] at h2'
  simpa using h2'

/-- the evolution matrix with QCD: the QCD part is that of the reduced ADM -/
theorem evolution_qcd {cls : String} {eta : ℝ} {f : ℕ} {p : Par} {qed n : ℕ}
    {U : Matrix (Fin n) (Fin n) ℂ} (h : evolution B cls eta f p qed 1 n = .ok U) :
    ∃ M, QcdAdm B cls f p.masses n M ∧
      ((qed = 0 ∧ U = usMatrix (B.eig n M.transpose).1 (B.eig n M.transpose).2 eta f) ∨
       (qed = 1 ∧ ∃ E A, B.admE cls f p.masses = .ok A ∧ reduce B cls f A = .ok ⟨n, E⟩ ∧
          U = usMatrix (B.eig n M.transpose).1 (B.eig n M.transpose).2 eta f +
            ueMatrix (B.eig n M.transpose).1 (B.eig n M.transpose).2 E eta f p)) := by
  unfold evolution at h
  obtain ⟨Us, h1, h⟩ := ok_bind h
  obtain ⟨Ue, h2, h⟩ := ok_bind h
  simp only [pure, Except.pure, Except.ok.injEq] at h
  unfold usPart at h1
  rw [if_neg (by decide), if_pos rfl] at h1
  obtain ⟨Us', h1', h1⟩ := ok_bind h1
  obtain ⟨M, hM, rfl⟩ := getUs_ok B (by rw [h1', sized_ok h1] : getUs B cls eta f p = .ok ⟨n, Us⟩)
  refine ⟨M, hM, ?_⟩
  unfold uePart at h2
  by_cases hq0 : qed = 0
  · rw [if_pos hq0] at h2
    injection h2 with h2
    rw [← h2, add_zero] at h
    exact Or.inl ⟨hq0, h.symm⟩
  · rw [if_neg hq0] at h2
    by_cases hq1 : qed = 1
    · rw [if_pos hq1, if_neg (by decide)] at h2
      obtain ⟨Ue', h2'', h2'⟩ := ok_bind h2
      obtain ⟨M', E, A, hM', hA, hE, rfl⟩ :=
        getUe_ok B (by rw [h2'', sized_ok h2'] : getUe B cls eta f p = .ok ⟨n, Ue⟩)
      rw [qcdAdm_unique B hM' hM] at h
      exact Or.inr ⟨hq1, E, A, hA, hE, h.symm⟩
    · rw [if_neg hq1] at h2
      simp at h2

/-- without QCD the QED part is evaluated at `eta = 1` and vanishes -/
theorem evolution_noqcd {cls : String} {eta : ℝ} {f : ℕ} {p : Par} {qed n : ℕ}
    {U : Matrix (Fin n) (Fin n) ℂ} (h : evolution B cls eta f p qed 0 n = .ok U) : U = 1 := by
  unfold evolution at h
  obtain ⟨Us, h1, h⟩ := ok_bind h
  obtain ⟨Ue, h2, h⟩ := ok_bind h
  simp only [pure, Except.pure, Except.ok.injEq] at h
  unfold usPart at h1
  rw [if_pos rfl] at h1
  injection h1 with h1
  unfold uePart at h2
  by_cases hq0 : qed = 0
  · rw [if_pos hq0] at h2
    injection h2 with h2
    rw [← h, ← h1, ← h2, add_zero]
  · rw [if_neg hq0] at h2
    by_cases hq1 : qed = 1
    · rw [if_pos hq1, if_pos rfl] at h2
      obtain ⟨Ue', h2'', h2'⟩ := ok_bind h2
      obtain ⟨M', E, A, hM', hA, hE, rfl⟩ :=
        getUe_ok B (by rw [h2'', sized_ok h2'] : getUe B cls 1 f p = .ok ⟨n, Ue⟩)
      rw [← h, ue_one, ← h1, add_zero]
    · rw [if_neg hq1] at h2
      simp at h2

theorem evolution_order {cls : String} {eta : ℝ} {f : ℕ} {p : Par} {qed qcd n : ℕ}
    {U : Matrix (Fin n) (Fin n) ℂ} (h : evolution B cls eta f p qed qcd n = .ok U) :
    qcd = 0 ∨ qcd = 1 := by
  unfold evolution at h
  obtain ⟨Us, h1, h⟩ := ok_bind h
  unfold usPart at h1
  by_cases h0 : qcd = 0
  · exact Or.inl h0
  · by_cases h1' : qcd = 1
    · exact Or.inr h1'
    · rw [if_neg h0, if_neg h1'] at h1
      simp at h1

theorem evolved_ok {cls : String} {keys : List String} {eta : ℝ} {f : ℕ} {p_in p_out : Par}
    {qed qcd : ℕ} {T : Matrix (Fin keys.length) (Fin keys.length) ℂ}
    (h : evolved B cls keys eta f p_in p_out qed qcd = .ok T) :
    ∃ s_in U s_out, scales keys p_in = .ok s_in ∧
      evolution B cls eta f p_in qed qcd keys.length = .ok U ∧ scales keys p_out = .ok s_out ∧
      T = transfer U s_in s_out := by
  unfold evolved at h
  obtain ⟨s_in, h1, h⟩ := ok_bind h
  obtain ⟨U, h2, h⟩ := ok_bind h
  obtain ⟨s_out, h3, h⟩ := ok_bind h
  refine ⟨s_in, U, s_out, h1, h2, h3, ?_⟩
  simp only [pure, Except.pure, Except.ok.injEq] at h
  exact h.symm

/-! ## The sector loop -/

theorem loop_spec {C : Dict String ℂ} {eta : ℝ} {f : ℕ} {p_i p_o : Par} {qed qcd : ℕ}
    {sectors : Sectors} (l : List String) (out out' : Dict String ℂ)
    (h : loop B C eta f p_i p_o qed qcd sectors l out = .ok out')
    (hnd : ∀ s d, runSector B s C eta f p_i p_o qed qcd = .ok d → d.NodupKeys) :
    (∀ s ∈ l, s ∈ B.sectors.keys → Requested sectors s →
      ∃ d, runSector B s C eta f p_i p_o qed qcd = .ok d) ∧
    (out.NodupKeys → out'.NodupKeys) ∧
    ∀ k, (∃ s ∈ l, s ∈ B.sectors.keys ∧ Requested sectors s ∧
        ∃ d, runSector B s C eta f p_i p_o qed qcd = .ok d ∧ k ∈ d.keys ∧ out'.get? k = d.get? k) ∨
      (out'.get? k = out.get? k ∧ ∀ s ∈ l, s ∈ B.sectors.keys → Requested sectors s →
        ∀ d, runSector B s C eta f p_i p_o qed qcd = .ok d → k ∉ d.keys) := by
  induction l generalizing out with
  | nil =>
    simp only [loop, Except.ok.injEq] at h
    subst h
    exact ⟨by simp, id, fun k => Or.inr ⟨rfl, by simp⟩⟩
  | cons s l ih =>
    unfold loop at h
    by_cases hs : s ∈ B.sectors.keys ∧ Requested sectors s
    · rw [if_pos hs] at h
      obtain ⟨d, hd, h⟩ := ok_bind h
      obtain ⟨i1, i2, i3⟩ := ih _ h
      refine ⟨?_, fun hn => i2 (Dict.nodupKeys_update _ _ hn), ?_⟩
      · intro s' hs' h1 h2
        rcases List.mem_cons.1 hs' with rfl | hs'
        · exact ⟨d, hd⟩
        · exact i1 s' hs' h1 h2
      · intro k
        rcases i3 k with ⟨s', h1, h2, h3, d', h4, h5, h6⟩ | ⟨h1, h2⟩
        · exact Or.inl ⟨s', List.mem_cons_of_mem _ h1, h2, h3, d', h4, h5, h6⟩
        · rw [Dict.get?_update _ _ (hnd s d hd)] at h1
          by_cases hk : k ∈ d.keys
          · left
            refine ⟨s, by simp, hs.1, hs.2, d, hd, hk, ?_⟩
            rw [h1]
            have := (Dict.isSome_get?_iff d k).2 hk
            cases hg : d.get? k with
            | none => rw [hg] at this; simp at this
            | some v => rfl
          · right
            constructor
            · rw [h1, (Dict.get?_eq_none_iff d k).2 hk]; rfl
            · intro s' hs' h3 h4 d' hd'
              rcases List.mem_cons.1 hs' with rfl | hs'
              · rw [hd] at hd'; injection hd' with hd'; rw [← hd']; exact hk
              · exact h2 s' hs' h3 h4 d' hd'
    · rw [if_neg hs] at h
      obtain ⟨i1, i2, i3⟩ := ih _ h
      refine ⟨?_, i2, ?_⟩
      · intro s' hs' h1 h2
        rcases List.mem_cons.1 hs' with rfl | hs'
        · exact absurd ⟨h1, h2⟩ hs
        · exact i1 s' hs' h1 h2
      · intro k
        rcases i3 k with ⟨s', h1, h2⟩ | ⟨h1, h2⟩
        · exact Or.inl ⟨s', List.mem_cons_of_mem _ h1, h2⟩
        · refine Or.inr ⟨h1, ?_⟩
          intro s' hs' h3 h4
          rcases List.mem_cons.1 hs' with rfl | hs'
          · exact absurd ⟨h3, h4⟩ hs
          · exact h2 s' hs' h3 h4

theorem runSector_keys {B : Backend} (hB : Tables B) {sector : String} {C : Dict String ℂ} {eta : ℝ}
    {f : ℕ} {p_in p_out : Par} {qed qcd : ℕ} {d : Dict String ℂ}
    (h : runSector B sector C eta f p_in p_out qed qcd = .ok d) :
    d.NodupKeys ∧ ∃ keys, keylist B sector f = .ok keys ∧ d.keys = keys := by
  obtain ⟨cls, keys, -, h2, ⟨-, rfl⟩ | ⟨-, T, -, rfl⟩⟩ := runSector_ok B h
  · exact ⟨toDict_nodup _ _, keys, h2, toDict_keys _ _ (keylist_nodup hB h2)⟩
  · exact ⟨toDict_nodup _ _, keys, h2, toDict_keys _ _ (keylist_nodup hB h2)⟩

theorem runSector_nodup {sector : String} {C : Dict String ℂ} {eta : ℝ}
    {f : ℕ} {p_in p_out : Par} {qed qcd : ℕ} {d : Dict String ℂ}
    (h : runSector B sector C eta f p_in p_out qed qcd = .ok d) : d.NodupKeys := by
  obtain ⟨cls, keys, -, h2, ⟨-, rfl⟩ | ⟨-, T, -, rfl⟩⟩ := runSector_ok B h
  · exact toDict_nodup _ _
  · exact toDict_nodup _ _

theorem kept_sector {B : Backend} (hB : Tables B) {s s' : String} {f : ℕ} {k : String}
    (h : Kept B s f k) (h' : Kept B s' f k) : s = s' := by
  by_contra hne
  have h1 : ∃ l, B.coeffs.get? s = some l ∧ k ∈ l := by
    rcases h with ⟨l, hl, hk, -⟩ | ⟨l, b, hl, hk, -⟩ <;> exact ⟨l, hl, hk⟩
  have h2 : ∃ l, B.coeffs.get? s' = some l ∧ k ∈ l := by
    rcases h' with ⟨l, hl, hk, -⟩ | ⟨l, b, hl, hk, -⟩ <;> exact ⟨l, hl, hk⟩
  obtain ⟨l, hl, hk⟩ := h1
  obtain ⟨l', hl', hk'⟩ := h2
  exact hB.disjoint s s' l l' hl hl' hne hk hk'

end Verif.WetRun

namespace Verif.WetRun

/-! ## Derivatives -/

theorem cpow_deriv (a : ℂ) {x : ℝ} (hx : 0 < x) :
    HasDerivAt (fun y : ℝ => (y : ℂ) ^ a) (a * (x : ℂ) ^ a / x) x := by
  have h0 : ((x : ℝ) : ℂ) ∈ Complex.slitPlane := Complex.ofReal_mem_slitPlane.2 hx
  have h1 := ((hasDerivAt_id (x : ℂ)).cpow_const (c := a) h0).comp_ofReal
  have hne : (x : ℂ) ≠ 0 := by exact_mod_cast hx.ne'
  have h2 : a * (id (x : ℂ)) ^ (a - 1) * 1 = a * (x : ℂ) ^ a / x := by
    simp only [id, mul_one]
    rw [Complex.cpow_sub _ _ hne, Complex.cpow_one]
    ring
  rw [h2] at h1
  exact h1

theorem log_deriv {x : ℝ} (hx : 0 < x) :
    HasDerivAt (fun y : ℝ => (Real.log (1 / y) : ℂ)) (-1 / x) x := by
  have h : HasDerivAt (fun y : ℝ => Real.log (1 / y)) (-1 / x) x := by
    have h1 := (Real.hasDerivAt_log hx.ne').neg
    have h2 : (fun y : ℝ => Real.log (1 / y)) = -Real.log := by
      funext y; simp [Real.log_inv]
    rw [h2]
    exact h1.congr_deriv (by rw [neg_div, one_div])
  have := h.ofReal_comp
  simpa using this

theorem sum_deriv {n : ℕ} (F : Fin n → ℝ → ℂ) (F' : Fin n → ℂ) (x : ℝ)
    (h : ∀ i, HasDerivAt (F i) (F' i) x) : HasDerivAt (fun y => ∑ i, F i y) (∑ i, F' i) x :=
  HasDerivAt.fun_sum fun i _ => h i

/-- entrywise derivative of `v * K η * v⁻¹` -/
theorem sandwich_deriv {n : ℕ} (P Q : Matrix (Fin n) (Fin n) ℂ) (K : ℝ → Matrix (Fin n) (Fin n) ℂ)
    (K' : Matrix (Fin n) (Fin n) ℂ) (x : ℝ)
    (h : ∀ i j, HasDerivAt (fun y => K y i j) (K' i j) x) (i j : Fin n) :
    HasDerivAt (fun y => (P * K y * Q) i j) ((P * K' * Q) i j) x := by
  simp only [Matrix.mul_apply]
  apply sum_deriv
  intro k
  apply HasDerivAt.mul_const
  apply sum_deriv
  intro l
  exact (h l k).const_mul _

theorem us_deriv {n : ℕ} {S v : Matrix (Fin n) (Fin n) ℂ} {w : Fin n → ℂ} (f : ℕ)
    (h : Diagonalises S (w, v)) {x : ℝ} (hx : 0 < x) (i j : Fin n) :
    HasDerivAt (fun y => usMatrix w v y f i j)
      (((1 / (2 * b0s f * x)) • (S * usMatrix w v x f)) i j) x := by
  have hK := sandwich_deriv v v⁻¹
    (fun y => Matrix.diagonal fun i => (y : ℂ) ^ (w i / (2 * b0s f)))
    (Matrix.diagonal fun i => (w i / (2 * b0s f)) * (x : ℂ) ^ (w i / (2 * b0s f)) / x) x
    (by
      intro i j
      by_cases hij : i = j
      · subst hij
        simp only [Matrix.diagonal_apply_eq]
        exact cpow_deriv _ hx
      · simp only [Matrix.diagonal_apply_ne _ hij]
        exact hasDerivAt_const x 0) i j
  have hd : (v * Matrix.diagonal (fun i => (w i / (2 * b0s f)) * (x : ℂ) ^ (w i / (2 * b0s f)) / x)
      * v⁻¹) = (1 / (2 * b0s f * x)) • (S * usMatrix w v x f) := by
    unfold usMatrix
    rw [← Matrix.mul_assoc, ← Matrix.mul_assoc, h.2]
    have : (Matrix.diagonal fun i => (w i / (2 * b0s f)) * (x : ℂ) ^ (w i / (2 * b0s f)) / x)
        = (1 / (2 * b0s f * x)) • (Matrix.diagonal w *
          Matrix.diagonal fun i => (x : ℂ) ^ (w i / (2 * b0s f))) := by
      rw [Matrix.diagonal_mul_diagonal, ← Matrix.diagonal_smul]
      congr 1
      funext i
      simp only [Pi.smul_apply, smul_eq_mul]
      ring
    rw [this]
    simp only [Matrix.mul_smul, Matrix.smul_mul, Matrix.mul_assoc]
  rw [hd] at hK
  exact hK

theorem ue_deriv {n : ℕ} {S v E : Matrix (Fin n) (Fin n) ℂ} {w : Fin n → ℂ} (f : ℕ) (p : Par)
    (h : Diagonalises S (w, v)) {x : ℝ} (hx : 0 < x) (i j : Fin n) :
    HasDerivAt (fun y => ueMatrix w v E y f p i j)
      (((1 / (2 * b0s f * x)) • (S * ueMatrix w v E x f p)
        + ((p.alpha_e : ℂ) / (2 * b0s f * p.alpha_s)) • (E.transpose * usMatrix w v x f)) i j) x := by
  set a : Fin n → ℂ := fun i => w i / (2 * b0s f) with ha
  set K0 : Matrix (Fin n) (Fin n) ℂ := v⁻¹ * E.transpose * v with hK0
  set K : ℝ → Matrix (Fin n) (Fin n) ℂ := fun y i j =>
    if a i - a j ≠ 1 then
      K0 i j * (((y : ℂ) ^ (a j + 1) - (y : ℂ) ^ a i) / (a i - a j - 1))
    else K0 i j * ((y : ℂ) ^ a i * (Real.log (1 / y) : ℂ)) with hKdef
  have hne : (x : ℂ) ≠ 0 := by exact_mod_cast hx.ne'
  have hvv : v * v⁻¹ = 1 := Matrix.mul_nonsing_inv _ ((Matrix.isUnit_iff_isUnit_det _).1 h.1)
  -- derivative of `K`
  have hK' : ∀ i j, HasDerivAt (fun y => K y i j)
      (((1 / x : ℂ) • (Matrix.diagonal a * K x)
        - K0 * Matrix.diagonal fun i => (x : ℂ) ^ a i) i j) x := by
    intro i j
    have hval : ((1 / x : ℂ) • (Matrix.diagonal a * K x)
        - K0 * Matrix.diagonal fun i => (x : ℂ) ^ a i) i j
        = a i * K x i j / x - K0 i j * (x : ℂ) ^ a j := by
      simp only [Matrix.sub_apply, Matrix.smul_apply, Matrix.diagonal_mul, Matrix.mul_diagonal,
        smul_eq_mul]
      ring
    rw [hval]
    have hpow : (x : ℂ) ^ (a j + 1) = (x : ℂ) ^ a j * x := by
      rw [Complex.cpow_add _ _ hne, Complex.cpow_one]
    by_cases hij : a i - a j ≠ 1
    · simp only [hKdef, if_pos hij]
      have hden : a i - a j - 1 ≠ 0 := sub_ne_zero.2 hij
      have h1 := ((cpow_deriv (a j + 1) hx).sub (cpow_deriv (a i) hx)).div_const (a i - a j - 1)
      have h2 := h1.const_mul (K0 i j)
      refine h2.congr_deriv ?_
      rw [hpow]
      field_simp
      ring
    · simp only [hKdef, if_neg hij]
      rw [not_not] at hij
      have h1 := ((cpow_deriv (a i) hx).mul (log_deriv hx)).const_mul (K0 i j)
      refine h1.congr_deriv ?_
      have hai : a i = a j + 1 := by linear_combination hij
      have : (x : ℂ) ^ a i = (x : ℂ) ^ a j * x := by rw [hai, hpow]
      rw [this]
      field_simp
      ring
  have hs := sandwich_deriv v v⁻¹ K _ x hK' i j
  have hs2 := hs.const_mul (-(p.alpha_e : ℂ) / (2 * b0s f * p.alpha_s))
  have hfun : (fun y => ueMatrix w v E y f p i j)
      = fun y => (-(p.alpha_e : ℂ) / (2 * b0s f * p.alpha_s)) * (v * K y * v⁻¹) i j := by
    funext y
    rfl
  rw [hfun]
  refine hs2.congr_deriv ?_
  have hx' : ueMatrix w v E x f p = (-(p.alpha_e : ℂ) / (2 * b0s f * p.alpha_s)) • (v * K x * v⁻¹) :=
    rfl
  rw [hx']
  have e1 : S * (v * K x * v⁻¹) = (2 * b0s f) • (v * (Matrix.diagonal a * K x) * v⁻¹) ∨ b0s f = 0 := by
    by_cases hb : b0s f = 0
    · exact Or.inr hb
    · left
      rw [← Matrix.mul_assoc, ← Matrix.mul_assoc, h.2]
      have : Matrix.diagonal w = (2 * b0s f) • Matrix.diagonal a := by
        rw [← Matrix.diagonal_smul]
        congr 1
        funext i
        simp only [ha, Pi.smul_apply, smul_eq_mul]
        field_simp
      rw [this]
      simp only [Matrix.mul_smul, Matrix.smul_mul, Matrix.mul_assoc]
  have e2 : E.transpose * usMatrix w v x f
      = v * (K0 * Matrix.diagonal fun i => (x : ℂ) ^ a i) * v⁻¹ := by
    unfold usMatrix
    rw [hK0]
    simp only [Matrix.mul_assoc]
    rw [← Matrix.mul_assoc v v⁻¹, hvv, Matrix.one_mul]
  rw [e2]
  rcases e1 with e1 | hb
  · by_cases hb : b0s f = 0
    · simp [hb]
    · rw [Matrix.mul_smul, e1]
      simp only [Matrix.add_apply, Matrix.smul_apply, Matrix.mul_sub, Matrix.sub_mul,
        Matrix.sub_apply, Matrix.mul_smul, Matrix.smul_mul, smul_eq_mul]
      field_simp
      ring
  · simp [hb]

end Verif.WetRun
