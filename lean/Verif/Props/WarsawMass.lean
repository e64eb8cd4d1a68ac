import Verif.Model.WarsawMass
import Verif.Lemmas.WarsawUp2
import Verif.Lemmas.SmeftBasis
import Mathlib.LinearAlgebra.Matrix.Charpoly.Basic
import Mathlib.Tactic.FinCases

/-!
# C96: the translation to the Warsaw mass basis
-/

set_option autoImplicit false

namespace Verif.Props
open Verif Verif.EFT Verif.EFT.Util Verif.Tens Verif.Beta Verif.Rotation Verif.Spec Verif.Flavour Verif.Bridge
  Verif.TranslateSmeft Classical

variable {U : Util}

/-! ## Specification -/

/-- the four coefficients with a left-handed quark doublet and a right-handed up quark -/
def upType : List Key := [.uphi, .uG, .uW, .uB]

/-- the name of an entry of a coefficient with two flavour indices -/
def name2 (k : Key) (i j : Fin 3) : Str := wcName (keyName k) [i.val, j.val]

/-- the value of an entry, zero if it is not given -/
def coef2 (d : Dict Str ℂ) (k : Key) : Mat := fun i j => (d.get? (name2 k i j)).getD 0

/-- the coefficient of the Weinberg operator, a symmetric matrix; the basis has the entries with
`i ≤ j` -/
def weinberg (d : Dict Str ℂ) : Mat := fun i j =>
  if i ≤ j then coef2 d .llphiphi i j else coef2 d .llphiphi j i

/-- what `ckmutil.diag.msvd` promises: a singular value decomposition `M = U diag(S) V†` -/
structure IsSvd (M : Mat) (r : Mat × (Fin 3 → ℝ) × Mat) : Prop where
  left : r.1 ∈ Matrix.unitaryGroup (Fin 3) ℂ
  right : r.2.2 ∈ Matrix.unitaryGroup (Fin 3) ℂ
  nonneg : ∀ i, 0 ≤ r.2.1 i
  eq : M = r.1 * Matrix.diagonal (fun i => (r.2.1 i : ℂ)) * r.2.2.conjTranspose

/-! ## Reading -/

theorem toarrayFrom_eq {name : Str} {s : List ℕ} (hs : Small s) (hname : '_' ∉ name) (h0 : U.keysShape.get? name = some (some s))
    (d : Dict Str ℂ) (hd : d.NodupKeys) (hk : ∀ k ∈ d.keys, ValidKey U k) (a : NDArr) (ha : a.shape = s) :
    toarrayFrom name a d = .ok ⟨s, fun idx => if inRange s idx then
      (d.get? (wcName name idx)).getD (a.get idx) else a.get idx⟩ := by
  induction d generalizing a with
  | nil => subst ha; simp [toarrayFrom]
  | cons p d ih =>
    obtain ⟨k, v⟩ := p
    have hd' : k ∉ Dict.keys d ∧ Dict.NodupKeys d := by
      simpa [Dict.NodupKeys, Dict.keys] using hd
    have hk' : ∀ k ∈ Dict.keys d, ValidKey U k := fun x hx => hk x (by simp [Dict.keys] at hx ⊢; tauto)
    rw [toarrayFrom]
    have hv := hk k (by simp [Dict.keys])
    cases hv with
    | scalar h hk1 =>
      have hne : k ≠ name := by rintro rfl; rw [h0] at h; cases h
      rw [if_pos (by rw [splitUS_of_notMem hk1]; exact hne), ih hd'.2 hk' a ha]
      congr 2
      funext idx
      have hne' : k ≠ wcName name idx := fun e => wcName_ne_scalar hk1 e.symm
      rw [Dict.get?_cons, if_neg hne']
    | @entry k1 s1 idx1 h hk1 hs1 hi1 =>
      rw [splitUS_wcName hk1 hi1 hs1]
      by_cases e : k1 = name
      · subst e
        obtain rfl : s = s1 := by rw [h0] at h; simpa using h
        rw [if_neg (by simp)]
        have : pyIdx a.shape ([k1, idx1.flatMap digitStr].getLastD []) = .ok idx1 := by
          rw [ha]; exact (pyIdx_digits hi1 hs1).1
        rw [this]
        simp only
        rw [ih hd'.2 hk' _ (by exact ha)]
        congr 2
        funext idx
        rw [Dict.get?_cons]
        by_cases hr : inRange s idx = true
        · rw [if_pos hr, if_pos hr]
          by_cases e : idx = idx1
          · subst e
            rw [if_pos rfl, (Dict.get?_eq_none_iff _ _).2 hd'.1]
            simp [setAt]
          · have : wcName k1 idx1 ≠ wcName k1 idx := fun h' =>
              e ((wcName_inj hk1 hk1 hi1 hr hs1 hs1 h').2 rfl).symm
            rw [if_neg this]
            simp [setAt, e]
        · rw [if_neg hr, if_neg hr]
          have : idx ≠ idx1 := by rintro rfl; exact hr hi1
          simp [setAt, this]
      · rw [if_pos (by simpa using e), ih hd'.2 hk' a ha]
        congr 2
        funext idx
        by_cases hr : inRange s idx = true
        · rw [if_pos hr, if_pos hr, Dict.get?_cons,
            if_neg (fun h' => e (wcName_inj hk1 hname hi1 hr hs1 hs h').1)]
        · rw [if_neg hr, if_neg hr]

theorem validKeys (hS : IsSmeft U) {d : Dict Str ℂ} (hk : ∀ n ∈ d.keys, n ∈ U.allWcs) :
    ∀ k ∈ d.keys, ValidKey U k := by
  intro n hn
  have us : ∀ {k s}, U.keysShape.get? k = some s → '_' ∉ k := fun hk => (hS.regular.good _ _ hk).1
  obtain ⟨r, hr⟩ := hS.complete.names n (hk n hn)
  cases hr with
  | scalar h => exact .scalar h (us h)
  | two h hc hi => exact .entry h (us h) (small3 (le3_of_regular hS.regular h)) hi
  | four h hc hi => exact .entry h (us h) (small3 (le3_of_regular hS.regular h)) hi

theorem small33 : Small [3, 3] := by intro n hn; simp at hn; omega

theorem in33 (i j : Fin 3) : inRange [3, 3] [i.val, j.val] = true := by
  simp [inRange, i.isLt, j.isLt]

theorem pad33 (hS : IsSmeft U) {name : Str} {a : NDArr} (ha : a.shape = [3, 3]) :
    U.pad [(name, .arr a)] = .ok [(name, .arr a)] := by
  unfold pad
  split
  · simp [mapDictM, padVal, ha, hS.regular.nGen, Except.map]
  · rfl

theorem unpad33 {name : Str} (h0 : U.keysShape.get? name = some (some [3, 3])) {a : NDArr}
    (ha : a.shape = [3, 3]) : U.unpad [(name, .arr a)] = .ok [(name, .arr a)] := by
  unfold unpad
  split
  · simp [mapDictM, h0, unpadVal, ha, Except.map]
  · rfl

/-- reading one coefficient with two flavour indices -/
theorem toarray_eq (hS : IsSmeft U) {k : Key} (hk : k ∈ coeffKeys) (hr : rankOf k = 2)
    (hc : fullClass k = 1 ∨ fullClass k = 9) (d : Dict Str ℂ) (hd : d.NodupKeys)
    (hdk : ∀ n ∈ d.keys, n ∈ U.allWcs) :
    ∃ v, smeftToarray U (keyName k) d = .ok v ∧
      (fullClass k = 1 → toMat v = coef2 d k) ∧
      (fullClass k = 9 → ∀ i j, toMat v i j = if i ≤ j then coef2 d k i j else coef2 d k j i) := by
  have h0 : U.keysShape.get? (keyName k) = some (some [3, 3]) := by
    rw [hS.shape k hk, shapeK_two hr]
  have hus := (hS.regular.good _ _ h0).1
  have e1 := toarrayFrom_eq (U := U) small33 hus h0 d hd (validKeys hS hdk) (zeros [3, 3]) rfl
  set a : NDArr := ⟨[3, 3], fun idx => if inRange [3, 3] idx then
      (d.get? (wcName (keyName k) idx)).getD ((zeros [3, 3]).get idx) else (zeros [3, 3]).get idx⟩ with ha
  have hK := keyOK_of hS hk
  have hcl := classOf_eq hK.hc hK.cls
  have hget : ∀ i j : Fin 3, a.get [i.val, j.val] = coef2 d k i j := by
    intro i j
    rw [ha]
    simp only [in33, if_true, zeros]
    rfl
  rcases hc with hc | hc
  · rw [hc] at hcl
    refine ⟨.arr a, ?_, ?_⟩
    · unfold smeftToarray symmetrize
      rw [h0]
      simp only [e1, Except.bind, pad33 hS (name := keyName k) (a := a) rfl]
      simp only [symmLoop, mapDictM, hcl, symmVal, Except.map, if_neg (show (1 : ℕ) ≠ 3 by decide),
        unpad33 h0 (a := a) rfl, Dict.get?_cons, if_true]
    · refine ⟨fun _ => ?_, fun h => by omega⟩
      funext i j
      exact hget i j
  · rw [hc] at hcl
    obtain ⟨b, hb, hbs, hbg⟩ : ∃ b, onArr2 (runProg Gen.symmetrize_9) (.arr a) = .ok (.arr b) ∧
        b.shape = [3, 3] ∧ ∀ i j : Fin 3, b.get [i.val, j.val] =
          runProg Gen.symmetrize_9 (fun m => a.get (idx2 m)) (i, j) := by
      refine ⟨_, by simp only [onArr2]; rw [if_pos rfl], rfl, fun i j => ?_⟩
      simp only [i.isLt, j.isLt, and_self, dif_pos]
    refine ⟨.arr b, ?_, ?_⟩
    · unfold smeftToarray symmetrize
      rw [h0]
      simp only [e1, Except.bind, pad33 hS (name := keyName k) (a := a) rfl]
      simp only [symmLoop, mapDictM, hcl, symmVal, Except.map, if_neg (show (9 : ℕ) ≠ 3 by decide), hb,
        unpad33 h0 hbs, Dict.get?_cons, if_true]
    · refine ⟨fun h => by omega, fun _ => ?_⟩
      have key : ∀ i j : Fin 3, runProg Gen.symmetrize_9 (fun m => a.get (idx2 m)) (i, j) =
          if i ≤ j then a.get [i.val, j.val] else a.get [j.val, i.val] := by
        have nr : ∀ i j : Fin 3, i ≤ j → NonRed code2 rels9 (i, j) := by
          intro i j; revert i j; decide +kernel
        intro i j
        split
        · rename_i h
          exact C20_nonred_class9 _ _ (nr i j h)
        · rename_i h
          rw [← C19_class9 (fun m => a.get (idx2 m)) i j]
          exact C20_nonred_class9 _ _ (nr j i (by omega))
      intro i j
      show b.get [i.val, j.val] = _
      rw [hbg, key]
      split <;> exact hget _ _

/-! ## Writing -/

theorem indices33 : indices [3, 3] = [[0, 0], [0, 1], [0, 2], [1, 0], [1, 1], [1, 2], [2, 0], [2, 1], [2, 2]] := by
  decide

theorem fromarray_eq {name : Str} (hn : '_' ∉ name) (M : Mat) :
    (smeftFromarray name (matArr M)).NodupKeys ∧
    (∀ i j : Fin 3, (smeftFromarray name (matArr M)).get? (wcName name [i.val, j.val]) = some (M i j)) ∧
    ∀ n, (∀ i j : Fin 3, n ≠ wcName name [i.val, j.val]) → (smeftFromarray name (matArr M)).get? n = none := by
  have hg : GoodVal (.arr (matArr M)) := ⟨by simp [matArr, NDArr.ofFn], by simp [matArr, NDArr.ofFn], small33⟩
  have hnd := nodup_entries hn hg
  have he : entries name (.arr (matArr M)) = (indices [3, 3]).map fun i => (wcName name i, (matArr M).get i) := by
    simp only [entries, hg.1, hg.2.1, if_false]
    rfl
  have e : smeftFromarray name (matArr M) = entries name (.arr (matArr M)) := by
    unfold smeftFromarray
    rw [show (matArr M).shape = [3, 3] from rfl, ← he, foldl_set_eq _ _ hnd (by simp [Dict.keys])]
    rfl
  rw [e]
  refine ⟨hnd, fun i j => ?_, fun n hne => ?_⟩
  · refine Dict.get?_of_mem hnd ?_
    rw [he]
    refine List.mem_map.2 ⟨[i.val, j.val], mem_indices.2 (in33 i j), ?_⟩
    rw [matArr, NDArr.ofFn]
    simp only [in33, if_true]
    congr 2 <;> exact Fin.ext (Nat.mod_eq_of_lt (Fin.isLt _))
  · rw [Dict.get?_eq_none_iff]
    intro h
    obtain ⟨idx, hi, rfl⟩ := entries_keys h hg
    rw [show (matArr M).shape = [3, 3] from rfl] at hi
    have := mem_indices.2 hi
    match idx, hi with
    | [i, j], hi =>
      simp only [inRange, Bool.and_eq_true, decide_eq_true_eq] at hi
      exact hne ⟨i, hi.1⟩ ⟨j, hi.2.1⟩ rfl

theorem massUp_eq (hS : IsSmeft U) {ckm : Ckm} {p : Dict String ℝ} {V : Mat} (hV : ckmOf ckm p = .ok V)
    (d : Dict Str ℂ) (hd : d.NodupKeys) (hdk : ∀ n ∈ d.keys, n ∈ U.allWcs) (ks : List Key)
    (hks : ∀ k ∈ ks, k ∈ coeffKeys ∧ rankOf k = 2 ∧ fullClass k = 1) (hnd : ks.Nodup) (C : Dict Str ℂ) :
    ∃ out, massUp U ckm p d C (ks.map keyName) = .ok out ∧ (C.NodupKeys → out.NodupKeys) ∧
      (∀ k ∈ ks, ∀ i j, out.get? (name2 k i j) = some ((V * coef2 d k) i j)) ∧
      ∀ n, (∀ k ∈ ks, ∀ i j, n ≠ name2 k i j) → out.get? n = C.get? n := by
  induction ks generalizing C with
  | nil => exact ⟨C, rfl, id, by simp, fun _ _ => rfl⟩
  | cons k ks ih =>
    obtain ⟨hk, hr, hc⟩ := hks k (by simp)
    obtain ⟨v, ev, hv⟩ := toarray_eq hS hk hr (.inl hc) d hd hdk
    have hv := hv.1 hc
    have hus : ∀ k' ∈ coeffKeys, '_' ∉ keyName k' := fun k' h => (hS.regular.good _ _ (hS.shape k' h)).1
    obtain ⟨f1, f2, f3⟩ := fromarray_eq (hus k hk) (V * coef2 d k)
    obtain ⟨out, e, n1, g1, g2⟩ := ih (fun k' h => hks k' (by simp [h])) (List.nodup_cons.1 hnd).2
      (C.update (smeftFromarray (keyName k) (matArr (V * coef2 d k))))
    have hne : ∀ k' ∈ ks, ∀ i j i' j', name2 k i j ≠ name2 k' i' j' := by
      intro k' h' i j i' j' e
      have := (wcName_inj (hus k hk) (hus k' (hks k' (by simp [h'])).1) (in33 i j) (in33 i' j') small33 small33 e).1
      have := keyName_inj this
      subst this
      exact (List.nodup_cons.1 hnd).1 h'
    refine ⟨out, ?_, fun h => n1 (Dict.nodupKeys_update _ _ h), ?_, ?_⟩
    · rw [List.map_cons, massUp, ev]
      show (ckmOf ckm p >>= _) = _
      rw [hV]
      show massUp U ckm p d (C.update (smeftFromarray (keyName k)
        (matArr (V.conjTranspose.conjTranspose * toMat v)))) (ks.map keyName) = _
      rw [Matrix.conjTranspose_conjTranspose, hv]
      exact e
    · intro k' hk' i j
      rcases List.mem_cons.1 hk' with rfl | hk'
      · rw [g2 _ (fun k' h' i' j' => hne k' h' i j i' j'), Dict.get?_update _ _ f1]
        have := f2 i j
        rw [show name2 k' i j = wcName (keyName k') [i.val, j.val] from rfl, this]
        rfl
      · exact g1 k' hk' i j
    · intro n hn
      rw [g2 n (fun k' h' => hn k' (by simp [h'])), Dict.get?_update _ _ f1,
        f3 n (fun i j => hn k (by simp) i j)]
      rfl

theorem upType_ok : ∀ k ∈ upType, k ∈ coeffKeys ∧ rankOf k = 2 ∧ fullClass k = 1 := by decide +kernel

/-! ## The property -/

/-- **C96 (what the translation does).** On every dictionary of Warsaw coefficients the
translation succeeds.  The matrices of the four operators with a left-handed quark doublet and a
right-handed up quark are multiplied by the CKM matrix, the Weinberg operator becomes the diagonal
matrix of the singular values of its (symmetric) matrix, and every other coefficient is
returned as given. -/
theorem C96_values (hS : IsSmeft U) (ckm : Ckm) (msvd : Msvd) (defaults : Dict String ℝ)
    (par : Option (Dict String ℝ)) {V : Mat} (hV : ckmOf ckm (params defaults par) = .ok V)
    (d : Dict Str ℂ) (hd : d.NodupKeys) (hk : ∀ n ∈ d.keys, n ∈ U.allWcs) :
    ∃ out, warsawToWarsawmass U ckm msvd defaults d par = .ok out ∧ out.NodupKeys ∧
      (∀ k ∈ upType, ∀ i j, out.get? (name2 k i j) = some (∑ l, V i l * coef2 d k l j)) ∧
      (∀ i j, out.get? (name2 .llphiphi i j) =
        some (if i = j then ((msvd (weinberg d)).2.1 i : ℂ) else 0)) ∧
      ∀ n, (∀ k ∈ Key.llphiphi :: upType, ∀ i j, n ≠ name2 k i j) → out.get? n = d.get? n := by
  obtain ⟨C1, e1, n1, g1, g2⟩ := massUp_eq hS hV d hd hk upType upType_ok (by decide) d
  have hl : Key.llphiphi ∈ coeffKeys ∧ rankOf .llphiphi = 2 ∧ fullClass .llphiphi = 9 := by decide +kernel
  obtain ⟨v, ev, hv⟩ := toarray_eq hS hl.1 hl.2.1 (.inr hl.2.2) d hd hk
  have hv' : toMat v = weinberg d := by
    funext i j
    exact hv.2 hl.2.2 i j
  have hus : ∀ k' ∈ coeffKeys, '_' ∉ keyName k' := fun k' h => (hS.regular.good _ _ (hS.shape k' h)).1
  obtain ⟨f1, f2, f3⟩ := fromarray_eq (hus _ hl.1)
    (Matrix.diagonal fun i => ((msvd (weinberg d)).2.1 i : ℂ))
  refine ⟨C1.update (smeftFromarray (keyName .llphiphi)
    (matArr (Matrix.diagonal fun i => ((msvd (weinberg d)).2.1 i : ℂ)))), ?_,
    Dict.nodupKeys_update _ _ (n1 hd), ?_, ?_, ?_⟩
  · unfold warsawToWarsawmass
    have e1' : massUp U ckm (params defaults par) d d rotateU = .ok C1 := e1
    have ev' : smeftToarray U "llphiphi".toList d = .ok v := ev
    rw [e1', ev']
    show Except.ok _ = _
    rw [hv']
    rfl
  · intro k hk' i j
    have hne : ∀ i' j', name2 k i j ≠ name2 .llphiphi i' j' := by
      intro i' j' e
      have h1 := (wcName_inj (hus k (upType_ok k hk').1) (hus _ hl.1) (in33 i j) (in33 i' j') small33 small33 e).1
      have h2 := keyName_inj h1
      subst h2
      revert hk'
      decide
    rw [Dict.get?_update _ _ f1, f3 _ hne, g1 k hk' i j, Matrix.mul_apply]
    rfl
  · intro i j
    rw [Dict.get?_update _ _ f1, show name2 .llphiphi i j = wcName (keyName .llphiphi) [i.val, j.val] from rfl,
      f2 i j, Matrix.diagonal_apply]
    rfl
  · intro n hn
    rw [Dict.get?_update _ _ f1, f3 n (fun i j => hn _ (by simp) i j),
      g2 n (fun k hk' => hn k (by simp [hk']))]
    rfl

theorem read_one (hS : IsSmeft U) {k : Key} (hk : k ∈ coeffKeys) (hr : rankOf k = 2) (hc : fullClass k = 1)
    (d : Dict Str ℂ) (hd : d.NodupKeys) (hdk : ∀ n ∈ d.keys, n ∈ U.allWcs) {C : Dict Str AVal}
    (hC : U.wcxf2arraysSymmetrized d = .ok C) {v : AVal} (hv : C.get? (keyName k) = some v) (i j : Fin 3) :
    toTen v [i, j] = coef2 d k i j := by
  obtain ⟨C', e, -, -, -, hyes⟩ := readSym hS.regular hS.complete d hd hdk
  obtain rfl : C' = C := Except.ok.inj (e.symm.trans hC)
  have := hyes _ ((hS.wc _).2 ⟨k, hk, rfl⟩) _ _ (keyOK_of hS hk)
  rw [hv, Option.some.injEq, hc, shapeK_two hr] at this
  rw [this]
  show ent2 (cutF (some [3, 3]) (padF (given d (keyName k) (some [3, 3])))) (i, j) = _
  rw [ent2_cutF _ _ _ (in33 i j), ent2_padF]
  simp only [given, ent2, collect, idx2, in33, if_true]
  rfl

/-- **C96 (agreement with Warsaw up).** The coefficients of the four up-type operators are those
of the Warsaw-up basis. -/
theorem C96_agrees_with_warsaw_up (hS : IsSmeft U) (ckm : Ckm) (msvd : Msvd) (defaults : Dict String ℝ)
    (par : Option (Dict String ℝ)) {V : Mat} (hV : ckmOf ckm (params defaults par) = .ok V)
    (d : Dict Str ℂ) (hd : d.NodupKeys) (hk : ∀ n ∈ d.keys, n ∈ U.allWcs) :
    ∃ out dup, warsawToWarsawmass U ckm msvd defaults d par = .ok out ∧
      warsawToWarsawUp U ckm defaults d par = .ok dup ∧
      ∀ k ∈ upType, ∀ i j, (out.get? (name2 k i j)).getD 0 = (dup.get? (name2 k i j)).getD 0 := by
  obtain ⟨out, e, -, h1, -, -⟩ := C96_values hS ckm msvd defaults par hV d hd hk
  obtain ⟨d1, C, C1, t1, t2, t3, t4, t5, g, g1, t6⟩ := translate_ok hS V.conjTranspose d hd hk
  refine ⟨out, d1, e, (up_eq hV hS d hd hk).1.trans t1, fun k hk' i j => ?_⟩
  obtain ⟨kc, kr, kc1⟩ := upType_ok k hk'
  obtain ⟨v, hv, -⟩ := g.have_ k kc
  obtain ⟨v', hv', -⟩ := g1.have_ k kc
  have hτ : smeftTy k = some [Fl.b .q, Fl.x .u] := by
    revert hk'; cases k <;> simp [upType, smeftTy]
  have := t6 k kc _ hτ v v' hv hv' [i, j] rfl
  rw [read_one hS kc kr kc1 d1 t2 t3 t5 hv'] at this
  show _ = coef2 d1 k i j
  rw [this, h1 k hk' i j, rot2']
  simp only [Option.getD_some, Fintype.sum_prod_type, read_one hS kc kr kc1 d hd hk t4 hv]
  refine Finset.sum_congr rfl fun l _ => ?_
  simp [fac, onlyQ, Matrix.one_apply]

/-- **C96 (the Weinberg operator keeps its masses).** With a singular value decomposition as
`ckmutil` promises it, the resulting entries are non-negative real numbers, and their squares are
the eigenvalues of `M† M` (with multiplicity), where `M` is the matrix put in. -/
theorem C96_masses (hS : IsSmeft U) (ckm : Ckm) (msvd : Msvd) (defaults : Dict String ℝ)
    (par : Option (Dict String ℝ)) {V : Mat} (hV : ckmOf ckm (params defaults par) = .ok V)
    (d : Dict Str ℂ) (hd : d.NodupKeys) (hk : ∀ n ∈ d.keys, n ∈ U.allWcs)
    (hm : IsSvd (weinberg d) (msvd (weinberg d))) :
    ∃ out, warsawToWarsawmass U ckm msvd defaults d par = .ok out ∧ ∃ m : Fin 3 → ℝ,
      (∀ i, 0 ≤ m i) ∧ (∀ i j, coef2 out .llphiphi i j = if i = j then (m i : ℂ) else 0) ∧
      ((weinberg d).conjTranspose * weinberg d).charpoly =
        ∏ i, (Polynomial.X - Polynomial.C ((m i : ℂ) ^ 2)) := by
  obtain ⟨out, e, -, -, h2, -⟩ := C96_values hS ckm msvd defaults par hV d hd hk
  obtain ⟨hu, hv, hp, hM⟩ := hm
  set M := weinberg d
  set m := (msvd M).2.1
  refine ⟨out, e, m, hp, fun i j => by rw [coef2, h2]; rfl, ?_⟩
  set A := (msvd M).1
  set B := (msvd M).2.2
  have hA : A.conjTranspose * A = 1 := Matrix.mem_unitaryGroup_iff'.1 hu
  have hB : B.conjTranspose * B = 1 := Matrix.mem_unitaryGroup_iff'.1 hv
  have hD : (Matrix.diagonal fun i => (m i : ℂ)).conjTranspose = Matrix.diagonal fun i => (m i : ℂ) := by
    rw [Matrix.diagonal_conjTranspose]
    congr 1
    funext i
    simp
  have h : M.conjTranspose * M = B * (Matrix.diagonal fun i => (m i : ℂ) ^ 2) * B.conjTranspose := by
    rw [hM]
    simp only [Matrix.conjTranspose_mul, Matrix.conjTranspose_conjTranspose, hD]
    have : ∀ X : Mat, A.conjTranspose * (A * X) = X := fun X => by rw [← Matrix.mul_assoc, hA, Matrix.one_mul]
    simp only [Matrix.mul_assoc, this]
    rw [← Matrix.mul_assoc (Matrix.diagonal _) (Matrix.diagonal _), Matrix.diagonal_mul_diagonal]
    simp only [pow_two]
  rw [h, Matrix.mul_assoc, Matrix.charpoly_mul_comm, Matrix.mul_assoc, hB, Matrix.mul_one,
    Matrix.charpoly_diagonal]

theorem nonred_diag : ∀ i : Fin 3, NonRed code2 rels9 (i, i) := by decide +kernel

/-- **C96 (only coefficients of the basis).** Every entry of the result that is not zero is a
Warsaw coefficient, and for the Weinberg operator only the diagonal ones occur. -/
theorem C96_names (hS : IsSmeft U) (ckm : Ckm) (msvd : Msvd) (defaults : Dict String ℝ)
    (par : Option (Dict String ℝ)) {V : Mat} (hV : ckmOf ckm (params defaults par) = .ok V)
    (d : Dict Str ℂ) (hd : d.NodupKeys) (hk : ∀ n ∈ d.keys, n ∈ U.allWcs) :
    ∃ out, warsawToWarsawmass U ckm msvd defaults d par = .ok out ∧
      ∀ n z, out.get? n = some z → z ≠ 0 → n ∈ U.allWcs ∧
        ∀ i j, n = name2 .llphiphi i j → i = j := by
  obtain ⟨out, e, -, h1, h2, h3⟩ := C96_values hS ckm msvd defaults par hV d hd hk
  have hl : Key.llphiphi ∈ coeffKeys ∧ rankOf .llphiphi = 2 ∧ fullClass .llphiphi = 9 := by decide +kernel
  have hdiag : ∀ i j z, out.get? (name2 .llphiphi i j) = some z → z ≠ 0 → i = j := by
    intro i j z hz h0
    rw [h2, Option.some.injEq] at hz
    by_contra hne
    rw [if_neg hne] at hz
    exact h0 hz.symm
  have hmem : ∀ k ∈ coeffKeys, rankOf k = 2 → ∀ i j, NonRedOf2 (fullClass k) (i, j) →
      name2 k i j ∈ U.allWcs := by
    intro k hk hr i j hn
    exact hS.complete.two _ ((hS.wc _).2 ⟨k, hk, rfl⟩) [3, 3] _ (i, j)
      (by rw [hS.shape k hk, shapeK_two hr]) (hS.cls k hk) (in33 i j) hn
  refine ⟨out, e, fun n z hz h0 => ⟨?_, fun i j hn => hdiag i j z (hn ▸ hz) h0⟩⟩
  by_cases hn : ∃ k ∈ Key.llphiphi :: upType, ∃ i j, n = name2 k i j
  · obtain ⟨k, hk', i, j, rfl⟩ := hn
    rcases List.mem_cons.1 hk' with rfl | hk'
    · obtain rfl := hdiag i j z hz h0
      refine hmem _ hl.1 hl.2.1 i i ?_
      rw [hl.2.2]
      exact ⟨fun h => absurd h (by decide), fun _ => nonred_diag i⟩
    · obtain ⟨kc, kr, k1⟩ := upType_ok k hk'
      refine hmem k kc kr i j ?_
      rw [k1]
      exact ⟨fun h => absurd h (by decide), fun h => absurd h (by decide)⟩
  · rw [h3 n (fun k hk' i j e => hn ⟨k, hk', i, j, e⟩)] at hz
    exact hk n ((Dict.isSome_get?_iff _ _).1 (by rw [hz]; rfl))

/-- a singular value decomposition of the matrix of a Weinberg operator with only the entry 12 -/
def swap12 : Mat := !![0, 1, 0; 1, 0, 0; 0, 0, 1]

theorem swap12_unitary : swap12 ∈ Matrix.unitaryGroup (Fin 3) ℂ := by
  rw [Matrix.mem_unitaryGroup_iff]
  ext i j
  fin_cases i <;> fin_cases j <;>
    simp [swap12, Matrix.mul_apply, Fin.sum_univ_three, Matrix.star_apply]

/-- a concrete case: an up-type dipole, a Weinberg operator that mixes generations and a
coefficient that is not touched -/
def massEx : Dict Str ℂ := [("uG_12".toList, 5), ("llphiphi_12".toList, 3), ("phiq1_12".toList, Complex.I)]

theorem massEx_nodup : massEx.NodupKeys := by
  unfold massEx Dict.NodupKeys Dict.keys
  decide

theorem massEx_keys : ∀ n ∈ massEx.keys, n ∈ smeftUtil.allWcs := by
  intro n hn
  simp only [massEx, Dict.keys, List.map_cons, List.map_nil, List.mem_cons, List.not_mem_nil, or_false] at hn
  rcases hn with rfl | rfl | rfl
  · exact List.mem_flatMap.2 ⟨.uG, by decide, List.mem_map.2 ⟨(0, 1), by decide, by decide⟩⟩
  · exact List.mem_flatMap.2 ⟨.llphiphi, by decide, List.mem_map.2 ⟨(0, 1), by decide, by decide⟩⟩
  · exact List.mem_flatMap.2 ⟨.phiq1, by decide, List.mem_map.2 ⟨(0, 1), by decide, by decide⟩⟩

theorem massEx_weinberg : weinberg massEx = !![0, 3, 0; 3, 0, 0; 0, 0, 0] := by
  ext i j
  fin_cases i <;> fin_cases j <;> rfl

example : ∃ out, warsawToWarsawmass smeftUtil (fun _ _ _ _ => swap12) (fun _ => (swap12, ![3, 3, 0], 1))
      [("Vus", 0.2), ("Vub", 0.004), ("Vcb", 0.04), ("gamma", 1.2)] massEx none = .ok out ∧
    ∃ m : Fin 3 → ℝ, (∀ i, 0 ≤ m i) ∧ (∀ i j, coef2 out .llphiphi i j = if i = j then (m i : ℂ) else 0) ∧
      ((weinberg massEx).conjTranspose * weinberg massEx).charpoly =
        ∏ i, (Polynomial.X - Polynomial.C ((m i : ℂ) ^ 2)) := by
  refine C96_masses smeft_isSmeft _ _ _ none (V := swap12) rfl _ massEx_nodup massEx_keys
    ⟨swap12_unitary, one_mem _, ?_, ?_⟩
  · intro i
    fin_cases i <;> simp
  · rw [massEx_weinberg]
    ext i j
    fin_cases i <;> fin_cases j <;>
      simp [swap12, Matrix.vecMul_diagonal]

/-- the entry 12 of the dipole moves to 22 when the CKM matrix exchanges the generations -/
example : ∃ out, warsawToWarsawmass smeftUtil (fun _ _ _ _ => swap12) (fun _ => (swap12, ![3, 3, 0], 1))
      [("Vus", 0.2), ("Vub", 0.004), ("Vcb", 0.04), ("gamma", 1.2)] massEx none = .ok out ∧
    out.get? "uG_22".toList = some 5 ∧ out.get? "phiq1_12".toList = some Complex.I := by
  obtain ⟨out, e, -, h1, -, h3⟩ := C96_values smeft_isSmeft (fun _ _ _ _ => swap12)
    (fun _ => (swap12, ![3, 3, 0], 1)) [("Vus", 0.2), ("Vub", 0.004), ("Vcb", 0.04), ("gamma", 1.2)]
    none (V := swap12) rfl massEx massEx_nodup massEx_keys
  refine ⟨out, e, ?_, ?_⟩
  · have := h1 .uG (by decide) 1 1
    rw [show ("uG_22".toList : Str) = name2 .uG 1 1 from by decide, this, Fin.sum_univ_three]
    have e1 : coef2 massEx .uG 0 1 = 5 := rfl
    simp [swap12, e1]
  · rw [h3 _ (by decide +kernel)]
    rfl

end Verif.Props
