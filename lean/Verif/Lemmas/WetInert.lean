import Verif.Lemmas.WetTotal
import Verif.Lemmas.WetRate

/-!
# Coefficients that QCD does not renormalise
-/

set_option autoImplicit false
set_option linter.unusedSimpArgs false

namespace Verif.WetTab
open Verif Verif.Rotation Verif.WetRun

/-- a vanishing column of the anomalous dimension matrix -/
theorem us_row {n : ℕ} {M : Matrix (Fin n) (Fin n) ℂ} {wv : (Fin n → ℂ) × Matrix (Fin n) (Fin n) ℂ}
    (h : Diagonalises M.transpose wv) {i : Fin n} (hi : ∀ k, M k i = 0) (eta : ℝ) (f : ℕ) (j : Fin n) :
    usMatrix wv.1 wv.2 eta f i j = (1 : Matrix (Fin n) (Fin n) ℂ) i j := by
  obtain ⟨hu, he⟩ := h
  have h1 : ∀ k, wv.2 i k * (eta : ℂ) ^ (wv.1 k / (2 * b0s f)) = wv.2 i k := by
    intro k
    have := congrFun (congrFun he i) k
    rw [Matrix.mul_apply, Matrix.mul_diagonal] at this
    simp only [Matrix.transpose_apply, hi, zero_mul, Finset.sum_const_zero] at this
    rcases mul_eq_zero.1 this.symm with h0 | h0
    · rw [h0, zero_mul]
    · rw [h0]; simp
  have h2 : usMatrix wv.1 wv.2 eta f i j = (wv.2 * wv.2⁻¹) i j := by
    unfold usMatrix
    rw [Matrix.mul_apply, Matrix.mul_apply]
    refine Finset.sum_congr rfl fun k _ => ?_
    rw [Matrix.mul_diagonal, h1]
  rw [h2, Matrix.mul_nonsing_inv _ ((Matrix.isUnit_iff_isUnit_det _).1 hu)]

variable {eig : (n : ℕ) → Matrix (Fin n) (Fin n) ℂ → (Fin n → ℂ) × Matrix (Fin n) (Fin n) ℂ}
  {basisKeys : ℕ → String → Except Exc (List String)}

/-- the entries of a reduced matrix are those of the full one -/
theorem reduce_entry {s cls : String} {f : ℕ} {keys : List String} {cs : List Coef} {A : WetRun.Mat}
    {M : Matrix (Fin keys.length) (Fin keys.length) ℂ} (hcs : (s, cs) ∈ coefTable)
    (hcls : (backend eig basisKeys).sectors.get? s = some cls)
    (hk : keylist (backend eig basisKeys) s f = .ok keys)
    (hM : reduce (backend eig basisKeys) cls f A = .ok ⟨keys.length, M⟩) (i j : Fin keys.length) :
    ∃ i' j' : Fin A.n, (cs.map nameOf)[i'.val]? = some keys[i] ∧ (cs.map nameOf)[j'.val]? = some keys[j] ∧
      M i j = A.m i' j' := by
  have hT := backend_tables eig basisKeys
  have hco := get_coeffs eig basisKeys hcs
  obtain ⟨all, h1, h⟩ := keylist_cases hT hk
  obtain rfl : cs.map nameOf = all := Option.some.inj (hco.symm.trans h1)
  have hper : permissible (backend eig basisKeys) cls f = permissible (backend eig basisKeys) (classOfSector s) f := by
    rcases hT.aligned s cls hcls with rfl | ⟨h1, h2⟩
    · rfl
    · unfold permissible
      rw [if_pos (.inl h1), if_pos (.inl h2)]
  unfold reduce at hM
  rcases h with ⟨h2, rfl⟩ | ⟨b, perm, -, -, h2, -, -, h3, h4⟩
  · rw [hper, h2] at hM
    simp only [bind, Except.bind, pure, Except.pure, Except.ok.injEq] at hM
    subst hM
    exact ⟨i, j, List.getElem?_eq_getElem i.isLt, List.getElem?_eq_getElem j.isLt, rfl⟩
  · rw [hper, h2] at hM
    simp only [bind, Except.bind, Mat.sub] at hM
    split at hM
    case isFalse => cases hM
    case isTrue hp =>
      have hM := Except.ok.inj hM
      have hlen : keys.length = perm.length := by rw [h3, List.length_map]
      have hget : ∀ i : Fin keys.length, (cs.map nameOf)[perm[i.val]'(by rw [← hlen]; exact i.isLt)]? = some keys[i] := by
        intro i
        have hi : i.val < perm.length := by rw [← hlen]; exact i.isLt
        have h5 : keys[i] = (cs.map nameOf)[perm[i.val]]?.getD "" := by
          have : keys[i.val]? = (perm.map fun i => (cs.map nameOf)[i]?.getD "")[i.val]? := by rw [← h3]
          rw [List.getElem?_map, List.getElem?_eq_getElem hi, List.getElem?_eq_getElem i.isLt] at this
          simpa using this
        have hlt : perm[i.val] < (cs.map nameOf).length := by
          have key : ∀ x ∈ perm, x < (cs.map nameOf).length := by
            intro x hx
            rw [h4, List.mem_filter, List.mem_range] at hx
            exact hx.1
          exact key _ (List.getElem_mem hi)
        rw [h5, List.getElem?_eq_getElem hlt]
        rfl
      refine ⟨⟨perm[i.val]'(by rw [← hlen]; exact i.isLt), hp _ (List.getElem_mem _)⟩,
        ⟨perm[j.val]'(by rw [← hlen]; exact j.isLt), hp _ (List.getElem_mem _)⟩, hget i, hget j, ?_⟩
      have aux : ∀ (m : ℕ) (F : Matrix (Fin m) (Fin m) ℂ), (⟨m, F⟩ : WetRun.Mat) = ⟨keys.length, M⟩ →
          ∀ (h : m = keys.length), M i j = F (Fin.cast h.symm i) (Fin.cast h.symm j) := by
        intro m F e h
        subst h
        cases e
        rfl
      exact aux _ _ hM hlen.symm

theorem scale_inert {b : Coef} (h : ColourInert b.1) (hw : WellNamed b) (p : Par) :
    scaleC (nameOf b) p = .ok 1 := by
  have h4 : (fields b.1).length = 4 := by
    rcases h with ⟨h, -⟩ | ⟨x, y, z, w, A, B, e, -⟩
    · exact h
    · rw [e]; rfl
  obtain ⟨k, m⟩ := b
  rw [scaleC_eq hw]
  cases k <;> first
    | exact absurd h4 (by (try dsimp only); decide)
    | simp [gfac, massOf, mprod]

/-- QCD running leaves the coefficient alone -/
theorem inert_run {s cls : String} {j : ℕ} {b : Coef} (hb : Listed b s j) (hin : ColourInert b.1)
    (hcls : Dict.get? sectorTable s = some cls) {f : ℕ} {p p' : Par}
    (hD : ∀ n M, QcdAdm (backend eig basisKeys) cls f p.masses n M → Diagonalises M.transpose (eig n M.transpose))
    {C d : Dict String ℂ} {eta : ℝ} {qcd : ℕ}
    (h : runSector (backend eig basisKeys) s C eta f p p' 0 qcd = .ok d)
    (hk : nameOf b ∈ d.keys) : val d (nameOf b) = val C (nameOf b) := by
  have hT := backend_tables eig basisKeys
  obtain ⟨cls', keys, h1, h2, h3⟩ := runSector_ok _ h
  obtain rfl : cls = cls' := Option.some.inj (hcls.symm.trans (lookup_ok.1 h1))
  have hnd := keylist_nodup hT h2
  have hmem : nameOf b ∈ keys := by
    rcases h3 with ⟨-, rfl⟩ | ⟨-, T, -, rfl⟩ <;> rwa [toDict_keys _ _ hnd] at hk
  obtain ⟨i, hi, e⟩ := List.mem_iff_getElem.1 hmem
  have hval : ∀ g : Fin keys.length → ℂ, val (toDict keys g) (nameOf b) = g ⟨i, hi⟩ := by
    intro g
    have := toDict_get? keys g hnd ⟨i, hi⟩
    unfold val
    rw [← e]
    exact congrArg (Option.getD · 0) this
  have hvec : vec keys C ⟨i, hi⟩ = val C (nameOf b) := by
    simp [vec, val, Dict.getD, e]
  rcases h3 with ⟨-, rfl⟩ | ⟨-, T, hT', rfl⟩
  · rw [hval, hvec]
  rw [hval, ← hvec]
  unfold evolved at hT'
  obtain ⟨s1, hs1, hT'⟩ := ok_bind hT'
  obtain ⟨U, hU, hT'⟩ := ok_bind hT'
  obtain ⟨s2, hs2, hT'⟩ := ok_bind hT'
  obtain rfl := Except.ok.inj hT'
  have hw := hb.wellNamed
  have hs : ∀ (q : Par) (l : List ℝ), scales keys q = .ok l → l.getD i 0 = 1 := by
    intro q l hl
    have := scales_get hl ⟨i, hi⟩
    have e' : keys[(⟨i, hi⟩ : Fin keys.length)] = nameOf b := e
    rw [e', scale_inert hin hw] at this
    exact (Except.ok.inj this).symm
  have hrow : ∀ k, U ⟨i, hi⟩ k = (1 : Matrix (Fin keys.length) (Fin keys.length) ℂ) ⟨i, hi⟩ k := by
    intro k
    unfold evolution at hU
    obtain ⟨U1, hU1, hU⟩ := ok_bind hU
    obtain ⟨U2, hU2, hU⟩ := ok_bind hU
    obtain rfl := Except.ok.inj hU
    obtain rfl : (0 : Matrix (Fin keys.length) (Fin keys.length) ℂ) = U2 := Except.ok.inj hU2
    rw [add_zero]
    unfold usPart at hU1
    by_cases hq : qcd = 0
    · rw [if_pos hq] at hU1
      rw [← Except.ok.inj hU1]
    · rw [if_neg hq] at hU1
      by_cases hq1 : qcd = 1
      · rw [if_pos hq1] at hU1
        obtain ⟨M', h1', h1⟩ := ok_bind hU1
        obtain ⟨M, hM, rfl⟩ := getUs_ok _ (by rw [h1', sized_ok h1] :
          getUs (backend eig basisKeys) cls eta f p = .ok ⟨keys.length, U1⟩)
        refine us_row (hD _ _ hM) (fun l => ?_) _ _ _
        obtain ⟨A, hA, hA'⟩ := hM
        obtain ⟨cs, hcs, hj⟩ := id hb
        obtain ⟨l', i', e1, e2, e3⟩ := reduce_entry hcs hcls h2 hA' l ⟨i, hi⟩
        rw [e3]
        obtain ⟨n, S, hAt⟩ := hb.at
        obtain ⟨cls', c1, -, c3⟩ := hAt.cls
        obtain rfl : cls = cls' := Option.some.inj (hcls.symm.trans c1)
        change admOf admSTable cls f p.masses = _ at hA
        unfold admOf at hA
        rw [c3] at hA
        obtain rfl := Except.ok.inj hA
        have hij : i'.val = j := by
          have e2 : (cs.map nameOf)[i'.val]? = some (nameOf b) := by rw [e2]; exact congrArg some e
          have e4 : (cs.map nameOf)[j]? = some (nameOf b) := by rw [List.getElem?_map, hj]; rfl
          obtain ⟨l1, l2⟩ := List.getElem?_eq_some_iff.1 e2
          obtain ⟨l3, l4⟩ := List.getElem?_eq_some_iff.1 e4
          exact ((names_nodup hcs).getElem_inj_iff).1 (l2.trans l4.symm)
        dsimp only
        rw [value, hij, inert_column hAt hin]
      · rw [if_neg hq1] at hU1; cases hU1
  rw [← transfer_mulVec]
  simp only [Matrix.mulVec, dotProduct, hrow]
  rw [hs p' s2 hs2, Finset.sum_eq_single ⟨i, hi⟩]
  · rw [Matrix.one_apply_eq, hs p s1 hs1]; simp
  · intro k _ hk
    rw [Matrix.one_apply_ne (Ne.symm hk), zero_mul]
  · intro h; exact absurd (Finset.mem_univ _) h

end Verif.WetTab
