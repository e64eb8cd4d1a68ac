import Verif.Lemmas.WarsawUp2
import Verif.Lemmas.SmeftBasis
import Mathlib.Tactic.FinCases

/-!
# C29: the Warsaw and Warsaw-up bases

`ckm` is an arbitrary function of the four CKM parameters with unitary value (`ckm_tree` is not
part of the repository).
-/

set_option autoImplicit false

namespace Verif.Props
open Verif Verif.EFT Verif.Tens Verif.Beta Verif.Rotation Verif.Spec Verif.Flavour Verif.Bridge
  Verif.TranslateSmeft Classical

variable {U : Util}

/-- **C29 (Warsaw → Warsaw up → Warsaw).** Both translations succeed on every dictionary of
Warsaw coefficients, and together they give back the values put in (the real part for
coefficients that are real by hermiticity; zeros are dropped). -/
theorem C29_up_down (hS : IsSmeft U) (ckm : Ckm) (defaults : Dict String ℝ) (par : Option (Dict String ℝ))
    {V : Mat} (hV : ckmOf ckm (params defaults par) = .ok V) (hu : V ∈ Matrix.unitaryGroup (Fin 3) ℂ)
    (d : Dict Str ℂ) (hd : d.NodupKeys) (hk : ∀ n ∈ d.keys, n ∈ U.allWcs) :
    ∃ d1 d2, warsawToWarsawUp U ckm defaults d par = .ok d1 ∧
      warsawUpToWarsaw U ckm defaults d1 par = .ok d2 ∧
      ∀ n, d2.get? n = ((d.get? n).map fun z => if RealName U n then (z.re : ℂ) else z).filter
        (fun z => decide (z ≠ 0)) := by
  obtain ⟨d1, d2, h1, n1, k1, h2, h3⟩ := translate_back hS V.conjTranspose V
    (Matrix.mem_unitaryGroup_iff'.1 hu) d hd hk
  exact ⟨d1, d2, (up_eq hV hS d hd hk).1.trans h1, (up_eq hV hS d1 n1 k1).2.trans h2, h3⟩

/-- **C29 (Warsaw up → Warsaw → Warsaw up).** -/
theorem C29_down_up (hS : IsSmeft U) (ckm : Ckm) (defaults : Dict String ℝ) (par : Option (Dict String ℝ))
    {V : Mat} (hV : ckmOf ckm (params defaults par) = .ok V) (hu : V ∈ Matrix.unitaryGroup (Fin 3) ℂ)
    (d : Dict Str ℂ) (hd : d.NodupKeys) (hk : ∀ n ∈ d.keys, n ∈ U.allWcs) :
    ∃ d1 d2, warsawUpToWarsaw U ckm defaults d par = .ok d1 ∧
      warsawToWarsawUp U ckm defaults d1 par = .ok d2 ∧
      ∀ n, d2.get? n = ((d.get? n).map fun z => if RealName U n then (z.re : ℂ) else z).filter
        (fun z => decide (z ≠ 0)) := by
  obtain ⟨d1, d2, h1, n1, k1, h2, h3⟩ := translate_back hS V V.conjTranspose
    (Matrix.mem_unitaryGroup_iff.1 hu) d hd hk
  exact ⟨d1, d2, (up_eq hV hS d hd hk).2.trans h1, (up_eq hV hS d1 n1 k1).1.trans h2, h3⟩

/-- **C29 (what the translation does).** Whatever the matrix, the coefficient arrays of the
translated dictionary are those of the original with every index of a left-handed quark
doublet rotated by `V†` (`V` in the other direction), conjugated for barred fields, and no
other index touched. -/
theorem C29_rotates_doublets (hS : IsSmeft U) (ckm : Ckm) (defaults : Dict String ℝ)
    (par : Option (Dict String ℝ)) {V : Mat} (hV : ckmOf ckm (params defaults par) = .ok V)
    (d : Dict Str ℂ) (hd : d.NodupKeys) (hk : ∀ n ∈ d.keys, n ∈ U.allWcs) :
    ∃ dup dw C Cup Cw, warsawToWarsawUp U ckm defaults d par = .ok dup ∧
      warsawUpToWarsaw U ckm defaults d par = .ok dw ∧
      U.wcxf2arraysSymmetrized d = .ok C ∧ U.wcxf2arraysSymmetrized dup = .ok Cup ∧
      U.wcxf2arraysSymmetrized dw = .ok Cw ∧
      ∀ k ∈ coeffKeys, ∀ τ, smeftTy k = some τ → ∃ v v' v'', C.get? (keyName k) = some v ∧
        Cup.get? (keyName k) = some v' ∧ Cw.get? (keyName k) = some v'' ∧
        ∀ ix : Ix, ix.length = τ.length →
          toTen v' ix = rot (onlyQ V.conjTranspose) τ (toTen v) ix ∧
          toTen v'' ix = rot (onlyQ V) τ (toTen v) ix := by
  obtain ⟨d1, C, C1, h1, -, -, h2, h3, g, g1, h4⟩ := translate_ok hS V.conjTranspose d hd hk
  obtain ⟨d2, C', C2, i1, -, -, i2, i3, -, g2, i4⟩ := translate_ok hS V d hd hk
  obtain rfl : C' = C := Except.ok.inj (i2.symm.trans h2)
  refine ⟨d1, d2, C', C1, C2, (up_eq hV hS d hd hk).1.trans h1, (up_eq hV hS d hd hk).2.trans i1, h2, h3, i3,
    fun k hk τ hτ => ?_⟩
  obtain ⟨v, hv, -⟩ := g.have_ k hk
  obtain ⟨v', hv', -⟩ := g1.have_ k hk
  obtain ⟨v'', hv'', -⟩ := g2.have_ k hk
  exact ⟨v, v', v'', hv, hv', hv'', fun ix hix =>
    ⟨h4 k hk τ hτ v v' hv hv' ix hix, i4 k hk τ hτ v v'' hv hv'' ix hix⟩⟩

/-- **C29 (parameters).** A parameter given by the caller overrides the default; the CKM
parameters not given are the defaults. -/
theorem C29_parameters (ckm : Ckm) (defaults par : Dict String ℝ) (hp : par.NodupKeys) (us ub cb ga : ℝ)
    (h1 : (par.get? "Vus").or (defaults.get? "Vus") = some us)
    (h2 : (par.get? "Vub").or (defaults.get? "Vub") = some ub)
    (h3 : (par.get? "Vcb").or (defaults.get? "Vcb") = some cb)
    (h4 : (par.get? "gamma").or (defaults.get? "gamma") = some ga) :
    ckmOf ckm (params defaults (some par)) = .ok (ckm us ub cb ga) := by
  have hg : ∀ k, (params defaults (some par)).get? k = (par.get? k).or (defaults.get? k) := by
    intro k
    rw [params, Dict.get?_update _ _ hp]
  simp only [ckmOf, item, hg, h1, h2, h3, h4]
  rfl

/-- a unitary matrix mixing the first two generations -/
noncomputable def mix : Mat := !![3 / 5, 4 / 5, 0; -4 / 5, 3 / 5, 0; 0, 0, 1]

theorem mix_unitary : mix ∈ Matrix.unitaryGroup (Fin 3) ℂ := by
  rw [Matrix.mem_unitaryGroup_iff]
  have h3 : (starRingEnd ℂ) 3 = 3 := Complex.conj_ofNat 3
  have h4 : (starRingEnd ℂ) 4 = 4 := Complex.conj_ofNat 4
  have h5 : (starRingEnd ℂ) 5 = 5 := Complex.conj_ofNat 5
  ext i j
  fin_cases i <;> fin_cases j <;>
    simp [mix, Matrix.mul_apply, Fin.sum_univ_three, Matrix.star_apply, h3, h4, h5] <;> norm_num

/-- a concrete non-trivial case: the full Warsaw basis, a coefficient with two doublet indices
and a matrix that mixes generations -/
example : ∃ d1 d2, warsawToWarsawUp smeftUtil (fun _ _ _ _ => mix)
      [("Vus", 0.2), ("Vub", 0.004), ("Vcb", 0.04), ("gamma", 1.2)]
      [("phiq1_12".toList, Complex.I), ("qqql_1231".toList, 3)] none = .ok d1 ∧
    warsawUpToWarsaw smeftUtil (fun _ _ _ _ => mix)
      [("Vus", 0.2), ("Vub", 0.004), ("Vcb", 0.04), ("gamma", 1.2)] d1 none = .ok d2 ∧
    ∀ n, d2.get? n = ((Dict.get? [("phiq1_12".toList, Complex.I), ("qqql_1231".toList, 3)] n).map
      fun z => if RealName smeftUtil n then (z.re : ℂ) else z).filter (fun z => decide (z ≠ 0)) := by
  refine C29_up_down smeft_isSmeft _ _ none (V := mix) rfl mix_unitary _ (by simp [Dict.NodupKeys, Dict.keys]) ?_
  intro n hn
  simp only [Dict.keys, List.map_cons, List.map_nil, List.mem_cons, List.not_mem_nil, or_false] at hn
  rcases hn with rfl | rfl
  · exact List.mem_flatMap.2 ⟨.phiq1, by decide, List.mem_map.2 ⟨(0, 1), by decide, by decide⟩⟩
  · exact List.mem_flatMap.2 ⟨.qqql, by decide +kernel, List.mem_map.2 ⟨(0, 1, 2, 0), by decide +kernel, by decide⟩⟩

/-- the same for C75: the arrays of a dictionary in the full Warsaw basis -/
example : ∃ C d C', smeftUtil.wcxf2arraysSymmetrized [("phiq1_12".toList, Complex.I), ("ll_1122".toList, 3)] = .ok C ∧
    smeftUtil.arrays2wcxfNonred C = .ok d ∧ smeftUtil.wcxf2arraysSymmetrized d = .ok C' ∧
    ∀ k, C'.get? k = C.get? k := by
  obtain ⟨C, h1, hC⟩ := good_read smeft_isSmeft [("phiq1_12".toList, Complex.I), ("ll_1122".toList, 3)]
    (by simp [Dict.NodupKeys, Dict.keys]) (by
      intro n hn
      simp only [Dict.keys, List.map_cons, List.map_nil, List.mem_cons, List.not_mem_nil, or_false] at hn
      rcases hn with rfl | rfl
      · exact List.mem_flatMap.2 ⟨.phiq1, by decide, List.mem_map.2 ⟨(0, 1), by decide, by decide⟩⟩
      · exact List.mem_flatMap.2 ⟨.ll, by decide +kernel, List.mem_map.2 ⟨(0, 0, 1, 1), by decide +kernel, by decide⟩⟩)
  obtain ⟨d, C', h2, -, -, h3, -, h4⟩ := good_nonred smeft_isSmeft hC
  exact ⟨C, d, C', h1, h2, h3, h4⟩

end Verif.Props
