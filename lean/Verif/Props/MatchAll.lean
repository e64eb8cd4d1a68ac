import Verif.Lemmas.MatchAll
import Verif.Lemmas.SmeftBasis

/-!
# C54: the SMEFT → WET matcher on vanishing coefficients

The one-loop matching conditions are an arbitrary function `raw`; of the program around them
(subtraction of the Standard Model part, sum with the tree level, rotation, symmetry factors,
selection of names) everything is modelled.
-/

set_option autoImplicit false

namespace Verif.Match
open Verif Verif.EFT Verif.Tens Verif.Beta Verif.Rotation Verif.Bridge Verif.TranslateSmeft Verif.Spec Verif.EFT.Util

theorem given_zero (d : Dict Str ℂ) (hz : ∀ n z, d.get? n = some z → z = 0) (k : Str) (s : Shape) :
    given d k s = zeroVal s := by
  have h : ∀ n, (d.get? n).getD 0 = 0 := by
    intro n
    cases hn : d.get? n with
    | none => rfl
    | some z => exact hz n z hn
  cases s with
  | none => simp only [given, h, zeroVal]
  | some l =>
    simp only [given, zeroVal, collect, zeros, h]
    simp [ite_self]

theorem read_zero {U : Util} (hS : IsSmeft U) (d : Dict Str ℂ) (hd : d.NodupKeys)
    (hk : ∀ n ∈ d.keys, n ∈ U.allWcs) (hz : ∀ n z, d.get? n = some z → z = 0) :
    ∃ C, U.wcxf2arraysSymmetrized d = .ok C ∧ (∀ kv ∈ typed C, ∀ ix, kv.2 ix = 0) ∧
      ∀ k ∈ coeffKeys, (typed C).mem k = true := by
  obtain ⟨C, e, n, F, hno, hyes⟩ := readSym hS.regular hS.complete d hd hk
  have hg : ∀ k ∈ coeffKeys, C.get? (keyName k) = some (zeroVal (shapeK k)) := by
    intro k hk
    have hK := keyOK_of hS hk
    rw [hyes _ ((hS.wc _).2 ⟨k, hk, rfl⟩) _ _ hK, given_zero d hz, sym_zero hK]
  refine ⟨C, e, ?_, ?_⟩
  · intro kv hkv ix
    unfold typed at hkv
    obtain ⟨k, hk, h⟩ := List.mem_filterMap.1 hkv
    by_cases hc : k ∈ coeffKeys
    · rw [hg k hc] at h
      simp only [Option.map_some, Option.some.injEq] at h
      rw [← h]
      unfold zeroVal
      split <;> rfl
    · have : C.get? (keyName k) = none := by
        refine hno _ fun h' => ?_
        obtain ⟨k', hk', e⟩ := (hS.wc _).1 h'
        exact hc (keyName_inj e ▸ hk')
      rw [this] at h
      cases h
  · intro k hk
    unfold Dict.mem
    rw [get?_typed, if_pos ((coeff_iff k).1 hk).1, hg k hk]
    rfl

/-- **C54.** Matching a set of vanishing SMEFT coefficients gives vanishing WET coefficients:
for all parameters, scales and CKM functions, at tree level and with the one-loop
contributions switched on, whatever the one-loop matching conditions are. -/
theorem C54_zero {U : Util} (hS : IsSmeft U) (names : List Str) (raw : LoopRaw)
    (hraw : ∀ C p s m, raw C p s = .ok m → m.NodupKeys) (ckm : Ckm) (defaults : Dict String ℝ)
    (d : Dict Str ℂ) (hd : d.NodupKeys) (hk : ∀ n ∈ d.keys, n ∈ U.allWcs)
    (hz : ∀ n z, d.get? n = some z → z = 0) (scale : ℝ) (par : Option (Dict String ℝ))
    (e : Dict Str ℂ) (h : matchAll U names raw ckm defaults d scale par = .ok e) :
    ∀ n z, e.get? n = some z → z = 0 := by
  obtain ⟨C, eC, hC, -⟩ := read_zero hS d hd hk hz
  unfold matchAll at h
  rw [eC] at h
  obtain ⟨_, hc, h⟩ := WetRun.ok_bind h
  obtain rfl := Except.ok.inj hc
  obtain ⟨W, hW, h⟩ := WetRun.ok_bind h
  obtain ⟨V, -, h⟩ := WetRun.ok_bind h
  obtain ⟨z, n, k⟩ := arrays_zero (hraw _ _ _) hC hW
  obtain ⟨e', h', hz'⟩ := names_zero names V z n k
  rw [h] at h'
  rw [Except.ok.inj h']
  exact hz'

/-- **C54 (it does succeed).** With physical inputs (`G_F ≠ 0`, `α_e ≥ 0`, real weak mixing
angle, all CKM parameters present) and the loop contributions off, the matcher does return a
result on vanishing coefficients. -/
theorem C54_succeeds {U : Util} (hS : IsSmeft U) (names : List Str) (raw : LoopRaw) (ckm : Ckm)
    (defaults : Dict String ℝ) (d : Dict Str ℂ) (hd : d.NodupKeys) (hk : ∀ n ∈ d.keys, n ∈ U.allWcs)
    (hz : ∀ n z, d.get? n = some z → z = 0) (scale : ℝ) (par : Option (Dict String ℝ))
    (mW GF al : ℝ) (h1 : (params defaults par).get? "m_W" = some mW)
    (h2 : (params defaults par).get? "GF" = some GF) (h3 : (params defaults par).get? "alpha_e" = some al)
    (hG : GF ≠ 0) (ha : 0 ≤ al) (hw : Real.pi * al < Real.sqrt 2 * |GF| * mW ^ 2)
    (hl : (params defaults par).get? "loop_order" ≠ some 1)
    {V : Mat} (hV : ckmOf ckm (params defaults par) = .ok V) :
    ∃ e, matchAll U names raw ckm defaults d scale par = .ok e ∧ ∀ n z, e.get? n = some z → z = 0 := by
  obtain ⟨C, eC, hC, hm⟩ := read_zero hS d hd hk hz
  have hk' : ∀ k ∈ treeKeys, (typed C).mem k = true := fun k h => hm k (treeKeys_coeff k h)
  obtain ⟨s, hs⟩ := scalars_zeroed (typed C) hk' (params defaults par) mW GF al h1 h2 h3 hG ha hw
  have hs' := hs
  rw [zeroed_eq _ hC] at hs'
  obtain ⟨T, ht⟩ : ∃ T, matchTree (typed C) (params defaults par) = .ok T := ⟨_, tree_of_scal hs' hs hk'⟩
  have hW : ∀ raw : LoopRaw, matchArrays raw (typed C) (params defaults par) scale = .ok T := by
    intro raw
    unfold matchArrays
    rw [ht]
    show (if _ then _ else _) = _
    rw [if_neg hl]
  obtain ⟨z, n, k⟩ := arrays_zero (fun m h => by cases h) hC (hW fun _ _ _ => .error .keyError)
  obtain ⟨e, h', hz'⟩ := names_zero names V z n k
  refine ⟨e, ?_, hz'⟩
  unfold matchAll
  rw [eC]
  show (matchArrays raw (typed C) (params defaults par) scale >>= fun W => _) = _
  rw [hW]
  show (ckmOf ckm (params defaults par) >>= fun V => _) = _
  rw [hV]
  exact h'

/-- the hypotheses are met by the full Warsaw basis, a dictionary with a vanishing coefficient
and round numbers close to the physical inputs -/
example : ∃ e, matchAll smeftUtil ["VeeLL_1111".toList] (fun _ _ _ => .error .keyError) (fun _ _ _ _ => 1)
    [("m_W", 80), ("GF", 11 / 1000000), ("alpha_e", 1 / 128), ("Vus", 0.2), ("Vub", 0.004), ("Vcb", 0.04), ("gamma", 1.2)]
    [("phiq1_12".toList, 0)] 100 none = .ok e ∧ ∀ n z, e.get? n = some z → z = 0 := by
  refine C54_succeeds smeft_isSmeft _ _ _ _ _ (by simp [Dict.NodupKeys, Dict.keys]) ?_ ?_ _ none 80 (11 / 1000000)
    (1 / 128) rfl rfl rfl (by norm_num) (by norm_num) ?_ (by decide) (V := 1) rfl
  · intro n hn
    simp only [Dict.keys, List.map_cons, List.map_nil, List.mem_cons, List.not_mem_nil, or_false] at hn
    subst hn
    exact List.mem_flatMap.2 ⟨.phiq1, by decide, List.mem_map.2 ⟨(0, 1), by decide, by decide⟩⟩
  · intro n z h
    simp only [Dict.get?] at h
    split at h
    · exact (Option.some.inj h).symm
    · cases h
  · have h1 : Real.pi ≤ 4 := Real.pi_le_four
    have h2 : (1 : ℝ) ≤ Real.sqrt 2 := by
      rw [show (1 : ℝ) = Real.sqrt 1 by simp]
      exact Real.sqrt_le_sqrt (by norm_num)
    rw [abs_of_pos (by norm_num)]
    nlinarith

end Verif.Match
