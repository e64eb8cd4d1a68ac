import Verif.Lemmas.SmeftHiggs2
import Mathlib.Analysis.Real.Pi.Bounds

/-!
# Higgs-Warsaw up ↔ Warsaw up (C34)
-/

set_option autoImplicit false

namespace Verif.SmeftHiggs
open Verif Verif.EFT Verif.Rotation Verif.TranslateSmeft Verif.WetNames

theorem get_fill (b : List String) (C : Dict String ℂ) (x : String) :
    (fill b C).get? x = if x ∈ b then some (C.getD x 0) else none := by
  induction b with
  | nil => rfl
  | cons k b ih =>
    show (if k = x then some (C.getD k 0) else (fill b C).get? x) = _
    rw [ih]
    by_cases h : k = x
    · simp [h]
    · simp [h, Ne.symm h]

theorem nodup_fill {b : List String} (hb : b.Nodup) (C : Dict String ℂ) : (fill b C).NodupKeys := by
  have : (fill b C).keys = b := by simp [fill, Dict.keys, Function.comp_def]
  rw [Dict.NodupKeys, this]
  exact hb

theorem get_out {b b' : List String} (hb : b.Nodup) (C : Dict String ℂ) {items : Dict String ℂ}
    (hi : items.NodupKeys) (x : String) :
    (((fill b C).update items).filterKV fun k _ => decide (k ∈ b')).get? x
      = if x ∈ b' then (items.get? x).or (if x ∈ b then some (C.getD x 0) else none) else none := by
  rw [Dict.get?_filterKV _ _ (Dict.nodupKeys_update _ _ (nodup_fill hb C)), Dict.get?_update _ _ hi, get_fill]
  by_cases h : x ∈ b'
  · simp only [h, decide_true, if_true]
    cases (items.get? x).or (if x ∈ b then some (C.getD x 0) else none) <;> simp
  · simp only [h, decide_false, if_false]
    cases (items.get? x).or (if x ∈ b then some (C.getD x 0) else none) <;> simp

theorem ckmOf_ok {p : Dict String ℝ} (h : Physical p) (ckm : Ckm) :
    ckmOf ckm p = .ok (ckm (p.getD "Vus" 0) (p.getD "Vub" 0) (p.getD "Vcb" 0) (p.getD "gamma" 0)) := by
  have hk := h.known
  simp only [List.mem_cons, List.not_mem_nil, or_false, forall_eq_or_imp, forall_eq] at hk
  obtain ⟨-, -, -, -, -, k1, k2, k3, k4⟩ := hk
  simp only [ckmOf, item_of k1, item_of k2, item_of k3, item_of k4, bind, Except.bind]

section
variable {hb wb : List String} {ckm : Ckm} {defaults : Dict String ℝ} {parameters : Option (Dict String ℝ)}

theorem reads_h (B : Bases hb wb) : readsHiggs.all (fun k => decide (k ∈ hb)) = true := by
  rw [List.all_eq_true]
  intro x hx
  rcases readsHiggs_mem x hx with rfl | h
  · simpa using B.ll
  · simpa using (B.higgs x h).1

theorem ll_w (B : Bases hb wb) : "ll_1221" ∈ wb := (B.common _ ll_not.1 ll_not.2).1 B.ll

theorem reads_w (B : Bases hb wb) : readsWarsaw.all (fun k => decide (k ∈ wb)) = true := by
  rw [List.all_eq_true]
  intro x hx
  have : x = "ll_1221" ∨ x ∈ readsWarsaw.tail := List.mem_cons.1 hx
  rcases this with rfl | h
  · simpa using ll_w B
  · simpa using (B.warsaw x (mem_warsaw.1 x h)).1

/-- Translating from the Higgs-Warsaw up basis to the Warsaw up basis and back returns the dictionary completed
by zeros. -/
theorem C34_higgs_to_warsaw_and_back (B : Bases hb wb) (hp : Physical (params defaults parameters))
    (hV : ∀ a b c d, (ckm a b c d).conjTranspose * ckm a b c d = 1) (C : Dict String ℂ)
    (hC : ∀ x ∈ higgsReal, (C.getD x 0).im = 0) :
    ∃ W E, higgslikeToWarsawUp hb wb ckm defaults C parameters = .ok W ∧
      warsawUpToHiggslike hb wb ckm defaults W parameters = .ok E ∧
      ∀ x, E.get? x = if x ∈ hb then some (C.getD x 0) else none := by
  obtain ⟨q, hq, good⟩ := couplings_ok hp
  have hk := ckmOf_ok hp ckm
  have gs : ∀ x, divide x (q.gs ^ 2) = .ok (x / q.gs ^ 2) := fun x => if_neg (pow_ne_zero 2 good.gs)
  simp only [higgslikeToWarsawUp, warsawUpToHiggslike]
  generalize params defaults parameters = p at *
  simp only [hk, hq, reads_h B, reads_w B, bind, Except.bind, if_true, gs]
  refine ⟨_, _, rfl, rfl, ?_⟩
  have hV := hV (p.getD "Vus" 0) (p.getD "Vub" 0) (p.getD "Vcb" 0) (p.getD "gamma" 0)
  generalize ckm (p.getD "Vus" 0) (p.getD "Vub" 0) (p.getD "Vcb" 0) (p.getD "gamma" 0) = V at *
  set H : String → ℂ := fun k => (fill hb C).getD k 0 with hH
  have nW : (warsawScalars q H ++ warsawTensors V q H).NodupKeys := by
    rw [Dict.NodupKeys, keys_warsaw]; exact nodup_warsaw
  have gR := get_out (b' := wb) B.nodup_h C nW
  set R := ((fill hb C).update (warsawScalars q H ++ warsawTensors V q H)).filterKV fun k _ => decide (k ∈ wb)
  set W : String → ℂ := fun k => (fill wb R).getD k 0 with hWdef
  have hHx : ∀ x ∈ hb, H x = C.getD x 0 := by
    intro x hx
    show ((fill hb C).get? x).getD 0 = _
    rw [get_fill, if_pos hx, Option.getD_some]
  have hWx : ∀ x ∈ wb, W x = R.getD x 0 := by
    intro x hx
    show ((fill wb R).get? x).getD 0 = _
    rw [get_fill, if_pos hx, Option.getD_some]
  have keep : ∀ x ∈ hb, x ∉ higgsNames → R.get? x = some (C.getD x 0) ∧ x ∈ wb := by
    intro x hx hn
    have hnw : x ∉ warsawNames := fun h => (B.warsaw x h).2 hx
    have hxw := (B.common x hn hnw).1 hx
    refine ⟨?_, hxw⟩
    have : Dict.get? (warsawScalars q H ++ warsawTensors V q H) x = none := by
      rw [Dict.get?_eq_none_iff, keys_warsaw]
      exact fun h => hnw (mem_warsaw.1 x h)
    rw [gR, if_pos hxw, this, if_pos hx, Option.none_or]
  have eq1 : ∀ x v, (x, v) ∈ warsawScalars q H ++ warsawTensors V q H → W x = v := by
    intro x v h
    have hx : x ∈ warsawNames := by
      refine mem_warsaw.1 x ?_
      rw [← keys_warsaw V q H]
      exact List.mem_map.2 ⟨_, h, rfl⟩
    have hxw := (B.warsaw x hx).1
    rw [hWx x hxw, Dict.getD, gR, if_pos hxw, Dict.get?_of_mem nW h]
    rfl
  have hll : W "ll_1221" = H "ll_1221" := by
    rw [hWx _ (ll_w B), hHx _ B.ll, Dict.getD, (keep _ B.ll ll_not.1).1]
    rfl
  have real : ∀ x ∈ higgsReal, (H x).im = 0 := by
    intro x hx
    have sub : ∀ x ∈ higgsReal, x ∈ higgsNames := by decide +kernel
    rw [hHx x (B.higgs x (sub x hx)).1]
    exact hC x hx
  have main := higgs_of_warsaw hV good eq1 hll real
  have nE : (higgsTensors V q W ++ higgsScalars q W).NodupKeys := by
    rw [Dict.NodupKeys, keys_higgs]; exact nodup_higgs
  intro x
  rw [get_out B.nodup_w R nE]
  by_cases hx : x ∈ hb
  · rw [if_pos hx, if_pos hx]
    by_cases hn : x ∈ higgsNames
    · have hmem : x ∈ (higgsTensors V q W ++ higgsScalars q W).keys := by
        rw [keys_higgs]; exact mem_higgs.2 x hn
      obtain ⟨⟨y, v⟩, hv, rfl⟩ := List.mem_map.1 hmem
      have := main _ hv
      dsimp only at this ⊢
      rw [Dict.get?_of_mem nE hv, Option.some_or, this, hHx y hx]
    · have : Dict.get? (higgsTensors V q W ++ higgsScalars q W) x = none := by
        rw [Dict.get?_eq_none_iff, keys_higgs]
        exact fun h => hn (mem_higgs.1 x h)
      obtain ⟨h1, h2⟩ := keep x hx hn
      rw [this, Option.none_or, if_pos h2, Dict.getD, h1]
      rfl
  · rw [if_neg hx, if_neg hx]

/-- and in the opposite order -/
theorem C34_warsaw_to_higgs_and_back (B : Bases hb wb) (hp : Physical (params defaults parameters))
    (hV : ∀ a b c d, ckm a b c d * (ckm a b c d).conjTranspose = 1) (C : Dict String ℂ)
    (hC : ∀ x ∈ "ll_1221" :: warsawReal, (C.getD x 0).im = 0) :
    ∃ H E, warsawUpToHiggslike hb wb ckm defaults C parameters = .ok H ∧
      higgslikeToWarsawUp hb wb ckm defaults H parameters = .ok E ∧
      ∀ x, E.get? x = if x ∈ wb then some (C.getD x 0) else none := by
  obtain ⟨q, hq, good⟩ := couplings_ok hp
  have hk := ckmOf_ok hp ckm
  have gs : ∀ x, divide x (q.gs ^ 2) = .ok (x / q.gs ^ 2) := fun x => if_neg (pow_ne_zero 2 good.gs)
  simp only [higgslikeToWarsawUp, warsawUpToHiggslike]
  generalize params defaults parameters = p at *
  simp only [hk, hq, reads_h B, reads_w B, bind, Except.bind, if_true, gs]
  refine ⟨_, _, rfl, rfl, ?_⟩
  have hV := hV (p.getD "Vus" 0) (p.getD "Vub" 0) (p.getD "Vcb" 0) (p.getD "gamma" 0)
  generalize ckm (p.getD "Vus" 0) (p.getD "Vub" 0) (p.getD "Vcb" 0) (p.getD "gamma" 0) = V at *
  set W : String → ℂ := fun k => (fill wb C).getD k 0 with hW
  have nW : (higgsTensors V q W ++ higgsScalars q W).NodupKeys := by
    rw [Dict.NodupKeys, keys_higgs]; exact nodup_higgs
  have gR := get_out (b' := hb) B.nodup_w C nW
  set R := ((fill wb C).update (higgsTensors V q W ++ higgsScalars q W)).filterKV fun k _ => decide (k ∈ hb)
  set H : String → ℂ := fun k => (fill hb R).getD k 0 with hHdef
  have hWx : ∀ x ∈ wb, W x = C.getD x 0 := by
    intro x hx
    show ((fill wb C).get? x).getD 0 = _
    rw [get_fill, if_pos hx, Option.getD_some]
  have hHx : ∀ x ∈ hb, H x = R.getD x 0 := by
    intro x hx
    show ((fill hb R).get? x).getD 0 = _
    rw [get_fill, if_pos hx, Option.getD_some]
  have keep : ∀ x ∈ wb, x ∉ warsawNames → R.get? x = some (C.getD x 0) ∧ x ∈ hb := by
    intro x hx hn
    have hnw : x ∉ higgsNames := fun h => (B.higgs x h).2 hx
    have hxw := (B.common x hnw hn).2 hx
    refine ⟨?_, hxw⟩
    have : Dict.get? (higgsTensors V q W ++ higgsScalars q W) x = none := by
      rw [Dict.get?_eq_none_iff, keys_higgs]
      exact fun h => hnw (mem_higgs.1 x h)
    rw [gR, if_pos hxw, this, if_pos hx, Option.none_or]
  have eq1 : ∀ x v, (x, v) ∈ higgsTensors V q W ++ higgsScalars q W → H x = v := by
    intro x v h
    have hx : x ∈ higgsNames := by
      refine mem_higgs.1 x ?_
      rw [← keys_higgs V q W]
      exact List.mem_map.2 ⟨_, h, rfl⟩
    have hxw := (B.higgs x hx).1
    rw [hHx x hxw, Dict.getD, gR, if_pos hxw, Dict.get?_of_mem nW h]
    rfl
  have hll : H "ll_1221" = W "ll_1221" := by
    rw [hHx _ B.ll, hWx _ (ll_w B), Dict.getD, (keep _ (ll_w B) ll_not.2).1]
    rfl
  have real : ∀ x ∈ warsawReal, (W x).im = 0 := by
    intro x hx
    have sub : ∀ x ∈ warsawReal, x ∈ warsawNames := by decide +kernel
    rw [hWx x (B.warsaw x (sub x hx)).1]
    exact hC x (List.mem_cons_of_mem _ hx)
  have main := warsaw_of_higgs hV good eq1 hll (by rw [hWx _ (ll_w B)]; exact hC _ List.mem_cons_self) real
  have nE : (warsawScalars q H ++ warsawTensors V q H).NodupKeys := by
    rw [Dict.NodupKeys, keys_warsaw]; exact nodup_warsaw
  intro x
  rw [get_out B.nodup_h R nE]
  by_cases hx : x ∈ wb
  · rw [if_pos hx, if_pos hx]
    by_cases hn : x ∈ warsawNames
    · have hmem : x ∈ (warsawScalars q H ++ warsawTensors V q H).keys := by
        rw [keys_warsaw]; exact mem_warsaw.2 x hn
      obtain ⟨⟨y, v⟩, hv, rfl⟩ := List.mem_map.1 hmem
      have := main _ hv
      dsimp only at this ⊢
      rw [Dict.get?_of_mem nE hv, Option.some_or, this, hWx y hx]
    · have : Dict.get? (warsawScalars q H ++ warsawTensors V q H) x = none := by
        rw [Dict.get?_eq_none_iff, keys_warsaw]
        exact fun h => hn (mem_warsaw.1 x h)
      obtain ⟨h1, h2⟩ := keep x hx hn
      rw [this, Option.none_or, if_pos h2, Dict.getD, h1]
      rfl
  · rw [if_neg hx, if_neg hx]

end

/-! ## The hypotheses are satisfiable -/

/-- bases with two common coefficients -/
theorem C34_bases_example :
    Bases ("ll_1221" :: "uG_11" :: higgsNames) ("ll_1221" :: "uG_11" :: warsawNames) where
  nodup_h := by decide +kernel
  nodup_w := by decide +kernel
  higgs := by decide +kernel
  warsaw := by decide +kernel
  common := by
    intro x h1 h2
    simp only [List.mem_cons, h1, h2]
  ll := by simp

/-- the values of `wilson/parameters.py` -/
noncomputable def defaultParameters : Dict String ℝ :=
  [("m_Z", 91.1876), ("m_h", 125), ("GF", 1.1663787e-5), ("alpha_e", 1 / 127.9), ("alpha_s", 0.1185),
    ("Vus", 0.2243), ("Vub", 3.62e-3), ("Vcb", 4.221e-2), ("gamma", 1.27)]

theorem C34_parameters_example : Physical (params defaultParameters none) where
  known := by
    simp [params, defaultParameters, Dict.keys]
  pos := by
    simp only [params, List.mem_cons, List.not_mem_nil, or_false, forall_eq_or_imp, forall_eq]
    refine ⟨?_, ?_, ?_, ?_, ?_⟩ <;> simp [defaultParameters, Dict.getD, Dict.get?_cons] <;> norm_num
  angle := by
    have h1 := Real.pi_lt_d2
    have h2 : (1.41 : ℝ) < Real.sqrt 2 := by
      rw [Real.lt_sqrt (by norm_num)]; norm_num
    have e1 : (params defaultParameters none).getD "alpha_e" 0 = 1 / 127.9 := by
      simp [params, defaultParameters, Dict.getD, Dict.get?_cons]
    have e2 : (params defaultParameters none).getD "GF" 0 = 1.1663787e-5 := by
      simp [params, defaultParameters, Dict.getD, Dict.get?_cons]
    have e3 : (params defaultParameters none).getD "m_Z" 0 = 91.1876 := by
      simp [params, defaultParameters, Dict.getD, Dict.get?_cons]
    rw [e1, e2, e3]
    norm_num at h1 h2 ⊢
    linarith

/-- a non-trivial unitary matrix -/
theorem C34_ckm_example : (!![0, Complex.I, 0; 1, 0, 0; 0, 0, 1] : Mat).conjTranspose
    * !![0, Complex.I, 0; 1, 0, 0; 0, 0, 1] = 1 := by
  ext i j
  fin_cases i <;> fin_cases j <;> simp [Matrix.mul_apply, Fin.sum_univ_three]

end Verif.SmeftHiggs
