import Verif.Props.WetRun
import Verif.Props.WetSymRun

/-!
# C76, C78, C92 for the points that `WETrunner.run` returns
-/

open Classical

set_option autoImplicit false

namespace Verif.WetTab
open Verif Verif.Rotation Verif.WetRun

variable {eig : (n : ℕ) → Matrix (Fin n) (Fin n) ℂ → (Fin n → ℂ) × Matrix (Fin n) (Fin n) ℂ}
  {basisKeys : ℕ → String → Except Exc (List String)}

/-! ## Helpers -/

theorem getItem_val (wc : WC) (k : String) : wc.getItem k = val wc.dict k := by
  unfold WC.getItem val
  cases wc.dict.get? k <;> rfl

theorem kept_listed {a : Coef} {s : String} {f : ℕ} (ha : a ∈ allCoefs)
    (h : Kept (backend eig basisKeys) s f (nameOf a)) : ∃ i, Listed a s i := by
  have hl' : ∃ l, (backend eig basisKeys).coeffs.get? s = some l ∧ nameOf a ∈ l := by
    rcases h with ⟨l, h1, h2, -⟩ | ⟨l, b, h1, h2, -⟩ <;> exact ⟨l, h1, h2⟩
  obtain ⟨l, h1, h2⟩ := hl'
  obtain ⟨cs, hm, rfl⟩ := coeffs_get eig basisKeys h1
  obtain ⟨c, hc, e⟩ := List.mem_map.1 h2
  obtain ⟨i, hi⟩ := List.getElem?_of_mem hc
  obtain ⟨_, _, ha⟩ := mem_allCoefs.1 ha
  have hc' : Listed c s i := ⟨cs, hm, hi⟩
  obtain rfl := nameOf_inj hc'.wellNamed ha.wellNamed e
  exact ⟨i, hc'⟩

/-- Every coefficient of the output is zero in all runs with these settings, or the value of one sector. -/
theorem run_value_cases (R : Qcd.RunDec) (P : Par) (eftSectors allWcs : List String) (eft : String)
    (scale_in scale_out : ℝ) (qed qcd : ℕ) (sectors : Verif.Sectors)
    (hr : Runnable eig basisKeys R P eft scale_in scale_out sectors) {a : Coef} (ha : a ∈ allCoefs) :
    (∀ wc out, wc.eft = eft →
      run (backend eig basisKeys) R P eftSectors allWcs wc qed qcd scale_out sectors = .ok out →
      out.getItem (nameOf a) = 0) ∨
    (∃ s i, Listed a s i ∧ Requested sectors s ∧ ∀ wc out, wc.eft = eft → wc.scale = scale_in →
      run (backend eig basisKeys) R P eftSectors allWcs wc qed qcd scale_out sectors = .ok out →
      ∃ f p q d, WetRun.flavours eft = .ok f ∧ runningPar R P scale_in f = .ok p ∧ runningPar R P scale_out f = .ok q ∧
        p.Positive ∧ q.Positive ∧ 0 < p.alpha_s / q.alpha_s ∧ EigFor eig basisKeys s f p.masses ∧
        runSector (backend eig basisKeys) s wc.dict (p.alpha_s / q.alpha_s) f p q qed qcd = .ok d ∧
        out.getItem (nameOf a) = val d (nameOf a)) := by
  by_cases h : nameOf a ∈ allWcs ∧ ∃ s f, s ∈ eftSectors ∧ s ∈ (backend eig basisKeys).sectors.keys ∧
      Requested sectors s ∧ WetRun.flavours eft = .ok f ∧ Kept (backend eig basisKeys) s f (nameOf a)
  · obtain ⟨hall, s, f, hs, hd, hreq, hf, hk⟩ := h
    right
    obtain ⟨i, hi⟩ := kept_listed ha hk
    refine ⟨s, i, hi, hreq, fun wc out he hsc hrun => ?_⟩
    obtain ⟨f', p, q, d, h1, h2, h3, h4, h5⟩ := C53_values (backend_tables eig basisKeys) R P eftSectors allWcs wc out
      qed qcd scale_out sectors hrun s hs hd hreq
    rw [he, hf] at h1
    cases h1
    rw [hsc] at h2
    obtain ⟨hp, hq⟩ := hr f hf
    obtain ⟨hp, hD⟩ := hp p h2
    have hq := hq q h3
    exact ⟨f, p, q, d, hf, h2, h3, hp, hq, div_pos hp.1 hq.1, hD s hreq, h4, h5 _ hk hall⟩
  · left
    intro wc out he hrun
    obtain ⟨-, -, -, -, -, h2⟩ := C53_contract (backend_tables eig basisKeys) R P eftSectors allWcs wc out qed qcd
      scale_out sectors hrun
    rw [getItem_val]
    unfold val
    cases hg : out.dict.get? (nameOf a) with
    | none => rfl
    | some v =>
      obtain ⟨-, h3, s, f, h4, h5, h6, h7, h8⟩ := h2 _ v hg
      exact absurd ⟨h3, s, f, h4, h5, h6, he ▸ h7, h8⟩ h

/-! ## The theorems -/

/-- C92: `WETrunner.run` of the CP-conjugate point returns the CP conjugate of the result. -/
theorem C92_run {R : Qcd.RunDec} {P : Par} {eftSectors allWcs : List String} {wc wc' out out' : WC} {qed qcd : ℕ}
    {scale : ℝ} {sectors : Verif.Sectors} (hr : Runnable eig basisKeys R P wc.eft wc.scale scale sectors)
    (he : wc'.eft = wc.eft) (hs : wc'.scale = wc.scale)
    (ht : ∀ a ∈ allCoefs, wc'.getItem (nameOf a) =
      (if a.1 = .Gtilde then -1 else 1) * (starRingEnd ℂ) (wc.getItem (nameOf a)))
    (h : run (backend eig basisKeys) R P eftSectors allWcs wc qed qcd scale sectors = .ok out)
    (h' : run (backend eig basisKeys) R P eftSectors allWcs wc' qed qcd scale sectors = .ok out') :
    ∀ a ∈ allCoefs, out'.getItem (nameOf a) =
      (if a.1 = .Gtilde then -1 else 1) * (starRingEnd ℂ) (out.getItem (nameOf a)) := by
  intro a ha
  rcases run_value_cases R P eftSectors allWcs wc.eft wc.scale scale qed qcd sectors hr ha with
    h0 | ⟨s, i, hi, -, hv⟩
  · rw [h0 wc out rfl h, h0 wc' out' he h', map_zero, mul_zero]
  · obtain ⟨f, p, q, d, h1, h2, h3, hp, hq, heta, hD, hd, e⟩ := hv wc out rfl rfl h
    obtain ⟨f', p', q', d', h1', h2', h3', -, -, -, -, hd', e'⟩ := hv wc' out' he hs h'
    rw [h1] at h1'; cases h1'
    rw [h2] at h2'; cases h2'
    rw [h3] at h3'; cases h3'
    rw [e, e']
    refine C92_running hp hq hD heta (fun x hx x' _ c n hT => ?_) hd hd' hi
    obtain ⟨rfl, rfl, rfl⟩ := hT
    have := ht x' hx
    rw [getItem_val, getItem_val] at this
    unfold vals
    rw [this]
    by_cases hg : x'.1 = .Gtilde <;> simp [hg, sgn, conjIf]

/-- C92: a point without CP violation is run to a point without CP violation. -/
theorem C92_run_conservation {R : Qcd.RunDec} {P : Par} {eftSectors allWcs : List String} {wc out : WC} {qed qcd : ℕ}
    {scale : ℝ} {sectors : Verif.Sectors} (hr : Runnable eig basisKeys R P wc.eft wc.scale scale sectors)
    (hC : ∀ a ∈ allCoefs, (wc.getItem (nameOf a)).im = 0 ∧ (a.1 = .Gtilde → wc.getItem (nameOf a) = 0))
    (h : run (backend eig basisKeys) R P eftSectors allWcs wc qed qcd scale sectors = .ok out) :
    ∀ a ∈ allCoefs, (out.getItem (nameOf a)).im = 0 ∧ (a.1 = .Gtilde → out.getItem (nameOf a) = 0) := by
  intro a ha
  rcases run_value_cases R P eftSectors allWcs wc.eft wc.scale scale qed qcd sectors hr ha with
    h0 | ⟨s, i, hi, -, hv⟩
  · rw [h0 wc out rfl h]
    exact ⟨rfl, fun _ => rfl⟩
  · obtain ⟨f, p, q, d, h1, h2, h3, hp, hq, heta, hD, hd, e⟩ := hv wc out rfl rfl h
    rw [e]
    refine C92_conservation hp hq hD heta (fun x hx => ?_) hd hi
    have := hC x hx
    rw [getItem_val] at this
    exact this

/-- C78: if the coefficients of Hermitian operators are real, so are those of the point that `WETrunner.run`
returns. -/
theorem C78_run {R : Qcd.RunDec} {P : Par} {eftSectors allWcs : List String} {wc out : WC} {qed qcd : ℕ}
    {scale : ℝ} {sectors : Verif.Sectors} (hr : Runnable eig basisKeys R P wc.eft wc.scale scale sectors)
    (hC : ∀ a ∈ allCoefs, IsReal a.1 (ixOf a) → (wc.getItem (nameOf a)).im = 0)
    (h : run (backend eig basisKeys) R P eftSectors allWcs wc qed qcd scale sectors = .ok out) :
    ∀ a ∈ allCoefs, IsReal a.1 (ixOf a) → (out.getItem (nameOf a)).im = 0 := by
  intro a ha hre
  rcases run_value_cases R P eftSectors allWcs wc.eft wc.scale scale qed qcd sectors hr ha with
    h0 | ⟨s, i, hi, -, hv⟩
  · rw [h0 wc out rfl h]
    rfl
  · obtain ⟨f, p, q, d, h1, h2, h3, hp, hq, heta, hD, hd, e⟩ := hv wc out rfl rfl h
    rw [e]
    refine C78_running hp hq hD heta (fun x hx hx' => ?_) hd hi hre
    have := hC x hx hx'
    rw [getItem_val] at this
    exact this

/-- C76: `WETrunner.run` of a point with rephased fields returns the rephased result.  Missing: the sector `sb`, which
contains `VddLL_1231` and `VddRR_1231`. -/
theorem C76_run_partial {R : Qcd.RunDec} {P : Par} {eftSectors allWcs : List String} {wc wc' out out' : WC}
    {qed qcd : ℕ} {scale : ℝ} {sectors : Verif.Sectors}
    (hr : Runnable eig basisKeys R P wc.eft wc.scale scale sectors) (hsb : ¬Requested sectors "sb")
    (he : wc'.eft = wc.eft) (hs : wc'.scale = wc.scale) (φ : Sp × ℕ → ℂ)
    (ht : ∀ a ∈ allCoefs, wc'.getItem (nameOf a) = rephase φ a * wc.getItem (nameOf a))
    (h : run (backend eig basisKeys) R P eftSectors allWcs wc qed qcd scale sectors = .ok out)
    (h' : run (backend eig basisKeys) R P eftSectors allWcs wc' qed qcd scale sectors = .ok out') :
    ∀ a ∈ allCoefs, out'.getItem (nameOf a) = rephase φ a * out.getItem (nameOf a) := by
  intro a ha
  rcases run_value_cases R P eftSectors allWcs wc.eft wc.scale scale qed qcd sectors hr ha with
    h0 | ⟨s, i, hi, hreq, hv⟩
  · rw [h0 wc out rfl h, h0 wc' out' he h', mul_zero]
  · obtain ⟨f, p, q, d, h1, h2, h3, hp, hq, heta, hD, hd, e⟩ := hv wc out rfl rfl h
    obtain ⟨f', p', q', d', h1', h2', h3', -, -, -, -, hd', e'⟩ := hv wc' out' he hs h'
    rw [h1] at h1'; cases h1'
    rw [h2] at h2'; cases h2'
    rw [h3] at h3'; cases h3'
    rw [e, e']
    refine C76_running_partial (fun e => hsb (e ▸ hreq)) hp hq hD heta φ (fun x hx => ?_) hd hd' hi
    have := ht x hx
    rw [getItem_val, getItem_val] at this
    exact this

/-! ## Example -/

/-- a RunDec with constant results -/
noncomputable def oneRunDec : Qcd.RunDec where
  alphasExact _ _ _ _ _ := 1
  alL2AlH _ _ _ _ _ := 1
  alH2AlL _ _ _ _ _ := 1
  mMS2mMS _ _ _ _ _ := 1
  mH2mL _ _ _ _ _ _ := 1
  mL2mH _ _ _ _ _ _ := 1

theorem one_alphaS {x : ℝ} (hx : 0 < x) {f : ℕ} (h1 : 3 ≤ f) (h2 : f ≤ 5) : Qcd.alphaS oneRunDec x f 1 3 = .ok 1 := by
  have : Qcd.sane x f = .ok () := by simp [Qcd.sane, not_le.2 hx, h1, show f ≤ 6 by omega]
  unfold Qcd.alphaS
  by_cases h : x = Qcd.MZ ∧ f = 5
  · rw [if_pos h]
  · rw [if_neg h, this]
    obtain rfl | rfl | rfl : f = 3 ∨ f = 4 ∨ f = 5 := by omega
    all_goals simp [bind, Except.bind, pure, Except.pure, oneRunDec]

theorem one_par {scale : ℝ} (h : 20 < scale) :
    runningPar oneRunDec exPar scale 5 = .ok ⟨1, 1, 1, 1, 1, 1, 1, 13, 17, 19⟩ := by
  have n : 0 < scale := by linarith
  have n2 : scale ≠ 11 := by rintro rfl; norm_num at h
  have n3 : scale ≠ 7 := by rintro rfl; norm_num at h
  have z : Qcd.sane scale 5 = .ok () := by simp [Qcd.sane, n]
  have a1 := one_alphaS (f := 5) n (by norm_num) (by norm_num)
  have a2 := one_alphaS (x := 11) (f := 5) (by norm_num) (by norm_num) (by norm_num)
  have a3 := one_alphaS (x := 7) (f := 4) (by norm_num) (by norm_num) (by norm_num)
  have a4 := one_alphaS (x := 2) (f := 3) (by norm_num) (by norm_num) (by norm_num)
  have a5 := one_alphaS (x := 1.3) (f := 4) (by norm_num) (by norm_num) (by norm_num)
  have hs : ∀ m, Qcd.mS oneRunDec m scale 5 1 3 = .ok 1 := fun m => by
    simp [Qcd.mS, z, a4, a5, bind, Except.bind, pure, Except.pure]
    rfl
  have hc : Qcd.mC oneRunDec 7 scale 5 1 3 = .ok 1 := by
    simp [Qcd.mC, n3, z, a3, bind, Except.bind, pure, Except.pure]
    rfl
  have hb : Qcd.mB oneRunDec 11 scale 5 1 3 = .ok 1 := by
    simp [Qcd.mB, n2, z, a1, a2, bind, Except.bind, pure, Except.pure]
    rfl
  unfold runningPar
  simp [exPar, hs, hc, hb, a1, bind, Except.bind, pure, Except.pure]

/-- C76, C78, C92, example: the complex coefficient `VeeLL_1212` is run from 40 to 80 GeV. -/
theorem C92_run_example :
    Runnable diagEig basisKeys oneRunDec exPar "WET" 40 80 (.tuple ["muemue"]) ∧
    ¬Requested (.tuple ["muemue"]) "sb" ∧
    (∀ wc : WC, wc.eft = "WET" → wc.basis = "JMS" → wc.scale = 40 →
      ∃ out, run (backend diagEig basisKeys) oneRunDec exPar ["muemue"] ["VeeLL_1212"] wc 1 1 80 (.tuple ["muemue"])
        = .ok out) ∧
    mix .qed 5 ⟨1, 1, 1, 1, 1, 1, 1, 13, 17, 19⟩ (.VeeLL, 1212) (.VeeLL, 1212) = 12 := by
  have hpos : Par.Positive ⟨1, 1, 1, 1, 1, 1, 1, 13, 17, 19⟩ := by
    unfold Par.Positive
    norm_num
  have p1 := one_par (scale := 40) (by norm_num)
  have p2 := one_par (scale := 80) (by norm_num)
  refine ⟨fun f hf => ?_, by simp [Requested], fun wc h1 h2 h3 => ?_, mix_mu hpos⟩
  · have : f = 5 := by
      simp [WetRun.flavours] at hf
      exact hf.symm
    subst this
    refine ⟨fun p hp => ?_, fun q hq => ?_⟩
    · rw [p1] at hp
      cases hp
      refine ⟨hpos, fun s hs => ?_⟩
      simp only [Requested, List.mem_singleton] at hs
      subst hs
      exact eigFor_lepton cls_muemue _
    · rw [p2] at hq
      cases hq
      exact hpos
  · obtain ⟨d, hd⟩ := run_total diagEig basisKeys (s := "muemue") (by decide) (f := 5) (.inl rfl) wc.dict
      (1 / 1) ⟨1, 1, 1, 1, 1, 1, 1, 13, 17, 19⟩ ⟨1, 1, 1, 1, 1, 1, 1, 13, 17, 19⟩ (qed := 1) (qcd := 1) (.inr rfl) (.inr rfl)
    have hm : "muemue" ∈ (backend diagEig basisKeys).sectors.keys := by
      change "muemue" ∈ Dict.keys sectorTable
      decide
    have hf : WetRun.flavours "WET" = .ok 5 := by simp [WetRun.flavours]
    have hr : runDict (backend diagEig basisKeys) oneRunDec exPar ["muemue"] wc 1 1 80 (.tuple ["muemue"])
        = .ok (Dict.update [] d) := by
      unfold runDict
      rw [h1, hf, h3]
      simp only [bind, Except.bind, p1, p2, loop, hm, Requested, List.mem_singleton, and_self, if_true, hd]
    unfold WetRun.run
    rw [if_neg (by simp [h2]), hr]
    exact ⟨_, rfl⟩

end Verif.WetTab
