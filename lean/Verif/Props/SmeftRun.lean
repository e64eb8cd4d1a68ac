import Verif.Spec.SmeftRun
import Verif.Lemmas.SmeftRun
import Verif.Lemmas.WetRun
import Verif.Props.BetaLinear
import Verif.Props.WCxf
import Verif.Props.BetaFlavour
import Mathlib.Analysis.SpecialFunctions.ExpDeriv
import Mathlib.Analysis.SpecialFunctions.Log.Deriv
import Mathlib.Analysis.Calculus.Deriv.Slope
import Mathlib.Tactic.Positivity
import Mathlib.Tactic.LinearCombination

/-!
# C46, C62: leading-log running and continuous solutions
-/

set_option autoImplicit false

open Classical

namespace Verif.SmeftRun

open Verif.Tens Verif.Beta Verif.BetaSpec

variable {cKeys : List Key}

theorem leadinglog_ok (hc : ∀ k, k ∈ cKeys ↔ k ∈ keys) {C : Dict Key Ten} (hC : Complete C)
    {s_in s_out : ℝ} (h1 : 0 < s_in) (h2 : 0 < s_out) (np : Bool) :
    leadinglog cKeys C s_in s_out np = .ok (C.map fun kv => (kv.1, (fun k T ix =>
      T ix + betaAt cKeys C np k ix / (16 * Real.pi ^ 2 : ℂ) * (Real.log (s_out / s_in) : ℝ) :
        Key → Ten → Ten) kv.1 kv.2)) := by
  unfold leadinglog betaDict
  rw [if_pos fun k hk => (hC.keys k).2 hk]
  simp only [bind, Except.bind]
  rw [llLoop_ok _ _ _ _ (logRatio_pos h2 h1) C fun k hk => ?_]
  · rfl
  · exact (BetaLinear.C45_keys cKeys hc _ 1 np k).2 ((hC.keys k).1 hk)

theorem entry_map (C : Dict Key Ten) (f : Key → Ten → Ten) (k : Key) (hk : k ∈ C.keys) (ix : Ix) :
    entry (C.map fun kv => (kv.1, f kv.1 kv.2)) k ix = f k ((C.get? k).getD fun _ => 0) ix := by
  unfold entry
  rw [get?_mapKV]
  obtain ⟨v, hv⟩ := Option.isSome_iff_exists.1 ((Dict.isSome_get?_iff C k).2 hk)
  rw [hv]
  rfl

theorem complete_map {C : Dict Key Ten} (hC : Complete C) (f : Key → Ten → Ten) :
    Complete (C.map fun kv => (kv.1, f kv.1 kv.2)) := by
  have e : Dict.keys (C.map fun kv => (kv.1, f kv.1 kv.2)) = C.keys := by
    simp [Dict.keys, Function.comp_def]
  constructor
  · have := hC.nodup
    unfold Dict.NodupKeys at this ⊢
    rw [e]; exact this
  · intro k; rw [e]; exact hC.keys k

/-- **C46.** The leading-log solution exists for all positive scales; it has the same parameters in
the same order, and every entry is shifted by `β/(16π²) log(μ_out/μ_in)`, all beta functions being
evaluated at the input point. -/
theorem C46_shift (hc : ∀ k, k ∈ cKeys ↔ k ∈ keys) (C : Dict Key Ten) (hC : Complete C)
    (s_in s_out : ℝ) (h1 : 0 < s_in) (h2 : 0 < s_out) (np : Bool) :
    ∃ out, leadinglog cKeys C s_in s_out np = .ok out ∧ Complete out ∧ out.keys = C.keys ∧
      ∀ k ∈ keys, ∀ ix, entry out k ix
        = entry C k ix + betaAt cKeys C np k ix / (16 * Real.pi ^ 2 : ℂ) * (Real.log (s_out / s_in) : ℝ) := by
  refine ⟨_, leadinglog_ok hc hC h1 h2 np, complete_map hC (fun k T ix =>
      T ix + betaAt cKeys C np k ix / (16 * Real.pi ^ 2 : ℂ) * (Real.log (s_out / s_in) : ℝ)),
      ?_, fun k hk ix => ?_⟩
  · simp [Dict.keys, Function.comp_def]
  · exact entry_map C (fun k T ix =>
      T ix + betaAt cKeys C np k ix / (16 * Real.pi ^ 2 : ℂ) * (Real.log (s_out / s_in) : ℝ)) k
      ((hC.keys k).2 hk) ix

/-- **C46.** Running to the same scale is the identity. -/
theorem C46_same_scale (hc : ∀ k, k ∈ cKeys ↔ k ∈ keys) (C : Dict Key Ten) (hC : Complete C)
    (s : ℝ) (hs : 0 < s) (np : Bool) : leadinglog cKeys C s s np = .ok C := by
  rw [leadinglog_ok hc hC hs hs, div_self hs.ne', Real.log_one]
  congr 1
  simp

/-- **C46.** The rate of change with the logarithm of the scale is the beta function at the input
point, at every output scale: the solution is exact to first order. -/
theorem C46_rate (hc : ∀ k, k ∈ cKeys ↔ k ∈ keys) (C : Dict Key Ten) (hC : Complete C)
    (s_in : ℝ) (h1 : 0 < s_in) (np : Bool) (out : ℝ → Dict Key Ten)
    (hout : ∀ t, leadinglog cKeys C s_in (Real.exp t) np = .ok (out t)) (k : Key) (hk : k ∈ keys)
    (ix : Ix) (t : ℝ) :
    HasDerivAt (fun t => entry (out t) k ix) (betaAt cKeys C np k ix / (16 * Real.pi ^ 2 : ℂ)) t := by
  have : ∀ t, entry (out t) k ix = entry C k ix
      + betaAt cKeys C np k ix / (16 * Real.pi ^ 2 : ℂ) * ((t - Real.log s_in : ℝ) : ℂ) := by
    intro t
    obtain ⟨o, ho, -, -, he⟩ := C46_shift hc C hC s_in (Real.exp t) h1 (Real.exp_pos t) np
    rw [hout t] at ho
    injection ho with ho
    rw [ho, he k hk ix, Real.log_div (Real.exp_pos t).ne' h1.ne', Real.log_exp]
  simp only [this]
  have h := ((hasDerivAt_id t).sub_const (Real.log s_in)).ofReal_comp
  have h2 := (h.const_mul (betaAt cKeys C np k ix / (16 * Real.pi ^ 2 : ℂ))).const_add (entry C k ix)
  refine h2.congr_deriv ?_
  simp

/-- **C46.** Running out to another scale and back restores the input to first order in the
logarithm of the ratio of scales. -/
theorem C46_out_and_back (hc : ∀ k, k ∈ cKeys ↔ k ∈ keys) (C : Dict Key Ten) (hC : Complete C)
    (s : ℝ) (hs : 0 < s) :
    ∃ out back : ℝ → Dict Key Ten,
      (∀ t, leadinglog cKeys C s (s * Real.exp t) true = .ok (out t)) ∧
      (∀ t, leadinglog cKeys (out t) (s * Real.exp t) s true = .ok (back t)) ∧ back 0 = C ∧
      ∀ k ∈ keys, ∀ ix, HasDerivAt (fun t => entry (back t) k ix) 0 0 := by
  have hpos : ∀ t, 0 < s * Real.exp t := fun t => mul_pos hs (Real.exp_pos t)
  choose out ho hco hko heo using fun t => C46_shift hc C hC s (s * Real.exp t) hs (hpos t) true
  choose back hb hcb hkb heb using fun t =>
    C46_shift hc (out t) (hco t) (s * Real.exp t) s (hpos t) hs true
  have l1 : ∀ t, Real.log (s * Real.exp t / s) = t := by
    intro t
    rw [mul_comm, mul_div_assoc, div_self hs.ne', mul_one, Real.log_exp]
  have l2 : ∀ t, Real.log (s / (s * Real.exp t)) = -t := by
    intro t
    rw [← l1 t, ← Real.log_inv, inv_div, l1]
  refine ⟨out, back, ho, hb, ?_, ?_⟩
  · have h0 : out 0 = C := by
      have := ho 0
      rw [Real.exp_zero, mul_one, C46_same_scale hc C hC s hs] at this
      injection this with this
      exact this.symm
    have := hb 0
    rw [h0, Real.exp_zero, mul_one, C46_same_scale hc C hC s hs] at this
    injection this with this
    exact this.symm
  · intro k hk ix
    obtain ⟨B, hB, hBc⟩ := continuous_beta (fun t => fun k => ((out t).get? k).getD fun _ => 0)
      (by
        intro k hk ix
        have : (fun t => (((out t).get? k).getD fun _ => 0) ix) = fun t : ℝ => entry C k ix
            + betaAt cKeys C true k ix / (16 * Real.pi ^ 2 : ℂ) * (t : ℂ) := by
          funext t
          have := heo t k hk ix
          rw [l1] at this
          exact this
        rw [this]
        exact continuous_const.add (continuous_const.mul Complex.continuous_ofReal)) 1 cKeys k hk
    have hBt : ∀ t, betaAt cKeys (out t) true k ix = B t ix := by
      intro t
      unfold betaAt
      rw [hB t]
      rfl
    have hB0 : betaAt cKeys C true k ix = B 0 ix := by
      have h0 : out 0 = C := by
        have := ho 0
        rw [Real.exp_zero, mul_one, C46_same_scale hc C hC s hs] at this
        injection this with this
        exact this.symm
      rw [← hBt 0, h0]
    have hf : ∀ t, entry (back t) k ix = entry C k ix
        + (B 0 ix - B t ix) / (16 * Real.pi ^ 2 : ℂ) * (t : ℂ) := by
      intro t
      rw [heb t k hk ix, heo t k hk ix, l1, l2, hBt, hB0]
      push_cast
      ring
    rw [hasDerivAt_iff_tendsto_slope]
    have hs' : ∀ t ∈ ({0}ᶜ : Set ℝ), slope (fun t => entry (back t) k ix) 0 t
        = (B 0 ix - B t ix) / (16 * Real.pi ^ 2 : ℂ) := by
      intro t ht
      have ht' : t ≠ 0 := ht
      have ht'' : (t : ℂ) ≠ 0 := by exact_mod_cast ht'
      simp only [slope, vsub_eq_sub, sub_zero]
      rw [hf, hf]
      simp only [sub_self, zero_div, Complex.ofReal_zero, mul_zero, add_zero, add_sub_cancel_left]
      rw [Complex.real_smul]
      push_cast
      field_simp
    have hlim : Filter.Tendsto (fun t => (B 0 ix - B t ix) / (16 * Real.pi ^ 2 : ℂ)) (nhdsWithin 0 {0}ᶜ)
        (nhds 0) := by
      have hcont : Continuous fun t => (B 0 ix - B t ix) / (16 * Real.pi ^ 2 : ℂ) :=
        (continuous_const.sub (hBc ix)).div_const _
      have := hcont.tendsto 0
      simp only [sub_self, zero_div] at this
      exact this.mono_left nhdsWithin_le_nhds
    exact hlim.congr' (by
      filter_upwards [self_mem_nhdsWithin] with t ht
      exact (hs' t ht).symm)

/-- **C46.** With fixed Standard Model parameters, the running of the Wilson coefficients is linear. -/
theorem C46_linear (hc : ∀ k, k ∈ cKeys ↔ k ∈ keys) (C C₁ C₂ : Dict Key Ten) (hC : Complete C)
    (hC₁ : Complete C₁) (hC₂ : Complete C₂) (a b : ℝ) (s_in s_out : ℝ) (h1 : 0 < s_in) (h2 : 0 < s_out)
    (hS : ∀ k ∈ smKeys, ∀ ix, entry C k ix = entry C₁ k ix ∧ entry C k ix = entry C₂ k ix)
    (hW : ∀ k ∈ keys, k ∉ smKeys → ∀ ix, entry C k ix = a * entry C₁ k ix + b * entry C₂ k ix) :
    ∃ o o₁ o₂, leadinglog cKeys C s_in s_out true = .ok o ∧
      leadinglog cKeys C₁ s_in s_out true = .ok o₁ ∧ leadinglog cKeys C₂ s_in s_out true = .ok o₂ ∧
      ∀ k ∈ keys, k ∉ smKeys → ∀ ix, entry o k ix = a * entry o₁ k ix + b * entry o₂ k ix := by
  obtain ⟨o, e, -, -, h⟩ := C46_shift hc C hC s_in s_out h1 h2 true
  obtain ⟨o₁, e₁, -, -, g₁⟩ := C46_shift hc C₁ hC₁ s_in s_out h1 h2 true
  obtain ⟨o₂, e₂, -, -, g₂⟩ := C46_shift hc C₂ hC₂ s_in s_out h1 h2 true
  refine ⟨o, o₁, o₂, e, e₁, e₂, fun k hk hs ix => ?_⟩
  obtain ⟨B, B₁, B₂, b1, b2, b3, hB⟩ := BetaLinear.C43_linear cKeys 1 a b
    (fun k => (C.get? k).getD fun _ => 0) (fun k => (C₁.get? k).getD fun _ => 0)
    (fun k => (C₂.get? k).getD fun _ => 0)
    (fun k hk => ⟨funext fun ix => (hS k hk ix).1, funext fun ix => (hS k hk ix).2⟩) hW k hk hs
  rw [h k hk ix, g₁ k hk ix, g₂ k hk ix, hW k hk hs ix]
  have : betaAt cKeys C true k ix = a * betaAt cKeys C₁ true k ix + b * betaAt cKeys C₂ true k ix := by
    unfold betaAt
    rw [b1, b2, b3]
    exact hB ix
  rw [this]
  ring

/-- **C46.** Coefficients of other baryon or lepton number do not feed into a coefficient. -/
theorem C46_selection (hc : ∀ k, k ∈ cKeys ↔ k ∈ keys) (C C' : Dict Key Ten) (hC : Complete C)
    (hC' : Complete C') (s_in s_out : ℝ) (h1 : 0 < s_in) (h2 : 0 < s_out) (k : Key) (hk : k ∈ keys)
    (hS : ∀ k' ∈ keys, k' ∈ smKeys ∨ SameCharge k k' → ∀ ix, entry C k' ix = entry C' k' ix) :
    ∃ o o', leadinglog cKeys C s_in s_out true = .ok o ∧ leadinglog cKeys C' s_in s_out true = .ok o' ∧
      ∀ ix : Ix, ix.length = rank k → entry o k ix = entry o' k ix := by
  obtain ⟨o, e, -, -, h⟩ := C46_shift hc C hC s_in s_out h1 h2 true
  obtain ⟨o', e', -, -, h'⟩ := C46_shift hc C' hC' s_in s_out h1 h2 true
  refine ⟨o, o', e, e', fun ix hix => ?_⟩
  obtain ⟨B, B', b1, b2, hB⟩ := BetaFlavour.C44_selection (fun k => (C.get? k).getD fun _ => 0)
    (fun k => (C'.get? k).getD fun _ => 0) 1 cKeys (fun k hk => (hc k).2 hk) k hk
    (fun k' hk' hh => funext fun ix => hS k' hk' hh ix)
  rw [h k hk ix, h' k hk ix, hS k hk (Or.inr ⟨rfl, rfl⟩) ix]
  unfold betaAt
  rw [b1, b2]
  simp only [Option.getD_some]
  rw [hB ix hix]

/-- **C46.** Without new physics the Wilson coefficients do not run. -/
theorem C46_newphys (hc : ∀ k, k ∈ cKeys ↔ k ∈ keys) (C : Dict Key Ten) (hC : Complete C)
    (s_in s_out : ℝ) (h1 : 0 < s_in) (h2 : 0 < s_out) :
    ∃ o, leadinglog cKeys C s_in s_out false = .ok o ∧
      ∀ k ∈ keys, k ∉ smKeys → ∀ ix, entry o k ix = entry C k ix := by
  obtain ⟨o, e, -, -, h⟩ := C46_shift hc C hC s_in s_out h1 h2 false
  refine ⟨o, e, fun k hk hs ix => ?_⟩
  obtain ⟨B, b1, hB⟩ := BetaLinear.C45_wc_zero cKeys (fun k hk => (hc k).2 hk)
    (fun k => (C.get? k).getD fun _ => 0) 1 k hk hs
  rw [h k hk ix]
  unfold betaAt
  rw [b1]
  simp [hB ix]

/-- **C46.** Scales whose ratio is not positive are rejected, and so are incomplete inputs. -/
theorem C46_rejects (hc : ∀ k, k ∈ cKeys ↔ k ∈ keys) (C : Dict Key Ten) (s_in s_out : ℝ) (np : Bool) :
    (Complete C → s_in ≠ 0 → s_out / s_in ≤ 0 →
      leadinglog cKeys C s_in s_out np = .error .valueError) ∧
    (∀ k ∈ keys, k ∉ C.keys → leadinglog cKeys C s_in s_out np = .error .keyError) := by
  constructor
  · intro hC h0 hr
    unfold leadinglog betaDict
    rw [if_pos fun k hk => (hC.keys k).2 hk]
    simp only [bind, Except.bind]
    cases C with
    | nil =>
      have : Key.g ∈ Dict.keys ([] : Dict Key Ten) := (hC.keys .g).2 (by decide)
      simp [Dict.keys] at this
    | cons kv rest =>
      obtain ⟨k, T⟩ := kv
      have hk : k ∈ keys := (hC.keys k).1 (by simp [Dict.keys])
      obtain ⟨B, hB⟩ := Option.isSome_iff_exists.1 ((Dict.isSome_get?_iff _ k).2
        ((BetaLinear.C45_keys cKeys hc (fun k' => (Dict.get? ((k, T) :: rest) k').getD fun _ => 0) 1 np k).2 hk))
      unfold llLoop
      rw [hB]
      have : logRatio s_out s_in = .error .valueError := by
        unfold logRatio
        rw [if_neg h0, if_pos hr]
      rw [this]
      rfl
  · intro k hk hn
    unfold leadinglog betaDict
    rw [if_neg fun h => hn (h k hk)]
    rfl

/-! ### Continuous solutions -/

/-- **C62.** `SMEFT.run_continuous` rejects the input scale; otherwise, if the integration succeeds, its
solution covers exactly the scales between input and output. -/
theorem C62_smeft {α : Type} (evolve : ℝ → Except Exc (ℝ → Except Exc α)) (s_in s : ℝ) :
    (s = s_in → smeftContinuous evolve s_in s = .error .valueError) ∧
    (s ≠ s_in → ∀ f, evolve s = .ok f → smeftContinuous evolve s_in s
      = .ok ⟨f, min s s_in, max s s_in⟩ ∧ min s s_in < max s s_in) := by
  refine ⟨fun h => ?_, fun h f hf => ?_⟩
  · unfold smeftContinuous boundaries
    rw [if_pos h]
    rfl
  · refine ⟨?_, min_lt_max.2 h⟩
    unfold smeftContinuous boundaries
    rw [if_neg h, hf]
    split_ifs with h'
    · rw [min_eq_left h'.le, max_eq_right h'.le]; rfl
    · push Not at h'
      rw [min_eq_right h', max_eq_left h']; rfl

/-- **C62.** The same for `WETrunner.run_continuous`, whose solution at any scale is what running to
that scale gives. -/
theorem C62_wet (B : WetRun.Backend) (R : Qcd.RunDec) (P : WetRun.Par) (eftSectors : List String)
    (wc : WC) (qed qcd : ℕ) (s : ℝ) (sectors : Sectors) :
    (s = wc.scale →
      wetContinuous B R P eftSectors wc qed qcd s sectors = .error .valueError) ∧
    (s ≠ wc.scale → ∃ f, wetContinuous B R P eftSectors wc qed qcd s sectors
      = .ok ⟨f, min s wc.scale, max s wc.scale⟩ ∧ min s wc.scale < max s wc.scale ∧
      ∀ (allWcs : List String) (x : ℝ) (out : WC),
        WetRun.run B R P eftSectors allWcs wc qed qcd x sectors = .ok out →
        ∃ d, f x = .ok d ∧ ∀ k ∈ allWcs, out.getItem k = (d.get? k).getD 0) := by
  refine ⟨fun h => ?_, fun h => ?_⟩
  · unfold wetContinuous boundaries
    rw [if_pos h]
    rfl
  · refine ⟨fun x => WetRun.runDict B R P eftSectors wc qed qcd x sectors, ?_, min_lt_max.2 h, ?_⟩
    · unfold wetContinuous boundaries
      rw [if_neg h]
      split_ifs with h'
      · rw [min_eq_left h'.le, max_eq_right h'.le]; rfl
      · push Not at h'
        rw [min_eq_right h', max_eq_left h']; rfl
    · intro allWcs x out hout
      unfold WetRun.run at hout
      split_ifs at hout
      obtain ⟨d, hd, hout⟩ := WetRun.ok_bind hout
      refine ⟨d, hd, fun k hk => ?_⟩
      simp only [pure, Except.pure, Except.ok.injEq] at hout
      subst hout
      have hnd : d.NodupKeys := by
        unfold WetRun.runDict at hd
        obtain ⟨f', -, hd⟩ := WetRun.ok_bind hd
        obtain ⟨p_i', -, hd⟩ := WetRun.ok_bind hd
        obtain ⟨p_o', -, hd⟩ := WetRun.ok_bind hd
        exact (WetRun.loop_spec B eftSectors [] d hd fun s d hd => WetRun.runSector_nodup B hd).2.1
          (by simp [Dict.NodupKeys, Dict.keys])
      unfold WC.getItem
      simp only [WC.dict, dict2values, Dict.get?_mapVal]
      rw [Dict.get?_filterKV _ _ hnd]
      cases d.get? k with
      | none => rfl
      | some x =>
        by_cases hx : x = 0
        · simp only [Option.filter_some, hx]
          simp
        · have e : Option.filter (fun v : ℂ => decide (v ≠ 0) && decide (k ∈ allWcs)) (some x)
              = some x := by
            rw [Option.filter_some, if_pos (by simp [hx, hk])]
          rw [e]
          simp [toNumber_ofNumber]

/-- **C62.** The points of a plot start and end at the boundaries of the solution and increase. -/
theorem C62_plot_points (S : RGsolution (Dict String ℂ)) (key part scale : String) (steps : ℕ)
    (hs : 2 ≤ steps) (h0 : 0 < S.scale_min) (h1 : S.scale_min < S.scale_max) (x y : List ℝ)
    (h : plotdata S key part scale steps = .ok (some (x, y))) :
    x.length = steps ∧ x.head? = some S.scale_min ∧ x.getLast? = some S.scale_max ∧
      x.Pairwise (· < ·) := by
  have hs1 : (0 : ℝ) < (steps : ℝ) - 1 := by
    have : (2 : ℝ) ≤ steps := by exact_mod_cast hs
    linarith
  have key : ∀ g : ℕ → ℝ, g 0 = S.scale_min → g (steps - 1) = S.scale_max →
      (∀ i j, i < j → g i < g j) → x = (List.range steps).map g →
      x.length = steps ∧ x.head? = some S.scale_min ∧ x.getLast? = some S.scale_max ∧
      x.Pairwise (· < ·) := by
    rintro g g0 g1 gm rfl
    obtain ⟨n, rfl⟩ : ∃ n, steps = n + 1 := ⟨steps - 1, by omega⟩
    refine ⟨by simp, ?_, ?_, ?_⟩
    · rw [List.range_succ_eq_map]; simp [g0]
    · rw [List.range_succ]; simpa using g1
    · rw [List.pairwise_map]
      exact List.pairwise_lt_range.imp fun {a b} hab => gm a b hab
  have cast1 : ((steps - 1 : ℕ) : ℝ) = (steps : ℝ) - 1 := by
    rw [Nat.cast_sub (by omega)]; simp
  unfold plotdata at h
  obtain ⟨x', hx, h⟩ := WetRun.ok_bind h
  obtain ⟨ds, hds, h⟩ := WetRun.ok_bind h
  obtain ⟨y', hy, h⟩ := WetRun.ok_bind h
  have hxx : x' = x := by
    injection h with h
    split_ifs at h
    · injection h with h; injection h
    · injection h with h; injection h
  subst hxx
  split_ifs at hx
  · injection hx with hx
    refine key (logspace S.scale_min S.scale_max steps) ?_ ?_ ?_ hx.symm
    · simp [logspace, Real.exp_log h0]
    · unfold logspace
      rw [cast1, mul_div_cancel₀ _ hs1.ne']
      rw [add_sub_cancel, Real.exp_log (h0.trans h1)]
    · intro i j hij
      apply Real.exp_lt_exp.2
      have : 0 < (Real.log S.scale_max - Real.log S.scale_min) / ((steps : ℝ) - 1) :=
        div_pos (sub_pos.2 (Real.log_lt_log h0 h1)) hs1
      have hij' : (i : ℝ) < j := by exact_mod_cast hij
      nlinarith
  · injection hx with hx
    refine key (linspace S.scale_min S.scale_max steps) ?_ ?_ ?_ hx.symm
    · simp [linspace]
    · unfold linspace
      rw [cast1, mul_div_cancel₀ _ hs1.ne']
      ring
    · intro i j hij
      unfold linspace
      have : 0 < (S.scale_max - S.scale_min) / ((steps : ℝ) - 1) := div_pos (sub_pos.2 h1) hs1
      have hij' : (i : ℝ) < j := by exact_mod_cast hij
      nlinarith

theorem mapM_spec {α β : Type} (f : α → Except Exc β) (l : List α) (r : List β)
    (h : l.mapM f = .ok r) : List.Forall₂ (fun a b => f a = .ok b) l r := by
  induction l generalizing r with
  | nil =>
    rw [List.mapM_nil] at h
    injection h with h
    subst h
    exact .nil
  | cons a l ih =>
    rw [List.mapM_cons] at h
    obtain ⟨b, hb, h⟩ := WetRun.ok_bind h
    obtain ⟨bs, hbs, h⟩ := WetRun.ok_bind h
    injection h with h
    subst h
    exact .cons hb (ih _ hbs)

theorem plot_aux (S : RGsolution (Dict String ℂ)) (key : String) (g : ℂ → ℝ) (x : List ℝ)
    (ds : List (Dict String ℂ)) (y : List ℂ) (h1 : List.Forall₂ (fun a b => S.sol a = .ok b) x ds)
    (h2 : List.Forall₂ (fun (d : Dict String ℂ) b =>
      (match d.get? key with | some v => (Except.ok v : Except Exc ℂ) | none => .error Exc.keyError) = Except.ok b) ds y) :
    List.Forall₂ (fun μ v => ∃ d z, S.sol μ = .ok d ∧ d.get? key = some z ∧ v = g z) x (y.map g) := by
  induction h1 generalizing y with
  | nil => cases h2; exact .nil
  | @cons a d _ _ ha hl ih =>
    cases h2 with
    | @cons _ z _ zs hz hrest =>
      refine .cons ⟨d, z, ha, ?_, rfl⟩ (ih _ hrest)
      revert hz
      cases hg : Dict.get? d key with
      | none => intro hz; simp at hz
      | some w => intro hz; injection hz with hz; rw [hz]

/-- **C62.** The values of a plot are the real (imaginary) parts of the solution at its points. -/
theorem C62_plot_values (S : RGsolution (Dict String ℂ)) (key part scale : String) (steps : ℕ)
    (x y : List ℝ) (h : plotdata S key part scale steps = .ok (some (x, y))) :
    (part = "re" ∨ part = "im") ∧
    List.Forall₂ (fun μ v => ∃ d z, S.sol μ = .ok d ∧ d.get? key = some z ∧
      v = if part = "re" then z.re else z.im) x y := by
  unfold plotdata at h
  obtain ⟨x', hx, h⟩ := WetRun.ok_bind h
  obtain ⟨ds, hds, h⟩ := WetRun.ok_bind h
  obtain ⟨y', hy, h⟩ := WetRun.ok_bind h
  have h1 := mapM_spec _ _ _ hds
  have h2 := mapM_spec _ _ _ hy
  injection h with h
  have key2 : ∀ g : ℂ → ℝ, x' = x → y'.map g = y →
      List.Forall₂ (fun μ v => ∃ d z, S.sol μ = .ok d ∧ d.get? key = some z ∧ v = g z) x y := by
    rintro g rfl rfl
    exact plot_aux S key g _ _ _ h1 h2
  split_ifs at h with p1 p2
  · injection h with h; injection h with e1 e2
    refine ⟨Or.inl p1, ?_⟩
    simp only [p1, if_true]
    exact key2 Complex.re e1 e2
  · injection h with h; injection h with e1 e2
    refine ⟨Or.inr p2, ?_⟩
    simp only [p1, if_false]
    exact key2 Complex.im e1 e2

/-! ### Concrete cases -/

/-- every parameter equal to one -/
noncomputable def allOnes : Dict Key Ten := keys.map fun k => (k, fun _ => 1)

theorem allOnes_complete : Complete allOnes := by
  have e : Dict.keys allOnes = keys := by simp [Dict.keys, allOnes, Function.comp_def]
  constructor
  · unfold Dict.NodupKeys; rw [e]; decide +kernel
  · intro k; rw [e]

/-- a complete point exists, so the theorems apply; e.g. the round trip at 91 GeV -/
example : ∃ out back : ℝ → Dict Key Ten,
    (∀ t, leadinglog keys allOnes 91 (91 * Real.exp t) true = .ok (out t)) ∧
    (∀ t, leadinglog keys (out t) (91 * Real.exp t) 91 true = .ok (back t)) ∧ back 0 = allOnes ∧
    ∀ k ∈ keys, ∀ ix, HasDerivAt (fun t => entry (back t) k ix) 0 0 :=
  C46_out_and_back (fun _ => Iff.rfl) allOnes allOnes_complete 91 (by norm_num)

example : ∃ x y, plotdata ⟨fun μ => .ok [("C", (μ : ℂ) + Complex.I)], 1, 100⟩ "C" "re" "linear" 2
    = .ok (some (x, y)) := ⟨_, _, rfl⟩

end Verif.SmeftRun
