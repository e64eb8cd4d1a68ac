import Verif.Lemmas.WetRun
import Verif.Props.WCxf

/-!
# WET running (C49-C53 and C70)

`Backend` quantifies over the sector tables, the anomalous dimension matrices, the eigenvalue
routine and the basis contents; the theorems hold for every backend with well-formed tables.
-/

open Classical

set_option autoImplicit false

namespace Verif.WetRun

variable {B : Backend}

/-! ## C49: linear, sector by sector -/

/-- C49: running a sector uses only the coefficients of that sector that exist with `f` flavours:
two inputs that agree on them give the same result (or the same exception). -/
theorem C49_sector_closed (hB : Tables B) (sector : String) (C C' : Dict String ℂ) (eta : ℝ) (f : ℕ)
    (p_in p_out : Par) (qed qcd : ℕ)
    (h : ∀ k, Kept B sector f k → val C k = val C' k) :
    runSector B sector C eta f p_in p_out qed qcd = runSector B sector C' eta f p_in p_out qed qcd := by
  rw [runSector_eq, runSector_eq]
  cases lookup B.sectors sector with
  | error e => rfl
  | ok cls =>
    cases hk : keylist B sector f with
    | error e => rfl
    | ok keys =>
      have : vec keys C = vec keys C' :=
        vec_congr keys C C' fun k hk' => h k ((keylist_kept hB hk k).1 hk')
      simp only [bind, Except.bind, this]

/-- C49: the result contains exactly the coefficients of the sector that exist with `f` flavours. -/
theorem C49_sector_names (hB : Tables B) (sector : String) (C d : Dict String ℂ) (eta : ℝ) (f : ℕ)
    (p_in p_out : Par) (qed qcd : ℕ)
    (h : runSector B sector C eta f p_in p_out qed qcd = .ok d) (k : String) :
    k ∈ d.keys ↔ Kept B sector f k := by
  obtain ⟨-, keys, hk, hd⟩ := runSector_keys hB h
  rw [hd]
  exact keylist_kept hB hk k

/-- C49 (superposition): if two inputs can be run, so can any combination `a C₁ + b C₂` (taken on
the sector's coefficients), and its result is the same combination of the results. -/
theorem C49_superposition (hB : Tables B) (sector : String) (C₁ C₂ C₃ d₁ d₂ : Dict String ℂ) (a b : ℂ)
    (eta : ℝ) (f : ℕ) (p_in p_out : Par) (qed qcd : ℕ)
    (h₁ : runSector B sector C₁ eta f p_in p_out qed qcd = .ok d₁)
    (h₂ : runSector B sector C₂ eta f p_in p_out qed qcd = .ok d₂)
    (h₃ : ∀ k, Kept B sector f k → val C₃ k = a * val C₁ k + b * val C₂ k) :
    ∃ d₃, runSector B sector C₃ eta f p_in p_out qed qcd = .ok d₃ ∧
      ∀ k, val d₃ k = a * val d₁ k + b * val d₂ k := by
  obtain ⟨cls, keys, hc, hk, e₁⟩ := runSector_ok B h₁
  obtain ⟨cls', keys', hc', hk', e₂⟩ := runSector_ok B h₂
  rw [hc] at hc'; injection hc' with hc'; subst hc'
  rw [hk] at hk'; injection hk' with hk'; subst hk'
  have hnd := keylist_nodup hB hk
  have hv : vec keys C₃ = a • vec keys C₁ + b • vec keys C₂ := by
    funext i
    exact h₃ _ ((keylist_kept hB hk _).1 (List.getElem_mem _))
  -- one matrix describes all results
  have key : ∃ T : Matrix (Fin keys.length) (Fin keys.length) ℂ,
      d₁ = toDict keys (T.mulVec (vec keys C₁)) ∧ d₂ = toDict keys (T.mulVec (vec keys C₂)) ∧
      runSector B sector C₃ eta f p_in p_out qed qcd = .ok (toDict keys (T.mulVec (vec keys C₃))) := by
    have hrun : ∀ T, evolved B cls keys eta f p_in p_out qed qcd = .ok T → cls ≠ "inv" →
        runSector B sector C₃ eta f p_in p_out qed qcd = .ok (toDict keys (T.mulVec (vec keys C₃))) := by
      intro T hT hinv
      rw [runSector_eq, hc, hk]
      simp only [bind, Except.bind]
      by_cases h0 : vec keys C₃ = 0
      · rw [if_pos (Or.inl h0), h0, Matrix.mulVec_zero]
      · rw [if_neg (by simp [h0, hinv]), hT]
    by_cases hinv : cls = "inv"
    · refine ⟨1, ?_, ?_, ?_⟩
      · rcases e₁ with ⟨-, e⟩ | ⟨e, -⟩
        · rw [Matrix.one_mulVec]; exact e
        · exact absurd (Or.inr hinv) e
      · rcases e₂ with ⟨-, e⟩ | ⟨e, -⟩
        · rw [Matrix.one_mulVec]; exact e
        · exact absurd (Or.inr hinv) e
      · rw [runSector_eq, hc, hk, Matrix.one_mulVec]
        simp only [bind, Except.bind]
        rw [if_pos (Or.inr hinv)]
    · rcases e₁ with ⟨z₁, e₁⟩ | ⟨-, T, hT, e₁⟩
      · have z₁ := z₁.resolve_right hinv
        rcases e₂ with ⟨z₂, e₂⟩ | ⟨-, T, hT, e₂⟩
        · have z₂ := z₂.resolve_right hinv
          have z₃ : vec keys C₃ = 0 := by rw [hv, z₁, z₂]; simp
          refine ⟨1, ?_, ?_, ?_⟩
          · rw [Matrix.one_mulVec]; exact e₁
          · rw [Matrix.one_mulVec]; exact e₂
          · rw [runSector_eq, hc, hk, Matrix.one_mulVec]
            simp only [bind, Except.bind]
            rw [if_pos (Or.inl z₃)]
        · refine ⟨T, ?_, e₂, hrun T hT hinv⟩
          rw [e₁, z₁, Matrix.mulVec_zero]
      · refine ⟨T, e₁, ?_, hrun T hT hinv⟩
        rcases e₂ with ⟨z₂, e₂⟩ | ⟨-, T', hT', e₂⟩
        · have z₂ := z₂.resolve_right hinv
          rw [e₂, z₂, Matrix.mulVec_zero]
        · rw [hT] at hT'
          injection hT' with hT'
          rw [e₂, hT']
  obtain ⟨T, r₁, r₂, r₃⟩ := key
  refine ⟨_, r₃, fun k => ?_⟩
  rw [r₁, r₂]
  unfold val
  by_cases hkm : k ∈ keys
  · obtain ⟨i, hi, rfl⟩ := List.mem_iff_getElem.1 hkm
    have g := fun x => toDict_get? keys (T.mulVec x) hnd ⟨i, hi⟩
    simp only [Fin.getElem_fin] at g
    rw [g, g, g, hv, Matrix.mulVec_add, Matrix.mulVec_smul, Matrix.mulVec_smul]
    rfl
  · rw [toDict_get?_none _ _ hnd _ hkm, toDict_get?_none _ _ hnd _ hkm,
      toDict_get?_none _ _ hnd _ hkm]
    simp

/-- C49: what `WETrunner` computes for a requested sector is the result of running that sector alone:
it does not depend on which other sectors are requested or on their coefficients. -/
theorem C49_sector_of_run (hB : Tables B) (R : Qcd.RunDec) (P : Par) (eftSectors : List String)
    (wc : WC) (qed qcd : ℕ) (scale : ℝ) (sectors : Sectors) (out : Dict String ℂ)
    (h : runDict B R P eftSectors wc qed qcd scale sectors = .ok out)
    (s : String) (hs : s ∈ eftSectors) (hd : s ∈ B.sectors.keys) (hr : Requested sectors s) :
    ∃ f p_i p_o d, flavours wc.eft = .ok f ∧ runningPar R P wc.scale f = .ok p_i ∧
      runningPar R P scale f = .ok p_o ∧
      runSector B s wc.dict (p_i.alpha_s / p_o.alpha_s) f p_i p_o qed qcd = .ok d ∧
      ∀ k, Kept B s f k → out.get? k = d.get? k := by
  unfold runDict at h
  obtain ⟨f, hf, h⟩ := ok_bind h
  obtain ⟨p_i, hi, h⟩ := ok_bind h
  obtain ⟨p_o, ho, h⟩ := ok_bind h
  obtain ⟨l1, -, l3⟩ := loop_spec B eftSectors [] out h fun s d hd => runSector_nodup B hd
  obtain ⟨d, hd'⟩ := l1 s hs hd hr
  refine ⟨f, p_i, p_o, d, hf, hi, ho, hd', fun k hk => ?_⟩
  rcases l3 k with ⟨s', -, -, -, d', h4, h5, h6⟩ | ⟨-, h2⟩
  · have hk' := (C49_sector_names hB s' _ d' _ f _ _ qed qcd h4 k).1 h5
    have := kept_sector hB hk hk'
    subst this
    rw [hd'] at h4
    injection h4 with h4
    rw [h6, h4]
  · exact absurd ((C49_sector_names hB s _ d _ f _ _ qed qcd hd' k).2 hk) (h2 s hs hd hr d hd')

/-- C49: two requests that both contain a sector agree on its coefficients. -/
theorem C49_request_independent (hB : Tables B) (R : Qcd.RunDec) (P : Par) (eftSectors : List String)
    (wc : WC) (qed qcd : ℕ) (scale : ℝ) (r r' : Sectors) (out out' : Dict String ℂ)
    (h : runDict B R P eftSectors wc qed qcd scale r = .ok out)
    (h' : runDict B R P eftSectors wc qed qcd scale r' = .ok out')
    (s : String) (hs : s ∈ eftSectors) (hd : s ∈ B.sectors.keys) (hr : Requested r s)
    (hr' : Requested r' s) (f : ℕ) (hf : flavours wc.eft = .ok f) (k : String) (hk : Kept B s f k) :
    out.get? k = out'.get? k := by
  obtain ⟨f1, p_i, p_o, d, a1, a2, a3, a4, a5⟩ :=
    C49_sector_of_run hB R P eftSectors wc qed qcd scale r out h s hs hd hr
  obtain ⟨f2, p_i', p_o', d', b1, b2, b3, b4, b5⟩ :=
    C49_sector_of_run hB R P eftSectors wc qed qcd scale r' out' h' s hs hd hr'
  rw [hf] at a1 b1
  injection a1 with a1; injection b1 with b1
  subst a1; subst b1
  rw [a2] at b2; rw [a3] at b3
  injection b2 with b2; injection b3 with b3
  subst b2; subst b3
  rw [a4] at b4; injection b4 with b4
  rw [a5 k hk, b5 k hk, b4]

/-! ## C50: identity and composition -/

/-- C50: with equal couplings and masses at input and output the sector's coefficients are returned
unchanged, for every order of QCD and QED. -/
theorem C50_same_scale (hB : Tables B) (sector : String) (C d : Dict String ℂ) (f : ℕ)
    (p : Par) (hp : p.Positive) (hE : EigOK B f p.masses) (qed qcd : ℕ)
    (h : runSector B sector C 1 f p p qed qcd = .ok d) (k : String) (hk : Kept B sector f k) :
    d.get? k = some (val C k) := by
  obtain ⟨cls, keys, hc, hkl, e⟩ := runSector_ok B h
  have hnd := keylist_nodup hB hkl
  obtain ⟨i, hi, rfl⟩ := List.mem_iff_getElem.1 ((keylist_kept hB hkl k).2 hk)
  have hvec : d = toDict keys (vec keys C) := by
    rcases e with ⟨-, e⟩ | ⟨-, T, hT, e⟩
    · exact e
    · obtain ⟨s, U, s', h1, h2, h3, rfl⟩ := evolved_ok B hT
      rw [h1] at h3
      injection h3 with h3
      subst h3
      have hU : U = 1 := by
        rcases evolution_order B h2 with h0 | h0
        · subst h0; exact evolution_noqcd B h2
        · subst h0
          obtain ⟨M, hM, ⟨-, rfl⟩ | ⟨-, E, A, -, -, rfl⟩⟩ := evolution_qcd B h2
          · exact us_one _ _ _ (hE cls _ M hM).1
          · rw [us_one _ _ _ (hE cls _ M hM).1, ue_one, add_zero]
      rw [e, hU, transfer_one s (scales_ne hp h1), Matrix.one_mulVec]
  rw [hvec]
  exact toDict_get? keys (vec keys C) hnd ⟨i, hi⟩

/-- C50: `WETrunner` run to the input scale returns the input value of every coefficient of a
requested sector. -/
theorem C50_run_same_scale (hB : Tables B) (R : Qcd.RunDec) (P : Par)
    (eftSectors : List String) (wc : WC) (qed qcd : ℕ) (sectors : Sectors) (out : Dict String ℂ)
    (h : runDict B R P eftSectors wc qed qcd wc.scale sectors = .ok out)
    (hpos : ∀ f p, flavours wc.eft = .ok f → runningPar R P wc.scale f = .ok p →
      p.Positive ∧ EigOK B f p.masses)
    (s : String) (hs : s ∈ eftSectors) (hd : s ∈ B.sectors.keys) (hr : Requested sectors s)
    (f : ℕ) (hf : flavours wc.eft = .ok f) (k : String) (hk : Kept B s f k) :
    out.get? k = some (wc.getItem k) := by
  obtain ⟨f1, p_i, p_o, d, a1, a2, a3, a4, a5⟩ :=
    C49_sector_of_run hB R P eftSectors wc qed qcd wc.scale sectors out h s hs hd hr
  rw [hf] at a1; injection a1 with a1; subst a1
  rw [a2] at a3; injection a3 with a3; subst a3
  obtain ⟨hp, hE⟩ := hpos f p_i hf a2
  rw [div_self hp.1.ne'] at a4
  rw [a5 k hk, C50_same_scale hB s wc.dict d f p_i hp hE qed qcd a4 k hk]
  unfold val WC.getItem
  cases wc.dict.get? k <;> rfl

/-- C50 (composition): pure-QCD evolution from `a` to `b` and from `b` to `c` equals evolution from
`a` to `c`, provided the QCD anomalous dimension is the same at `a` and `b` (it depends on the scale
only through the mass ratios, see C71). -/
theorem C50_composition (hB : Tables B) (sector : String) (C d₁ d₂ : Dict String ℂ)
    (f : ℕ) (p_a p_b p_c : Par) (ha : p_a.Positive) (hb : p_b.Positive) (hc : p_c.Positive)
    (hE : EigOK B f p_a.masses)
    (hadm : ∀ cls, B.admS cls f p_b.masses = B.admS cls f p_a.masses)
    (h₁ : runSector B sector C (p_a.alpha_s / p_b.alpha_s) f p_a p_b 0 1 = .ok d₁)
    (h₂ : runSector B sector d₁ (p_b.alpha_s / p_c.alpha_s) f p_b p_c 0 1 = .ok d₂)
    (hsc : ∀ k, Kept B sector f k → ∃ s, scaleC k p_c = .ok s) :
    ∃ d, runSector B sector C (p_a.alpha_s / p_c.alpha_s) f p_a p_c 0 1 = .ok d ∧
      ∀ k, d.get? k = d₂.get? k := by
  obtain ⟨cls, keys, hcl, hkl, e₁⟩ := runSector_ok B h₁
  obtain ⟨cls', keys', hcl', hkl', e₂⟩ := runSector_ok B h₂
  rw [hcl] at hcl'; injection hcl' with hcl'; subst hcl'
  rw [hkl] at hkl'; injection hkl' with hkl'; subst hkl'
  have hnd := keylist_nodup hB hkl
  have hvd : ∀ g, vec keys (toDict keys g) = g := by
    intro g; funext i; exact toDict_getD keys g hnd i
  rcases e₁ with ⟨z₁, rfl⟩ | ⟨nz, T₁, hT₁, rfl⟩
  · -- nothing to do
    refine ⟨toDict keys (vec keys C), ?_, ?_⟩
    · rw [runSector_eq, hcl, hkl]
      simp only [bind, Except.bind]
      rw [if_pos z₁]
    · rw [hvd] at e₂
      rcases e₂ with ⟨-, rfl⟩ | ⟨nz, -⟩
      · intro k; rfl
      · exact absurd z₁ nz
  · rw [hvd] at e₂
    have hinv : cls ≠ "inv" := fun h => nz (Or.inr h)
    have hz : vec keys C ≠ 0 := fun h => nz (Or.inl h)
    obtain ⟨s_a, U₁, s_b, i1, i2, i3, rfl⟩ := evolved_ok B hT₁
    obtain ⟨M, hM, ⟨-, rfl⟩ | ⟨h01, -⟩⟩ := evolution_qcd B i2
    swap
    · simp at h01
    -- scale factors at `c`
    obtain ⟨s_c, hs_c⟩ : ∃ s_c, scales keys p_c = .ok s_c := by
      have : ∀ l : List String, (∀ k ∈ l, ∃ s, scaleC k p_c = .ok s) →
          ∃ s, scales l p_c = .ok s := by
        intro l
        unfold scales
        induction l with
        | nil => intro _; exact ⟨[], rfl⟩
        | cons k l ih =>
          intro hl
          obtain ⟨x, hx⟩ := hl k (by simp)
          obtain ⟨xs, hxs⟩ := ih fun k' hk' => hl k' (List.mem_cons_of_mem _ hk')
          refine ⟨x :: xs, ?_⟩
          rw [List.mapM_cons, hx, hxs]
          rfl
      exact this keys fun k hk => hsc k ((keylist_kept hB hkl k).1 hk)
    set w := (B.eig keys.length M.transpose).1
    set v := (B.eig keys.length M.transpose).2
    have hv : IsUnit v := (hE cls _ M hM).1
    -- the direct evolution
    have hdir : evolution B cls (p_a.alpha_s / p_c.alpha_s) f p_a 0 1 keys.length
        = .ok (usMatrix w v (p_a.alpha_s / p_c.alpha_s) f) := by
      obtain ⟨A, hA, hA'⟩ := hM
      unfold evolution usPart uePart getUs admeig
      simp only [hA, hA', bind, Except.bind, pure, Except.pure, Mat.sized,
        show ¬((1 : ℕ) = 0) by decide, if_false, if_true, dite_true, add_zero]
      rfl
    have hdirT : evolved B cls keys (p_a.alpha_s / p_c.alpha_s) f p_a p_c 0 1
        = .ok (transfer (usMatrix w v (p_a.alpha_s / p_c.alpha_s) f) s_a s_c) := by
      unfold evolved
      rw [i1, hdir, hs_c]
      rfl
    refine ⟨toDict keys ((transfer (usMatrix w v (p_a.alpha_s / p_c.alpha_s) f) s_a s_c).mulVec
      (vec keys C)), ?_, ?_⟩
    · rw [runSector_eq, hcl, hkl]
      simp only [bind, Except.bind]
      rw [if_neg nz, hdirT]
    · have heta : p_b.alpha_s / p_c.alpha_s * (p_a.alpha_s / p_b.alpha_s)
          = p_a.alpha_s / p_c.alpha_s := by
        have := hb.1.ne'
        field_simp
      have hcomp : transfer (usMatrix w v (p_a.alpha_s / p_c.alpha_s) f) s_a s_c
          = transfer (usMatrix w v (p_b.alpha_s / p_c.alpha_s) f) s_b s_c *
            transfer (usMatrix w v (p_a.alpha_s / p_b.alpha_s) f) s_a s_b := by
        rw [transfer_mul _ _ _ _ _ (scales_ne hb i3),
          us_mul w v f hv (div_pos hb.1 hc.1) (div_pos ha.1 hb.1), heta]
      rw [hcomp, ← Matrix.mulVec_mulVec]
      rcases e₂ with ⟨z₂, rfl⟩ | ⟨-, T₂, hT₂, rfl⟩
      · rw [z₂.resolve_right hinv, Matrix.mulVec_zero]
        intro k; rfl
      · obtain ⟨s_b', U₂, s_c', j1, j2, j3, rfl⟩ := evolved_ok B hT₂
        rw [i3] at j1; injection j1 with j1; subst j1
        rw [hs_c] at j3; injection j3 with j3; subst j3
        obtain ⟨M', hM', ⟨-, rfl⟩ | ⟨h01, -⟩⟩ := evolution_qcd B j2
        swap
        · simp at h01
        have hMM : M' = M := by
          obtain ⟨A', hA', hA''⟩ := hM'
          rw [hadm] at hA'
          exact qcdAdm_unique B ⟨A', hA', hA''⟩ hM
        subst hMM
        intro k; rfl

/-! ## C51: QED running without QCD (violated) -/

/-- C51 (violation): with `qcd_order = 0` switching on the QED running has no effect whatsoever: for
every sector, input, scale pair and QED anomalous dimension the result with `qed_order = 1` is the
one with `qed_order = 0`. -/
theorem C51_no_qed_without_qcd_violation (sector : String) (C d d' : Dict String ℂ) (eta : ℝ) (f : ℕ)
    (p_in p_out : Par)
    (h : runSector B sector C eta f p_in p_out 1 0 = .ok d)
    (h' : runSector B sector C eta f p_in p_out 0 0 = .ok d') : d = d' := by
  obtain ⟨cls, keys, hc, hk, e⟩ := runSector_ok B h
  obtain ⟨cls', keys', hc', hk', e'⟩ := runSector_ok B h'
  rw [hc] at hc'; injection hc' with hc'; subst hc'
  rw [hk] at hk'; injection hk' with hk'; subst hk'
  rcases e with ⟨z, rfl⟩ | ⟨nz, T, hT, rfl⟩
  · rcases e' with ⟨-, rfl⟩ | ⟨nz, -⟩
    · rfl
    · exact absurd z nz
  · rcases e' with ⟨z, -⟩ | ⟨-, T', hT', rfl⟩
    · exact absurd z nz
    · obtain ⟨s, U, s', h1, h2, h3, rfl⟩ := evolved_ok B hT
      obtain ⟨t, U', t', h1', h2', h3', rfl⟩ := evolved_ok B hT'
      rw [h1] at h1'; injection h1' with h1'
      rw [h3] at h3'; injection h3' with h3'
      rw [evolution_noqcd B h2, evolution_noqcd B h2', h1', h3']

/-! ## C52: reduced anomalous dimension matrices -/

/-- C52: with `f` = 3 or 4 the coefficients kept in a sector with a reduced ADM are exactly those of
the JMS basis, in the order of the full list, and row and column `i` of the reduced anomalous
dimension matrix are those of the `i`-th kept coefficient in the full matrix. -/
theorem C52_alignment (hB : Tables B) (sector cls : String) (f : ℕ) (all keys b : List String)
    (hcls : B.sectors.get? sector = some cls) (hall : B.coeffs.get? sector = some all)
    (hf : f = 3 ∨ f = 4) (hred : classOfSector sector ∈ reducedClasses)
    (hb : B.basisKeys f sector = .ok b) (hkeys : keylist B sector f = .ok keys)
    (A : Mat) (hA : A.n = all.length) :
    keys = all.filter (fun k => decide (k ∈ b)) ∧
    ∃ M : Matrix (Fin keys.length) (Fin keys.length) ℂ, reduce B cls f A = .ok ⟨keys.length, M⟩ ∧
      ∀ (i j : Fin keys.length) (i' j' : Fin A.n), all[i'.val]? = some keys[i] →
        all[j'.val]? = some keys[j] → M i j = A.m i' j' := by
  obtain ⟨all', h1, h2 | ⟨b', perm, hr, hf', hp, hb', h2, h3, h4⟩⟩ := keylist_cases hB hkeys
  · rcases permissible_none B h2.1 with h | h
    · exact absurd hred h
    · omega
  · rw [hall] at h1; injection h1 with h1; subst h1
    rw [hb] at hb'; injection hb' with hb'; subst hb'
    refine ⟨h2, ?_⟩
    have hc : cls = classOfSector sector := by
      rcases hB.aligned sector cls hcls with h | h
      · exact h
      · exact absurd hred h.2
    have hperm : ∀ i ∈ perm, i < A.n := by
      intro i hi
      rw [h4, List.mem_filter, List.mem_range] at hi
      rw [hA]; exact hi.1
    have hlen : keys.length = perm.length := by rw [h3]; simp
    have hget : ∀ i : Fin keys.length, ∃ hi : i.val < perm.length, all[perm[i.val]]? = some keys[i] := by
      intro i
      refine ⟨by rw [← hlen]; exact i.isLt, ?_⟩
      have hi : i.val < perm.length := by rw [← hlen]; exact i.isLt
      have h5 : keys[i] = all[perm[i.val]]?.getD "" := by
        have : keys[i.val]? = (perm.map fun i => all[i]?.getD "")[i.val]? := by rw [← h3]
        rw [List.getElem?_map, List.getElem?_eq_getElem hi, List.getElem?_eq_getElem i.isLt] at this
        simpa using this
      have hlt : perm[i.val] < all.length := by
        have := hperm _ (List.getElem_mem hi); rw [hA] at this; exact this
      rw [h5, List.getElem?_eq_getElem hlt]
      rfl
    refine ⟨fun i j => A.m ⟨perm[i.val]'(by rw [← hlen]; exact i.isLt), hperm _ (List.getElem_mem _)⟩
        ⟨perm[j.val]'(by rw [← hlen]; exact j.isLt), hperm _ (List.getElem_mem _)⟩, ?_, ?_⟩
    · rw [hc]
      unfold reduce Mat.sub
      rw [hp]
      simp only [bind, Except.bind]
      rw [dif_pos hperm]
      have : ∀ (n m : ℕ) (h : n = m) (F : Matrix (Fin m) (Fin m) ℂ),
          (⟨m, F⟩ : Mat) = ⟨n, F.submatrix (Fin.cast h) (Fin.cast h)⟩ := by
        intro n m h F; subst h; rfl
      exact congrArg Except.ok (this _ _ hlen _)
    · intro i j i' j' hi hj
      have hnd := hB.nodup _ _ hall
      have aux : ∀ (i : Fin keys.length) (i' : Fin A.n), all[i'.val]? = some keys[i] →
          ∀ h : i.val < perm.length, i'.val = perm[i.val] := by
        intro i i' hi h
        obtain ⟨_, h6⟩ := hget i
        have l1 : i'.val < all.length := by rw [← hA]; exact i'.isLt
        have l2 : perm[i.val] < all.length := by
          have := hperm _ (List.getElem_mem h); rw [hA] at this; exact this
        rw [List.getElem?_eq_getElem l1] at hi
        rw [List.getElem?_eq_getElem l2] at h6
        injection hi with hi
        injection h6 with h6
        exact (List.Nodup.getElem_inj_iff hnd).1 (hi.trans h6.symm)
      have hi1 : i.val < perm.length := by rw [← hlen]; exact i.isLt
      have hj1 : j.val < perm.length := by rw [← hlen]; exact j.isLt
      have e1 := aux i i' hi hi1
      have e2 := aux j j' hj hj1
      have f1 : i' = ⟨perm[i.val], hperm _ (List.getElem_mem _)⟩ := Fin.ext e1
      have f2 : j' = ⟨perm[j.val], hperm _ (List.getElem_mem _)⟩ := Fin.ext e2
      rw [f1, f2]

/-! ## C53: the output of `WETrunner.run` -/

/-- C53: the output of `run` is a JMS point of the same EFT at the requested scale; it contains only
non-zero coefficients of the basis that belong to a requested sector. -/
theorem C53_contract (hB : Tables B) (R : Qcd.RunDec) (P : Par) (eftSectors allWcs : List String)
    (wc out : WC) (qed qcd : ℕ) (scale : ℝ) (sectors : Sectors)
    (h : run B R P eftSectors allWcs wc qed qcd scale sectors = .ok out) :
    out.eft = wc.eft ∧ out.basis = "JMS" ∧ out.scale = scale ∧ wc.basis = "JMS" ∧
    (out.eft = "WET" ∨ out.eft = "WET-4" ∨ out.eft = "WET-3") ∧
    ∀ k v, out.dict.get? k = some v → v ≠ 0 ∧ k ∈ allWcs ∧
      ∃ s f, s ∈ eftSectors ∧ s ∈ B.sectors.keys ∧ Requested sectors s ∧ flavours wc.eft = .ok f ∧
        Kept B s f k := by
  unfold run at h
  by_cases hj : wc.basis ≠ "JMS"
  · rw [if_pos hj] at h; simp at h
  · rw [if_neg hj] at h
    rw [not_not] at hj
    obtain ⟨C_out, hr, h⟩ := ok_bind h
    simp only [pure, Except.pure, Except.ok.injEq] at h
    subst h
    have hr0 := hr
    unfold runDict at hr
    obtain ⟨f, hf, hr⟩ := ok_bind hr
    obtain ⟨p_i, hi, hr⟩ := ok_bind hr
    obtain ⟨p_o, ho, hr⟩ := ok_bind hr
    obtain ⟨-, l2, l3⟩ := loop_spec B eftSectors [] C_out hr fun s d hd => runSector_nodup B hd
    have hnd : C_out.NodupKeys := l2 (by simp [Dict.NodupKeys, Dict.keys])
    refine ⟨rfl, rfl, rfl, hj, ?_, ?_⟩
    · unfold flavours at hf
      dsimp only
      split_ifs at hf with h1 h2 h3
      · exact Or.inl h1
      · exact Or.inr (Or.inl h2)
      · exact Or.inr (Or.inr h3)
    · intro k v hv
      simp only [WC.dict, dict2values, Dict.get?_mapVal] at hv
      rw [Dict.get?_filterKV _ _ hnd] at hv
      cases hg : C_out.get? k with
      | none => rw [hg] at hv; simp at hv
      | some x =>
        rw [hg] at hv
        by_cases hc : (decide (x ≠ 0) && decide (k ∈ allWcs)) = true
        · rw [Option.filter_some, if_pos hc] at hv
          simp only [Option.map_some, toNumber_ofNumber, Option.some.injEq] at hv
          subst hv
          simp only [Bool.and_eq_true, decide_eq_true_eq] at hc
          refine ⟨hc.1, hc.2, ?_⟩
          rcases l3 k with ⟨s, a1, a2, a3, d, a4, a5, -⟩ | ⟨a1, -⟩
          · exact ⟨s, f, a1, a2, a3, hf, (C49_sector_names hB s _ d _ f _ _ qed qcd a4 k).1 a5⟩
          · rw [hg] at a1; simp at a1
        · rw [Option.filter_some, if_neg hc] at hv
          simp at hv

/-- C53: conversely the output has, for every basis coefficient of a requested sector, the evolved
value (coefficients that evolve to zero are omitted and read as zero). -/
theorem C53_values (hB : Tables B) (R : Qcd.RunDec) (P : Par) (eftSectors allWcs : List String)
    (wc out : WC) (qed qcd : ℕ) (scale : ℝ) (sectors : Sectors)
    (h : run B R P eftSectors allWcs wc qed qcd scale sectors = .ok out)
    (s : String) (hs : s ∈ eftSectors) (hd : s ∈ B.sectors.keys) (hr : Requested sectors s) :
    ∃ f p_i p_o d, flavours wc.eft = .ok f ∧ runningPar R P wc.scale f = .ok p_i ∧
      runningPar R P scale f = .ok p_o ∧
      runSector B s wc.dict (p_i.alpha_s / p_o.alpha_s) f p_i p_o qed qcd = .ok d ∧
      ∀ k, Kept B s f k → k ∈ allWcs → out.getItem k = val d k := by
  unfold run at h
  by_cases hj : wc.basis ≠ "JMS"
  · rw [if_pos hj] at h; simp at h
  · rw [if_neg hj] at h
    obtain ⟨C_out, hr', h⟩ := ok_bind h
    simp only [pure, Except.pure, Except.ok.injEq] at h
    subst h
    obtain ⟨f, p_i, p_o, d, a1, a2, a3, a4, a5⟩ :=
      C49_sector_of_run hB R P eftSectors wc qed qcd scale sectors C_out hr' s hs hd hr
    refine ⟨f, p_i, p_o, d, a1, a2, a3, a4, fun k hk hka => ?_⟩
    have hnd : C_out.NodupKeys := by
      unfold runDict at hr'
      obtain ⟨f', -, hr'⟩ := ok_bind hr'
      obtain ⟨p_i', -, hr'⟩ := ok_bind hr'
      obtain ⟨p_o', -, hr'⟩ := ok_bind hr'
      exact (loop_spec B eftSectors [] C_out hr' fun s d hd => runSector_nodup B hd).2.1
        (by simp [Dict.NodupKeys, Dict.keys])
    unfold WC.getItem val
    simp only [WC.dict, dict2values, Dict.get?_mapVal]
    rw [Dict.get?_filterKV _ _ hnd, a5 k hk]
    cases d.get? k with
    | none => rfl
    | some x =>
      by_cases hx : x = 0
      · simp only [Option.filter_some, hx]
        simp
      · have e : Option.filter (fun v : ℂ => decide (v ≠ 0) && decide (k ∈ allWcs)) (some x)
            = some x := by
          rw [Option.filter_some, if_pos (by simp [hx, hka])]
        rw [e]
        simp [toNumber_ofNumber]

/-- C53: coefficients of RG-invariant sectors are unchanged. -/
theorem C53_invariant_sectors (hB : Tables B) (R : Qcd.RunDec) (P : Par)
    (eftSectors allWcs : List String) (wc out : WC) (qed qcd : ℕ) (scale : ℝ) (sectors : Sectors)
    (h : run B R P eftSectors allWcs wc qed qcd scale sectors = .ok out)
    (s : String) (hs : s ∈ eftSectors) (hinv : B.sectors.get? s = some "inv")
    (hr : Requested sectors s) (f : ℕ) (hf : flavours wc.eft = .ok f) (k : String)
    (hk : Kept B s f k) (hka : k ∈ allWcs) : out.getItem k = wc.getItem k := by
  have hd : s ∈ B.sectors.keys := by
    rw [← Dict.isSome_get?_iff, hinv]; rfl
  obtain ⟨f', p_i, p_o, d, a1, a2, a3, a4, a5⟩ :=
    C53_values hB R P eftSectors allWcs wc out qed qcd scale sectors h s hs hd hr
  rw [hf] at a1; injection a1 with a1; subst a1
  rw [a5 k hk hka]
  obtain ⟨cls, keys, hc, hkl, e⟩ := runSector_ok B a4
  rw [lookup_ok.2 hinv] at hc
  injection hc with hc
  rcases e with ⟨-, rfl⟩ | ⟨nz, -⟩
  · obtain ⟨i, hi, rfl⟩ := List.mem_iff_getElem.1 ((keylist_kept hB hkl k).2 hk)
    have g := toDict_get? keys (vec keys wc.dict) (keylist_nodup hB hkl) ⟨i, hi⟩
    simp only [Fin.getElem_fin] at g
    unfold val
    rw [g]
    unfold vec WC.getItem Dict.getD
    simp only [Fin.getElem_fin, Option.getD_some]
    cases wc.dict.get? keys[i] <;> rfl
  · exact absurd (Or.inr hc.symm) nz

/-- C53: points in another basis or of another EFT are rejected. -/
theorem C53_rejects (R : Qcd.RunDec) (P : Par) (eftSectors allWcs : List String) (wc : WC)
    (qed qcd : ℕ) (scale : ℝ) (sectors : Sectors) :
    (wc.basis ≠ "JMS" →
      run B R P eftSectors allWcs wc qed qcd scale sectors = .error .assertionError) ∧
    (wc.basis = "JMS" → wc.eft ≠ "WET" → wc.eft ≠ "WET-4" → wc.eft ≠ "WET-3" →
      run B R P eftSectors allWcs wc qed qcd scale sectors = .error .attributeError) := by
  constructor
  · intro h
    unfold run
    rw [if_pos h]
  · intro h h1 h2 h3
    unfold run
    rw [if_neg (by simp [h])]
    have : flavours wc.eft = .error .attributeError := by
      unfold flavours
      rw [if_neg h1, if_neg h2, if_neg h3]
    unfold runDict
    rw [this]
    rfl

/-! ## C70: the evolution matrices solve the renormalisation group equation -/

/-- C70: the QCD evolution matrix, as a function of the strong coupling `x` at the output scale,
solves `dU/dα_s = -γ_sᵀ U / (2 β₀ α_s)` with `U = 1` at the input coupling. -/
theorem C70_qcd (cls : String) (f : ℕ) (p : Par) (hp : 0 < p.alpha_s) (n : ℕ)
    (γs : Matrix (Fin n) (Fin n) ℂ) (hs : QcdAdm B cls f p.masses n γs)
    (hD : Diagonalises γs.transpose (B.eig n γs.transpose))
    (U : ℝ → Matrix (Fin n) (Fin n) ℂ)
    (hU : ∀ x, usPart B cls (p.alpha_s / x) f p 1 n = .ok (U x)) :
    U p.alpha_s = 1 ∧ ∀ x : ℝ, 0 < x → ∀ i j,
      HasDerivAt (fun y => U y i j)
        ((-(1 / (2 * (11 - 2 * (f : ℂ) / 3) * x)) • (γs.transpose * U x)) i j) x := by
  have hUx : ∀ x, U x = usMatrix (B.eig n γs.transpose).1 (B.eig n γs.transpose).2
      (p.alpha_s / x) f := by
    intro x
    have h1 := hU x
    unfold usPart at h1
    rw [if_neg (by decide), if_pos rfl] at h1
    obtain ⟨M', h1', h1⟩ := ok_bind h1
    obtain ⟨M, hM, h2⟩ := getUs_ok B (by rw [h1', sized_ok h1] :
      getUs B cls (p.alpha_s / x) f p = .ok ⟨n, U x⟩)
    rw [h2, qcdAdm_unique B hM hs]
  constructor
  · rw [hUx, div_self hp.ne', us_one _ _ _ hD.1]
  · intro x hx i j
    have heta : 0 < p.alpha_s / x := div_pos hp hx
    have h1 := us_deriv f hD heta i j
    have h2 : HasDerivAt (fun y : ℝ => p.alpha_s / y) (-(p.alpha_s / x ^ 2)) x := by
      have := (hasDerivAt_inv hx.ne').const_mul p.alpha_s
      refine (this.congr_deriv ?_).congr_of_eventuallyEq ?_
      · field_simp
      · exact Filter.Eventually.of_forall fun y => by simp [div_eq_mul_inv]
    have h3 := h1.scomp x h2
    have hfun : (fun y => U y i j) = (fun y => usMatrix (B.eig n γs.transpose).1
        (B.eig n γs.transpose).2 y f i j) ∘ fun y => p.alpha_s / y := by
      funext y; simp [hUx]
    rw [hfun]
    refine h3.congr_deriv ?_
    rw [hUx]
    simp only [Matrix.smul_apply, smul_eq_mul, Complex.real_smul, b0s]
    push_cast
    have hxc : (x : ℂ) ≠ 0 := by exact_mod_cast hx.ne'
    have hac : (p.alpha_s : ℂ) ≠ 0 := by exact_mod_cast hp.ne'
    field_simp

/-- C70: the QED part vanishes at the input coupling and solves the renormalisation group equation to
first order in `α_e`: `dU_e/dα_s = -(γ_sᵀ U_e + (α_e/α_s) γ_eᵀ U_s) / (2 β₀ α_s)`, including the case
of resonant eigenvalues treated separately in the code. -/
theorem C70_qed (cls : String) (f : ℕ) (p : Par) (hp : 0 < p.alpha_s) (n : ℕ)
    (γs γe : Matrix (Fin n) (Fin n) ℂ) (hs : QcdAdm B cls f p.masses n γs)
    (hD : Diagonalises γs.transpose (B.eig n γs.transpose))
    (he : QedAdm B cls f p.masses n γe) (Us Ue : ℝ → Matrix (Fin n) (Fin n) ℂ)
    (hUs : ∀ x, usPart B cls (p.alpha_s / x) f p 1 n = .ok (Us x))
    (hUe : ∀ x, uePart B cls (p.alpha_s / x) f p 1 1 n = .ok (Ue x)) :
    Ue p.alpha_s = 0 ∧ ∀ x : ℝ, 0 < x → ∀ i j,
      HasDerivAt (fun y => Ue y i j)
        ((-(1 / (2 * (11 - 2 * (f : ℂ) / 3) * x)) • (γs.transpose * Ue x
          + ((p.alpha_e : ℂ) / x) • (γe.transpose * Us x))) i j) x := by
  have hUx : ∀ x, Us x = usMatrix (B.eig n γs.transpose).1 (B.eig n γs.transpose).2
      (p.alpha_s / x) f := by
    intro x
    have h1 := hUs x
    unfold usPart at h1
    rw [if_neg (by decide), if_pos rfl] at h1
    obtain ⟨M', h1', h1⟩ := ok_bind h1
    obtain ⟨M, hM, h2⟩ := getUs_ok B (by rw [h1', sized_ok h1] :
      getUs B cls (p.alpha_s / x) f p = .ok ⟨n, Us x⟩)
    rw [h2, qcdAdm_unique B hM hs]
  have hUex : ∀ x, Ue x = ueMatrix (B.eig n γs.transpose).1 (B.eig n γs.transpose).2 γe
      (p.alpha_s / x) f p := by
    intro x
    have h1 := hUe x
    unfold uePart at h1
    rw [if_neg (by decide), if_pos rfl, if_neg (by decide)] at h1
    obtain ⟨M', h1', h1⟩ := ok_bind h1
    obtain ⟨M, E, A, hM, hA, hE', h2⟩ := getUe_ok B (by rw [h1', sized_ok h1] :
      getUe B cls (p.alpha_s / x) f p = .ok ⟨n, Ue x⟩)
    obtain ⟨A', hA', hE''⟩ := he
    rw [hA] at hA'; injection hA' with hA'; subst hA'
    rw [hE'] at hE''
    have : E = γe := by simpa using hE''
    rw [h2, qcdAdm_unique B hM hs, this]
  constructor
  · rw [hUex, div_self hp.ne', ue_one]
  · intro x hx i j
    have heta : 0 < p.alpha_s / x := div_pos hp hx
    have h1 := ue_deriv (E := γe) f p hD heta i j
    have h2 : HasDerivAt (fun y : ℝ => p.alpha_s / y) (-(p.alpha_s / x ^ 2)) x := by
      have := (hasDerivAt_inv hx.ne').const_mul p.alpha_s
      refine (this.congr_deriv ?_).congr_of_eventuallyEq ?_
      · field_simp
      · exact Filter.Eventually.of_forall fun y => by simp [div_eq_mul_inv]
    have h3 := h1.scomp x h2
    have hfun : (fun y => Ue y i j) = (fun y => ueMatrix (B.eig n γs.transpose).1
        (B.eig n γs.transpose).2 γe y f p i j) ∘ fun y => p.alpha_s / y := by
      funext y; simp [hUex]
    rw [hfun]
    refine h3.congr_deriv ?_
    rw [hUex, hUx]
    simp only [Matrix.smul_apply, Matrix.add_apply, smul_eq_mul, Complex.real_smul, b0s]
    push_cast
    have hxc : (x : ℂ) ≠ 0 := by exact_mod_cast hx.ne'
    have hac : (p.alpha_s : ℂ) ≠ 0 := by exact_mod_cast hp.ne'
    field_simp

end Verif.WetRun
