import Verif.Lemmas.WetFlowRun
import Verif.Lemmas.WetCP
import Verif.Lemmas.WetParity
import Mathlib.Tactic.IntervalCases

/-!
# From symmetries of the right-hand side to symmetries of the running
-/

open Classical

set_option autoImplicit false
set_option linter.unusedTactic false

namespace Verif.WetTab
open Verif Verif.Rotation Verif.WetRun

variable {eig : (n : ℕ) → Matrix (Fin n) (Fin n) ℂ → (Fin n → ℂ) × Matrix (Fin n) (Fin n) ℂ}
  {basisKeys : ℕ → String → Except Exc (List String)}

theorem massive_of_positive {p : Par} (hp : p.Positive) : NoMassless p := by
  obtain ⟨-, -, h1, h2, h3, h4, h5, h6, h7, h8⟩ := hp
  intro x hx
  simp only [flavours, List.mem_cons, List.not_mem_nil, or_false] at hx
  rcases hx with rfl | rfl | rfl | rfl | rfl | rfl | rfl | rfl <;> simp only [mass] <;> exact ne_of_gt (by assumption)

theorem scale_ne {a : Coef} {s : String} {i : ℕ} (ha : Listed a s i) {p : Par} (hp : p.Positive) :
    (scale a p : ℂ) ≠ 0 := by
  have := scaleC_pos hp (scaleC_eq ha.wellNamed p)
  exact_mod_cast this.ne'

/-- what a run returns -/
theorem run_value {s : String} {f : ℕ} {p q : Par} (hp : p.Positive) (hq : q.Positive)
    (hD : EigFor eig basisKeys s f p.masses) {S : Finset ℂ} (hS : Eigs eig basisKeys S f p)
    {eta : ℝ} (heta : 0 < eta) {qed qcd : ℕ} {C d : Dict String ℂ}
    (h : runSector (backend eig basisKeys) s C eta f p q qed qcd = .ok d) {a : Coef} {i : ℕ} (ha : Listed a s i) :
    val d (nameOf a) = ((scale a p / scale a q : ℝ) : ℂ) *
      flow eig basisKeys (flowN S qcd) (flowS S eta f qcd) (flowE S eta f p.alpha_s p.alpha_e qed qcd) f p (vals C) a := by
  have h1 := run_flow hp hq hD hS heta h ha
  have h2 := scale_ne ha hq
  push_cast
  field_simp
  rw [mul_comm]
  exact h1

/-- with five flavours all coefficients exist -/
theorem live_five {a : Coef} (ha : a ∈ allCoefs) : Live eig basisKeys 5 a := by
  obtain ⟨s, i, l, hl, hi⟩ := mem_allCoefs.1 ha
  exact ⟨s, .all (l.map nameOf) (get_coeffs eig basisKeys hl) (List.mem_map_of_mem (List.mem_of_getElem? hi)) (.inr rfl)⟩

theorem Respects.live {f : ℕ} {T : Sym} (h : Respects eig basisKeys f T) {a a' : Coef} (ha : a ∈ allCoefs)
    (ha' : a' ∈ allCoefs) {c n : Bool} (hT : T a a' c n) : Live eig basisKeys f a ↔ Live eig basisKeys f a' := by
  rcases h with rfl | h
  · exact ⟨fun _ => live_five ha', fun _ => live_five ha⟩
  · exact h a ha a' ha' c n hT

/-- conditions on the coefficients that the running keeps -/
structure Keeps (eig : (n : ℕ) → Matrix (Fin n) (Fin n) ℂ → (Fin n → ℂ) × Matrix (Fin n) (Fin n) ℂ)
    (basisKeys : ℕ → String → Except Exc (List String)) (f : ℕ) (W : Submodule ℝ (Coef → ℂ)) : Prop where
  mask : ∀ C ∈ W, masked eig basisKeys f C ∈ W
  rate : ∀ F p, ∀ C ∈ W, rate F f p C ∈ W

theorem keeps_flow {f : ℕ} {W : Submodule ℝ (Coef → ℂ)} (h : Keeps eig basisKeys f W) {C : Coef → ℂ} (hC : C ∈ W)
    (N : ℕ) (cs : ℕ → ℝ) (ce : ℕ → ℕ → ℝ) (p : Par) : flow eig basisKeys N cs ce f p C ∈ W :=
  (flow_rel (p' := p) (W.prod W) (fun _ _ h' => ⟨h.mask _ h'.1, h.mask _ h'.2⟩)
    (fun F _ _ h' => ⟨h.rate F p _ h'.1, h.rate F p _ h'.2⟩) (C' := C) ⟨hC, hC⟩ N cs ce).1

theorem conjIf_add (c : Bool) (x y : ℂ) : conjIf c (x + y) = conjIf c x + conjIf c y := by
  cases c <;> simp [conjIf]

theorem conjIf_smul (c : Bool) (r : ℝ) (x : ℂ) : conjIf c ((r : ℂ) * x) = (r : ℂ) * conjIf c x := by
  cases c <;> simp [conjIf]

/-- pairs of coefficients related by a symmetry -/
def related (T : Sym) (W : Submodule ℝ (Coef → ℂ)) : Submodule ℝ ((Coef → ℂ) × (Coef → ℂ)) where
  carrier := {x | x.1 ∈ W ∧ x.2 ∈ W ∧ Transformed T x.1 x.2}
  add_mem' := by
    rintro x y ⟨h1, h2, h3⟩ ⟨h4, h5, h6⟩
    refine ⟨W.add_mem h1 h4, W.add_mem h2 h5, ?_⟩
    intro a ha a' ha' c n hT
    simp only [Prod.fst_add, Prod.snd_add, Pi.add_apply, h3 a ha a' ha' c n hT, h6 a ha a' ha' c n hT, conjIf_add]
    ring
  zero_mem' := by
    refine ⟨W.zero_mem, W.zero_mem, ?_⟩
    intro a ha a' ha' c n hT
    cases c <;> simp [conjIf]
  smul_mem' := by
    rintro r x ⟨h1, h2, h3⟩
    refine ⟨W.smul_mem r h1, W.smul_mem r h2, ?_⟩
    intro a ha a' ha' c n hT
    simp only [Prod.smul_fst, Prod.smul_snd, Pi.smul_apply, h3 a ha a' ha' c n hT, Complex.real_smul, conjIf_smul]
    ring

/-- **covariance of the running** -/
theorem run_cov {T : Sym} {W : Submodule ℝ (Coef → ℂ)} {f : ℕ} (hK : Keeps eig basisKeys f W)
    (hb : Respects eig basisKeys f T) {p q p' q' : Par} {s s' : String} (hp : p.Positive) (hq : q.Positive) (hp' : p'.Positive)
    (hq' : q'.Positive) (has : p'.alpha_s = p.alpha_s) (hae : p'.alpha_e = p.alpha_e)
    (hD : EigFor eig basisKeys s f p.masses) (hD' : EigFor eig basisKeys s' f p'.masses)
    (hrate : ∀ F C C', C ∈ W → C' ∈ W → Transformed T C C' → Transformed T (rate F f p C) (rate F f p' C'))
    {eta : ℝ} (heta : 0 < eta) {qed qcd : ℕ} {C C' d d' : Dict String ℂ}
    (hC : vals C ∈ W) (hC' : vals C' ∈ W) (ht : Transformed T (vals C) (vals C'))
    (h : runSector (backend eig basisKeys) s C eta f p q qed qcd = .ok d)
    (h' : runSector (backend eig basisKeys) s' C' eta f p' q' qed qcd = .ok d')
    {a a' : Coef} {i i' : ℕ} (ha : Listed a s i) (ha' : Listed a' s' i') {c n : Bool} (hT : T a a' c n)
    (hsc : scale a p / scale a q = scale a' p' / scale a' q') :
    val d' (nameOf a') = sgn n * conjIf c (val d (nameOf a)) := by
  obtain ⟨S, hS, hS'⟩ := eigs_two (eig := eig) (basisKeys := basisKeys) f p p'
  rw [run_value hp hq hD hS heta h ha, run_value hp' hq' hD' hS' heta h' ha', ← hsc, has, hae, conjIf_smul]
  have := (flow_rel (eig := eig) (basisKeys := basisKeys) (related T W) (f := f) (p := p) (p' := p')
    (fun _ _ hR => ⟨hK.mask _ hR.1, hK.mask _ hR.2.1, ?_⟩)
    (fun F C C' hR => ⟨hK.rate F p _ hR.1, hK.rate F p' _ hR.2.1, hrate F C C' hR.1 hR.2.1 hR.2.2⟩)
    (⟨hC, hC', ht⟩ : (vals C, vals C') ∈ related T W)
    (flowN S qcd) (flowS S eta f qcd) (flowE S eta f p.alpha_s p.alpha_e qed qcd)).2.2
    a (mem_allCoefs.2 ⟨_, _, ha⟩) a' (mem_allCoefs.2 ⟨_, _, ha'⟩) c n hT
  · dsimp only at this
    rw [this]
    ring
  · intro a ha a' ha' c n hT
    have hl := hb.live ha ha' hT
    dsimp only [masked]
    by_cases hx : Live eig basisKeys f a
    · rw [if_pos hx, if_pos (hl.1 hx)]
      exact hR.2.2 a ha a' ha' c n hT
    · rw [if_neg hx, if_neg (fun hx' => hx (hl.2 hx'))]
      cases c <;> simp [conjIf]

/-! ## Conditions -/

/-- real coefficients of Hermitian operators -/
def realW : Submodule ℝ (Coef → ℂ) where
  carrier := {C | RealOnReal C}
  add_mem' := by
    intro x y hx hy a ha hr
    simp [hx a ha hr, hy a ha hr]
  zero_mem' := by intro a _ _; rfl
  smul_mem' := by
    intro c x hx a ha hr
    simp [hx a ha hr]

theorem realW_keeps (f : ℕ) : Keeps eig basisKeys f realW where
  mask := by
    intro C hC a ha hr
    unfold masked
    split_ifs
    · exact hC a ha hr
    · rfl
  rate := fun F p C hC => rate_real hC

theorem top_keeps (f : ℕ) : Keeps eig basisKeys f ⊤ := ⟨fun _ _ => trivial, fun _ _ _ _ => trivial⟩

/-- CP conservation -/
def cpW : Submodule ℝ (Coef → ℂ) where
  carrier := {C | CPEven C}
  add_mem' := by
    intro x y hx hy a ha
    exact ⟨by simp [(hx a ha).1, (hy a ha).1], fun h => by simp [(hx a ha).2 h, (hy a ha).2 h]⟩
  zero_mem' := by intro a _; exact ⟨rfl, fun _ => rfl⟩
  smul_mem' := by
    intro c x hx a ha
    exact ⟨by simp [(hx a ha).1], fun h => by simp [(hx a ha).2 h]⟩

theorem cpEven_real {C : Coef → ℂ} (h : CPEven C) : RealOnReal C := fun a ha _ => (h a ha).1

theorem cpW_keeps (f : ℕ) : Keeps eig basisKeys f cpW where
  mask := by
    intro C hC a ha
    unfold masked
    split_ifs
    · exact hC a ha
    · exact ⟨rfl, fun _ => rfl⟩
  rate := fun F p C hC =>
    (cpEven_iff (rate_real (cpEven_real hC))).2 (cp_cov ((cpEven_iff (cpEven_real hC)).1 hC))

/-- relabelling keeps CP -/
theorem cpEven_transformed {σ : Relabel} {C C' : Coef → ℂ} (h : Transformed σ.sym C C') (hC : CPEven C) : CPEven C' := by
  intro b hb
  obtain ⟨a, ha, c, n, hs⟩ := σ.preimage hb
  rw [h a ha b hb c n hs, conjIf_real (hC a ha).1]
  refine ⟨?_, fun hg => ?_⟩
  · have := (hC a ha).1
    cases n <;> simp [sgn, this]
  · rw [(hC a ha).2 (hs.1.symm.trans hg), mul_zero]

/-- relabelling of real coefficients -/
theorem real_cov (σ : Relabel) (F : Force) (f : ℕ) (p p' : Par) (C C' : Coef → ℂ) (hm : NoMassless p)
    (hr : Relabelled σ p p') (hC : CPEven C) (ht : Transformed σ.sym C C') :
    Transformed σ.sym (rate F f p C) (rate F f p' C') := by
  have e : rate F f p C = rate F f p (fun a => if a ∈ allCoefs then C a else 0) := by
    funext b
    rw [rate_eq, rate_eq]
    refine Finset.sum_congr rfl fun a ha => ?_
    rw [if_pos (List.mem_toFinset.1 ha)]
  rw [e]
  refine cov_real σ F f p p' _ C' hm hr ?_ ?_ ?_
  · intro a
    dsimp only
    split_ifs with h
    · exact (hC a h).1
    · rfl
  · intro a ha _
    dsimp only
    rw [if_pos ha]
    exact (hC a ha).1
  · intro a ha a' ha' c n hT
    dsimp only
    rw [if_pos ha]
    exact ht a ha a' ha' c n hT

/-! ## Normalisation factors -/

theorem same_two {k : WKey} (h : (fields k).length = 2) {ix ix' : List ℕ} {c n : Bool} (hs : Same k ix ix' c n) :
    ix' = ix := by
  induction hs with
  | refl => rfl
  | step st hst _ ih =>
    exfalso
    cases k <;> first
      | exact absurd h (by decide)
      | (cases st <;> exact absurd hst (by decide))

theorem massOf_other {k : WKey} (h : (fields k).length ≠ 2) (m : ℕ) : massOf (k, m) = [] := by
  cases k <;> first
    | exact absurd (by decide) h
    | rfl

theorem gfac_other {k : WKey} (h : (fields k).length = 4) (p : Par) : gfac k p = 1 := by
  cases k <;> first
    | exact absurd h (by decide)
    | rfl

theorem parity_scale {a a' : Coef} (ha : a ∈ allCoefs) {c n : Bool} (h : paritySym a a' c n)
    (p : Par) : scale a' p = scale a p := by
  obtain ⟨k, ix, c0, n0, hp, hk, c1, n1, hs, -, -⟩ := h
  obtain ⟨ka, m⟩ := a
  obtain ⟨ka', m'⟩ := a'
  obtain rfl : ka' = k := hk
  have hv := coef_valid ha
  have hl : (fields ka).length = (ixOf (ka, m)).length := hv.length_eq
  unfold scale
  rcases fields_length ka with h0 | h0 | h0
  · rw [h0] at hl
    have e := List.length_eq_zero_iff.1 hl.symm
    dsimp only at hp
    rw [e] at hp
    cases ka <;> first
      | exact absurd h0 (by decide)
      | (cases hp; rfl)
  · rw [h0] at hl
    obtain ⟨i, j, e⟩ := List.length_eq_two.1 hl.symm
    dsimp only at hp
    rw [e] at hp
    cases ka <;> first
      | exact absurd h0 (by decide)
      | (cases hp
         have e' := same_two (by decide) hs
         simp only [massOf, e, e', Nat.max_comm j i])
  · rw [h0] at hl
    obtain ⟨i, j, k, l, e⟩ : ∃ i j k l, ixOf (ka, m) = [i, j, k, l] := by
      generalize ixOf (ka, m) = L at hl
      rcases L with _ | ⟨i, _ | ⟨j, _ | ⟨k, _ | ⟨l, _ | ⟨_, _⟩⟩⟩⟩⟩ <;> simp at hl
      exact ⟨i, j, k, l, rfl⟩
    dsimp only at hp
    rw [e] at hp
    have h4 : (fields ka').length = 4 := by
      cases ka <;> first
        | exact absurd h0 (by decide)
        | (cases hp; done)
        | (cases hp; rfl)
    rw [massOf_other (by rw [h4]; decide), massOf_other (by rw [h0]; decide), gfac_other h4, gfac_other h0]

/-- the mass in the normalisation of a dipole -/
theorem dipole_mass {a : Coef} (ha : a ∈ allCoefs) (h : (fields a.1).length = 2) :
    (∀ m, massOf (a.1, m) = []) ∨ ∃ x ∈ flavours, (∀ F ∈ fields a.1, F.sp = x.1) ∧ ∀ p : Par, mprod p.masses (massOf a) = mass p x := by
  obtain ⟨k, m⟩ := a
  have hv := coef_valid ha
  have hl : (fields k).length = (ixOf (k, m)).length := hv.length_eq
  dsimp only at h
  rw [h] at hl
  obtain ⟨i, j, e⟩ := List.length_eq_two.1 hl.symm
  unfold Valid at hv
  dsimp only at hv
  rw [e] at hv
  have key : ∀ x : Sp, fields k = dipole x → (1 ≤ i ∧ i ≤ x.gens) ∧ (1 ≤ j ∧ j ≤ x.gens) := by
    intro x hx
    rw [hx] at hv
    simpa [dipole] using hv
  cases k <;> first
    | exact absurd h (by decide)
    | exact .inl fun _ => rfl
    | (right
       obtain ⟨⟨h1, h2⟩, h3, h4⟩ := key _ rfl
       simp only [Sp.gens] at h2 h4
       interval_cases i <;> interval_cases j <;>
         (simp only [massOf, e]
          first
            | (refine ⟨(.u, 1), by decide, by decide, fun p => ?_⟩; simp [mprod, Q.val, mass, Par.masses]; done)
            | (refine ⟨(.u, 2), by decide, by decide, fun p => ?_⟩; simp [mprod, Q.val, mass, Par.masses]; done)
            | (refine ⟨(.d, 1), by decide, by decide, fun p => ?_⟩; simp [mprod, Q.val, mass, Par.masses]; done)
            | (refine ⟨(.d, 2), by decide, by decide, fun p => ?_⟩; simp [mprod, Q.val, mass, Par.masses]; done)
            | (refine ⟨(.d, 3), by decide, by decide, fun p => ?_⟩; simp [mprod, Q.val, mass, Par.masses]; done)
            | (refine ⟨(.e, 1), by decide, by decide, fun p => ?_⟩; simp [mprod, Q.val, mass, Par.masses]; done)
            | (refine ⟨(.e, 2), by decide, by decide, fun p => ?_⟩; simp [mprod, Q.val, mass, Par.masses]; done)
            | (refine ⟨(.e, 3), by decide, by decide, fun p => ?_⟩; simp [mprod, Q.val, mass, Par.masses]; done)))

theorem relabel_dipole_mass {σ : Relabel} {p p' q q' : Par} (hr : Relabelled σ p p') (hr' : Relabelled σ q q')
    (hc : CommonRunning p q) (hp : NoMassless p) {x y : Sp × ℕ} (hx : x ∈ flavours)
    (hy : y ∈ flavours) (h : x.1 = y.1) : mass q' y / mass p' y = mass q x / mass p x := by
  obtain ⟨z, hz, hz1, e⟩ : ∃ z ∈ flavours, z.1 = y.1 ∧ y = (z.1, σ.ix z.1 z.2) := by
    obtain ⟨h1, h2, h3⟩ := flavour_index hy
    have hr := σ.inv.ix_range y.1 h1 h2
    have e2 : σ.ix y.1 (σ.inv.ix y.1 y.2) = y.2 := by
      rw [← Relabel.mul_ix _ _ _ h1 (h2.trans (gens_le _))]
      have : σ.mul σ.inv = Relabel.one := Relabel.ext' fun _ => mul_inv_cancel _
      rw [this, Relabel.ix_eq _ _ h1 (h2.trans (gens_le _))]
      change y.2 - 1 + 1 = y.2
      omega
    refine ⟨(y.1, σ.inv.ix y.1 y.2), mem_flavours h3 hr.1 hr.2, rfl, ?_⟩
    · dsimp only
      rw [e2]
  rw [e, hr.2.2 z hz, hr'.2.2 z hz]
  have := hc x hx z hz (h.trans hz1.symm)
  rw [div_eq_div_iff (hp z hz) (hp x hx)]
  linear_combination -this

theorem relabel_scale {σ : Relabel} {p p' q q' : Par} (hr : Relabelled σ p p') (hr' : Relabelled σ q q')
    (hc : CommonRunning p q) (hp : p.Positive) {a a' : Coef} (ha : a ∈ allCoefs) (ha' : a' ∈ allCoefs)
    {c n : Bool} (h : σ.sym a a' c n) : scale a p / scale a q = scale a' p' / scale a' q' := by
  have hk := h.1
  have hg : ∀ k, gfac k p' = gfac k p := fun k => by unfold gfac; rw [hr.1, hr.2.1]
  have hg' : ∀ k, gfac k q' = gfac k q := fun k => by unfold gfac; rw [hr'.1, hr'.2.1]
  unfold scale
  rw [hk, hg, hg']
  by_cases h2 : (fields a.1).length = 2
  · have hem : ∀ {b b' : Coef}, b'.1 = b.1 → (∀ m, massOf (b.1, m) = []) → massOf b' = [] := by
      rintro b ⟨k, m⟩ rfl e
      exact e m
    rcases dipole_mass ha h2 with e | ⟨x, hx, hx1, ex⟩
    · rw [hem rfl e, hem hk e]; rfl
    rcases dipole_mass ha' (by rw [hk]; exact h2) with e | ⟨y, hy, hy1, ey⟩
    · rw [hem rfl e, hem hk.symm e]; rfl
    · rw [ex, ex, ey, ey]
      have hne : fields a.1 ≠ [] := by intro h0; rw [h0] at h2; cases h2
      obtain ⟨F, hF⟩ := List.exists_mem_of_ne_nil _ hne
      have hxy : x.1 = y.1 := (hx1 F hF).symm.trans (hy1 F (by rw [hk]; exact hF))
      have := relabel_dipole_mass hr hr' hc (massive_of_positive hp) hx hy hxy
      rw [div_div_div_eq, div_div_div_eq, mul_comm (mass p x), mul_comm (mass p' y), mul_div_mul_comm, mul_div_mul_comm, this]
  · rw [show massOf a = [] from massOf_other (k := a.1) h2 a.2, show massOf a' = [] from massOf_other (k := a'.1) (by rw [hk]; exact h2) a'.2]
    rfl

end Verif.WetTab
