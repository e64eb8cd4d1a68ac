import Verif.Lemmas.WetSymRun
import Verif.Props.WetTables

/-!
# C71, C76, C78, C81, C92: symmetries of the running itself

`Props/WetTables.lean` states the symmetries of the right-hand side of the renormalisation group equation.
Here they are carried over to what `run_sector` returns: between any two scales, for any ratio `eta > 0` of
the strong couplings, with and without QCD and QED, and with any correct eigendecomposition of the anomalous
dimensions.
-/

open Classical

set_option autoImplicit false

namespace Verif.WetTab
open Verif Verif.Rotation Verif.WetRun

variable {eig : (n : ℕ) → Matrix (Fin n) (Fin n) ℂ → (Fin n → ℂ) × Matrix (Fin n) (Fin n) ℂ}
  {basisKeys : ℕ → String → Except Exc (List String)}

/-! ## C78 -/

/-- C78: if the coefficients of Hermitian operators are real, they are real after the running. -/
theorem C78_running {s : String} {f : ℕ} {p q : Par} (hp : p.Positive) (hq : q.Positive)
    (hD : EigFor eig basisKeys s f p.masses) {eta : ℝ} (heta : 0 < eta) {qed qcd : ℕ} {C d : Dict String ℂ}
    (hC : RealOnReal (vals C)) (h : runSector (backend eig basisKeys) s C eta f p q qed qcd = .ok d)
    {a : Coef} {i : ℕ} (ha : Listed a s i) (hr : IsReal a.1 (ixOf a)) : (val d (nameOf a)).im = 0 := by
  obtain ⟨S, hS, -⟩ := eigs_two (eig := eig) (basisKeys := basisKeys) f p p
  rw [run_value hp hq hD hS heta h ha, Complex.im_ofReal_mul]
  have := keeps_flow (realW_keeps (eig := eig) (basisKeys := basisKeys) f) (show vals C ∈ realW from hC)
    (flowN S qcd) (flowS S eta f qcd) (flowE S eta f p.alpha_s p.alpha_e qed qcd) p a (mem_allCoefs.2 ⟨_, _, ha⟩) hr
  rw [this, mul_zero]

/-! ## C71 -/

/-- C71: running the coefficients with left and right exchanged returns the coefficients with left and right
exchanged. -/
theorem C71_running {s s' : String} {f : ℕ} {p q : Par} (hp : p.Positive) (hq : q.Positive)
    (hb : Respects eig basisKeys f paritySym)
    (hD : EigFor eig basisKeys s f p.masses) (hD' : EigFor eig basisKeys s' f p.masses) {eta : ℝ} (heta : 0 < eta) {qed qcd : ℕ} {C C' d d' : Dict String ℂ}
    (hC : RealOnReal (vals C)) (hC' : RealOnReal (vals C')) (ht : Transformed paritySym (vals C) (vals C'))
    (h : runSector (backend eig basisKeys) s C eta f p q qed qcd = .ok d)
    (h' : runSector (backend eig basisKeys) s' C' eta f p q qed qcd = .ok d')
    {a a' : Coef} {i i' : ℕ} (ha : Listed a s i) (ha' : Listed a' s' i') {c n : Bool} (hT : paritySym a a' c n) :
    val d' (nameOf a') = sgn n * conjIf c (val d (nameOf a)) :=
  run_cov (realW_keeps f) hb hp hq hp hq rfl rfl hD hD'
    (fun _ _ _ h1 h2 h3 => parity_cov (massive_of_positive hp) h1 h2 h3) heta hC hC' ht h h' ha ha' hT
    (by rw [parity_scale (mem_allCoefs.2 ⟨_, _, ha⟩) hT, parity_scale (mem_allCoefs.2 ⟨_, _, ha⟩) hT])

/-! ## C92: CP -/

/-- C92: the right-hand side of the renormalisation group equation of the CP-conjugate coefficients is the CP
conjugate of that of the coefficients. -/
theorem C92_cp (F : Force) (f : ℕ) (p : Par) {C C' : Coef → ℂ} (h : Transformed cpSym C C') :
    Transformed cpSym (rate F f p C) (rate F f p C') := cp_cov h

/-- C92: running CP-conjugate coefficients returns the CP conjugate of the result. -/
theorem C92_running {s : String} {f : ℕ} {p q : Par} (hp : p.Positive) (hq : q.Positive)
    (hD : EigFor eig basisKeys s f p.masses) {eta : ℝ} (heta : 0 < eta) {qed qcd : ℕ} {C C' d d' : Dict String ℂ}
    (ht : Transformed cpSym (vals C) (vals C'))
    (h : runSector (backend eig basisKeys) s C eta f p q qed qcd = .ok d)
    (h' : runSector (backend eig basisKeys) s C' eta f p q qed qcd = .ok d')
    {a : Coef} {i : ℕ} (ha : Listed a s i) :
    val d' (nameOf a) = (if a.1 = .Gtilde then -1 else 1) * (starRingEnd ℂ) (val d (nameOf a)) := by
  have := run_cov (T := cpSym) (top_keeps f) (.inr fun a _ a' _ c n hT => by rw [hT.1]) hp hq hp hq rfl rfl hD hD
    (fun _ _ _ _ _ h3 => cp_cov h3) heta trivial trivial ht h h' ha ha ⟨rfl, rfl, rfl⟩ rfl
  rw [this]
  by_cases hg : a.1 = .Gtilde <;> simp [hg, sgn, conjIf]

/-- C92: without CP violation at the initial scale (all coefficients real, no CP-odd three-gluon operator) there
is none at the final scale. -/
theorem C92_conservation {s : String} {f : ℕ} {p q : Par} (hp : p.Positive) (hq : q.Positive)
    (hD : EigFor eig basisKeys s f p.masses) {eta : ℝ} (heta : 0 < eta) {qed qcd : ℕ} {C d : Dict String ℂ}
    (hC : CPEven (vals C)) (h : runSector (backend eig basisKeys) s C eta f p q qed qcd = .ok d)
    {a : Coef} {i : ℕ} (ha : Listed a s i) :
    (val d (nameOf a)).im = 0 ∧ (a.1 = .Gtilde → val d (nameOf a) = 0) := by
  obtain ⟨S, hS, -⟩ := eigs_two (eig := eig) (basisKeys := basisKeys) f p p
  rw [run_value hp hq hD hS heta h ha, Complex.im_ofReal_mul]
  have := keeps_flow (cpW_keeps (eig := eig) (basisKeys := basisKeys) f) (show vals C ∈ cpW from hC)
    (flowN S qcd) (flowS S eta f qcd) (flowE S eta f p.alpha_s p.alpha_e qed qcd) p a (mem_allCoefs.2 ⟨_, _, ha⟩)
  exact ⟨by rw [this.1, mul_zero], fun hg => by rw [this.2 hg, mul_zero]⟩

/-! ## C81 -/

/-- C81 for whole runs and all relabellings that leave the down quark alone, if the masses of the quarks of one
charge run in the same way.  Missing in general: the relabellings of the down quark, unless there is no CP
violation (see the next theorem and the violation). -/
theorem C81_running_partial (σ : Relabel) (hσ : σ.perm .d 0 = 0) {s s' : String} {f : ℕ} {p q p' q' : Par}
    (hp : p.Positive) (hq : q.Positive) (hp' : p'.Positive) (hq' : q'.Positive)
    (hr : Relabelled σ p p') (hr' : Relabelled σ q q') (hc : CommonRunning p q)
    (hb : Respects eig basisKeys f σ.sym)
    (hD : EigFor eig basisKeys s f p.masses) (hD' : EigFor eig basisKeys s' f p'.masses)
    {eta : ℝ} (heta : 0 < eta) {qed qcd : ℕ} {C C' d d' : Dict String ℂ}
    (hC : RealOnReal (vals C)) (ht : Transformed σ.sym (vals C) (vals C'))
    (h : runSector (backend eig basisKeys) s C eta f p q qed qcd = .ok d)
    (h' : runSector (backend eig basisKeys) s' C' eta f p' q' qed qcd = .ok d')
    {a a' : Coef} {i i' : ℕ} (ha : Listed a s i) (ha' : Listed a' s' i') {c n : Bool} (hT : σ.sym a a' c n) :
    val d' (nameOf a') = sgn n * conjIf c (val d (nameOf a)) :=
  run_cov (realW_keeps f) hb hp hq hp' hq' hr.1 hr.2.1 hD hD'
    (fun F C C' h1 _ h3 => cov_fix hσ F f p p' C C' (massive_of_positive hp) hr trivial h1 h3) heta hC
    (σ.transformed_real ht hC) ht h h' ha ha' hT
    (relabel_scale hr hr' hc hp (mem_allCoefs.2 ⟨_, _, ha⟩) (mem_allCoefs.2 ⟨_, _, ha'⟩) hT)

/-- C81 for whole runs and all relabellings, in the absence of CP violation. -/
theorem C81_running_real_partial (σ : Relabel) {s s' : String} {f : ℕ} {p q p' q' : Par}
    (hp : p.Positive) (hq : q.Positive) (hp' : p'.Positive) (hq' : q'.Positive)
    (hr : Relabelled σ p p') (hr' : Relabelled σ q q') (hc : CommonRunning p q)
    (hb : Respects eig basisKeys f σ.sym)
    (hD : EigFor eig basisKeys s f p.masses) (hD' : EigFor eig basisKeys s' f p'.masses)
    {eta : ℝ} (heta : 0 < eta) {qed qcd : ℕ} {C C' d d' : Dict String ℂ}
    (hC : CPEven (vals C)) (ht : Transformed σ.sym (vals C) (vals C'))
    (h : runSector (backend eig basisKeys) s C eta f p q qed qcd = .ok d)
    (h' : runSector (backend eig basisKeys) s' C' eta f p' q' qed qcd = .ok d')
    {a a' : Coef} {i i' : ℕ} (ha : Listed a s i) (ha' : Listed a' s' i') {c n : Bool} (hT : σ.sym a a' c n) :
    val d' (nameOf a') = sgn n * val d (nameOf a) := by
  have := run_cov (T := σ.sym) (cpW_keeps f) hb hp hq hp' hq' hr.1 hr.2.1 hD hD'
    (fun F C C' h1 _ h3 => real_cov σ F f p p' C C' (massive_of_positive hp) hr h1 h3) heta hC
    (cpEven_transformed ht hC) ht h h' ha ha' hT
    (relabel_scale hr hr' hc hp (mem_allCoefs.2 ⟨_, _, ha⟩) (mem_allCoefs.2 ⟨_, _, ha'⟩) hT)
  rw [this, conjIf_real (C92_conservation hp hq hD heta hC h ha).1]

/-! ## C76 -/

/-- the place of `VddRR_1231` -/
theorem at_1231R : At (.VddRR, 1231) "sb" 95 13 ⟨c_sb, adm_e_sb, adm_s_sb, secs[13].ms, secs[13].cn⟩ :=
  ⟨⟨_, rfl⟩, rfl, rfl, _, cls_sb, getE_sb, getS_sb⟩

/-- C76 for whole runs: outside of the sector `sb`, the returned coefficients acquire the same factors as the
coefficients when the fields of the individual flavours are rephased.  Missing: the sector of `VddLL_1231` and
`VddRR_1231`. -/
theorem C76_running_partial {s : String} (hs : s ≠ "sb") {f : ℕ} {p q : Par} (hp : p.Positive) (hq : q.Positive)
    (hD : EigFor eig basisKeys s f p.masses) {eta : ℝ} (heta : 0 < eta) {qed qcd : ℕ} {C C' d d' : Dict String ℂ}
    (φ : Sp × ℕ → ℂ) (hC : ∀ a ∈ allCoefs, vals C' a = rephase φ a * vals C a)
    (h : runSector (backend eig basisKeys) s C eta f p q qed qcd = .ok d)
    (h' : runSector (backend eig basisKeys) s C' eta f p q qed qcd = .ok d')
    {a : Coef} {i : ℕ} (ha : Listed a s i) :
    val d' (nameOf a) = rephase φ a * val d (nameOf a) := by
  obtain ⟨S, hS, -⟩ := eigs_two (eig := eig) (basisKeys := basisKeys) f p p
  rw [run_value hp hq hD hS heta h ha, run_value hp hq hD hS heta h' ha]
  let R : Submodule ℝ ((Coef → ℂ) × (Coef → ℂ)) :=
    { carrier := {x | ∀ a i, Listed a s i → x.2 a = rephase φ a * x.1 a}
      add_mem' := by
        intro x y hx hy a i h1
        simp only [Prod.fst_add, Prod.snd_add, Pi.add_apply, hx a i h1, hy a i h1]
        ring
      zero_mem' := by intro a i _; simp
      smul_mem' := by
        intro c x hx a i h1
        simp only [Prod.smul_fst, Prod.smul_snd, Pi.smul_apply, hx a i h1, Complex.real_smul]
        ring }
  have := flow_rel (eig := eig) (basisKeys := basisKeys) R (f := f) (p := p) (p' := p) (fun C C' hR b j hb => by
      change masked eig basisKeys f C' b = rephase φ b * masked eig basisKeys f C b
      unfold masked
      split_ifs
      · exact hR b j hb
      · simp) (fun F C C' hR b j hb => by
      change rate F f p C' b = rephase φ b * rate F f p C b
      have hbm := mem_allCoefs.2 ⟨_, _, hb⟩
      rw [rate_eq, rate_eq, Finset.mul_sum]
      refine Finset.sum_congr rfl fun a ham => ?_
      have ham := List.mem_toFinset.1 ham
      by_cases hz : mix F f p a b = 0
      · rw [hz]; simp
      obtain ⟨t, k, j', n, S, e, hA, hB, -⟩ := mix_entry ham hbm hz
      obtain ⟨rfl, -⟩ := listed_unique hB.listed hb rfl
      have hw : ∀ {c : Coef} {i : ℕ}, Listed c t i → wrong c = false := by
        intro c i hc
        refine not_wrong ?_ ?_
        · rintro rfl
          exact hs (listed_unique hc at_1231.listed rfl).1
        · rintro rfl
          exact hs (listed_unique hc at_1231R.listed rfl).1
      have := charge_entry ham hbm (hw hA.listed) (hw hB.listed) hz
      have e : rephase φ a = rephase φ b := by
        unfold rephase
        congr 1
        refine List.map_congr_left fun x hx => ?_
        rw [this x hx]
      rw [show C' a = rephase φ a * C a from hR a _ hA.listed, e]
      ring) (show (vals C, vals C') ∈ R from fun a i h1 => hC a (mem_allCoefs.2 ⟨_, _, h1⟩))
      (flowN S qcd) (flowS S eta f qcd) (flowE S eta f p.alpha_s p.alpha_e qed qcd) a i ha
  dsimp only at this
  rw [this]
  ring

/-! ## Examples -/

/-- the place of `VeeLL_1212`, `VeeRR_1212` and `VeeLL_1313` -/
theorem listed_mu : Listed (.VeeLL, 1212) "muemue" 2 ∧ Listed (.VeeRR, 1212) "muemue" 4 ∧
    Listed (.VeeLL, 1313) "tauetaue" 2 := by
  refine ⟨⟨c_muemue, ?_, rfl⟩, ⟨c_muemue, ?_, rfl⟩, ⟨c_tauetaue, ?_, rfl⟩⟩
  · exact List.mem_of_getElem? (i := 46) rfl
  · exact List.mem_of_getElem? (i := 46) rfl
  · exact List.mem_of_getElem? (i := 44) rfl

/-- the QCD anomalous dimensions of the four-lepton sectors vanish, so that their eigendecomposition is known -/
theorem eigFor_lepton {s : String} (hs : Dict.get? sectorTable s = some "Ie") (p : Par) :
    EigFor diagEig basisKeys s 5 p.masses := by
  intro cls hcls n M hQ
  obtain rfl : "Ie" = cls := Option.some.inj (hs.symm.trans hcls)
  obtain ⟨A, hA, hM⟩ := hQ
  change admOf admSTable "Ie" 5 p.masses = _ at hA
  unfold admOf at hA
  rw [getS_Ie] at hA
  obtain rfl := Except.ok.inj hA
  unfold reduce permissible at hM
  rw [if_pos (.inl (by decide))] at hM
  have hM := Except.ok.inj hM
  cases hM
  refine ⟨isUnit_one, ?_⟩
  dsimp only [diagEig]
  rw [mul_one, one_mul]
  ext i j
  rw [Matrix.diagonal_apply]
  have key : ∀ i j : Fin 5, entry adm_s_Ie j i = none := by decide
  have hz : ∀ i j : Fin 5, value adm_s_Ie 5 p.masses j i = 0 := fun i j => by rw [value, key i j]
  change value adm_s_Ie 5 p.masses j i = if i = j then value adm_s_Ie 5 p.masses i i else 0
  rw [hz i j, hz i i, ite_self]

/-- a dictionary with one coefficient -/
theorem vals_single {a x : Coef} (ha : a ∈ allCoefs) (hx : x ∈ allCoefs) (z : ℂ) :
    vals [(nameOf a, z)] x = single a z x := by
  obtain ⟨_, _, ha⟩ := mem_allCoefs.1 ha
  obtain ⟨_, _, hx⟩ := mem_allCoefs.1 hx
  by_cases h : x = a
  · subst h
    simp [vals, val, Dict.get?, single]
  · have : nameOf a ≠ nameOf x := fun e => h (nameOf_inj ha.wellNamed hx.wellNamed e).symm
    simp [vals, val, Dict.get?, single, h, this]

theorem vals_single_transformed {T : Sym} {a a' : Coef} (ha : a ∈ allCoefs) (ha' : a' ∈ allCoefs) {z z' : ℂ}
    (h : Transformed T (single a z) (single a' z')) :
    Transformed T (vals [(nameOf a, z)]) (vals [(nameOf a', z')]) := by
  intro x hx x' hx' c n hT
  rw [vals_single ha hx, vals_single ha' hx']
  exact h x hx x' hx' c n hT

theorem vals_single_real {a : Coef} (ha : a ∈ allCoefs) {z : ℂ} (hz : ¬IsReal a.1 (ixOf a)) :
    RealOnReal (vals [(nameOf a, z)]) := by
  intro x hx hr
  rw [vals_single ha hx]
  by_cases h : x = a
  · subst h; exact absurd hr hz
  · rw [single_ne h]; rfl

/-- masses at another scale -/
def exQ : Par := ⟨2, 1, 4, 6, 10, 14, 22, 13, 17, 19⟩

/-- the exchange of the muon and the tau -/
def exchangeMuTau : Relabel := .gen .e 1 2 (fun h => by cases h)

/-- `exPar` and `exQ` with the masses of the muon and the tau exchanged -/
def exParMT : Par := ⟨1, 1, 2, 3, 5, 7, 11, 13, 19, 17⟩
@[inherit_doc exParMT] def exQMT : Par := ⟨2, 1, 4, 6, 10, 14, 22, 13, 19, 17⟩

theorem ex_positive : exPar.Positive ∧ exQ.Positive ∧ exParMT.Positive ∧ exQMT.Positive := by
  unfold Par.Positive exPar exQ exParMT exQMT
  norm_num

theorem ex_common : CommonRunning exPar exQ := by
  intro x hx y hy h
  simp only [flavours, List.mem_cons, List.not_mem_nil, or_false] at hx hy
  rcases hx with rfl | rfl | rfl | rfl | rfl | rfl | rfl | rfl <;>
    rcases hy with rfl | rfl | rfl | rfl | rfl | rfl | rfl | rfl <;>
    first
      | exact absurd h (by decide)
      | norm_num [mass, exPar, exQ]

theorem ex_relabelled : Relabelled exchangeMuTau exPar exParMT ∧ Relabelled exchangeMuTau exQ exQMT := by
  have h1 : exchangeMuTau.ix .e 1 = 1 := by decide
  have h2 : exchangeMuTau.ix .e 2 = 3 := by decide
  have h3 : exchangeMuTau.ix .e 3 = 2 := by decide
  have h4 : ∀ i ≤ 3, exchangeMuTau.ix .u i = i ∧ exchangeMuTau.ix .d i = i := by decide
  constructor <;>
  · refine ⟨rfl, rfl, fun x hx => ?_⟩
    simp only [flavours, List.mem_cons, List.not_mem_nil, or_false] at hx
    rcases hx with rfl | rfl | rfl | rfl | rfl | rfl | rfl | rfl <;>
      simp [h1, h2, h3, h4, mass, exPar, exParMT, exQ, exQMT]

theorem notReal_mu : ¬IsReal .VeeLL (ixOf (.VeeLL, 1212)) ∧ ¬IsReal .VeeRR (ixOf (.VeeRR, 1212)) ∧
    ¬IsReal .VeeLL (ixOf (.VeeLL, 1313)) := by
  refine ⟨fun h => ?_, fun h => ?_, fun h => ?_⟩
  · exact absurd ((realB_iff (c := (.VeeLL, 1212)) listed_mu.1.wellNamed.1).2 h) (by decide)
  · exact absurd ((realB_iff (c := (.VeeRR, 1212)) listed_mu.2.1.wellNamed.1).2 h) (by decide)
  · exact absurd ((realB_iff (c := (.VeeLL, 1313)) listed_mu.2.2.wellNamed.1).2 h) (by decide)

theorem parity_mu : paritySym (.VeeLL, 1212) (.VeeRR, 1212) false false :=
  ⟨.VeeRR, [1, 2, 1, 2], false, false, rfl, rfl, false, false, .refl, rfl, rfl⟩

theorem exchange_mu : exchangeMuTau.sym (.VeeLL, 1212) (.VeeLL, 1313) false false := by
  have e : exchangeMuTau.act .VeeLL (ixOf (.VeeLL, 1212)) = ixOf (.VeeLL, 1313) := by decide
  exact ⟨rfl, e ▸ .refl⟩

/-- the QED anomalous dimension of `VeeLL_1212` is not zero: the example runs -/
theorem mix_mu {p : Par} (hp : p.Positive) : mix .qed 5 p (.VeeLL, 1212) (.VeeLL, 1212) = 12 := by
  have hAt : At (.VeeLL, 1212) "muemue" 2 46 ⟨c_muemue, adm_e_Ie, adm_s_Ie, secs[46].ms, secs[46].cn⟩ :=
    ⟨⟨_, rfl⟩, rfl, rfl, _, cls_muemue, getE_Ie, getS_Ie⟩
  rw [mix_of hAt hAt, show scale (.VeeLL, 1212) p / scale (.VeeLL, 1212) p = 1 from
    div_self fun h => scale_ne hAt.listed hp (by rw [h, Complex.ofReal_zero]), Complex.ofReal_one, mul_one]
  have he : entry adm_e_Ie 2 2 = some (.p 12 1) := by decide
  change value adm_e_Ie 5 p.masses 2 2 = 12
  rw [value, he]
  norm_num [Ent.eval]

/-- C71, C78, C81, C92, example: Runs of `VeeLL_1212`, with a complex value, from one scale to another with
other quark masses and another strong coupling; of its mirror image; and of its image under the exchange of the
muon and the tau, which is in another sector.  All hypotheses of the theorems above hold. -/
theorem C92_example (z : ℂ) (eta : ℝ) :
    (exPar.Positive ∧ exQ.Positive ∧ exParMT.Positive ∧ exQMT.Positive) ∧
    (Relabelled exchangeMuTau exPar exParMT ∧ Relabelled exchangeMuTau exQ exQMT) ∧ CommonRunning exPar exQ ∧
    exchangeMuTau.perm .d 0 = 0 ∧
    EigFor diagEig basisKeys "muemue" 5 exPar.masses ∧ EigFor diagEig basisKeys "tauetaue" 5 exParMT.masses ∧
    Respects diagEig basisKeys 5 paritySym ∧ Respects diagEig basisKeys 5 exchangeMuTau.sym ∧
    RealOnReal (vals [("VeeLL_1212", z)]) ∧ RealOnReal (vals [("VeeRR_1212", z)]) ∧
    Transformed paritySym (vals [("VeeLL_1212", z)]) (vals [("VeeRR_1212", z)]) ∧
    Transformed exchangeMuTau.sym (vals [("VeeLL_1212", z)]) (vals [("VeeLL_1313", z)]) ∧
    Transformed cpSym (vals [("VeeLL_1212", z)]) (vals [("VeeLL_1212", (starRingEnd ℂ) z)]) ∧
    (z.im = 0 → CPEven (vals [("VeeLL_1212", z)])) ∧
    (∀ C, ∃ d, runSector (backend diagEig basisKeys) "muemue" C eta 5 exPar exQ 1 1 = .ok d) ∧
    (∀ C, ∃ d, runSector (backend diagEig basisKeys) "tauetaue" C eta 5 exParMT exQMT 1 1 = .ok d) ∧
    mix .qed 5 exPar (.VeeLL, 1212) (.VeeLL, 1212) = 12 := by
  have m1 := mem_allCoefs.2 ⟨_, _, listed_mu.1⟩
  have m2 := mem_allCoefs.2 ⟨_, _, listed_mu.2.1⟩
  have m3 := mem_allCoefs.2 ⟨_, _, listed_mu.2.2⟩
  have n1 : nameOf (.VeeLL, 1212) = "VeeLL_1212" := by decide
  have n2 : nameOf (.VeeRR, 1212) = "VeeRR_1212" := by decide
  have n3 : nameOf (.VeeLL, 1313) = "VeeLL_1313" := by decide
  rw [← n1, ← n2, ← n3]
  refine ⟨ex_positive, ex_relabelled, ex_common, by decide, eigFor_lepton cls_muemue _,
    eigFor_lepton cls_tauetaue _, .inl rfl, .inl rfl, vals_single_real m1 notReal_mu.1,
    vals_single_real m2 notReal_mu.2.1, ?_, ?_, ?_, ?_, fun C => ?_, fun C => ?_, mix_mu ex_positive.1⟩
  · refine vals_single_transformed m1 m2 ?_
    have := single_transformed (T := paritySym) (z := z) (.inr notReal_mu.2.1) m1 parity_mu
      (fun x' hx' c' n' hx => by
        obtain ⟨rfl, rfl, h3⟩ := parity_fun m2 hx' parity_mu hx
        exact ⟨rfl, rfl, h3.imp Eq.symm id⟩)
      (fun x hx c' n' hx' => parity_inj hx m1 hx' parity_mu)
    simpa [sgn, conjIf] using this
  · refine vals_single_transformed m1 m3 ?_
    have := single_transformed (T := exchangeMuTau.sym) (z := z) (.inr notReal_mu.2.2) m1 exchange_mu
      (fun x' hx' c' n' hx => by
        obtain ⟨rfl, rfl, h3⟩ := exchangeMuTau.sym_fun m3 hx' exchange_mu hx
        exact ⟨rfl, rfl, h3.imp Eq.symm id⟩)
      (fun x hx c' n' hx' => exchangeMuTau.sym_inj hx m1 hx' exchange_mu)
    simpa [sgn, conjIf] using this
  · intro x hx x' _ c n h
    obtain ⟨rfl, rfl, rfl⟩ := h
    rw [vals_single m1 hx, vals_single m1 hx]
    by_cases h : x' = (.VeeLL, 1212)
    · subst h
      rw [single_self, single_self]
      simp [sgn, conjIf]
    · rw [single_ne h, single_ne h]
      simp [conjIf]
  · intro hz x hx
    rw [vals_single m1 hx]
    refine ⟨single_real _ hz x, fun hg => single_ne ?_ _⟩
    rintro rfl
    exact absurd hg (by decide)
  · exact run_total _ _ (by decide) (.inl rfl) C eta _ _ (.inr rfl) (.inr rfl)
  · exact run_total _ _ (by decide) (.inl rfl) C eta _ _ (.inr rfl) (.inr rfl)

/-- C76, example: the rephased coefficient of `VeeLL_1212` acquires a phase. -/
theorem C76_running_example (φ : Sp × ℕ → ℂ) (z : ℂ) : "muemue" ≠ "sb" ∧
    (∀ a ∈ allCoefs, vals [("VeeLL_1212", rephase φ (.VeeLL, 1212) * z)] a = rephase φ a * vals [("VeeLL_1212", z)] a) ∧
    charge (.VeeLL, 1212) (.e, 1) = -2 ∧ charge (.VeeLL, 1212) (.e, 2) = 2 := by
  have m1 := mem_allCoefs.2 ⟨_, _, listed_mu.1⟩
  have n1 : nameOf (.VeeLL, 1212) = "VeeLL_1212" := by decide
  refine ⟨by decide, fun a ha => ?_, by decide, by decide⟩
  rw [← n1, vals_single m1 ha, vals_single m1 ha]
  by_cases h : a = (.VeeLL, 1212)
  · subst h; rw [single_self, single_self]
  · rw [single_ne h, single_ne h, mul_zero]

end Verif.WetTab
