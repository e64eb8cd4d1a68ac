import Verif.Lemmas.WetEntries
import Verif.Lemmas.WetInert
import Mathlib.Tactic.NormNum

/-!
# The sector tables and anomalous dimension matrices of the WET (C68, C69, C71, C76-C80)

The tables are those of the package (`Gen/WetTables.lean`, `Gen/Adm.lean`); what the names in them
mean is specified in `Spec/WetOps.lean`.
-/

set_option autoImplicit false
set_option linter.unusedSimpArgs false

namespace Verif.WetTab
open Verif Verif.Rotation Verif.WetRun

/-! ## Places in the tables, for the examples -/

/-- the place of `VddLL_1231` -/
theorem at_1231 : At (.VddLL, 1231) "sb" 91 13 ⟨c_sb, adm_e_sb, adm_s_sb, secs[13].ms, secs[13].cn⟩ :=
  ⟨⟨_, rfl⟩, rfl, rfl, _, cls_sb, getE_sb, getS_sb⟩
/-- the place of `VddLL_1123` -/
theorem at_1123 : At (.VddLL, 1123) "sb" 90 13 ⟨c_sb, adm_e_sb, adm_s_sb, secs[13].ms, secs[13].cn⟩ :=
  ⟨⟨_, rfl⟩, rfl, rfl, _, cls_sb, getE_sb, getS_sb⟩
/-- the place of `VddLL_1223` -/
theorem at_1223 : At (.VddLL, 1223) "db" 91 14 ⟨c_db, adm_e_db, adm_s_db, secs[14].ms, secs[14].cn⟩ :=
  ⟨⟨_, rfl⟩, rfl, rfl, _, cls_db, getE_db, getS_db⟩
/-- the place of `VddLL_1322` -/
theorem at_1322 : At (.VddLL, 1322) "db" 92 14 ⟨c_db, adm_e_db, adm_s_db, secs[14].ms, secs[14].cn⟩ :=
  ⟨⟨_, rfl⟩, rfl, rfl, _, cls_db, getE_db, getS_db⟩

theorem At.mem_all {a : Coef} {s : String} {i n : ℕ} {S : Sec} (h : At a s i n S) : a ∈ allCoefs :=
  mem_allCoefs.2 ⟨_, _, h.listed⟩

/-- coefficients without a normalisation factor -/
theorem scale_VddLL (m : ℕ) (p : Par) : scale (.VddLL, m) p = 1 := by simp [scale, gfac, massOf, mprod]

/-! ## C68: sectors are flavour classes -/

/-- C68: two coefficients are in the same sector exactly if their operators change the same flavours
(up to Hermitian conjugation) and contain as many neutrinos. -/
theorem C68_same_sector_iff {a b : Coef} {s t : String} {i j : ℕ} (ha : Listed a s i)
    (hb : Listed b t j) : s = t ↔ SameFlavour a b := sector_iff ha hb

/-- C68: no name is listed twice, in one sector or in two. -/
theorem C68_listed_once {a b : Coef} {s t : String} {i j : ℕ} (ha : Listed a s i) (hb : Listed b t j)
    (h : nameOf a = nameOf b) : s = t ∧ i = j := by
  obtain rfl := nameOf_inj ha.wellNamed hb.wellNamed h
  obtain ⟨h1, h2, -⟩ := listed_unique ha hb rfl
  exact ⟨h1, h2⟩

/-- C68, example: `VddLL_1231` and `VddLL_1123` are both in `sb` although the first has the opposite
flavour charges; `VddLL_1223` is not. -/
theorem C68_example : Listed (.VddLL, 1231) "sb" 91 ∧ Listed (.VddLL, 1123) "sb" 90 ∧
    charge (.VddLL, 1231) (.d, 3) = -1 ∧ charge (.VddLL, 1123) (.d, 3) = 1 ∧
    SameFlavour (.VddLL, 1231) (.VddLL, 1123) ∧ ¬SameFlavour (.VddLL, 1223) (.VddLL, 1123) :=
  ⟨at_1231.listed, at_1123.listed, by decide, by decide, (sector_iff at_1231.listed at_1123.listed).1 rfl,
    fun h => absurd ((sector_iff at_1223.listed at_1123.listed).2 h) (by decide)⟩

/-! ## C77: completeness of the tables -/

/-- C77: every component of every coefficient (allowed generation indices, not zero by symmetry) is
represented by exactly one listed coefficient, from which it follows by the symmetries of its
operator. -/
theorem C77_represented_once (k : WKey) (ix : List ℕ) (hv : Valid k ix) (h0 : ¬Vanishes k ix) :
    ∃! a : Coef, a ∈ allCoefs ∧ a.1 = k ∧ ∃ c n, Same k ix (ixOf a) c n := by
  obtain ⟨m, s, i, c, n, hl, hs⟩ := listed_complete hv h0
  refine ⟨(k, m), ⟨mem_allCoefs.2 ⟨s, i, hl⟩, rfl, c, n, hs⟩, ?_⟩
  rintro b ⟨hb, hk, c', n', hs'⟩
  exact (same_fun hb (mem_allCoefs.2 ⟨s, i, hl⟩) hk rfl hs' hs).1

/-- C77: with a definite sign, and with a definite conjugation unless the coefficient is real. -/
theorem C77_sign_unique {k : WKey} {ix : List ℕ} {a : Coef} (ha : a ∈ allCoefs) (hk : a.1 = k)
    {c n c' n' : Bool} (h : Same k ix (ixOf a) c n) (h' : Same k ix (ixOf a) c' n') :
    n = n' ∧ (c = c' ∨ IsReal a.1 (ixOf a)) := (same_fun ha ha hk hk h h').2

/-- C77: conversely, what is listed has allowed indices and does not vanish by symmetry. -/
theorem C77_listed_valid {a : Coef} {s : String} {i : ℕ} (h : Listed a s i) :
    Valid a.1 (ixOf a) ∧ ¬Vanishes a.1 (ixOf a) := ⟨h.wellNamed.1, listed_not_vanishes h⟩

/-- C77, example: the component `VddLL_2132` is represented by `VddLL_1223`, complex conjugated. -/
theorem C77_example : Valid .VddLL [2, 1, 3, 2] ∧ Same .VddLL [2, 1, 3, 2] (ixOf (.VddLL, 1223)) true false :=
  ⟨.cons (by decide) (.cons (by decide) (.cons (by decide) (.cons (by decide) .nil))),
    .step .adj (by decide) .refl⟩

/-! ## C69: generations -/

/-- C69: The anomalous dimension between two coefficients is unchanged when generations of the same
charge are permuted simultaneously in both names and in the masses; where the relabelled name is
not the one in the tables, it is expressed by it with its sign and conjugation. -/
theorem C69_generation_blind (σ : Relabel) (F : Force) (f : ℕ) {p p' : Par} (hm : NoMassless p)
    (hr : Relabelled σ p p') {a a' b b' : Coef} (ha : a ∈ allCoefs) (ha' : a' ∈ allCoefs)
    (hb : b ∈ allCoefs) (hb' : b' ∈ allCoefs) {c n c' n' : Bool} (h : σ.sym a a' c n)
    (h' : σ.sym b b' c' n') :
    mix F f p' a' b' = sgn n * sgn n' * conjIf c' (mix F f p a b) :=
  relabel_entry σ hm hr ha ha' hb hb' h h'

/-- C69: every coefficient has exactly one image. -/
theorem C69_image (σ : Relabel) {a : Coef} (ha : a ∈ allCoefs) :
    ∃ a' ∈ allCoefs, (∃ c n, σ.sym a a' c n) ∧
      ∀ b' ∈ allCoefs, (∃ c n, σ.sym a b' c n) → b' = a' := by
  obtain ⟨a', ha', c, n, h⟩ := σ.image ha
  refine ⟨a', ha', ⟨c, n, h⟩, ?_⟩
  rintro b' hb' ⟨c', n', h'⟩
  exact (σ.sym_fun ha' hb' h h').1.symm

/-- the exchange of the down and the strange quark -/
def exchangeDS : Relabel := .gen .d 0 1 (fun h => by cases h)

theorem exchangeDS_1231 : exchangeDS.sym (.VddLL, 1231) (.VddLL, 1223) true false := by
  have e : exchangeDS.act .VddLL (ixOf (.VddLL, 1231)) = [2, 1, 3, 2] := by decide
  have h : Same .VddLL [2, 1, 3, 2] (ixOf (.VddLL, 1223)) _ _ := .step (k := .VddLL) .adj (by decide) .refl
  rw [← e] at h
  exact ⟨rfl, h⟩

theorem exchangeDS_1123 : exchangeDS.sym (.VddLL, 1123) (.VddLL, 1322) false false := by
  have e : exchangeDS.act .VddLL (ixOf (.VddLL, 1123)) = [2, 2, 1, 3] := by decide
  have h : Same .VddLL [2, 2, 1, 3] (ixOf (.VddLL, 1322)) _ _ := .step (k := .VddLL) .swap (by decide) .refl
  rw [← e] at h
  exact ⟨rfl, h⟩

theorem mix_1231 (f : ℕ) (p : Par) : mix .qcd f p (.VddLL, 1231) (.VddLL, 1123) = 52 / 9 := by
  rw [mix_of at_1231 at_1123, scale_VddLL, scale_VddLL]
  have : value adm_s_sb f p.masses 91 90 = 52 / 9 := by
    have he : entry adm_s_sb 91 90 = some (.p 52 9) := by decide
    rw [value, he]
    simp [Ent.eval]
  simp only [Sec.rows]
  rw [this]
  simp

theorem mix_1223 (f : ℕ) (p : Par) : mix .qcd f p (.VddLL, 1223) (.VddLL, 1322) = 52 / 9 := by
  rw [mix_of at_1223 at_1322, scale_VddLL, scale_VddLL]
  have : value adm_s_db f p.masses 91 92 = 52 / 9 := by
    have he : entry adm_s_db 91 92 = some (.p 52 9) := by decide
    rw [value, he]
    simp [Ent.eval]
  simp only [Sec.rows]
  rw [this]
  simp

/-- some masses -/
def exPar : Par := ⟨1, 1, 2, 3, 5, 7, 11, 13, 17, 19⟩

theorem exPar_massive : NoMassless exPar := by
  intro x hx
  simp only [flavours, List.mem_cons, List.not_mem_nil, or_false] at hx
  rcases hx with rfl | rfl | rfl | rfl | rfl | rfl | rfl | rfl <;> norm_num [mass, exPar]

/-- the same with the masses of the down and the strange quark exchanged -/
def exPar' : Par := ⟨1, 1, 2, 5, 3, 7, 11, 13, 17, 19⟩

theorem exPar_relabelled : Relabelled exchangeDS exPar exPar' := by
  refine ⟨rfl, rfl, fun x hx => ?_⟩
  have h1 : exchangeDS.ix .d 1 = 2 := by decide
  have h2 : exchangeDS.ix .d 2 = 1 := by decide
  have h3 : exchangeDS.ix .d 3 = 3 := by decide
  have h4 : ∀ i ≤ 3, exchangeDS.ix .u i = i ∧ exchangeDS.ix .e i = i := by decide
  simp only [flavours, List.mem_cons, List.not_mem_nil, or_false] at hx
  rcases hx with rfl | rfl | rfl | rfl | rfl | rfl | rfl | rfl <;>
    simp [h1, h2, h3, h4, mass, exPar, exPar']

/-- C69, example: a relabelling that changes the sector and is not compatible with the naming, with
unequal masses; the anomalous dimension is not zero. -/
theorem C69_example : NoMassless exPar ∧ Relabelled exchangeDS exPar exPar' ∧ exPar ≠ exPar' ∧
    exchangeDS.sym (.VddLL, 1231) (.VddLL, 1223) true false ∧
    exchangeDS.sym (.VddLL, 1123) (.VddLL, 1322) false false ∧
    mix .qcd 5 exPar (.VddLL, 1231) (.VddLL, 1123) = 52 / 9 ∧
    mix .qcd 5 exPar' (.VddLL, 1223) (.VddLL, 1322) = 52 / 9 := by
  refine ⟨exPar_massive, exPar_relabelled, ?_, exchangeDS_1231, exchangeDS_1123, mix_1231 _ _, mix_1223 _ _⟩
  intro h
  have : (3 : ℝ) = 5 := congrArg Par.m_d h
  norm_num at this

/-! ## C81: running complex coefficients does not distinguish generations -/

/-- C81, violated: The down and the strange quark are treated differently when coefficients are complex.
With only `VddLL_1231` = i the derivative of `VddLL_1123` is 52 i/9, but after exchange of the two
quarks, with `VddLL_1223` = -i (the relabelled coefficient is its complex conjugate), that of
`VddLL_1322`, the image of `VddLL_1123`, is -52 i/9.  (`VddLL_1231` has the opposite flavour charges
of the other coefficients of its sector and should enter complex conjugated.) -/
theorem C81_generation_covariance_violation :
    ∃ (σ : Relabel) (p p' : Par) (C C' : Coef → ℂ), NoMassless p ∧ Relabelled σ p p' ∧ RealOnReal C ∧
      Transformed σ.sym C C' ∧ ¬Transformed σ.sym (rate .qcd 5 p C) (rate .qcd 5 p' C') := by
  have hnr : ∀ m, m = 1231 ∨ m = 1223 → ¬IsReal WKey.VddLL (ixOf (WKey.VddLL, m)) := by
    rintro m hm h
    have hv : Valid WKey.VddLL (ixOf (WKey.VddLL, m)) := by
      rcases hm with rfl | rfl
      · exact coef_valid at_1231.mem_all
      · exact coef_valid at_1223.mem_all
    have := (realB_iff (c := (.VddLL, m)) hv).2 h
    rcases hm with rfl | rfl <;> exact absurd this (by decide)
  have ht : Transformed exchangeDS.sym (single (.VddLL, 1231) Complex.I)
      (single (.VddLL, 1223) (sgn false * conjIf true Complex.I)) :=
    single_transformed (.inr (hnr _ (.inr rfl))) at_1231.mem_all exchangeDS_1231
      (fun x' hx' c' n' hx => by
        obtain ⟨rfl, rfl, h3⟩ := exchangeDS.sym_fun at_1223.mem_all hx' exchangeDS_1231 hx
        exact ⟨rfl, rfl, h3.imp Eq.symm id⟩)
      (fun x hx c' n' hx' => exchangeDS.sym_inj hx at_1231.mem_all hx' exchangeDS_1231)
  refine ⟨exchangeDS, exPar, exPar', _, _, exPar_massive, exPar_relabelled, ?_, ht, ?_⟩
  · intro a _ hr
    by_cases h : a = (.VddLL, 1231)
    · subst h; exact absurd hr (hnr _ (.inl rfl))
    · rw [single_ne h]; rfl
  · intro h
    have := h _ at_1123.mem_all _ at_1322.mem_all _ _ exchangeDS_1123
    rw [rate_single at_1231.mem_all, rate_single at_1223.mem_all, mix_1231, mix_1223] at this
    have := congrArg Complex.im this
    norm_num [sgn, conjIf] at this

/-- C81 for all relabellings that leave the down quark alone: the derivatives of all coefficients
transform like the coefficients.  Missing in general: the relabellings of the down quark, unless
all coefficients are real (see the next theorem and the violation). -/
theorem C81_fixing_down_partial (σ : Relabel) (h : σ.perm .d 0 = 0) (F : Force) (f : ℕ) {p p' : Par}
    (hm : NoMassless p) (hr : Relabelled σ p p') {C C' : Coef → ℂ} (hC : RealOnReal C)
    (ht : Transformed σ.sym C C') : Transformed σ.sym (rate F f p C) (rate F f p' C') :=
  cov_fix h F f p p' C C' hm hr trivial hC ht

/-- C81 for all relabellings and real coefficients. -/
theorem C81_real_partial (σ : Relabel) (F : Force) (f : ℕ) {p p' : Par} (hm : NoMassless p)
    (hr : Relabelled σ p p') {C C' : Coef → ℂ} (hC : ∀ a, (C a).im = 0)
    (ht : Transformed σ.sym C C') : Transformed σ.sym (rate F f p C) (rate F f p' C') :=
  cov_real σ F f p p' C C' hm hr hC (fun a _ _ => hC a) ht

/-- C81: the hypotheses are met by arbitrary coefficients: they always have an image. -/
theorem C81_image_exists (σ : Relabel) (C : Coef → ℂ) (hC : RealOnReal C) :
    ∃ C', Transformed σ.sym C C' := by
  obtain ⟨C', h, -⟩ := σ.exists_transformed C hC
  exact ⟨C', h⟩

/-! ## C71: parity -/

/-- C71: Exchanging left- and right-handed fields in both names maps the anomalous dimensions to
themselves, up to complex conjugation and the sign of the CP-odd gluon operator. -/
theorem C71_parity (F : Force) (f : ℕ) {p : Par} (hm : NoMassless p)
    {a a' b b' : Coef} (ha : a ∈ allCoefs) (ha' : a' ∈ allCoefs)
    (hb : b ∈ allCoefs) (hb' : b' ∈ allCoefs) {c n c' n' : Bool} (h : paritySym a a' c n)
    (h' : paritySym b b' c' n') :
    mix F f p a' b' = sgn n * sgn n' * conjIf c' (mix F f p a b) :=
  parity_entry hm ha ha' hb hb' h h'

/-- C71: the derivatives of complex coefficients transform like the coefficients. -/
theorem C71_parity_covariance (F : Force) (f : ℕ) {p : Par} {C C' : Coef → ℂ} (hm : NoMassless p)
    (hC : RealOnReal C) (hC' : RealOnReal C') (h : Transformed paritySym C C') :
    Transformed paritySym (rate F f p C) (rate F f p C') := parity_cov hm hC hC' h

/-- C71, example: the images of two coefficients that mix. -/
theorem C71_example : paritySym (.VddLL, 1231) (.VddRR, 1231) false false ∧
    paritySym (.VddLL, 1123) (.VddRR, 1123) false false ∧
    mix .qcd 5 exPar (.VddLL, 1231) (.VddLL, 1123) ≠ 0 := by
  refine ⟨⟨_, _, _, _, rfl, rfl, _, _, .refl, rfl, rfl⟩, ⟨_, _, _, _, rfl, rfl, _, _, .refl, rfl, rfl⟩, ?_⟩
  rw [mix_1231]
  norm_num

/-! ## C76: rephasing of the quark and lepton fields -/

/-- C76, violated: rephasing the strange quark field changes the mixing of `VddLL_1231`. -/
theorem C76_rephasing_violation :
    ∃ (φ : Sp × ℕ → ℂ) (C : Coef → ℂ) (b : Coef), (∀ x, ‖φ x‖ = 1) ∧ b ∈ allCoefs ∧
      rate .qcd 5 exPar (fun a => rephase φ a * C a) b ≠ rephase φ b * rate .qcd 5 exPar C b := by
  let φ : Sp × ℕ → ℂ := fun x => if x = (.d, 2) then Complex.I else 1
  have hre : ∀ a : Coef, rephase φ a = Complex.I ^ charge a (.d, 2) := by
    intro a
    simp [rephase, allFlavours, flavours, φ]
  refine ⟨φ, single (.VddLL, 1231) 1, (.VddLL, 1123), ?_, at_1123.mem_all, ?_⟩
  · intro x
    dsimp only [φ]
    split <;> simp
  · have e : (fun a => rephase φ a * single (.VddLL, 1231) 1 a) = single (.VddLL, 1231) (rephase φ (.VddLL, 1231)) := by
      funext a
      unfold single
      split
      · next h => rw [h, mul_one]
      · rw [mul_zero]
    rw [e, rate_single at_1231.mem_all, rate_single at_1231.mem_all, mix_1231, hre, hre]
    have h1 : charge (.VddLL, 1231) (.d, 2) = 1 := by decide
    have h2 : charge (.VddLL, 1123) (.d, 2) = -1 := by decide
    rw [h1, h2, zpow_neg, zpow_one, Complex.inv_I]
    intro h
    have := congrArg Complex.im h
    norm_num at this

theorem not_wrong {a : Coef} (h1 : a ≠ (.VddLL, 1231)) (h2 : a ≠ (.VddRR, 1231)) : wrong a = false := by
  obtain ⟨k, m⟩ := a
  cases hw : wrong (k, m)
  · rfl
  · exfalso
    by_cases hm : m = 1231
    · subst hm
      cases k <;> first
        | exact h1 rfl
        | exact h2 rfl
        | cases hw
    · have : Nat.beq m 1231 = false := by
        cases hb : Nat.beq m 1231
        · rfl
        · exact absurd (Nat.eq_of_beq_eq_true hb) hm
      cases k <;> first
        | cases hw
        | exact absurd (this.symm.trans hw) (by decide)

/-- C76: Apart from `VddLL_1231` and `VddRR_1231`, the derivatives of the coefficients acquire the same
factors as the coefficients when the fields of the individual flavours (quarks, charged leptons and
neutrinos) are rephased.  Missing: these two coefficients. -/
theorem C76_rephasing_partial (F : Force) (f : ℕ) (p : Par) (φ : Sp × ℕ → ℂ) (C : Coef → ℂ)
    (hL : C (.VddLL, 1231) = 0) (hR : C (.VddRR, 1231) = 0) {b : Coef} (hb : b ∈ allCoefs)
    (hbL : b ≠ (.VddLL, 1231)) (hbR : b ≠ (.VddRR, 1231)) :
    rate F f p (fun a => rephase φ a * C a) b = rephase φ b * rate F f p C b := by
  rw [rate_eq, rate_eq, Finset.mul_sum]
  refine Finset.sum_congr rfl fun a ha => ?_
  have ha := List.mem_toFinset.1 ha
  by_cases h1 : a = (.VddLL, 1231)
  · rw [h1, hL]; simp
  by_cases h2 : a = (.VddRR, 1231)
  · rw [h2, hR]; simp
  by_cases h0 : mix F f p a b = 0
  · rw [h0]; simp
  have := charge_entry ha hb (not_wrong h1 h2) (not_wrong hbL hbR) h0
  have e : rephase φ a = rephase φ b := by
    unfold rephase
    congr 1
    refine List.map_congr_left fun x hx => ?_
    rw [this x hx]
  rw [e]
  ring

/-- C76: in particular only coefficients whose operators change the same flavours mix. -/
theorem C76_charge_conservation_partial (F : Force) (f : ℕ) (p : Par) {a b : Coef} (ha : a ∈ allCoefs)
    (hb : b ∈ allCoefs) (hwa : a ≠ (.VddLL, 1231) ∧ a ≠ (.VddRR, 1231))
    (hwb : b ≠ (.VddLL, 1231) ∧ b ≠ (.VddRR, 1231)) (h : mix F f p a b ≠ 0) :
    ∀ x ∈ allFlavours, charge a x = charge b x := by
  exact charge_entry ha hb (not_wrong hwa.1 hwa.2) (not_wrong hwb.1 hwb.2) h

/-- C76, example: two coefficients that mix and carry flavour charges. -/
theorem C76_example : mix .qcd 5 exPar (.VddLL, 1223) (.VddLL, 1322) ≠ 0 ∧
    charge (.VddLL, 1223) (.d, 3) = 1 ∧ charge (.VddLL, 1322) (.d, 3) = 1 := by
  refine ⟨?_, by decide, by decide⟩
  rw [mix_1223]
  norm_num

/-! ## C78: Hermitian operators keep real coefficients -/

/-- C78: If the coefficients of all Hermitian operators are real, so are their derivatives. -/
theorem C78_hermitian_stays_real (F : Force) (f : ℕ) (p : Par) {C : Coef → ℂ} (h : RealOnReal C) :
    RealOnReal (rate F f p C) := rate_real h

/-- C78, example: `VddLL_1221` is the coefficient of a Hermitian operator, `VddLL_1231` is not. -/
theorem C78_example : IsReal .VddLL (ixOf (.VddLL, 1221)) ∧ ¬IsReal .VddLL (ixOf (.VddLL, 1231)) := by
  constructor
  · have h1 : Same .VddLL [1, 2, 2, 1] [2, 1, 1, 2] false false := .step (k := .VddLL) .swap (by decide) .refl
    exact .step (k := .VddLL) .adj (by decide) h1
  · intro h
    have := (realB_iff (c := (.VddLL, 1231)) (coef_valid at_1231.mem_all)).2 h
    exact absurd this (by decide)

/-! ## C79: running does not fail -/

section
variable (eig : (n : ℕ) → Matrix (Fin n) (Fin n) ℂ → (Fin n → ℂ) × Matrix (Fin n) (Fin n) ℂ)
  (basisKeys : ℕ → String → Except Exc (List String))

/-- C79: With the tables of the package, running any of its sectors returns a result and does not raise
an exception, whatever the coefficients, scales, masses and couplings, with and without QCD and
QED, with 5 flavours, and with 3 and 4 flavours if the JMS basis has the sectors. -/
theorem C79_running_succeeds {s : String} (hs : s ∈ Dict.keys sectorTable) {f : ℕ}
    (hf : f = 5 ∨ (f = 3 ∨ f = 4) ∧ ∀ s, s ∈ Dict.keys sectorTable → ∃ b, basisKeys f s = .ok b)
    (C : Dict String ℂ) (eta : ℝ) (p p' : Par) {qed qcd : ℕ} (hqed : qed = 0 ∨ qed = 1)
    (hqcd : qcd = 0 ∨ qcd = 1) :
    ∃ d, runSector (backend eig basisKeys) s C eta f p p' qed qcd = .ok d :=
  run_total eig basisKeys hs hf C eta p p' hqed hqcd

/-- C79: the tables of the package are well formed, as the theorems on the running (C49-C53) require. -/
theorem C79_tables : Tables (backend eig basisKeys) := backend_tables eig basisKeys

/-- C79, example -/
theorem C79_example : "sb" ∈ Dict.keys sectorTable := by decide

end

/-! ## C80: QCD does not renormalise conserved currents -/

section
variable {eig : (n : ℕ) → Matrix (Fin n) (Fin n) ℂ → (Fin n → ℂ) × Matrix (Fin n) (Fin n) ℂ}
  {basisKeys : ℕ → String → Except Exc (List String)}

/-- C80: Running without QED leaves the coefficients of four-lepton operators and of products of a quark
and a lepton vector current as they are, whatever else is non-zero. -/
theorem C80_inert_unchanged {s cls : String} {j : ℕ} {b : Coef} (hb : Listed b s j)
    (hin : ColourInert b.1) (hcls : Dict.get? sectorTable s = some cls) {f : ℕ} {p p' : Par}
    (hD : ∀ n M, QcdAdm (backend eig basisKeys) cls f p.masses n M →
      Diagonalises M.transpose (eig n M.transpose))
    {C d : Dict String ℂ} {eta : ℝ} {qcd : ℕ}
    (h : runSector (backend eig basisKeys) s C eta f p p' 0 qcd = .ok d)
    (hk : nameOf b ∈ d.keys) : val d (nameOf b) = val C (nameOf b) :=
  inert_run hb hin hcls hD h hk

/-- C80: the QCD anomalous dimensions of these coefficients vanish. -/
theorem C80_inert_anomalous_dimension {a b : Coef} (f : ℕ) (p : Par) (ha : a ∈ allCoefs)
    (hb : b ∈ allCoefs) (h : ColourInert b.1) : mix .qcd f p a b = 0 := inert_mix ha hb h

/-- an eigendecomposition of diagonal matrices -/
def diagEig (n : ℕ) (M : Matrix (Fin n) (Fin n) ℂ) : (Fin n → ℂ) × Matrix (Fin n) (Fin n) ℂ :=
  (fun i => M i i, 1)

/-- C80, example: the sector of b → u e ν, whose scalar and tensor coefficients do run. -/
theorem C80_example (f : ℕ) (p : Par) : Listed (.VnueduLL, 1131) "ubenu" 9 ∧ ColourInert .VnueduLL ∧
    Dict.get? sectorTable "ubenu" = some "II" ∧
    (∀ n M, QcdAdm (backend diagEig basisKeys) "II" f p.masses n M →
      Diagonalises M.transpose (diagEig n M.transpose)) ∧
    mix .qcd f p (.SnueduRL, 1131) (.SnueduRL, 1131) = -8 := by
  refine ⟨⟨c_ubenu, List.mem_of_getElem? (i := 55) rfl, rfl⟩,
    .inr ⟨.nu, .e, .d, .u, .L, .L, rfl, .inl ?_⟩, cls_ubenu, ?_, ?_⟩
  · simp [Sp.Lepton]
  · rintro n M ⟨A, hA, hM⟩
    change admOf admSTable "II" f p.masses = _ at hA
    unfold admOf at hA
    rw [getS_II] at hA
    obtain rfl := Except.ok.inj hA
    unfold reduce permissible at hM
    rw [if_pos (.inl (by decide))] at hM
    have hM := Except.ok.inj hM
    cases hM
    refine ⟨isUnit_one, ?_⟩
    dsimp only [diagEig]
    rw [mul_one, one_mul]
    ext i j
    rw [Matrix.diagonal_apply]
    change value adm_s_II f p.masses j i = if i = j then value adm_s_II f p.masses i i else 0
    split
    · next h => rw [h]
    · next h =>
      have key : ∀ i j : Fin 15, i ≠ j → entry adm_s_II j i = none := by decide
      rw [value]
      have := key i j h
      rw [this]
  · have hAt : At (.SnueduRL, 1131) "ubenu" 0 55 ⟨c_ubenu, adm_e_II, adm_s_II, secs[55].ms, secs[55].cn⟩ :=
      ⟨⟨_, rfl⟩, rfl, rfl, _, cls_ubenu, getE_II, getS_II⟩
    rw [mix_of hAt hAt]
    have he : entry adm_s_II 0 0 = some (.n 8 1) := by decide
    simp only [Sec.rows, value, he, Ent.eval, scale, gfac, massOf, mprod]
    norm_num

end

end Verif.WetTab
