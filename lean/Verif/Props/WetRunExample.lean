import Verif.Props.WetRun
import Verif.Props.Qcd
import Mathlib.Tactic.FinCases
import Mathlib.Tactic.LinearCombination

/-!
# A concrete backend meeting the hypotheses of the WET running theorems (C49-C53, C70)

Two coefficients that mix under QCD and QED in the sector `sb`, one coefficient in an invariant
sector; WET-3 drops one of the `sb` coefficients.
-/

open Classical

set_option autoImplicit false
set_option linter.unusedSimpArgs false

namespace Verif.WetRun.Example

/-- QCD anomalous dimension of the example: non-diagonal -/
noncomputable def γs : Matrix (Fin 2) (Fin 2) ℂ := !![4, 0; -12, -8]
/-- QED anomalous dimension of the example -/
noncomputable def γe : Matrix (Fin 2) (Fin 2) ℂ := !![0, 1; 2, 3]

/-- some eigendecomposition, if there is one -/
noncomputable def eig (n : ℕ) (M : Matrix (Fin n) (Fin n) ℂ) :
    (Fin n → ℂ) × Matrix (Fin n) (Fin n) ℂ :=
  if h : ∃ wv, Diagonalises M wv then h.choose else (0, 1)

/-- the example backend -/
noncomputable def B : Backend where
  sectors := [("sb", "sb"), ("nunu", "inv")]
  coeffs := [("sb", ["V_1", "V_2"]), ("nunu", ["N"])]
  admS := fun c _ _ => if c = "sb" then .ok ⟨2, γs⟩ else .error .attributeError
  admE := fun c _ _ => if c = "sb" then .ok ⟨2, γe⟩ else .error .attributeError
  eig := eig
  basisKeys := fun _ s => if s = "sb" then .ok ["V_2"] else .error .keyError

theorem tables : Tables B where
  nodup := by
    intro s l h
    simp only [B, Dict.get?_cons, Dict.get?_nil] at h
    split_ifs at h
    all_goals simp only [Option.some.injEq] at h; subst h; simp
  disjoint := by
    intro s s' l l' h h' hne
    simp only [B, Dict.get?_cons, Dict.get?_nil] at h h'
    split_ifs at h h'
    all_goals
      first
      | (exfalso; apply hne; simp_all; done)
      | (simp only [Option.some.injEq] at h h'; subst h; subst h'; simp)
  noDF0 := by
    simp [B, Dict.get?_cons, Dict.get?_nil]
  aligned := by
    intro s c h
    simp only [B, Dict.get?_cons, Dict.get?_nil] at h
    split_ifs at h with h1 h2
    · simp only [Option.some.injEq] at h; subst h; subst h1; left; decide
    · simp only [Option.some.injEq] at h; subst h; subst h2; right; decide

theorem diag : ∃ wv, Diagonalises γs.transpose wv := by
  refine ⟨(![4, -8], !![1, 1; 0, 1]), ?_, ?_⟩
  · rw [Matrix.isUnit_iff_isUnit_det]
    simp [Matrix.det_fin_two]
  · funext i j
    fin_cases i <;> fin_cases j <;>
      simp [γs, Matrix.mul_apply, Fin.sum_univ_two, Matrix.diagonal]
    norm_num

/-- with five flavours the hypotheses on the eigendecomposition hold -/
theorem eigOK (m : Masses) : EigOK B 5 m := by
  rintro cls n M ⟨A, hA, hM⟩
  simp only [B] at hA
  split_ifs at hA
  injection hA with hA
  subst hA
  have : reduce B cls 5 ⟨2, γs⟩ = .ok ⟨2, γs⟩ := by
    unfold reduce permissible
    rw [if_pos (Or.inr rfl)]
    rfl
  rw [this] at hM
  injection hM with hM
  obtain ⟨rfl, hM⟩ := Mat.mk.injEq .. ▸ hM
  have hM := eq_of_heq hM
  subst hM
  show Diagonalises _ (eig 2 γs.transpose)
  unfold eig
  rw [dif_pos diag]
  exact diag.choose_spec

theorem kept (k : String) (h : k = "V_1" ∨ k = "V_2") : Kept B "sb" 5 k :=
  .all ["V_1", "V_2"] rfl (by rcases h with rfl | rfl <;> simp) (Or.inr rfl)

theorem kept3 : Kept B "sb" 3 "V_2" :=
  .reduced ["V_1", "V_2"] ["V_2"] rfl (by simp) (by decide) (Or.inl rfl) (by simp [B]) (by simp)

theorem scale1 (p : Par) (k : String) (h : k = "V_1" ∨ k = "V_2") : scaleC k p = .ok 1 := by
  have h1 : ∀ k, k = "V_1" ∨ k = "V_2" → (EFT.Util.splitUS k.toList).headD [] ∉ qG ∧
      (EFT.Util.splitUS k.toList).headD [] ∉ fgamma ∧ k.toList ∉ G3 := by
    rintro k (rfl | rfl) <;> decide
  obtain ⟨a, b, c⟩ := h1 k h
  unfold scaleC
  rw [if_neg a, if_neg b, if_neg c]

/-- every run of the `sb` sector with five flavours succeeds -/
theorem run_ok (C : Dict String ℂ) (eta : ℝ) (p p' : Par) (qed qcd : ℕ) (h1 : qed = 0 ∨ qed = 1)
    (h2 : qcd = 0 ∨ qcd = 1) : ∃ d, runSector B "sb" C eta 5 p p' qed qcd = .ok d := by
  have hc : lookup B.sectors "sb" = .ok "sb" := rfl
  have hk : keylist B "sb" 5 = .ok ["V_1", "V_2"] := by
    unfold keylist permissible
    rw [if_pos (Or.inr rfl)]
    rfl
  have hs : ∀ p, scales ["V_1", "V_2"] p = .ok [1, 1] := by
    intro p
    unfold scales
    rw [List.mapM_cons, scale1 p _ (Or.inl rfl), List.mapM_cons, scale1 p _ (Or.inr rfl)]
    rfl
  have hr : ∀ M : Matrix (Fin 2) (Fin 2) ℂ, reduce B "sb" 5 ⟨2, M⟩ = .ok ⟨2, M⟩ := by
    intro M
    unfold reduce permissible
    rw [if_pos (Or.inr rfl)]
    rfl
  have ha : admeig B "sb" 5 p.masses = .ok ⟨2, eig 2 γs.transpose⟩ := by
    unfold admeig
    have : B.admS "sb" 5 p.masses = .ok ⟨2, γs⟩ := by simp [B]
    rw [this]
    simp only [bind, Except.bind, hr]
    rfl
  have hU : ∃ U, evolution B "sb" eta 5 p qed qcd 2 = .ok U := by
    have e1 : ∃ U, usPart B "sb" eta 5 p qcd 2 = .ok U := by
      unfold usPart getUs
      rcases h2 with rfl | rfl
      · exact ⟨_, rfl⟩
      · rw [ha]
        exact ⟨_, rfl⟩
    have e2 : ∃ U, uePart B "sb" eta 5 p qed qcd 2 = .ok U := by
      unfold uePart getUe
      rcases h1 with rfl | rfl
      · exact ⟨_, rfl⟩
      · have : B.admE "sb" 5 p.masses = .ok ⟨2, γe⟩ := by simp [B]
        rw [this]
        simp only [bind, Except.bind, hr, ha]
        exact ⟨_, rfl⟩
    obtain ⟨U1, e1⟩ := e1
    obtain ⟨U2, e2⟩ := e2
    unfold evolution
    rw [e1, e2]
    exact ⟨_, rfl⟩
  obtain ⟨U, hU⟩ := hU
  rw [runSector_eq, hc, hk]
  simp only [bind, Except.bind]
  split_ifs
  · exact ⟨_, rfl⟩
  · unfold evolved
    rw [hs, hs]
    simp only [bind, Except.bind]
    have hU' : evolution B "sb" eta 5 p qed qcd ["V_1", "V_2"].length = .ok U := hU
    rw [hU']
    exact ⟨_, rfl⟩

/-- physical parameters -/
noncomputable def par (a : ℝ) : Par := ⟨a, 1/128, 1/500, 1/200, 1/10, 1, 4, 1/2000, 1/10, 2⟩

theorem par_pos (a : ℝ) (ha : 0 < a) : (par a).Positive := by
  unfold Par.Positive par
  norm_num
  exact ha

/-- two inputs and their sum -/
noncomputable example : ∃ d₁ d₂ d₃,
    runSector B "sb" [("V_1", 1)] 2 5 (par (1/5)) (par (1/10)) 1 1 = .ok d₁ ∧
    runSector B "sb" [("V_2", Complex.I)] 2 5 (par (1/5)) (par (1/10)) 1 1 = .ok d₂ ∧
    runSector B "sb" [("V_1", 3), ("V_2", Complex.I), ("N", 7)] 2 5 (par (1/5)) (par (1/10)) 1 1
      = .ok d₃ ∧ ∀ k, val d₃ k = 3 * val d₁ k + 1 * val d₂ k := by
  obtain ⟨d₁, h₁⟩ := run_ok [("V_1", 1)] 2 (par (1/5)) (par (1/10)) 1 1 (Or.inr rfl) (Or.inr rfl)
  obtain ⟨d₂, h₂⟩ := run_ok [("V_2", Complex.I)] 2 (par (1/5)) (par (1/10)) 1 1 (Or.inr rfl) (Or.inr rfl)
  obtain ⟨d₃, h₃, h⟩ := C49_superposition tables "sb" _ _ [("V_1", 3), ("V_2", Complex.I), ("N", 7)]
    d₁ d₂ 3 1 2 5 _ _ 1 1 h₁ h₂ (by
      intro k hk
      have : k = "V_1" ∨ k = "V_2" := by
        rcases hk with ⟨l, hl, hk, -⟩ | ⟨l, b, hl, hk, -, hf, -⟩
        · have : l = ["V_1", "V_2"] := by
            have h0 : B.coeffs.get? "sb" = some ["V_1", "V_2"] := rfl
            rw [h0] at hl; injection hl with hl; exact hl.symm
          subst this; simpa using hk
        · omega
      rcases this with rfl | rfl <;> simp [val, Dict.get?_cons, Dict.get?_nil])
  exact ⟨d₁, d₂, d₃, h₁, h₂, h₃, h⟩

/-- running to the same scale -/
example (d : Dict String ℂ)
    (h : runSector B "sb" [("V_1", 3), ("V_2", Complex.I)] 1 5 (par (1/5)) (par (1/5)) 1 1 = .ok d) :
    d.get? "V_2" = some Complex.I := by
  rw [C50_same_scale tables "sb" _ d 5 _ (par_pos _ (by norm_num)) (eigOK _) 1 1 h "V_2"
    (kept _ (Or.inr rfl))]
  simp [val, Dict.get?_cons, Dict.get?_nil]

/-- composition: all hypotheses are met for `α_s = 1/5 → 1/8 → 1/10` -/
example : ∃ d₁ d₂ d,
    runSector B "sb" [("V_1", 3), ("V_2", Complex.I)] ((1/5) / (1/8)) 5 (par (1/5)) (par (1/8)) 0 1
      = .ok d₁ ∧
    runSector B "sb" d₁ ((1/8) / (1/10)) 5 (par (1/8)) (par (1/10)) 0 1 = .ok d₂ ∧
    runSector B "sb" [("V_1", 3), ("V_2", Complex.I)] ((1/5) / (1/10)) 5 (par (1/5)) (par (1/10)) 0 1
      = .ok d ∧ ∀ k, d.get? k = d₂.get? k := by
  obtain ⟨d₁, h₁⟩ := run_ok [("V_1", 3), ("V_2", Complex.I)] ((1/5) / (1/8)) (par (1/5)) (par (1/8))
    0 1 (Or.inl rfl) (Or.inr rfl)
  obtain ⟨d₂, h₂⟩ := run_ok d₁ ((1/8) / (1/10)) (par (1/8)) (par (1/10)) 0 1 (Or.inl rfl) (Or.inr rfl)
  obtain ⟨d, h, hd⟩ := C50_composition tables "sb" _ d₁ d₂ 5 (par (1/5)) (par (1/8)) (par (1/10))
    (par_pos _ (by norm_num)) (par_pos _ (by norm_num)) (par_pos _ (by norm_num)) (eigOK _)
    (fun _ => rfl) h₁ h₂ (by
      intro k hk
      rcases hk with ⟨l, hl, hk, -⟩ | ⟨l, b, hl, hk, -, hf, -⟩
      · have h0 : B.coeffs.get? "sb" = some ["V_1", "V_2"] := rfl
        rw [h0] at hl; injection hl with hl; subst hl
        exact ⟨1, scale1 _ _ (by simpa using hk)⟩
      · omega)
  exact ⟨d₁, d₂, d, h₁, h₂, h, hd⟩

theorem lookup_sb : lookup B.coeffs "sb" = .ok ["V_1", "V_2"] := rfl

/-- three flavours: only the second coefficient is kept, and the reduced ADM is its diagonal entry -/
example : ∃ M : Matrix (Fin 1) (Fin 1) ℂ, reduce B "sb" 3 ⟨2, γs⟩ = .ok ⟨1, M⟩ ∧ M 0 0 = -8 := by
  have hp : permissible B "sb" 3 = .ok (some [1]) := by
    unfold permissible
    rw [if_neg (by decide), if_neg (by decide)]
    have : B.basisKeys 3 (if ("sb" : String) = "dF0" then "dF=0" else "sb") = .ok ["V_2"] := by
      simp [B]
    simp only [bind, Except.bind, this]
    rfl
  have hk : keylist B "sb" 3 = .ok ["V_2"] := by
    unfold keylist
    rw [lookup_sb]
    have : (if ("sb" : String) = "dF=0" then "dF0" else "sb") = "sb" := by decide
    simp only [bind, Except.bind, this, hp]
    rfl
  obtain ⟨-, M, h1, h2⟩ := C52_alignment tables "sb" "sb" 3 ["V_1", "V_2"] ["V_2"] ["V_2"] rfl rfl
    (Or.inl rfl) (by decide) (by simp [B]) hk ⟨2, γs⟩ rfl
  exact ⟨M, h1, by rw [h2 0 0 (1 : Fin 2) (1 : Fin 2) rfl rfl]; simp [γs]⟩

theorem reduce5 (M : Matrix (Fin 2) (Fin 2) ℂ) : reduce B "sb" 5 ⟨2, M⟩ = .ok ⟨2, M⟩ := by
  unfold reduce permissible
  rw [if_pos (Or.inr rfl)]
  rfl

theorem admeig5 (m : Masses) : admeig B "sb" 5 m = .ok ⟨2, eig 2 γs.transpose⟩ := by
  unfold admeig
  have : B.admS "sb" 5 m = .ok ⟨2, γs⟩ := by simp [B]
  rw [this]
  simp only [bind, Except.bind, reduce5]
  rfl

/-- the evolution matrices of the example solve the renormalisation group equations -/
example : ∃ Us Ue : ℝ → Matrix (Fin 2) (Fin 2) ℂ, Us (1/5) = 1 ∧ Ue (1/5) = 0 ∧
    (∀ x : ℝ, 0 < x → HasDerivAt (fun y => Us y 0 1)
      ((-(1 / (2 * (11 - 2 * ((5 : ℕ) : ℂ) / 3) * x)) • (γs.transpose * Us x)) 0 1) x) ∧
    (∀ x : ℝ, 0 < x → HasDerivAt (fun y => Ue y 0 1)
      ((-(1 / (2 * (11 - 2 * ((5 : ℕ) : ℂ) / 3) * x)) • (γs.transpose * Ue x
        + (((1/128 : ℝ) : ℂ) / x) • (γe.transpose * Us x))) 0 1) x) := by
  have hs : QcdAdm B "sb" 5 (par (1/5)).masses 2 γs := ⟨⟨2, γs⟩, by simp [B], reduce5 _⟩
  have he : QedAdm B "sb" 5 (par (1/5)).masses 2 γe := ⟨⟨2, γe⟩, by simp [B], reduce5 _⟩
  have e1 : ∀ x, usPart B "sb" ((par (1/5)).alpha_s / x) 5 (par (1/5)) 1 2
      = .ok (usMatrix (eig 2 γs.transpose).1 (eig 2 γs.transpose).2 ((par (1/5)).alpha_s / x) 5) := by
    intro x
    unfold usPart getUs
    rw [admeig5]
    rfl
  have e2 : ∀ x, uePart B "sb" ((par (1/5)).alpha_s / x) 5 (par (1/5)) 1 1 2
      = .ok (ueMatrix (eig 2 γs.transpose).1 (eig 2 γs.transpose).2 γe
          ((par (1/5)).alpha_s / x) 5 (par (1/5))) := by
    intro x
    unfold uePart getUe
    have : B.admE "sb" 5 (par (1/5)).masses = .ok ⟨2, γe⟩ := by simp [B]
    rw [this]
    simp only [bind, Except.bind, reduce5, admeig5]
    rfl
  obtain ⟨a1, a2⟩ := C70_qcd "sb" 5 (par (1/5)) (by norm_num [par]) 2 γs hs (eigOK _ _ _ _ hs) _ e1
  obtain ⟨b1, b2⟩ := C70_qed "sb" 5 (par (1/5)) (by norm_num [par]) 2 γs γe hs (eigOK _ _ _ _ hs) he _ _ e1 e2
  exact ⟨_, _, a1, b1, fun x hx => a2 x hx 0 1, fun x hx => b2 x hx 0 1⟩

/-- a RunDec returning 1 everywhere -/
noncomputable def R : Qcd.RunDec where
  alphasExact := fun _ _ _ _ _ => 1
  alL2AlH := fun _ _ _ _ _ => 1
  alH2AlL := fun _ _ _ _ _ => 1
  mMS2mMS := fun _ _ _ _ _ => 1
  mH2mL := fun _ _ _ _ _ _ => 1
  mL2mH := fun _ _ _ _ _ _ => 1

theorem sane_ok (x : ℝ) (f : ℕ) (hx : 0 < x) (hf : 3 ≤ f ∧ f ≤ 6) : Qcd.sane x f = .ok () := by
  unfold Qcd.sane
  rw [if_neg (by linarith), if_neg (by omega)]

theorem alphaS_ok (x a : ℝ) (f : ℕ) (hx : 0 < x) (hf : f = 3 ∨ f = 4 ∨ f = 5) :
    ∃ r, Qcd.alphaS R x f a 3 = .ok r := by
  unfold Qcd.alphaS
  by_cases h : x = Qcd.MZ ∧ f = 5
  · rw [if_pos h]; exact ⟨_, rfl⟩
  · rw [if_neg h, sane_ok x f hx (by omega)]
    refine ⟨1, ?_⟩
    rcases hf with rfl | rfl | rfl <;> simp [bind, Except.bind, pure, Except.pure, R]

theorem runningPar_ok (x : ℝ) (hx : 0 < x) (P : Par) (hb : 0 < P.m_b) (hc : 0 < P.m_c) :
    ∃ p, runningPar R P x 5 = .ok p := by
  obtain ⟨a, ha⟩ := alphaS_ok x P.alpha_s 5 hx (by omega)
  obtain ⟨ab, hab⟩ := alphaS_ok P.m_b P.alpha_s 5 hb (by omega)
  obtain ⟨ac, hac⟩ := alphaS_ok P.m_c P.alpha_s 4 hc (by omega)
  obtain ⟨a2, ha2⟩ := alphaS_ok 2 P.alpha_s 3 (by norm_num) (by omega)
  obtain ⟨am, ham⟩ := alphaS_ok 1.3 P.alpha_s 4 (by norm_num) (by omega)
  have h1 : ∃ r, Qcd.mB R P.m_b x 5 P.alpha_s 3 = .ok r := by
    unfold Qcd.mB
    by_cases h : x = P.m_b ∧ 5 = 5
    · rw [if_pos h]; exact ⟨_, rfl⟩
    · rw [if_neg h, sane_ok x 5 hx (by omega), hab, ha]; exact ⟨_, rfl⟩
  have h2 : ∃ r, Qcd.mC R P.m_c x 5 P.alpha_s 3 = .ok r := by
    unfold Qcd.mC
    by_cases h : x = P.m_c
    · rw [if_pos h]; exact ⟨_, rfl⟩
    · rw [if_neg h, sane_ok x 5 hx (by omega), hac]; exact ⟨_, rfl⟩
  have h3 : ∀ m, ∃ r, Qcd.mS R m x 5 P.alpha_s 3 = .ok r := by
    intro m
    unfold Qcd.mS
    rw [if_neg (by omega), sane_ok x 5 hx (by omega), ha2]
    simp only [bind, Except.bind, ham]
    exact ⟨_, rfl⟩
  obtain ⟨b, h1⟩ := h1
  obtain ⟨c, h2⟩ := h2
  obtain ⟨s, hs⟩ := h3 P.m_s
  obtain ⟨u, hu⟩ := h3 P.m_u
  obtain ⟨d, hd⟩ := h3 P.m_d
  unfold runningPar
  rw [ha, h1, h2, hs, hu, hd]
  exact ⟨_, rfl⟩

/-- a complete run of the example: the invariant sector stays as it is -/
noncomputable example : ∃ out, run B R (par (1/10)) ["sb", "nunu"] ["V_1", "V_2", "N"]
    { eft := "WET", basis := "JMS", scale := 80, values := [("V_1", .num 3), ("N", .num 7)] }
    1 1 4 .all = .ok out ∧ out.eft = "WET" ∧ out.scale = 4 ∧ out.getItem "N" = 7 := by
  obtain ⟨p, hp⟩ := runningPar_ok 80 (by norm_num) (par (1/10)) (by norm_num [par]) (by norm_num [par])
  obtain ⟨p', hp'⟩ := runningPar_ok 4 (by norm_num) (par (1/10)) (by norm_num [par]) (by norm_num [par])
  obtain ⟨wc, hwc⟩ : ∃ wc : WC, wc = { eft := "WET", basis := "JMS", scale := 80, values := [("V_1", .num 3), ("N", .num 7)] } := ⟨_, rfl⟩
  have h7 : wc.getItem "N" = 7 := by
    subst hwc; simp [WC.getItem, WC.dict, Dict.mapVal, Dict.get?_cons, Val.toNumber]
  obtain ⟨d, hd⟩ := run_ok wc.dict (p.alpha_s / p'.alpha_s) p p' 1 1 (Or.inr rfl) (Or.inr rfl)
  have hn : ∃ d', runSector B "nunu" wc.dict (p.alpha_s / p'.alpha_s) 5 p p' 1 1 = .ok d' := by
    rw [runSector_eq, show lookup B.sectors "nunu" = .ok "inv" from rfl]
    have : keylist B "nunu" 5 = .ok ["N"] := by
      unfold keylist permissible
      rw [if_pos (Or.inr rfl)]
      rfl
    rw [this]
    simp only [bind, Except.bind]
    rw [if_pos (Or.inr trivial)]
    exact ⟨_, rfl⟩
  obtain ⟨d', hd'⟩ := hn
  have hrun : ∃ out, run B R (par (1/10)) ["sb", "nunu"] ["V_1", "V_2", "N"] wc 1 1 4 .all = .ok out := by
    have e1 : wc.basis = "JMS" := by rw [hwc]
    have e2 : flavours wc.eft = .ok 5 := by rw [hwc]; rfl
    have e3 : wc.scale = 80 := by rw [hwc]
    unfold run runDict
    rw [if_neg (by simp [e1]), e2, e3]
    simp only [bind, Except.bind, hp, hp']
    have k1 : "sb" ∈ B.sectors.keys := by decide
    have k2 : "nunu" ∈ B.sectors.keys := by decide
    simp only [loop, if_pos (And.intro k1 (show Requested .all "sb" from trivial)),
      if_pos (And.intro k2 (show Requested .all "nunu" from trivial)), hd, hd', bind, Except.bind]
    exact ⟨_, rfl⟩
  obtain ⟨out, hout⟩ := hrun
  have c := C53_contract tables R _ _ _ _ out _ _ _ _ hout
  have v := C53_invariant_sectors tables R _ _ _ _ out _ _ _ _ hout "nunu" (by simp) rfl trivial 5
    (by rw [hwc]; rfl) "N" (.all ["N"] rfl (by simp) (Or.inr rfl)) (by simp)
  subst hwc
  exact ⟨out, hout, c.1, c.2.2.1, v.trans h7⟩

/-! ### QED running does something when QCD is on (C51) -/

/-- one coefficient with QED running only -/
noncomputable def Q : Backend where
  sectors := [("tau", "tau")]
  coeffs := [("tau", ["T"])]
  admS := fun _ _ _ => .ok ⟨1, 0⟩
  admE := fun _ _ _ => .ok ⟨1, 1⟩
  eig := fun _ _ => (0, 1)
  basisKeys := fun _ _ => .error .keyError

end Verif.WetRun.Example

namespace Verif.WetRun

/-- C51 (violation, witness): there are inputs whose QED running is non-trivial (it changes the
coefficient when QCD running is on) but is dropped with `qcd_order = 0`. -/
theorem C51_effect_lost_violation : ∃ (B : Backend) (s k : String) (C : Dict String ℂ) (p p' : Par) (d d₀ : Dict String ℂ),
    Tables B ∧ p.Positive ∧ p'.Positive ∧
    runSector B s C (p.alpha_s / p'.alpha_s) 5 p p' 1 1 = .ok d ∧ val d k ≠ val C k ∧
    runSector B s C (p.alpha_s / p'.alpha_s) 5 p p' 1 0 = .ok d₀ ∧ val d₀ k = val C k := by
  have hk : keylist Example.Q "tau" 5 = .ok ["T"] := by
    unfold keylist permissible
    rw [if_pos (Or.inr rfl)]
    rfl
  have hs : ∀ p, scales ["T"] p = .ok [1] := by
    intro p
    have h1 : (EFT.Util.splitUS "T".toList).headD [] ∉ qG ∧
      (EFT.Util.splitUS "T".toList).headD [] ∉ fgamma ∧ "T".toList ∉ G3 := by decide
    have : scaleC "T" p = .ok 1 := by
      unfold scaleC
      rw [if_neg h1.1, if_neg h1.2.1, if_neg h1.2.2]
    unfold scales
    rw [List.mapM_cons, this]
    rfl
  have hr : ∀ M : Matrix (Fin 1) (Fin 1) ℂ, reduce Example.Q "tau" 5 ⟨1, M⟩ = .ok ⟨1, M⟩ := by
    intro M
    unfold reduce permissible
    rw [if_pos (Or.inr rfl)]
    rfl
  have ha : ∀ p : Par, admeig Example.Q "tau" 5 p.masses = .ok ⟨1, 0, 1⟩ := by
    intro p
    unfold admeig
    have : Example.Q.admS "tau" 5 p.masses = .ok ⟨1, 0⟩ := rfl
    rw [this]
    simp only [bind, Except.bind, hr]
    rfl
  have hUe : ∀ (p : Par) (eta : ℝ) (qcd : ℕ), uePart Example.Q "tau" eta 5 p 1 qcd 1
      = .ok (ueMatrix 0 1 1 (if qcd = 0 then 1 else eta) 5 p) := by
    intro p eta qcd
    unfold uePart getUe
    have : Example.Q.admE "tau" 5 p.masses = .ok ⟨1, 1⟩ := rfl
    rw [this]
    simp only [bind, Except.bind, hr, ha]
    rfl
  have hUs : ∀ (p : Par) (eta : ℝ) (qcd : ℕ), qcd = 0 ∨ qcd = 1 →
      usPart Example.Q "tau" eta 5 p qcd 1 = .ok 1 := by
    intro p eta qcd h
    unfold usPart getUs
    rcases h with rfl | rfl
    · rfl
    · rw [ha]
      simp only [bind, Except.bind, pure, Except.pure, if_true, Mat.sized]
      simp [usMatrix]
  have hrun : ∀ (p p' : Par) (eta : ℝ) (qcd : ℕ), qcd = 0 ∨ qcd = 1 →
      runSector Example.Q "tau" [("T", 1)] eta 5 p p' 1 qcd
        = .ok (toDict ["T"] ((transfer (1 + ueMatrix 0 1 1 (if qcd = 0 then 1 else eta) 5 p)
          [1] [1]).mulVec (vec ["T"] [("T", 1)]))) := by
    intro p p' eta qcd hq
    rw [runSector_eq, show lookup Example.Q.sectors "tau" = .ok "tau" from rfl, hk]
    simp only [bind, Except.bind]
    rw [if_neg]
    · unfold evolved evolution
      rw [hs, hs]
      simp only [bind, Except.bind]
      have e1 : usPart Example.Q "tau" eta 5 p qcd ["T"].length = .ok 1 := hUs p eta qcd hq
      have e2 : uePart Example.Q "tau" eta 5 p 1 qcd ["T"].length
        = .ok (ueMatrix 0 1 1 (if qcd = 0 then 1 else eta) 5 p) := hUe p eta qcd
      rw [e1, e2]
      rfl
    · rintro (h | h)
      · have := congrFun h 0
        simp [vec, Dict.getD, Dict.get?_cons] at this
      · simp at h
  have hval : ∀ g : Fin 1 → ℂ, val (toDict ["T"] g) "T" = g 0 := by
    intro g
    have := toDict_get? ["T"] g (by simp) 0
    unfold val
    have e : (toDict ["T"] g).get? "T" = some (g 0) := this
    rw [e]
    rfl
  refine ⟨Example.Q, "tau", "T", [("T", 1)], Example.par (1/5), Example.par (1/10), _, _, ?_,
    Example.par_pos _ (by norm_num), Example.par_pos _ (by norm_num),
    hrun _ _ _ 1 (Or.inr rfl), ?_, hrun _ _ _ 0 (Or.inl rfl), ?_⟩
  · constructor
    · intro s l h
      simp only [Example.Q, Dict.get?_cons, Dict.get?_nil] at h
      split_ifs at h
      simp only [Option.some.injEq] at h; subst h; simp
    · intro s s' l l' h h' hne
      simp only [Example.Q, Dict.get?_cons, Dict.get?_nil] at h h'
      split_ifs at h h' with h1 h2
      exact absurd (h1.symm.trans h2) hne
    · simp [Example.Q, Dict.get?_cons, Dict.get?_nil]
    · intro s c h
      simp only [Example.Q, Dict.get?_cons, Dict.get?_nil] at h
      split_ifs at h with h1
      simp only [Option.some.injEq] at h; subst h; subst h1; left; decide
  · rw [hval]
    simp only [Matrix.mulVec, dotProduct, transfer, vec, Dict.getD, Dict.get?_cons, val,
      Finset.univ_unique, Finset.sum_singleton]
    have hue : ueMatrix (n := 1) 0 1 1 2 5 (Example.par (1/5)) 0 0 ≠ 0 := by
      have aux : ∀ (c : ℂ) (K : Matrix (Fin 1) (Fin 1) ℂ),
          (c • ((1 : Matrix (Fin 1) (Fin 1) ℂ) * K * 1⁻¹) : Matrix (Fin 1) (Fin 1) ℂ) 0 0
            = c * K 0 0 := by
        intro c K; simp
      refine (aux _ _).trans_ne ?_
      norm_num [b0s, Example.par]
    have h2 : (Example.par (1/5)).alpha_s / (Example.par (1/10)).alpha_s = 2 := by
      norm_num [Example.par]
    rw [h2]
    simpa using hue
  · rw [hval, if_pos rfl, ue_one, add_zero]
    simp [Matrix.mulVec, dotProduct, transfer, vec, Dict.getD, Dict.get?_cons, val]

end Verif.WetRun
