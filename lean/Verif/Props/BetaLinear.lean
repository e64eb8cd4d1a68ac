import Verif.Lemmas.BetaFlavour

/-!
# Properties C43, C45, C64: linearity, no new physics, Standard Model limit
-/

set_option autoImplicit false

namespace Verif.BetaLinear
open Verif Verif.Tens Verif.Beta Verif.Flavour Verif.BetaSpec BigOperators

/-- variables linear in the Wilson coefficients -/
def linVar (k : Key) : Bool :=
  match k with
  | .Eta1 | .Eta2 | .Eta3 | .Eta4 | .Eta5 | .XiB | .Xie | .Xid | .Xiu => true
  | _ => decide (k ∈ keys) && !decide (k ∈ smKeys)

theorem deg_loc : ∀ ke ∈ locProg ++ loc2Prog, deg false linVar ke.2 = some (linVar ke.1) := by
  decide +kernel

theorem deg_wc : ∀ ke ∈ smProg ++ npProg, ke.1 ∉ smKeys → deg false linVar ke.2 = some true := by
  decide +kernel

theorem deg_aff_loc : ∀ ke ∈ locProg ++ loc2Prog, deg true linVar ke.2 = some (linVar ke.1) := by
  decide +kernel

theorem deg_aff : ∀ ke ∈ smProg ++ npProg, deg true linVar ke.2 = some true := by
  decide +kernel

/-- combination of three environments, as a relation on families -/
def R3 (a b : ℝ) (k : Key) (A : Fin 3 → Ten) : Prop := Comb a b (linVar k) (A 0) (A 1) (A 2)

theorem input_comb (a b : ℝ) (C C₁ C₂ : Key → Ten) (h : ℂ)
    (hS : ∀ k ∈ smKeys, C k = C₁ k ∧ C k = C₂ k)
    (hW : ∀ k ∈ keys, k ∉ smKeys → ∀ ix, C k ix = a * C₁ k ix + b * C₂ k ix) (k : Key) :
    Comb a b (linVar k) (input C h k) (input C₁ h k) (input C₂ h k) := by
  by_cases h1 : k = .HIGHSCALE
  · subst h1; exact ⟨rfl, rfl⟩
  by_cases h2 : k ∈ keys
  · simp only [input, h1, if_false, h2, if_true]
    by_cases h3 : k ∈ smKeys
    · have : linVar k = false := by
        revert h3; cases k <;> decide
      rw [this]; exact hS k h3
    · have : linVar k = true := by
        revert h3 h2; cases k <;> decide
      rw [this]; exact hW k h2 h3
  · simp only [input, h1, if_false, h2]
    cases linVar k
    · exact ⟨rfl, rfl⟩
    · intro ix; simp

/-- **C43.** For fixed Standard Model parameters the beta function of every Wilson
coefficient is real-linear in the Wilson coefficients: if every Wilson coefficient of `C`
is `a` times that of `C₁` plus `b` times that of `C₂` (and the Standard Model parameters
of the three agree), then the same holds for the beta function of every Wilson
coefficient, entry by entry. -/
theorem C43_linear (cKeys : List Key) (h : ℂ) (a b : ℝ) (C C₁ C₂ : Key → Ten)
    (hS : ∀ k ∈ smKeys, C k = C₁ k ∧ C k = C₂ k)
    (hW : ∀ k ∈ keys, k ∉ smKeys → ∀ ix, C k ix = a * C₁ k ix + b * C₂ k ix)
    (k : Key) (hk : k ∈ keys) (hsm : k ∉ smKeys) :
    ∃ B B₁ B₂, (beta cKeys C h true).get? k = some B ∧
      (beta cKeys C₁ h true).get? k = some B₁ ∧ (beta cKeys C₂ h true).get? k = some B₂ ∧
      ∀ ix, B ix = a * B₁ ix + b * B₂ ix := by
  obtain ⟨B, hB, hR⟩ := beta_relN (R3 a b) (R3 a b) (fun k => k ∉ smKeys) ![C, C₁, C₂] h cKeys
    (fun k => input_comb a b C C₁ C₂ h hS hW k)
    (fun ke hke env henv => deg_sound a b false (by simp) linVar _ _ _ henv _ _ (deg_loc ke hke))
    (fun ke hke hok env henv => by
      have h1 := deg_sound a b false (by simp) linVar _ _ _ henv _ _ (deg_wc ke hke hok)
      have h2 : linVar ke.1 = true := by
        have hmem : ke.1 ∈ keys := by
          have : ∀ ke ∈ smProg ++ npProg, ke.1 ∈ keys := by decide +kernel
          exact this ke hke
        have : ∀ k : Key, k ∈ keys → k ∉ smKeys → linVar k = true := by
          intro k; cases k <;> decide
        exact this _ hmem hok
      unfold R3; rw [h2]; exact h1) k hk hsm
  have hl : linVar k = true := by revert hk hsm; cases k <;> decide
  unfold R3 at hR
  rw [hl] at hR
  exact ⟨B 0, B 1, B 2, hB 0, hB 1, hB 2, hR⟩

/-- **C43.** No Wilson coefficient is generated from none. -/
theorem C43_zero (cKeys : List Key) (h : ℂ) (C : Key → Ten)
    (hW : ∀ k ∈ keys, k ∉ smKeys → ∀ ix, C k ix = 0) (k : Key) (hk : k ∈ keys) (hsm : k ∉ smKeys) :
    ∃ B, (beta cKeys C h true).get? k = some B ∧ ∀ ix, B ix = 0 := by
  obtain ⟨B, B₁, B₂, h1, _, _, h2⟩ := C43_linear cKeys h 0 0 C C C (fun _ _ => ⟨rfl, rfl⟩)
    (fun k hk hs ix => by rw [hW k hk hs ix]; simp) k hk hsm
  exact ⟨B, h1, fun ix => by rw [h2 ix]; simp⟩

/-- **C43.** All beta functions, including those of the Standard Model parameters, are
affine in the Wilson coefficients: the dimension-six contributions superpose. -/
theorem C43_affine (cKeys : List Key) (h : ℂ) (a b : ℝ) (hab : a + b = 1) (C C₁ C₂ : Key → Ten)
    (hS : ∀ k ∈ smKeys, C k = C₁ k ∧ C k = C₂ k)
    (hW : ∀ k ∈ keys, k ∉ smKeys → ∀ ix, C k ix = a * C₁ k ix + b * C₂ k ix)
    (k : Key) (hk : k ∈ keys) :
    ∃ B B₁ B₂, (beta cKeys C h true).get? k = some B ∧
      (beta cKeys C₁ h true).get? k = some B₁ ∧ (beta cKeys C₂ h true).get? k = some B₂ ∧
      ∀ ix, B ix = a * B₁ ix + b * B₂ ix := by
  obtain ⟨B, hB, hR⟩ := beta_relN (R3 a b) (fun _ A => Comb a b true (A 0) (A 1) (A 2))
    (fun _ => True) ![C, C₁, C₂] h cKeys
    (fun k => input_comb a b C C₁ C₂ h hS hW k)
    (fun ke hke env henv => deg_sound a b true (fun _ => hab) linVar _ _ _ henv _ _
        (deg_aff_loc ke hke))
    (fun ke hke _ env henv => deg_sound a b true (fun _ => hab) linVar _ _ _ henv _ _
        (deg_aff ke hke)) k hk trivial
  exact ⟨B 0, B 1, B 2, hB 0, hB 1, hB 2, hR⟩

/-- non-vacuity of C43: coefficient sets with different `quqd1` and `uphi`, for which the
hypotheses hold and the combination is not trivial -/
example : ∃ C C₁ C₂ : Key → Ten, (∀ k ∈ smKeys, C k = C₁ k ∧ C k = C₂ k) ∧
    (∀ k ∈ keys, k ∉ smKeys → ∀ ix, C k ix = (2 : ℝ) * C₁ k ix + (3 : ℝ) * C₂ k ix) ∧
    C .uphi ≠ C₁ .uphi ∧ C₁ .uphi ≠ C₂ .uphi ∧ C₁ .Gu ≠ fun _ => 0 := by
  refine ⟨fun k => if k = .Gu then eyeT else fun _ => if k = .uphi then 2 else 0,
    fun k => if k = .Gu then eyeT else fun _ => if k = .uphi then 1 else 0,
    fun k => if k = .Gu then eyeT else fun _ => 0, ?_, ?_, ?_, ?_, ?_⟩
  · intro k hk
    have : k ≠ .uphi := by rintro rfl; revert hk; decide
    simp [this]
  · intro k _ hk ix
    have : k ≠ .Gu := by rintro rfl; revert hk; decide
    by_cases h : k = .uphi <;> simp [this, h]
  · intro h; have := congrFun h []; simp at this
  · intro h; have := congrFun h []; simp at this
  · intro h; have := congrFun h [0, 0]; simp [eyeT] at this

/-! ### C45 -/

/-- **C45.** With `newphys=False` the beta function of every Wilson coefficient is zero. -/
theorem C45_wc_zero (cKeys : List Key) (hc : ∀ k ∈ keys, k ∈ cKeys) (C : Key → Ten) (h : ℂ)
    (k : Key) (hk : k ∈ keys) (hsm : k ∉ smKeys) :
    ∃ B, (beta cKeys C h false).get? k = some B ∧ ∀ ix, B ix = 0 := by
  have : ∀ k ∈ keys, k ∉ smKeys → lastExpr smProg k = none := by decide +kernel
  rw [get?_beta_false _ _ _ _ (hc k hk), this k hk hsm]
  exact ⟨_, rfl, fun _ => rfl⟩

/-- **C45.** The beta functions of the Standard Model parameters do not depend on
`newphys`: they contain the contributions of the given Wilson coefficients either way. -/
theorem C45_sm_same (cKeys cKeys' : List Key) (hc : ∀ k ∈ keys, k ∈ cKeys) (C : Key → Ten) (h : ℂ)
    (k : Key) (hsm : k ∈ smKeys) :
    ∃ B, (beta cKeys C h false).get? k = some B ∧ (beta cKeys' C h true).get? k = some B := by
  have h1 : ∀ k ∈ smKeys, k ∈ keys := by decide
  have h2 : ∀ k ∈ smKeys, lastExpr npProg k = none := by decide +kernel
  have h3 : ∀ k ∈ smKeys, (lastExpr smProg k).isSome = true := by decide +kernel
  obtain ⟨e, he⟩ := Option.isSome_iff_exists.1 (h3 k hsm)
  rw [get?_beta_false _ _ _ _ (hc k (h1 k hsm)), get?_beta_true, h2 k hsm, he]
  exact ⟨_, rfl, rfl⟩

/-- **C45.** Neither mode misses a key or adds one (for the basis' coefficient list). -/
theorem C45_keys (cKeys : List Key) (hc : ∀ k, k ∈ cKeys ↔ k ∈ keys) (C : Key → Ten) (h : ℂ)
    (np : Bool) (k : Key) : k ∈ (beta cKeys C h np).keys ↔ k ∈ keys := by
  have hs : ∀ k, (lastExpr npProg k).isSome = true ∨ (lastExpr smProg k).isSome = true ↔ k ∈ keys := by
    intro k; cases k <;> decide +kernel
  have hs' : ∀ k, (lastExpr smProg k).isSome = true → k ∈ keys := fun k hk => (hs k).1 (Or.inr hk)
  rw [← Dict.isSome_get?_iff]
  cases np
  · by_cases hk : k ∈ keys
    · rw [get?_beta_false _ _ _ _ ((hc k).2 hk)]; simp [hk]
    · have hn : (assign (env1 C h) smProg []).NodupKeys :=
        nodupKeys_assign _ _ _ (by simp [Dict.NodupKeys, Dict.keys])
      have h0 : lastExpr smProg k = none := by
        cases hl : lastExpr smProg k with
        | none => rfl
        | some e => exact absurd (hs' k (by simp [hl])) hk
      have hz : (zeroDict cKeys).get? k = none := by
        rw [Dict.get?_eq_none_iff]
        simp [zeroDict, Dict.keys, hc, hk]
      simp only [beta, Bool.not_false, if_true]
      rw [get?_update_gen _ _ _ hn, get?_assign, h0, hz]
      simp [hk]
  · rw [get?_beta_true, ← hs k]
    cases lastExpr npProg k <;> cases lastExpr smProg k <;> simp

/-! ### C64 -/

section SM
variable (C : Key → Ten) (h : ℂ)

/-- the value of the auxiliary variable `GammaH` -/
theorem env1_gammaH (Yu Yd Ye : Matrix (Fin 3) (Fin 3) ℂ) (hu : C .Gu = ofMatrix Yu)
    (hd : C .Gd = ofMatrix Yd) (he : C .Ge = ofMatrix Ye) (ix : Ix) :
    env1 C h .GammaH ix = gammaH Yu Yd Ye := by
  have e1 : env1 C h .GammaH = eval (runLocals (input C h) (locProg.take 5)) loc_GammaH := by
    unfold env1
    rw [show runLocals (input C h) locProg =
      runLocals (Function.update (runLocals (input C h) (locProg.take 5)) .GammaH
        (eval (runLocals (input C h) (locProg.take 5)) loc_GammaH)) (locProg.drop 6) from rfl]
    simp [runLocals, locProg, Function.update]
  have e2 : ∀ k ∈ keys, runLocals (input C h) (locProg.take 5) k = C k := by
    intro k hk
    rw [runLocals_ne _ _ _ (fun ke hke =>
      keys_not_loc k hk ke (List.mem_append_left _ (List.mem_of_mem_take hke))), input_key _ _ _ hk]
  rw [e1]
  simp only [loc_GammaH, eval, traceT, matT, e2 _ (show Key.Gu ∈ keys by decide),
    e2 _ (show Key.Gd ∈ keys by decide), e2 _ (show Key.Ge ∈ keys by decide), hu, hd, he]
  simp only [gammaH, Matrix.trace, Matrix.diag, Matrix.mul_apply, Matrix.conjTranspose_apply,
    List.reverse_cons, List.reverse_nil, List.nil_append, List.cons_append, ofMatrix,
    Finset.sum_add_distrib, Finset.mul_sum]
  push_cast
  congr 1
  congr 1 <;>
  · refine Finset.sum_congr rfl fun i _ => Finset.sum_congr rfl fun j _ => ?_
    simp [mul_assoc]

/-- without Wilson coefficients the auxiliary variables linear in them vanish -/
theorem env1_lin_zero (hW : ∀ k ∈ keys, k ∉ smKeys → ∀ ix, C k ix = 0) (k : Key)
    (hk : linVar k = true) : env1 C h k = fun _ => 0 := by
  have := runLocals_relN (ι := Unit) (fun k A => Comb 0 0 (linVar k) (A ()) (A ()) (A ())) locProg
    (fun _ => input C h)
    (fun k => input_comb 0 0 C C C h (fun _ _ => ⟨rfl, rfl⟩)
      (fun k hk hs ix => by rw [hW k hk hs ix]; simp) k)
    (fun ke hke env henv => deg_sound 0 0 false (by simp) linVar _ _ _ henv _ _
      (deg_loc ke (List.mem_append_left _ hke))) k
  simp only [hk] at this
  funext ix
  have e := this ix
  unfold env1
  rw [e]; simp

theorem smBeta (cKeys : List Key) (k : Key) (e : E Key) (h1 : lastExpr npProg k = none)
    (h2 : lastExpr smProg k = some e) :
    (beta cKeys C h true).get? k = some (eval (env1 C h) e) := by
  rw [get?_beta_true, h1, h2]; rfl

end SM

variable (cKeys : List Key) (C : Key → Ten) (h : ℂ)

/-- **C64.** Without Wilson coefficients the gauge couplings run with the one-loop
coefficients -19/6, 41/6 and -7 of the Standard Model. -/
theorem C64_gauge (hW : ∀ k ∈ keys, k ∉ smKeys → ∀ ix, C k ix = 0) :
    ∃ B₁ B₂ B₃, (beta cKeys C h true).get? .g = some B₁ ∧ (beta cKeys C h true).get? .gp = some B₂ ∧
      (beta cKeys C h true).get? .gs = some B₃ ∧
      B₁ [] = -(19 / 6) * C .g [] ^ 3 ∧ B₂ [] = 41 / 6 * C .gp [] ^ 3 ∧
      B₃ [] = -7 * C .gs [] ^ 3 := by
  refine ⟨_, _, _, smBeta C h cKeys .g sm_g (by decide +kernel) (by decide +kernel),
    smBeta C h cKeys .gp sm_gp (by decide +kernel) (by decide +kernel),
    smBeta C h cKeys .gs sm_gs (by decide +kernel) (by decide +kernel), ?_, ?_, ?_⟩
  · simp only [sm_g, eval, env1_key C h .g (by decide), env1_lin_zero C h hW .phiW rfl]
    push_cast; ring
  · simp only [sm_gp, eval, env1_key C h .gp (by decide), env1_lin_zero C h hW .phiB rfl]
    push_cast; ring
  · simp only [sm_gs, eval, env1_key C h .gs (by decide), env1_lin_zero C h hW .phiG rfl]
    push_cast; ring

/-- **C64.** Without Wilson coefficients the Higgs potential parameters run as in the
Standard Model at one loop. -/
theorem C64_higgs (hW : ∀ k ∈ keys, k ∉ smKeys → ∀ ix, C k ix = 0)
    (Yu Yd Ye : Matrix (Fin 3) (Fin 3) ℂ) (hu : C .Gu = ofMatrix Yu) (hd : C .Gd = ofMatrix Yd)
    (he : C .Ge = ofMatrix Ye) :
    ∃ B₁ B₂, (beta cKeys C h true).get? .Lambda = some B₁ ∧
      (beta cKeys C h true).get? .m2 = some B₂ ∧
      B₁ [] = smLambda (C .g []) (C .gp []) (C .Lambda []) Yu Yd Ye ∧
      B₂ [] = smM2 (C .g []) (C .gp []) (C .Lambda []) (C .m2 []) Yu Yd Ye := by
  have hquart : ∀ (Y : Matrix (Fin 3) (Fin 3) ℂ) (k : Key), env1 C h k = ofMatrix Y →
      traceT (eval (env1 C h) (.mat (.mat (.mat (.t k) (.tr (.conj (.t k)))) (.t k))
        (.tr (.conj (.t k))))) [] =
      Matrix.trace (Y * Y.conjTranspose * (Y * Y.conjTranspose)) := by
    intro Y k hk
    rw [← Matrix.mul_assoc]
    simp [traceT, eval, matT, hk, ofMatrix, Matrix.trace, Matrix.mul_apply,
      Matrix.conjTranspose_apply]
  refine ⟨_, _, smBeta C h cKeys .Lambda sm_Lambda (by decide +kernel) (by decide +kernel),
    smBeta C h cKeys .m2 sm_m2 (by decide +kernel) (by decide +kernel), ?_, ?_⟩
  · have q1 := hquart Yu .Gu (by rw [env1_key C h .Gu (by decide), hu])
    have q2 := hquart Yd .Gd (by rw [env1_key C h .Gd (by decide), hd])
    have q3 := hquart Ye .Ge (by rw [env1_key C h .Ge (by decide), he])
    simp only [eval] at q1 q2 q3
    simp only [sm_Lambda, eval, q1, q2, q3, env1_gammaH C h Yu Yd Ye hu hd he]
    simp only [env1_key C h .g (by decide), env1_key C h .gp (by decide),
      env1_key C h .Lambda (by decide), env1_key C h .m2 (by decide),
      env1_lin_zero C h hW .phi rfl, env1_lin_zero C h hW .phiBox rfl,
      env1_lin_zero C h hW .phiD rfl, env1_lin_zero C h hW .phiW rfl,
      env1_lin_zero C h hW .phiB rfl, env1_lin_zero C h hW .phiWB rfl,
      env1_lin_zero C h hW .Eta1 rfl, env1_lin_zero C h hW .Eta2 rfl,
      env1_lin_zero C h hW .phil3 rfl, env1_lin_zero C h hW .phiq3 rfl, traceT,
      Finset.sum_const_zero, smLambda]
    push_cast; ring
  · simp only [sm_m2, eval, env1_gammaH C h Yu Yd Ye hu hd he]
    simp only [env1_key C h .g (by decide), env1_key C h .gp (by decide),
      env1_key C h .Lambda (by decide), env1_key C h .m2 (by decide),
      env1_lin_zero C h hW .phiBox rfl, env1_lin_zero C h hW .phiD rfl, smM2]
    push_cast; ring

theorem cube (Y Z W : Matrix (Fin 3) (Fin 3) ℂ) (k l m : Key) (hk : env1 C h k = ofMatrix Y)
    (hl : env1 C h l = ofMatrix Z) (hm : env1 C h m = ofMatrix W) (i j : Fin 3) :
    eval (env1 C h) (.mat (.mat (.t k) (.tr (.conj (.t l)))) (.t m)) [i, j] =
      (Y * Z.conjTranspose * W) i j := by
  simp [eval, matT, hk, hl, hm, ofMatrix, Matrix.mul_apply, Matrix.conjTranspose_apply]

/-- **C64.** Without Wilson coefficients the Yukawa matrices run as in the Standard Model at
one loop. -/
theorem C64_yukawas (hW : ∀ k ∈ keys, k ∉ smKeys → ∀ ix, C k ix = 0)
    (Yu Yd Ye : Matrix (Fin 3) (Fin 3) ℂ) (hu : C .Gu = ofMatrix Yu) (hd : C .Gd = ofMatrix Yd)
    (he : C .Ge = ofMatrix Ye) :
    ∃ B₁ B₂ B₃, (beta cKeys C h true).get? .Gu = some B₁ ∧
      (beta cKeys C h true).get? .Gd = some B₂ ∧ (beta cKeys C h true).get? .Ge = some B₃ ∧
      ∀ i j, B₁ [i, j] = smYu (C .g []) (C .gp []) (C .gs []) Yu Yd Ye i j ∧
        B₂ [i, j] = smYd (C .g []) (C .gp []) (C .gs []) Yu Yd Ye i j ∧
        B₃ [i, j] = smYe (C .g []) (C .gp []) Yu Yd Ye i j := by
  have ku : env1 C h .Gu = ofMatrix Yu := by rw [env1_key C h .Gu (by decide), hu]
  have kd : env1 C h .Gd = ofMatrix Yd := by rw [env1_key C h .Gd (by decide), hd]
  have ke : env1 C h .Ge = ofMatrix Ye := by rw [env1_key C h .Ge (by decide), he]
  refine ⟨_, _, _, smBeta C h cKeys .Gu sm_Gu (by decide +kernel) (by decide +kernel),
    smBeta C h cKeys .Gd sm_Gd (by decide +kernel) (by decide +kernel),
    smBeta C h cKeys .Ge sm_Ge (by decide +kernel) (by decide +kernel), fun i j => ⟨?_, ?_, ?_⟩⟩
  · have q1 := cube C h Yu Yu Yu .Gu .Gu .Gu ku ku ku i j
    have q2 := cube C h Yd Yd Yu .Gd .Gd .Gu kd kd ku i j
    simp only [eval] at q1 q2
    simp only [sm_Gu, eval, q1, q2, env1_gammaH C h Yu Yd Ye hu hd he]
    simp only [env1_key C h .g (by decide), env1_key C h .gp (by decide),
      env1_key C h .gs (by decide), env1_key C h .m2 (by decide), ku, kd,
      env1_lin_zero C h hW .uphi rfl, env1_lin_zero C h hW .phiBox rfl,
      env1_lin_zero C h hW .phiD rfl, env1_lin_zero C h hW .phiq1 rfl,
      env1_lin_zero C h hW .phiq3 rfl, env1_lin_zero C h hW .phiu rfl,
      env1_lin_zero C h hW .phiud rfl, env1_lin_zero C h hW .qu1 rfl,
      env1_lin_zero C h hW .qu8 rfl, env1_lin_zero C h hW .lequ1 rfl,
      env1_lin_zero C h hW .quqd1 rfl, env1_lin_zero C h hW .quqd8 rfl, matT, einT,
      map_zero, zero_mul, mul_zero, Finset.sum_const_zero, ofMatrix]
    simp only [smYu, Matrix.add_apply, Matrix.smul_apply, Matrix.sub_apply, smul_eq_mul]
    push_cast; ring
  · have q1 := cube C h Yd Yd Yd .Gd .Gd .Gd kd kd kd i j
    have q2 := cube C h Yu Yu Yd .Gu .Gu .Gd ku ku kd i j
    simp only [eval] at q1 q2
    simp only [sm_Gd, eval, q1, q2, env1_gammaH C h Yu Yd Ye hu hd he]
    simp only [env1_key C h .g (by decide), env1_key C h .gp (by decide),
      env1_key C h .gs (by decide), env1_key C h .m2 (by decide), ku, kd,
      env1_lin_zero C h hW .dphi rfl, env1_lin_zero C h hW .phiBox rfl,
      env1_lin_zero C h hW .phiD rfl, env1_lin_zero C h hW .phiq1 rfl,
      env1_lin_zero C h hW .phiq3 rfl, env1_lin_zero C h hW .phid rfl,
      env1_lin_zero C h hW .phiud rfl, env1_lin_zero C h hW .qd1 rfl,
      env1_lin_zero C h hW .qd8 rfl, env1_lin_zero C h hW .ledq rfl,
      env1_lin_zero C h hW .quqd1 rfl, env1_lin_zero C h hW .quqd8 rfl, matT, einT,
      map_zero, zero_mul, mul_zero, Finset.sum_const_zero, ofMatrix]
    simp only [smYd, Matrix.add_apply, Matrix.smul_apply, Matrix.sub_apply, smul_eq_mul]
    push_cast; ring
  · have q1 := cube C h Ye Ye Ye .Ge .Ge .Ge ke ke ke i j
    simp only [sm_Ge, eval, env1_gammaH C h Yu Yd Ye hu hd he]
    simp only [eval, matT, ke, ofMatrix] at q1
    simp only [env1_key C h .g (by decide), env1_key C h .gp (by decide),
      env1_key C h .m2 (by decide), ke,
      env1_lin_zero C h hW .ephi rfl, env1_lin_zero C h hW .phiBox rfl,
      env1_lin_zero C h hW .phiD rfl, env1_lin_zero C h hW .phil1 rfl,
      env1_lin_zero C h hW .phil3 rfl, env1_lin_zero C h hW .phie rfl,
      env1_lin_zero C h hW .le rfl, env1_lin_zero C h hW .ledq rfl,
      env1_lin_zero C h hW .lequ1 rfl, matT, einT,
      map_zero, zero_mul, mul_zero, Finset.sum_const_zero, ofMatrix]
    simp only [smYe, Matrix.add_apply, Matrix.smul_apply, smul_eq_mul, ← q1, Finset.mul_sum,
      Finset.sum_mul]
    push_cast
    simp only [mul_assoc]
    ring

/-- non-vacuity of C64: the hypotheses are met with nonzero couplings and Yukawa matrices,
and the up-quark Yukawa beta function is then not zero -/
example : ∃ C : Key → Ten, (∀ k ∈ keys, k ∉ smKeys → ∀ ix, C k ix = 0) ∧
    C .Gu = ofMatrix 1 ∧ C .Gd = ofMatrix 0 ∧ C .Ge = ofMatrix 0 ∧ C .g [] = 1 ∧
    smYu 1 0 0 1 0 0 0 0 = 33 / 4 := by
  refine ⟨fun k => if k = .Gu then ofMatrix 1 else if k = .Gd then ofMatrix 0 else
    if k = .Ge then ofMatrix 0 else if k = .g then fun _ => 1 else fun _ => 0, ?_, ?_, ?_, ?_, ?_, ?_⟩
  · intro k _ hs ix
    have h1 : k ≠ .Gu := by rintro rfl; revert hs; decide
    have h2 : k ≠ .Gd := by rintro rfl; revert hs; decide
    have h3 : k ≠ .Ge := by rintro rfl; revert hs; decide
    have h4 : k ≠ .g := by rintro rfl; revert hs; decide
    simp [h1, h2, h3, h4]
  · simp
  · simp
  · simp
  · simp
  · simp [smYu, gammaH]
    norm_num

end Verif.BetaLinear
