import Verif.Lemmas.CP
import Verif.Spec.CP
import Verif.Props.BetaSym
import Verif.Props.MatchFlavour

/-!
# Properties C73 and C74: CP symmetry of running and matching
-/

set_option autoImplicit false
set_option linter.unusedSimpArgs false

namespace Verif.CP
open Verif Verif.Tens Verif.Beta Verif.Rotation Verif.Match

theorem cpConj_eq (b : Bool) (A : Ten) : cpConj b A = cpT b A := by
  funext ix; rfl

/-! ### C73 -/

/-- parity of all variables of the beta functions; the only CP-odd auxiliary variable is `Eta5` -/
def keyOdd (k : Key) : Bool := smeftOdd k || decide (k = .Eta5)

theorem par_loc : ∀ ke ∈ locProg ++ loc2Prog, par keyOdd ke.2 = some (keyOdd ke.1) := by decide +kernel
theorem par_beta : ∀ ke ∈ smProg ++ npProg, par keyOdd ke.2 = some (keyOdd ke.1) := by decide +kernel
theorem keyOdd_keys : ∀ k ∈ keys, keyOdd k = smeftOdd k := by decide +kernel

theorem cpT_zero (b : Bool) : cpT b (fun _ => 0) = fun _ => 0 := by funext ix; simp [cpT]

/-- **C73.** CP symmetry of the renormalisation group: the beta functions of the CP-conjugate
parameters are the CP conjugates of the beta functions (any high scale, with and without new
physics). -/
theorem C73_beta (C C' : Key → Ten) (hC : ∀ k ∈ keys, C' k = cpConj (smeftOdd k) (C k)) (h : ℝ)
    (newphys : Bool) (cKeys : List Key) (hc : ∀ k ∈ keys, k ∈ cKeys) (k : Key) (hk : k ∈ keys) :
    ∃ B B', (beta cKeys C h newphys).get? k = some B ∧ (beta cKeys C' h newphys).get? k = some B' ∧
      B' = cpConj (smeftOdd k) B := by
  obtain ⟨B, B', h1, h2, h3⟩ := beta_rel (fun k A A' => A' = cpT (keyOdd k) A) (fun _ => True) C C' h h
    cKeys newphys
    (fun k => by
      simp only [input]
      by_cases e1 : k = .HIGHSCALE
      · subst e1
        funext ix
        simp [cpT, keyOdd, smeftOdd, sg]
      · simp only [e1, if_false]
        by_cases e2 : k ∈ keys
        · simp only [e2, if_true]
          rw [hC k e2, cpConj_eq, keyOdd_keys k e2]
        · simp only [e2, if_false]
          rw [cpT_zero])
    (fun ke hke env env' henv => par_sound keyOdd env env' henv _ _ (par_loc ke hke))
    (fun ke hke _ env env' henv => par_sound keyOdd env env' henv _ _ (par_beta ke hke))
    (fun _ k => (cpT_zero _).symm) (fun _ => hc) k hk trivial
  exact ⟨B, B', h1, h2, by rw [h3, cpConj_eq, keyOdd_keys k hk]⟩

/-- **C73, CP conservation.** If all parameters are real, the CP-odd bosonic coefficients
vanish and the arrays have the symmetries of their operators, then all beta functions are real
and those of the CP-odd coefficients vanish. -/
theorem C73_conserving (C : Key → Ten) (hr : ∀ k ∈ keys, ∀ ix, (C k ix).im = 0)
    (ho : ∀ k ∈ keys, smeftOdd k = true → ∀ ix, C k ix = 0)
    (hC : ∀ k ∈ keys, BetaSym.Has (BetaSym.clNoFierz k) (C k)) (h : ℝ) (newphys : Bool)
    (cKeys : List Key) (hc : ∀ k ∈ keys, k ∈ cKeys) (k : Key) (hk : k ∈ keys) :
    ∃ B, (beta cKeys C h newphys).get? k = some B ∧
      (smeftOdd k = false → ∀ ix, (B ix).im = 0) ∧ (smeftOdd k = true → B [] = 0) := by
  obtain ⟨B, B', h1, h2, h3⟩ := C73_beta C C (fun k hk => by
    funext ix
    have e := Complex.conj_eq_iff_im.2 (hr k hk ix)
    cases hs : smeftOdd k
    · simp [cpConj, e]
    · simp [ho k hk hs ix, cpConj]) h newphys cKeys hc k hk
  have : B = B' := Option.some.inj (h1.symm.trans h2)
  subst this
  refine ⟨B, h1, fun hs ix => ?_, fun hs => ?_⟩
  · have e := congrFun h3 ix
    simp only [cpConj, hs, Bool.false_eq_true, if_false, one_mul] at e
    exact Complex.conj_eq_iff_im.1 e.symm
  · have e := congrFun h3 []
    simp only [cpConj, hs, if_true] at e
    obtain ⟨B₁, h4, h5⟩ := BetaSym.C63_beta_partial cKeys hc C h (by simp) hC newphys k hk
    have : B = B₁ := Option.some.inj (h1.symm.trans h4)
    subst this
    have hreal : (B []).im = 0 := by
      have hcl : BetaSym.clNoFierz k = .real := by
        revert hs; cases k <;> decide
      rw [hcl] at h5
      exact h5
    rw [Complex.conj_eq_iff_im.2 hreal] at e
    have : (2 : ℂ) * B [] = 0 := by linear_combination e
    simpa using this

/-- the hypotheses are met e.g. by the parameters with `Gu = 1` and `phiG = 1` -/
noncomputable def witCP : Key → Ten
  | .Gu => eyeT
  | .phiG => fun _ => 1
  | _ => fun _ => 0

example : (∀ k ∈ keys, ∀ ix, (witCP k ix).im = 0) ∧
    (∀ k ∈ keys, smeftOdd k = true → ∀ ix, witCP k ix = 0) ∧
    ∀ k ∈ keys, BetaSym.Has (BetaSym.clNoFierz k) (witCP k) := by
  have hz : ∀ k, k ≠ .Gu → k ≠ .phiG → witCP k = fun _ => 0 := by
    intro k h1 h2; cases k <;> first | rfl | exact absurd rfl h1 | exact absurd rfl h2
  refine ⟨fun k _ ix => ?_, fun k _ hs ix => ?_, fun k _ => ?_⟩
  · by_cases h1 : k = .Gu
    · subst h1
      show (eyeT ix).im = 0
      unfold eyeT
      split
      · split <;> simp
      · simp
    by_cases h2 : k = .phiG
    · subst h2; simp [witCP]
    rw [hz k h1 h2]; simp
  · rw [hz k (by rintro rfl; revert hs; decide) (by rintro rfl; revert hs; decide)]
  · by_cases h1 : k = .Gu
    · subst h1; trivial
    by_cases h2 : k = .phiG
    · subst h2; show ((1 : ℂ)).im = 0; simp
    rw [hz k h1 h2]
    exact BetaSym.has_zero _

/-! ### C74 -/

/-- parity of the variables of the matching conditions -/
def mvOdd : MV → Bool
  | .c k => smeftOdd k
  | _ => false

theorem par_tree : ∀ ke ∈ treeProg, par mvOdd ke.2 = some (wetOdd ke.1) := by decide +kernel

/-- the scalars of the CP-conjugate theory -/
noncomputable def cpScal (s : Scal) : Scal := ⟨s.mW, s.mZ, s.vT, (starRingEnd ℂ) s.g1bar⟩

theorem scalars2_cp (mW vT eb : ℝ) (a b : ℂ) (s : Scal) (h : scalars2 mW vT eb a b = .ok s) :
    scalars2 mW vT eb ((starRingEnd ℂ) a) ((starRingEnd ℂ) b) = .ok (cpScal s) := by
  unfold scalars2 at h ⊢
  simp only at h ⊢
  have hg : ∀ a : ℂ, (starRingEnd ℂ) ((eb : ℂ) * ((2 * mW / vT : ℝ) : ℂ) /
        (Real.sqrt ((2 * mW / vT) ^ 2 - eb ^ 2) : ℝ) +
        (eb : ℂ) ^ 2 * ((2 * mW / vT : ℝ) : ℂ) / (((2 * mW / vT) ^ 2 - eb ^ 2 : ℝ) : ℂ) * (a * (vT : ℂ) ^ 2)) =
      (eb : ℂ) * ((2 * mW / vT : ℝ) : ℂ) / (Real.sqrt ((2 * mW / vT) ^ 2 - eb ^ 2) : ℝ) +
        (eb : ℂ) ^ 2 * ((2 * mW / vT : ℝ) : ℂ) / (((2 * mW / vT) ^ 2 - eb ^ 2 : ℝ) : ℂ) *
          ((starRingEnd ℂ) a * (vT : ℂ) ^ 2) := by
    intro a
    simp only [map_add, map_mul, map_div₀, map_pow, Complex.conj_ofReal]
  split at h
  · cases h
  rename_i c1
  rw [if_neg c1]
  split at h
  · cases h
  rename_i c2
  rw [if_neg c2]
  rw [← hg]
  obtain ⟨g1, hg1⟩ : ∃ g1, g1 = (eb : ℂ) * ((2 * mW / vT : ℝ) : ℂ) /
        (Real.sqrt ((2 * mW / vT) ^ 2 - eb ^ 2) : ℝ) +
        (eb : ℂ) ^ 2 * ((2 * mW / vT : ℝ) : ℂ) / (((2 * mW / vT) ^ 2 - eb ^ 2 : ℝ) : ℂ) * (a * (vT : ℂ) ^ 2) :=
    ⟨_, rfl⟩
  rw [← hg1] at h ⊢
  have hz : (vT : ℂ) ^ 2 / 4 * (1 + (vT : ℂ) ^ 2 / 2 * (starRingEnd ℂ) b) *
      (((2 * mW / vT : ℝ) : ℂ) ^ 2 + (starRingEnd ℂ) g1 ^ 2) +
      (vT : ℂ) ^ 2 / 2 * ((starRingEnd ℂ) a * (vT : ℂ) ^ 2) * (starRingEnd ℂ) g1 * ((2 * mW / vT : ℝ) : ℂ) =
      (starRingEnd ℂ) ((vT : ℂ) ^ 2 / 4 * (1 + (vT : ℂ) ^ 2 / 2 * b) *
      (((2 * mW / vT : ℝ) : ℂ) ^ 2 + g1 ^ 2) +
      (vT : ℂ) ^ 2 / 2 * (a * (vT : ℂ) ^ 2) * g1 * ((2 * mW / vT : ℝ) : ℂ)) := by
    simp only [map_add, map_mul, map_div₀, map_pow, Complex.conj_ofReal, map_one, map_ofNat]
  rw [hz, Complex.conj_re]
  split at h
  · cases h
  rename_i c3
  rw [if_neg c3]
  split at h
  · cases h
  rename_i c4
  rw [if_neg c4]
  have := Except.ok.inj h
  subst this
  rfl

theorem scalars_cp (C C' : Dict Key Ten) (p : Dict String ℝ) (s : Scal)
    (hC : ∀ k ∈ [Key.ll, .phil3, .phiWB, .phiD], C'.get? k = (C.get? k).map (cpConj (smeftOdd k)))
    (h : scalars C p = .ok s) : scalars C' p = .ok (cpScal s) := by
  have hi : ∀ k ∈ [Key.ll, .phil3, .phiWB, .phiD], ∀ A, item C k = .ok A →
      item C' k = .ok (cpConj false A) := by
    intro k hk A hA
    have := item_ok hA
    unfold item
    rw [hC k hk, this]
    simp only [List.mem_cons, List.not_mem_nil, or_false] at hk
    rcases hk with rfl | rfl | rfl | rfl <;> rfl
  unfold scalars at h ⊢
  obtain ⟨mW, e1, h⟩ := WetRun.ok_bind h
  obtain ⟨GF, e2, h⟩ := WetRun.ok_bind h
  obtain ⟨ll, e3, h⟩ := WetRun.ok_bind h
  obtain ⟨phil3, e4, h⟩ := WetRun.ok_bind h
  obtain ⟨phiWB, e5, h⟩ := WetRun.ok_bind h
  obtain ⟨al, e6, h⟩ := WetRun.ok_bind h
  obtain ⟨eb, e7, h⟩ := WetRun.ok_bind h
  rw [e1, e2, hi .ll (by simp) _ e3, hi .phil3 (by simp) _ e4, hi .phiWB (by simp) _ e5, e6]
  simp only [bind, Except.bind]
  rw [e7]
  simp only
  have hG : GFx GF (cpConj false ll) (cpConj false phil3) = (starRingEnd ℂ) (GFx GF ll phil3) := by
    unfold GFx cpConj
    simp only [map_sub, map_mul, map_div₀, map_add, map_neg, Complex.conj_ofReal, map_ofNat,
      Bool.false_eq_true, if_false, one_mul]
  rw [hG]
  by_cases h0 : GFx GF ll phil3 = 0
  · rw [if_pos h0] at h
    by_cases h1 : eb = 0
    · rw [if_pos h1] at h; cases h
    · rw [if_neg h1] at h; cases h
  rw [if_neg h0] at h
  rw [if_neg (by simpa using h0)]
  obtain ⟨phiD, e8, h⟩ := WetRun.ok_bind h
  rw [hi .phiD (by simp) _ e8]
  have hn : ‖(starRingEnd ℂ) (GFx GF ll phil3)‖ = ‖GFx GF ll phil3‖ := by simp
  simp only [hn]
  have := scalars2_cp _ _ _ _ _ _ h
  simpa [cpConj] using this

theorem env_cp (C C' : Dict Key Ten) (s : Scal)
    (hC : ∀ k, C'.get? k = (C.get? k).map (cpConj (smeftOdd k))) (v : MV) :
    env C' (cpScal s) v = cpT (mvOdd v) (env C s v) := by
  cases v with
  | c k =>
    simp only [env, mvOdd, hC k]
    cases C.get? k with
    | none => simp only [Option.map_none, Option.getD_none]; rw [cpT_zero]
    | some A => simp only [Option.map_some, Option.getD_some]; rw [cpConj_eq]
  | _ => funext ix; simp [env, cpScal, cpT, mvOdd, sg]

/-- **C74.** CP symmetry of the matching: the WET coefficients obtained from the CP-conjugate
SMEFT coefficients are the CP conjugates of those obtained from the original ones. -/
theorem C74_match (C C' : Dict Key Ten) (p : Dict String ℝ) (D : Dict WKey Ten)
    (hC : ∀ k, C'.get? k = (C.get? k).map (cpConj (smeftOdd k))) (h : matchTree C p = .ok D) :
    ∃ D', matchTree C' p = .ok D' ∧
      ∀ k, ∃ B, D.get? k = some B ∧ D'.get? k = some (cpConj (wetOdd k) B) := by
  obtain ⟨s, s0, h1, h2, hm, rfl⟩ := tree_ok h
  have hC0 : ∀ k, (zeroed C').get? k = ((zeroed C).get? k).map (cpConj (smeftOdd k)) := by
    intro k
    unfold zeroed
    rw [Dict.get?_mapVal, Dict.get?_mapVal, hC k]
    cases C.get? k with
    | none => rfl
    | some A =>
      simp only [Option.map_some]
      congr 1
      funext ix
      simp [cpConj]
  have hm' : ∀ k ∈ treeKeys, C'.mem k = true := by
    intro k hk
    have := hm k hk
    unfold Dict.mem at this ⊢
    rw [hC k, Option.isSome_map]
    exact this
  refine ⟨_, tree_of_scal (scalars_cp C C' p s (fun k _ => hC k) h1)
    (scalars_cp _ _ p s0 (fun k _ => hC0 k) h2) hm', fun k => ?_⟩
  obtain ⟨⟨k, e⟩, hmem, rfl⟩ := List.mem_map.1 (prog_keys k (by cases k <;> decide))
  refine ⟨_, get?_prog (diffE C s s0) k e hmem, ?_⟩
  rw [get?_prog (diffE C' (cpScal s) (cpScal s0)) k e hmem]
  congr 1
  funext ix
  unfold diffE
  rw [par_sound mvOdd _ _ (env_cp C C' s hC) e _ (par_tree _ hmem),
    par_sound mvOdd _ _ (env_cp (zeroed C) (zeroed C') s0 hC0) e _ (par_tree _ hmem)]
  simp only [cpT, cpConj, sg, map_sub]
  ring

end Verif.CP
