import Verif.Spec.Smeft
import Verif.Lemmas.MatchCheck
import Mathlib.Tactic.Positivity
import Mathlib.Tactic.FieldSimp

/-!
# Properties C54, C55 and C56: tree-level matching
-/

set_option autoImplicit false
set_option linter.unusedSimpArgs false

namespace Verif.Match
open Verif Verif.Spec Verif.Tens Verif.Beta Verif.Rotation Verif.Flavour Verif.NF Verif.BetaSym

/-! ### C54 -/

theorem zeroed_eq (C : Dict Key Ten) (hz : ∀ kv ∈ C, ∀ ix, kv.2 ix = 0) : zeroed C = C := by
  unfold zeroed Dict.mapVal
  conv_rhs => rw [← List.map_id C]
  refine List.map_congr_left fun kv hkv => ?_
  have : kv.2 = fun _ => 0 := funext (hz kv hkv)
  show (kv.1, fun ix => 0 * kv.2 ix) = kv
  rw [this]
  ext
  · rfl
  · simp [this]

/-- **C54, tree level.** Matching with all Wilson coefficients zero gives zero for every WET
coefficient, for all parameters. -/
theorem C54_tree_zero (C : Dict Key Ten) (hz : ∀ kv ∈ C, ∀ ix, kv.2 ix = 0) (p : Dict String ℝ)
    (D : Dict WKey Ten) (h : matchTree C p = .ok D) (k : WKey) :
    ∃ B, D.get? k = some B ∧ ∀ ix, B ix = 0 := by
  obtain ⟨s, s0, h1, h2, _, rfl⟩ := tree_ok h
  obtain ⟨ke, hm, rfl⟩ := List.mem_map.1 (prog_keys k (by cases k <;> decide))
  refine ⟨_, get?_prog (diffE C s s0) ke.1 ke.2 hm, fun ix => ?_⟩
  rw [zeroed_eq C hz] at h2
  have : s = s0 := Except.ok.inj (h1.symm.trans h2)
  subst this
  unfold diffE
  rw [zeroed_eq C hz, sub_self]

theorem item_of_get {κ α : Type} [DecidableEq κ] {d : Dict κ α} {k : κ} {v : α}
    (h : d.get? k = some v) : item d k = .ok v := by unfold item; rw [h]

theorem get_zeroed {C : Dict Key Ten} {k : Key} (h : C.mem k = true) :
    (zeroed C).get? k = some fun _ => 0 := by
  unfold zeroed
  rw [Dict.get?_mapVal]
  unfold Dict.mem at h
  obtain ⟨A, hA⟩ := Option.isSome_iff_exists.1 h
  rw [hA]
  simp

theorem scalars_zeroed (C : Dict Key Ten) (hk : ∀ k ∈ treeKeys, C.mem k = true) (p : Dict String ℝ)
    (mW GF al : ℝ) (h1 : p.get? "m_W" = some mW) (h2 : p.get? "GF" = some GF)
    (h3 : p.get? "alpha_e" = some al) (hG : GF ≠ 0) (ha : 0 ≤ al)
    (hw : Real.pi * al < Real.sqrt 2 * |GF| * mW ^ 2) : ∃ s, scalars (zeroed C) p = .ok s := by
  have g : ∀ k ∈ treeKeys, item (zeroed C) k = .ok fun _ => 0 :=
    fun k hm => item_of_get (get_zeroed (hk k hm))
  unfold scalars
  rw [item_of_get h1, item_of_get h2, item_of_get h3, g .ll (by decide), g .phil3 (by decide),
    g .phiWB (by decide), g .phiD (by decide)]
  have hpos : (0 : ℝ) ≤ 4 * Real.pi * al := by have := Real.pi_pos; positivity
  have hs : pySqrt (4 * Real.pi * al) = .ok (Real.sqrt (4 * Real.pi * al)) := by
    unfold pySqrt; rw [if_neg (not_lt.2 hpos)]
  have hGx : GFx GF (fun _ => 0) (fun _ => 0) = (GF : ℂ) := by simp [GFx]
  simp only [bind, Except.bind, hs]
  rw [hGx, if_neg (by exact_mod_cast hG)]
  have hn : ‖(GF : ℂ)‖ = |GF| := by rw [Complex.norm_real]; rfl
  rw [hn]
  have habs : 0 < |GF| := abs_pos.2 hG
  have hs2 : (0 : ℝ) < Real.sqrt 2 := by positivity
  have hv2 : Real.sqrt (1 / Real.sqrt 2 / |GF|) ^ 2 = 1 / Real.sqrt 2 / |GF| :=
    Real.sq_sqrt (by positivity)
  have hv : 0 < Real.sqrt (1 / Real.sqrt 2 / |GF|) := Real.sqrt_pos.2 (by positivity)
  obtain ⟨v, hvd⟩ : ∃ v, v = Real.sqrt (1 / Real.sqrt 2 / |GF|) := ⟨_, rfl⟩
  rw [← hvd] at hv hv2 ⊢
  have heb : Real.sqrt (4 * Real.pi * al) ^ 2 = 4 * Real.pi * al := Real.sq_sqrt hpos
  obtain ⟨eb, hed⟩ : ∃ eb, eb = Real.sqrt (4 * Real.pi * al) := ⟨_, rfl⟩
  rw [← hed] at heb ⊢
  have hdiff : 0 < (2 * mW / v) ^ 2 - eb ^ 2 := by
    rw [heb, div_pow, hv2]
    have : (2 * mW) ^ 2 / (1 / Real.sqrt 2 / |GF|) = 4 * (Real.sqrt 2 * |GF| * mW ^ 2) := by
      field_simp; ring
    rw [this]; linarith
  unfold scalars2
  simp only
  rw [if_neg (not_lt.2 hdiff.le), if_neg hdiff.ne']
  have hm : ((v : ℂ) ^ 2 / 4 * (1 + (v : ℂ) ^ 2 / 2 * 0) * (((2 * mW / v : ℝ) : ℂ) ^ 2 +
      ((eb : ℂ) * ((2 * mW / v : ℝ) : ℂ) / (Real.sqrt ((2 * mW / v) ^ 2 - eb ^ 2) : ℝ) +
        (eb : ℂ) ^ 2 * ((2 * mW / v : ℝ) : ℂ) / (((2 * mW / v) ^ 2 - eb ^ 2 : ℝ) : ℂ) * (0 * (v : ℂ) ^ 2)) ^ 2) +
      (v : ℂ) ^ 2 / 2 * (0 * (v : ℂ) ^ 2) *
      ((eb : ℂ) * ((2 * mW / v : ℝ) : ℂ) / (Real.sqrt ((2 * mW / v) ^ 2 - eb ^ 2) : ℝ) +
        (eb : ℂ) ^ 2 * ((2 * mW / v : ℝ) : ℂ) / (((2 * mW / v) ^ 2 - eb ^ 2 : ℝ) : ℂ) * (0 * (v : ℂ) ^ 2)) *
        ((2 * mW / v : ℝ) : ℂ)) =
      ((v ^ 2 / 4 * ((2 * mW / v) ^ 2 + (eb * (2 * mW / v) / Real.sqrt ((2 * mW / v) ^ 2 - eb ^ 2)) ^ 2) : ℝ) : ℂ) := by
    push_cast; ring
  have hre := congrArg Complex.re hm
  rw [Complex.ofReal_re] at hre
  have hp : 0 < v ^ 2 / 4 * ((2 * mW / v) ^ 2 + (eb * (2 * mW / v) / Real.sqrt ((2 * mW / v) ^ 2 - eb ^ 2)) ^ 2) := by
    have h0 : 0 < (2 * mW / v) ^ 2 := by nlinarith [sq_nonneg eb]
    positivity
  rw [← hre] at hp
  rw [if_neg (not_lt.2 hp.le), if_neg hp.ne']
  exact ⟨_, rfl⟩

/-- **C54, tree level.** For complete coefficient sets that vanish, matching does succeed if
the inputs are physical: `G_F ≠ 0`, `α_e ≥ 0` and `π α_e < √2 |G_F| m_W²` (the weak mixing angle is
real). -/
theorem C54_tree_succeeds (C : Dict Key Ten) (hz : ∀ kv ∈ C, ∀ ix, kv.2 ix = 0)
    (hk : ∀ k ∈ coeffKeys, C.mem k = true) (p : Dict String ℝ)
    (mW GF al : ℝ) (h1 : p.get? "m_W" = some mW) (h2 : p.get? "GF" = some GF)
    (h3 : p.get? "alpha_e" = some al) (hG : GF ≠ 0) (ha : 0 ≤ al)
    (hw : Real.pi * al < Real.sqrt 2 * |GF| * mW ^ 2) :
    ∃ D, matchTree C p = .ok D ∧ ∀ k, ∃ B, D.get? k = some B ∧ ∀ ix, B ix = 0 := by
  have hk' : ∀ k ∈ treeKeys, C.mem k = true := fun k hm => hk k (by revert hm; revert k; decide)
  obtain ⟨s, hs⟩ := scalars_zeroed C hk' p mW GF al h1 h2 h3 hG ha hw
  have hs' := hs
  rw [zeroed_eq C hz] at hs'
  exact ⟨_, tree_of_scal hs' hs hk', fun k => C54_tree_zero C hz p _ (tree_of_scal hs' hs hk') k⟩

/-- the hypotheses are met by a complete set of zero arrays and round numbers close to the
physical inputs (`m_W` = 80, `G_F` = 1.1e-5, `α_e` = 1/128) -/
example : ∃ (C : Dict Key Ten) (p : Dict String ℝ) (mW GF al : ℝ), (∀ kv ∈ C, ∀ ix, kv.2 ix = 0) ∧
    (∀ k ∈ coeffKeys, C.mem k = true) ∧ p.get? "m_W" = some mW ∧ p.get? "GF" = some GF ∧
    p.get? "alpha_e" = some al ∧ GF ≠ 0 ∧ 0 ≤ al ∧ Real.pi * al < Real.sqrt 2 * |GF| * mW ^ 2 := by
  refine ⟨coeffKeys.map fun k => (k, fun _ => 0), [("m_W", 80), ("GF", 11 / 1000000), ("alpha_e", 1 / 128)],
    80, 11 / 1000000, 1 / 128, ?_, ?_, rfl, rfl, rfl, by norm_num, by norm_num, ?_⟩
  · intro kv hkv ix
    obtain ⟨k, _, rfl⟩ := List.mem_map.1 hkv
    rfl
  · intro k hk
    rw [Dict.mem_iff]
    simpa [Dict.keys, Function.comp_def] using hk
  · have h1 : Real.pi ≤ 4 := Real.pi_le_four
    have h2 : (1 : ℝ) ≤ Real.sqrt 2 := by
      rw [show (1 : ℝ) = Real.sqrt 1 by simp]
      exact Real.sqrt_le_sqrt (by norm_num)
    rw [abs_of_pos (by norm_num)]
    nlinarith

/-! ### C55 -/

theorem scalars_real {C : Dict Key Ten} {p : Dict String ℝ} {s : Scal} (h : scalars C p = .ok s)
    (hW : (val C .phiWB []).im = 0) : s.g1bar.im = 0 := by
  unfold scalars at h
  obtain ⟨mW, _, h⟩ := WetRun.ok_bind h
  obtain ⟨GF, _, h⟩ := WetRun.ok_bind h
  obtain ⟨ll, _, h⟩ := WetRun.ok_bind h
  obtain ⟨phil3, _, h⟩ := WetRun.ok_bind h
  obtain ⟨phiWB, hWB, h⟩ := WetRun.ok_bind h
  obtain ⟨al, _, h⟩ := WetRun.ok_bind h
  obtain ⟨eb, _, h⟩ := WetRun.ok_bind h
  have e : val C .phiWB = phiWB := by unfold val; rw [item_ok hWB]; rfl
  rw [e] at hW
  by_cases h0 : GFx GF ll phil3 = 0
  · rw [if_pos h0] at h
    by_cases h1 : eb = 0
    · rw [if_pos h1] at h; cases h
    · rw [if_neg h1] at h; cases h
  rw [if_neg h0] at h
  obtain ⟨phiD, _, h⟩ := WetRun.ok_bind h
  unfold scalars2 at h
  simp only at h
  split at h
  · cases h
  split at h
  · cases h
  split at h
  · cases h
  split at h
  · cases h
  injection h with h
  subst h
  have e : phiWB [] = ((phiWB []).re : ℂ) := by
    apply Complex.ext <;> simp [hW]
  simp only
  rw [e]
  norm_cast

theorem class_of_gens (k : WKey) (B : Ten) (h : ∀ g ∈ gensW k, Obeys B g)
    (h71 : wetClass k = 71 → ∀ ix, B ix = 0) :
    ObeysClass (wetClass k) B ∧ (wetTy k = [] → (B []).im = 0) := by
  obtain ⟨c, hc⟩ : ∃ c, c = wetClass k := ⟨_, rfl⟩
  have hcases : c = 4 ∨ c = 41 ∨ c = 5 ∨ c = 6 ∨ c = 71 ∨ c = 0 := by
    rw [hc]; cases k <;> decide
  have hty : c ≠ 0 → wetTy k ≠ [] := by rw [hc]; cases k <;> decide
  unfold gensW at h
  rw [← hc] at h h71 ⊢
  rcases hcases with rfl | rfl | rfl | rfl | rfl | rfl
  · simp only [List.mem_cons, List.not_mem_nil, or_false, forall_eq_or_imp, forall_eq, obeys4] at h
    refine ⟨⟨?_, ?_, ?_, ?_, ?_, ?_, ?_, ?_, ?_⟩, fun e => absurd e (hty (by decide))⟩ <;>
      try (intro h'; simp at h')
    intro i j k l
    refine ⟨?_, ?_⟩
    · simpa [cjIf] using (h.1 i j k l _ rfl).symm
    · simpa [cjIf] using h.2 j i l k _ rfl
  · simp only [List.mem_singleton, forall_eq, obeys4] at h
    refine ⟨⟨?_, ?_, ?_, ?_, ?_, ?_, ?_, ?_, ?_⟩, fun e => absurd e (hty (by decide))⟩ <;>
      try (intro h'; simp at h')
    intro i j k l
    simpa [cjIf] using (h i j k l _ rfl).symm
  · simp only [List.mem_singleton, forall_eq, obeys4] at h
    refine ⟨⟨?_, ?_, ?_, ?_, ?_, ?_, ?_, ?_, ?_⟩, fun e => absurd e (hty (by decide))⟩ <;>
      try (intro h'; simp at h')
    intro i j k l
    simpa [cjIf] using h j i l k _ rfl
  · simp only [List.mem_cons, List.not_mem_nil, or_false, forall_eq_or_imp, forall_eq, obeys4] at h
    refine ⟨⟨?_, ?_, ?_, ?_, ?_, ?_, ?_, ?_, ?_⟩, fun e => absurd e (hty (by decide))⟩ <;>
      try (intro h'; simp at h')
    intro i j k l
    refine ⟨?_, ?_, ?_⟩
    · simpa [cjIf] using (h.1 i j k l _ rfl).symm
    · simpa [cjIf] using h.2.1 j i l k _ rfl
    · simpa [cjIf] using (h.2.2 i j k l _ rfl).symm
  · refine ⟨⟨?_, ?_, ?_, ?_, ?_, ?_, ?_, ?_, ?_⟩, fun e => absurd e (hty (by decide))⟩ <;>
      try (intro h'; simp at h')
    intro i j k l
    simp [h71 rfl]
  · refine ⟨⟨?_, ?_, ?_, ?_, ?_, ?_, ?_, ?_, ?_⟩, fun e => ?_⟩ <;> try (intro h'; simp at h')
    simp only [e, if_true, List.mem_singleton, forall_eq, obeys0] at h
    exact h

/-- **C55.** If the SMEFT arrays have the symmetries of their operators (`ee` and `qqql` need
not obey their Fierz identities), every matched WET array has the symmetries of its JMS
operator, and the coefficients of the gluonic operators are real. -/
theorem C55_symmetric (C : Dict Key Ten) (hC : ∀ k A, C.get? k = some A → Has (clNoFierz k) A)
    (p : Dict String ℝ) (D : Dict WKey Ten) (h : matchTree C p = .ok D) (k : WKey) :
    ∃ B, D.get? k = some B ∧ ObeysClass (wetClass k) B ∧ (wetTy k = [] → (B []).im = 0) := by
  have hz : ∀ c : Cl, Has c fun _ => 0 := by
    intro c
    cases c <;> simp [Has, IsClass2, IsClass9, IsClass4, IsClass5, IsClass6, IsClass7, IsClass8]
  have hval : ∀ k, Has (clNoFierz k) (val C k) := by
    intro k
    unfold val
    cases hk : C.get? k with
    | none => exact hz _
    | some A => exact hC k A hk
  have hval0 : ∀ k, Has (clNoFierz k) (val (zeroed C) k) := by
    intro k
    rw [show val (zeroed C) k = fun _ => 0 from funext (val_zeroed C k)]
    exact hz _
  obtain ⟨s, s0, h1, h2, _, rfl⟩ := tree_ok h
  obtain ⟨⟨k, e⟩, hm, rfl⟩ := List.mem_map.1 (prog_keys k (by cases k <;> decide))
  refine ⟨_, get?_prog (diffE C s s0) k e hm, ?_⟩
  have hok := ok_tree _ hm
  simp only [symOKW, Bool.and_eq_true, List.all_eq_true] at hok
  refine class_of_gens k _ (fun g hg => obeys_sub ?_ ?_) fun h71 ix => ?_
  · exact srel_sound _ (fun v g hg => env_rel C s (scalars_real h1 (hval .phiWB)) hval v g hg)
      _ _ (hok.1 g hg)
  · exact srel_sound _
      (fun v g hg => env_rel (zeroed C) s0 (scalars_real h2 (hval0 .phiWB)) hval0 v g hg) _ _ (hok.1 g hg)
  · have : e = .num 0 := by simpa [h71] using hok.2
    subst this
    simp [diffE, eval]

/-! ### C56 -/

/-- variables allowed in a condition for a baryon-number conserving coefficient -/
def bncVar : MV → Bool
  | .c k => decide (k ∉ bnvSMEFT)
  | _ => true

/-- variables allowed in a condition for a baryon-number violating coefficient -/
def bnvVar : MV → Bool
  | .c k => decide (k ∈ bnvSMEFT)
  | _ => false

theorem bnc_ok : ∀ ke ∈ treeProg, ke.1 ∉ bnvWET → usesOnly bncVar ke.2 = true := by decide +kernel
theorem bnv_ok : ∀ ke ∈ treeProg, ke.1 ∈ bnvWET → usesOnly bnvVar ke.2 = true := by decide +kernel
theorem noLL_ok : ∀ ke ∈ treeProg, usesOnly (fun v => decide (v ≠ .c .llphiphi)) ke.2 = true := by
  decide +kernel

theorem scalars_get {C C' : Dict Key Ten} (p : Dict String ℝ)
    (h : ∀ k ∈ [Key.ll, .phil3, .phiWB, .phiD], C.get? k = C'.get? k) : scalars C p = scalars C' p := by
  have e : ∀ k ∈ [Key.ll, .phil3, .phiWB, .phiD], item C k = item C' k := by
    intro k hk; unfold item; rw [h k hk]
  unfold scalars
  rw [e .ll (by simp), e .phil3 (by simp), e .phiWB (by simp), e .phiD (by simp)]

theorem get_zeroed_congr {C C' : Dict Key Ten} {k : Key} (h : C.get? k = C'.get? k) :
    (zeroed C).get? k = (zeroed C').get? k := by
  unfold zeroed; rw [Dict.get?_mapVal, Dict.get?_mapVal, h]

theorem diff_congr {C C' : Dict Key Ten} {s s' s0 s0' : Scal} (P : MV → Bool) (e : E MV)
    (hu : usesOnly P e = true) (h1 : ∀ v, P v = true → env C s v = env C' s' v)
    (h2 : ∀ v, P v = true → env (zeroed C) s0 v = env (zeroed C') s0' v) :
    diffE C s s0 e = diffE C' s' s0' e := by
  unfold diffE
  rw [uses_sound P _ _ h1 e hu, uses_sound P _ _ h2 e hu]

/-- **C56.** Baryon-number conserving WET coefficients do not depend on the baryon-number
violating SMEFT coefficients. -/
theorem C56_conserving (C C' : Dict Key Ten) (p : Dict String ℝ) (D D' : Dict WKey Ten)
    (hag : ∀ k, k ∉ bnvSMEFT → C.get? k = C'.get? k) (h : matchTree C p = .ok D)
    (h' : matchTree C' p = .ok D') (k : WKey) (hk : k ∉ bnvWET) : D.get? k = D'.get? k := by
  obtain ⟨s, s0, h1, h2, _, rfl⟩ := tree_ok h
  obtain ⟨s', s0', h1', h2', _, rfl⟩ := tree_ok h'
  obtain ⟨⟨k, e⟩, hm, rfl⟩ := List.mem_map.1 (prog_keys k (by cases k <;> decide))
  rw [get?_prog (diffE C s s0) k e hm, get?_prog (diffE C' s' s0') k e hm]
  have es : s = s' := Except.ok.inj (h1.symm.trans
    ((scalars_get p (by intro k hk; exact hag k (by revert hk; revert k; decide))).trans h1'))
  have es0 : s0 = s0' := Except.ok.inj (h2.symm.trans
    ((scalars_get p (by
      intro k hk; exact get_zeroed_congr (hag k (by revert hk; revert k; decide)))).trans h2'))
  subst es; subst es0
  refine congrArg some (diff_congr bncVar e (bnc_ok _ hm hk) ?_ ?_)
  · intro v hv
    cases v with
    | c k => simp only [env]; rw [hag k (by simpa [bncVar] using hv)]
    | _ => rfl
  · intro v hv
    cases v with
    | c k => simp only [env]; rw [get_zeroed_congr (hag k (by simpa [bncVar] using hv))]
    | _ => rfl

/-- **C56.** Baryon-number violating WET coefficients depend only on the baryon-number
violating SMEFT coefficients. -/
theorem C56_violating (C C' : Dict Key Ten) (p p' : Dict String ℝ) (D D' : Dict WKey Ten)
    (hag : ∀ k ∈ bnvSMEFT, C.get? k = C'.get? k) (h : matchTree C p = .ok D)
    (h' : matchTree C' p' = .ok D') (k : WKey) (hk : k ∈ bnvWET) : D.get? k = D'.get? k := by
  obtain ⟨s, s0, h1, h2, _, rfl⟩ := tree_ok h
  obtain ⟨s', s0', h1', h2', _, rfl⟩ := tree_ok h'
  obtain ⟨⟨k, e⟩, hm, rfl⟩ := List.mem_map.1 (prog_keys k (by cases k <;> decide))
  rw [get?_prog (diffE C s s0) k e hm, get?_prog (diffE C' s' s0') k e hm]
  refine congrArg some (diff_congr bnvVar e (bnv_ok _ hm hk) ?_ ?_)
  · intro v hv
    cases v with
    | c k => simp only [env]; rw [hag k (by simpa [bnvVar] using hv)]
    | _ => simp [bnvVar] at hv
  · intro v hv
    cases v with
    | c k => simp only [env]; rw [get_zeroed_congr (hag k (by simpa [bnvVar] using hv))]
    | _ => simp [bnvVar] at hv

/-- **C56.** The lepton-number violating Weinberg coefficient does not contribute. -/
theorem C56_weinberg (C C' : Dict Key Ten) (p : Dict String ℝ) (D D' : Dict WKey Ten)
    (hag : ∀ k, k ≠ .llphiphi → C.get? k = C'.get? k) (h : matchTree C p = .ok D)
    (h' : matchTree C' p = .ok D') (k : WKey) : D.get? k = D'.get? k := by
  obtain ⟨s, s0, h1, h2, _, rfl⟩ := tree_ok h
  obtain ⟨s', s0', h1', h2', _, rfl⟩ := tree_ok h'
  obtain ⟨⟨k, e⟩, hm, rfl⟩ := List.mem_map.1 (prog_keys k (by cases k <;> decide))
  rw [get?_prog (diffE C s s0) k e hm, get?_prog (diffE C' s' s0') k e hm]
  have es : s = s' := Except.ok.inj (h1.symm.trans
    ((scalars_get p (by intro k hk; exact hag k (by revert hk; revert k; decide))).trans h1'))
  have es0 : s0 = s0' := Except.ok.inj (h2.symm.trans
    ((scalars_get p (by
      intro k hk; exact get_zeroed_congr (hag k (by revert hk; revert k; decide)))).trans h2'))
  subst es; subst es0
  refine congrArg some (diff_congr _ e (noLL_ok _ hm) ?_ ?_)
  · intro v hv
    cases v with
    | c k => simp only [env]; rw [hag k (by simpa using hv)]
    | _ => rfl
  · intro v hv
    cases v with
    | c k => simp only [env]; rw [get_zeroed_congr (hag k (by simpa using hv))]
    | _ => rfl

end Verif.Match
