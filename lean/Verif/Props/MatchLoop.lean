import Verif.Lemmas.MatchLoop
import Verif.Props.TreeInputs
import Verif.Props.MatchAll
import Mathlib.Tactic.FieldSimp
import Mathlib.Tactic.Positivity

/-!
# Property C87: symmetries of the coefficients matched at one loop
-/

set_option autoImplicit false
set_option linter.unusedSimpArgs false

namespace Verif.Loop
open Verif Verif.Spec Verif.Tens Verif.Beta Verif.Rotation Verif.Match Verif.BetaSym Verif.Flavour Verif.TranslateSmeft
open Verif.WetRun (ok_bind)
open Verif.EFT (Str)
open Verif.Bridge (typed)

attribute [local irreducible] loopProg tens coefTab prog2

theorem obeys_lin (k : WKey) {A B : Ten} (hA : ObeysClass (wetClass k) A ∧ (wetTy k = [] → (A []).im = 0))
    (hB : ObeysClass (wetClass k) B ∧ (wetTy k = [] → (B []).im = 0)) (r : ℝ) :
    ObeysClass (wetClass k) (fun ix => A ix + r * B ix) ∧ (wetTy k = [] → (A [] + r * B []).im = 0) := by
  obtain ⟨c, hc⟩ : ∃ c, c = wetClass k := ⟨_, rfl⟩
  have hcases : c = 4 ∨ c = 41 ∨ c = 5 ∨ c = 6 ∨ c = 71 ∨ c = 0 := by
    rw [hc]; cases k <;> decide
  rw [← hc] at hA hB ⊢
  refine ⟨?_, fun e => by simp [hA.2 e, hB.2 e]⟩
  obtain ⟨a2, a9, a4, a41, a5, a6, a7, a71, a8⟩ := hA.1
  obtain ⟨b2, b9, b4, b41, b5, b6, b7, b71, b8⟩ := hB.1
  rcases hcases with rfl | rfl | rfl | rfl | rfl | rfl <;>
    refine ⟨?_, ?_, ?_, ?_, ?_, ?_, ?_, ?_, ?_⟩ <;> try (intro h'; simp at h')
  · intro i j k l
    have := a4 rfl i j k l
    have := b4 rfl i j k l
    simp_all
  · intro i j k l
    have := a41 rfl i j k l
    have := b41 rfl i j k l
    simp_all
  · intro i j k l
    have := a5 rfl i j k l
    have := b5 rfl i j k l
    simp_all
  · intro i j k l
    have := a6 rfl i j k l
    have := b6 rfl i j k l
    simp_all
  · intro i j k l
    have := a71 rfl i j k l
    have := b71 rfl i j k l
    simp_all
    try ring

/-- **C87.** If the SMEFT arrays have the symmetries of their operators (`ee` and `qqql` need
not obey their Fierz identities), every WET array obtained by matching at tree level or at one
loop has the symmetries of its JMS operator, and the coefficients of the gluonic operators are
real: for all parameters, scales and CKM matrices. -/
theorem C87_symmetric (ckm : Ckm) (C : Dict Key Ten) (hC : ∀ k A, C.get? k = some A → Has (clNoFierz k) A)
    (p : Dict String ℝ) (scale : ℝ) (D : Dict WKey Ten)
    (h : matchArrays (loopRaw ckm) C p scale = .ok D) (k : WKey) :
    ∃ B, D.get? k = some B ∧ ObeysClass (wetClass k) B ∧ (wetTy k = [] → (B []).im = 0) := by
  obtain ⟨T, hT, hD⟩ := arrays_ok h
  obtain ⟨A, hA, hA1⟩ := C55_symmetric C hC p T hT k
  rcases hD with ⟨-, rfl⟩ | ⟨-, L, hL, hD⟩
  · exact ⟨A, hA, hA1⟩
  · obtain ⟨A', B, e1, e2, e3⟩ := hD k
    rw [hA] at e1
    obtain rfl := Option.some.inj e1
    obtain ⟨S, S0, hS, hS0, -, -, -, rfl⟩ := loop_ok hL
    obtain ⟨f, hf⟩ := exists_form k
    rw [get?_lprog (fun w f => ldiff C S S0 w f) k f hf] at e2
    obtain rfl := Option.some.inj e2
    have hval : ∀ k, Has (clNoFierz k) (cval C k) := by
      intro k
      unfold cval
      cases hk : C.get? k with
      | none => exact has_zero _
      | some A => exact hC k A hk
    have hval0 : ∀ k, Has (clNoFierz k) (cval (zeroed C) k) := fun k => by
      rw [cval_zeroed]; exact has_zero _
    have s1 := loop_class (cval C) S hval (env_real hS (hval .phiWB)) hf
    have s2 := loop_class (cval (zeroed C)) S0 hval0 (env_real hS0 (hval0 .phiWB)) hf
    have s3 := obeys_lin k hA1 (obeys_lin k s1 s2 (-1)) 1
    refine ⟨_, e3, ?_⟩
    unfold ldiff
    convert s3 using 3
    · simp [sub_eq_add_neg]
    · simp [sub_eq_add_neg]

/-! ### Physical inputs -/

/-- Physical inputs: all parameters are given, `G_F ≠ 0`, positive `m_W`, `α_e` and a Z mass below
the Higgs mass used by the program (125 GeV), i.e. `m_W² X < 125² (X - π α_e)` with
`X = √2 G_F m_W²`. -/
def Physical (ckm : Ckm) (p : Dict String ℝ) : Prop :=
  ∃ mW GF al als mu md me V, p.get? "m_W" = some mW ∧ p.get? "GF" = some GF ∧ p.get? "alpha_e" = some al ∧
    p.get? "alpha_s" = some als ∧ vec3 p "m_u" "m_c" "m_t" = .ok mu ∧ vec3 p "m_d" "m_s" "m_b" = .ok md ∧
    vec3 p "m_e" "m_mu" "m_tau" = .ok me ∧ ckmOf ckm p = .ok V ∧
    GF ≠ 0 ∧ 0 < mW ∧ 0 < al ∧ 0 ≤ als ∧
    mW ^ 2 * (Real.sqrt 2 * |GF| * mW ^ 2) < 125 ^ 2 * (Real.sqrt 2 * |GF| * mW ^ 2 - Real.pi * al)

set_option maxHeartbeats 1000000 in
theorem fine_of (S : LEnv) (hs : S.scale ≠ 0) (hv : S.vT ≠ 0) (hW : 0 < S.mW) (hWZ : S.mW < S.mZ)
    (hZ : S.mZ < 125) : Fine S := by
  refine ⟨hs, hW.ne', ?_⟩
  obtain ⟨w, hw⟩ : ∃ w, w = S.mW := ⟨_, rfl⟩
  obtain ⟨z, hz⟩ : ∃ z, z = S.mZ := ⟨_, rfl⟩
  have h2 : w ^ 2 < z ^ 2 := by rw [hw, hz]; nlinarith
  have h3 : z ^ 2 < 15625 := by rw [hz]; nlinarith
  have hz0 : 0 < z := by rw [hz]; linarith
  have h4 : w ^ 2 < 15625 := by linarith
  have h5 : z < 125 := by rw [hz]; exact hZ
  have h6 : w < z := by rw [hw, hz]; exact hWZ
  have h7 : 0 < w := by rw [hw]; exact hW
  have hp1 : 0 < z ^ 2 * (z ^ 2 - w ^ 2) := mul_pos (by positivity) (by linarith)
  have hp2 : 0 < z * (15625 - z ^ 2) := mul_pos hz0 (by linarith)
  have hp3 : S.vT * (z * (15625 - z ^ 2)) ≠ 0 := mul_ne_zero hv hp2.ne'
  intro n hn
  have hN : Nc = 3 := rfl
  have hH : mH = 125 := rfl
  have ht : mt = 173 := rfl
  simp only [divAtoms, List.mem_cons, List.not_mem_nil, or_false] at hn
  rcases hn with rfl | rfl | rfl | rfl | rfl | rfl | rfl | rfl | rfl | rfl | rfl | rfl | rfl | rfl | rfl | rfl | rfl | rfl | rfl | rfl |
    rfl | rfl | rfl | rfl | rfl | rfl | rfl | rfl | rfl | rfl | rfl | rfl | rfl | rfl | rfl | rfl | rfl | rfl | rfl | rfl |
    rfl | rfl | rfl | rfl | rfl | rfl | rfl | rfl | rfl | rfl | rfl | rfl | rfl | rfl | rfl <;>
    simp only [atomR, hN, hH, ht, ← hw, ← hz] <;>
    first
    | exact Real.pi_ne_zero
    | exact hv
    | (norm_num; done)
    | (refine ne_of_gt ?_; linarith)
    | (refine ne_of_lt ?_; linarith)
    | (intro h; apply hp3; linarith)

theorem scal_phys {ckm : Ckm} {C : Dict Key Ten} (hk : ∀ k ∈ treeKeys, C.mem k = true) {p : Dict String ℝ}
    (hp : Physical ckm p) : ∃ s, scalars (zeroed C) p = .ok s ∧ s.vT ≠ 0 ∧ 0 < s.mW ∧ s.mW < s.mZ ∧ s.mZ < 125 := by
  obtain ⟨mW, GF, al, als, mu, md, me, V, h1, h2, h3, -, -, -, -, -, hG, hW, ha, -, hX⟩ := hp
  have hs2 : (0 : ℝ) < Real.sqrt 2 := by positivity
  have habs : 0 < |GF| := abs_pos.2 hG
  have hX0 : 0 < Real.sqrt 2 * |GF| * mW ^ 2 := by positivity
  have hw : Real.pi * al < Real.sqrt 2 * |GF| * mW ^ 2 := by
    have : 0 < mW ^ 2 * (Real.sqrt 2 * |GF| * mW ^ 2) := by positivity
    nlinarith
  obtain ⟨s, hs⟩ := scalars_zeroed C hk p mW GF al h1 h2 h3 hG ha.le hw
  refine ⟨s, hs, ?_⟩
  have g : ∀ k ∈ treeKeys, Match.item (zeroed C) k = .ok fun _ => 0 :=
    fun k hm => item_of_get (get_zeroed (hk k hm))
  unfold scalars at hs
  rw [item_of_get h1, item_of_get h2, item_of_get h3, g .ll (by decide), g .phil3 (by decide),
    g .phiWB (by decide), g .phiD (by decide)] at hs
  have hpos : (0 : ℝ) ≤ 4 * Real.pi * al := by have := Real.pi_pos; positivity
  have hsq : pySqrt (4 * Real.pi * al) = .ok (Real.sqrt (4 * Real.pi * al)) := by
    unfold pySqrt; rw [if_neg (not_lt.2 hpos)]
  have hGx : GFx GF (fun _ => 0) (fun _ => 0) = (GF : ℂ) := by simp [GFx]
  simp only [bind, Except.bind, hsq] at hs
  rw [hGx, if_neg (by exact_mod_cast hG)] at hs
  have hn : ‖(GF : ℂ)‖ = |GF| := by rw [Complex.norm_real]; rfl
  rw [hn] at hs
  have hv2 : Real.sqrt (1 / Real.sqrt 2 / |GF|) ^ 2 = 1 / Real.sqrt 2 / |GF| := Real.sq_sqrt (by positivity)
  have hv : 0 < Real.sqrt (1 / Real.sqrt 2 / |GF|) := Real.sqrt_pos.2 (by positivity)
  obtain ⟨v, hvd⟩ : ∃ v, v = Real.sqrt (1 / Real.sqrt 2 / |GF|) := ⟨_, rfl⟩
  rw [← hvd] at hv hv2 hs
  have heb : Real.sqrt (4 * Real.pi * al) ^ 2 = 4 * Real.pi * al := Real.sq_sqrt hpos
  obtain ⟨eb, hed⟩ : ∃ eb, eb = Real.sqrt (4 * Real.pi * al) := ⟨_, rfl⟩
  rw [← hed] at heb hs
  obtain ⟨hd, e1, e2, -, e4, e5⟩ := Exchange.scalars2_real (a := 0) (b := 0) (by simpa using hs)
  have hsd := Real.sq_sqrt hd.le
  have hsd0 : 0 < Real.sqrt ((2 * mW / v) ^ 2 - eb ^ 2) := Real.sqrt_pos.2 hd
  obtain ⟨X, hXd⟩ : ∃ X, X = Real.sqrt 2 * |GF| * mW ^ 2 := ⟨_, rfl⟩
  have hg2 : (2 * mW / v) ^ 2 = 4 * X := by
    rw [div_pow, hv2, hXd]; field_simp; ring
  have hm : s.mZ ^ 2 * (X - Real.pi * al) = mW ^ 2 * X := by
    have hvm : v ^ 2 * (2 * mW / v) ^ 2 = 4 * mW ^ 2 := by field_simp; ring
    have hdx : (2 * mW / v) ^ 2 - eb ^ 2 = 4 * (X - Real.pi * al) := by rw [hg2, heb]; ring
    have hg1 : (eb * (2 * mW / v) / Real.sqrt ((2 * mW / v) ^ 2 - eb ^ 2)) ^ 2 * ((2 * mW / v) ^ 2 - eb ^ 2) =
        eb ^ 2 * (2 * mW / v) ^ 2 := by
      rw [div_pow, hsd, mul_pow, div_mul_cancel₀ _ hd.ne']
    rw [e4]
    obtain ⟨y, hy⟩ : ∃ y, y = eb * (2 * mW / v) / Real.sqrt ((2 * mW / v) ^ 2 - eb ^ 2) := ⟨_, rfl⟩
    rw [← hy] at hg1 ⊢
    obtain ⟨g, hgd⟩ : ∃ g, g = 2 * mW / v := ⟨_, rfl⟩
    rw [← hgd] at hg1 hdx hvm hg2 ⊢
    have : X - Real.pi * al = (g ^ 2 - eb ^ 2) / 4 := by rw [hdx]; ring
    rw [this]
    have hX' : X = g ^ 2 / 4 := by rw [hg2]; ring
    rw [hX']
    have : v ^ 2 / 4 * (1 + v ^ 2 / 2 * 0) * (g ^ 2 + (y + eb ^ 2 * g / (g ^ 2 - eb ^ 2) * (0 * v ^ 2)) ^ 2) +
        v ^ 2 / 2 * (0 * v ^ 2) * (y + eb ^ 2 * g / (g ^ 2 - eb ^ 2) * (0 * v ^ 2)) * g =
        v ^ 2 / 4 * (g ^ 2 + y ^ 2) := by ring
    rw [this]
    linear_combination v ^ 2 / 16 * hg1 + g ^ 2 / 16 * hvm
  rw [← hXd] at hX hX0 hw
  have hpa : 0 < Real.pi * al := by have := Real.pi_pos; positivity
  have hy0 : 0 < X - Real.pi * al := by linarith
  have hlt : mW ^ 2 < s.mZ ^ 2 := by
    by_contra hcon
    have := mul_le_mul_of_nonneg_right (not_lt.1 hcon) hy0.le
    nlinarith [sq_nonneg mW, mul_pos (pow_pos hW 2) hpa]
  have hlt2 : s.mZ ^ 2 < 125 ^ 2 := by
    by_contra hcon
    have := mul_le_mul_of_nonneg_right (not_lt.1 hcon) hy0.le
    linarith
  refine ⟨e2 ▸ hv.ne', e1 ▸ hW, ?_, ?_⟩
  · rw [e1]; exact lt_of_pow_lt_pow_left₀ 2 e5.le hlt
  · exact lt_of_pow_lt_pow_left₀ 2 (by norm_num) hlt2

theorem loopKeys_coeff : ∀ k ∈ loopKeys, k ∈ coeffKeys := by decide +kernel

/-- the program can be evaluated: complete sets of coefficients, of which `ll`, `phil3`, `phiWB` and
`phiD` vanish, physical inputs and a non-zero scale -/
theorem C87_succeeds (ckm : Ckm) (C : Dict Key Ten) (hk : ∀ k ∈ coeffKeys, C.mem k = true)
    (h0 : ∀ k ∈ [Key.ll, .phil3, .phiWB, .phiD], C.get? k = some fun _ => 0) (p : Dict String ℝ)
    (hp : Physical ckm p) (scale : ℝ) (hs : scale ≠ 0) : ∃ D, matchArrays (loopRaw ckm) C p scale = .ok D := by
  have hk' : ∀ k ∈ treeKeys, C.mem k = true := fun k hm => hk k (by revert hm; revert k; decide)
  obtain ⟨s, hs0, hv, hW, hWZ, hZ⟩ := scal_phys hk' hp
  have hs1 : scalars C p = .ok s := by
    rw [← hs0]
    refine scalars_get p fun k hm => ?_
    rw [h0 k hm, get_zeroed (hk k (by revert hm; revert k; decide))]
  refine arrays_tot (tree_of_scal hs1 hs0 hk') fun _ => ?_
  obtain ⟨mW, GF, al, als, mu, md, me, V, -, -, -, h4, h5, h6, h7, h8, -, -, -, ha, -⟩ := hp
  have hq : pySqrt (4 * Real.pi * als) = .ok (Real.sqrt (4 * Real.pi * als)) := by
    unfold pySqrt
    rw [if_neg (not_lt.2 (by have := Real.pi_pos; positivity))]
  have hF : Fine ⟨s.mW, s.mZ, s.vT, s.g1bar, 2 * s.mW / s.vT, Real.sqrt (4 * Real.pi * als), scale, mu, md, me, V⟩ :=
    fine_of _ hs hv hW hWZ hZ
  exact ⟨_, loop_of (env_of hs1 h5 h6 h7 (item_of_get h4) hq h8) (env_of hs0 h5 h6 h7 (item_of_get h4) hq h8)
    (fun k hm => hk k (loopKeys_coeff k hm)) hF hF⟩

theorem loopRaw_nodup (ckm : Ckm) (C : Dict Key Ten) (p : Dict String ℝ) (scale : ℝ) (m : Dict WKey Ten)
    (h : loopRaw ckm C p scale = .ok m) : m.NodupKeys := by
  obtain ⟨S, -, -, -, rfl⟩ := lraw_ok h
  unfold Dict.NodupKeys Dict.keys loopArrays
  rw [List.map_map]
  exact lprog_nodup

/-- **C54 (with the one-loop matching conditions).** With physical inputs and a non-zero scale
the matcher returns a result on vanishing SMEFT coefficients, at tree level and at one loop, and
all WET coefficients vanish. -/
theorem C54_one_loop {U : EFT.Util} (hS : IsSmeft U) (names : List Str) (ckm : Ckm) (defaults : Dict String ℝ)
    (d : Dict Str ℂ) (hd : d.NodupKeys) (hk : ∀ n ∈ d.keys, n ∈ U.allWcs)
    (hz : ∀ n z, d.get? n = some z → z = 0) (scale : ℝ) (hs : scale ≠ 0) (par : Option (Dict String ℝ))
    (hp : Physical ckm (params defaults par)) :
    ∃ e, matchAll U names (loopRaw ckm) ckm defaults d scale par = .ok e ∧ ∀ n z, e.get? n = some z → z = 0 := by
  obtain ⟨C, eC, hC, hm⟩ := read_zero hS d hd hk hz
  obtain ⟨W, hW⟩ := C87_succeeds ckm (typed C) hm (fun k hk => by
    have := hm k (by revert hk; revert k; decide)
    unfold Dict.mem at this
    obtain ⟨A, hA⟩ := Option.isSome_iff_exists.1 this
    rw [hA]
    congr 1
    funext ix
    exact hC (k, A) (Dict.mem_of_get? hA) ix) _ hp scale hs
  obtain ⟨z, n, k⟩ := arrays_zero (fun m h => loopRaw_nodup ckm _ _ _ m h) hC hW
  have ⟨_, _, _, _, _, _, _, V, _, _, _, _, _, _, _, hV, _⟩ := hp
  obtain ⟨e, h', hz'⟩ := names_zero names V z n k
  refine ⟨e, ?_, hz'⟩
  unfold matchAll
  rw [eC]
  show (matchArrays (loopRaw ckm) (typed C) (params defaults par) scale >>= fun W => _) = _
  rw [hW]
  show (ckmOf ckm (params defaults par) >>= fun V => _) = _
  rw [hV]
  exact h'

/-- the hypotheses are met by round numbers close to the physical inputs -/
theorem physical_ex (ckm : Ckm) : Physical ckm [("loop_order", 1), ("m_W", 80), ("GF", 11 / 1000000),
    ("alpha_e", 1 / 128), ("alpha_s", 1 / 8), ("m_u", 0.002), ("m_c", 1.3), ("m_t", 173), ("m_d", 0.005), ("m_s", 0.1),
    ("m_b", 4.2), ("m_e", 0.0005), ("m_mu", 0.1), ("m_tau", 1.8), ("Vus", 0.2), ("Vub", 0.004), ("Vcb", 0.04),
    ("gamma", 1.2)] := by
  refine ⟨80, 11 / 1000000, 1 / 128, 1 / 8, _, _, _, _, rfl, rfl, rfl, rfl, rfl, rfl, rfl, rfl, by norm_num,
    by norm_num, by norm_num, by norm_num, ?_⟩
  have h1 : Real.pi ≤ 3.15 := Real.pi_lt_d2.le
  have h2 : (1.4 : ℝ) ≤ Real.sqrt 2 := Real.le_sqrt_of_sq_le (by norm_num)
  rw [abs_of_pos (by norm_num)]
  nlinarith

/-- a complete set of coefficients: `phiq1` is the unit matrix, `uG` has one imaginary entry -/
noncomputable def exC : Dict Key Ten := coeffKeys.map fun k => (k, fun ix =>
  if k = .phiq1 then eyeT ix else if k = .uG ∧ ix = [2, 2] then Complex.I else 0)

theorem exC_get (k : Key) (hk : k ∈ coeffKeys) : exC.get? k = some fun ix =>
    if k = .phiq1 then eyeT ix else if k = .uG ∧ ix = [2, 2] then Complex.I else 0 := by
  refine Dict.get?_of_mem ?_ (List.mem_map.2 ⟨k, hk, rfl⟩)
  unfold Dict.NodupKeys Dict.keys exC
  rw [List.map_map]
  simpa [Function.comp_def] using (by decide : coeffKeys.Nodup)

/-- the hypotheses of the theorems of this file are met -/
example (ckm : Ckm) : ∃ p, p.get? "loop_order" = some 1 ∧
    (∃ D, matchArrays (loopRaw ckm) exC p 160 = .ok D) ∧
    ∀ k A, exC.get? k = some A → Has (clNoFierz k) A := by
  refine ⟨_, rfl, C87_succeeds ckm exC ?_ ?_ _ (physical_ex ckm) 160 (by norm_num), ?_⟩
  · intro k hk
    rw [Dict.mem_iff]
    simpa [Dict.keys, exC, Function.comp_def] using hk
  · intro k hk
    rw [exC_get k (by revert hk; revert k; decide)]
    simp only [List.mem_cons, List.not_mem_nil, or_false] at hk
    rcases hk with rfl | rfl | rfl | rfl <;> simp
  · intro k A hA
    have hk : k ∈ coeffKeys := by
      obtain ⟨k', hk', e⟩ := List.mem_map.1 (Dict.mem_of_get? hA)
      have e1 : k' = k := (Prod.ext_iff.1 e).1
      exact e1 ▸ hk'
    rw [exC_get k hk] at hA
    obtain rfl := Option.some.inj hA
    by_cases h1 : k = .phiq1
    · subst h1
      intro i j
      by_cases h : i = j
      · subst h; simp [eyeT]
      · simp [eyeT, h, Ne.symm h]
    by_cases h2 : k = .uG
    · subst h2; trivial
    simp only [h1, h2, false_and, if_false]
    exact has_zero _

end Verif.Loop
