import Verif.Lemmas.Electroweak
import Verif.Lemmas.TreeExchange
import Verif.Props.Match

/-!
# C85: the input parameters keep their meaning in tree-level matching
-/

set_option autoImplicit false
set_option linter.unusedTactic false

namespace Verif.Exchange
open Verif Verif.Tens Verif.Beta Verif.Rotation Verif.Match
open Verif.WetRun (ok_bind)
open Filter Topology Asymptotics
open Verif.Ew (second_order)

/-! ### The Fermi constant -/

/-- the vacuum expectation value from the corrected Fermi constant -/
theorem scalars_vT {C : Dict Key Ten} {p : Dict String ℝ} {s : Scal} (h : scalars C p = .ok s) :
    ∃ GF ll phil3, p.get? "GF" = some GF ∧ C.get? .ll = some ll ∧ C.get? .phil3 = some phil3 ∧
      GFx GF ll phil3 ≠ 0 ∧ s.vT = Real.sqrt (1 / Real.sqrt 2 / ‖GFx GF ll phil3‖) := by
  unfold scalars at h
  obtain ⟨mW, _, h⟩ := ok_bind h
  obtain ⟨GF, h1, h⟩ := ok_bind h
  obtain ⟨ll, h2, h⟩ := ok_bind h
  obtain ⟨phil3, h3, h⟩ := ok_bind h
  obtain ⟨phiWB, _, h⟩ := ok_bind h
  obtain ⟨al, _, h⟩ := ok_bind h
  obtain ⟨eb, heb, h⟩ := ok_bind h
  by_cases hG : GFx GF ll phil3 = 0
  · rw [if_pos hG] at h; split_ifs at h
  rw [if_neg hG] at h
  obtain ⟨phiD, _, h⟩ := ok_bind h
  refine ⟨GF, ll, phil3, item_ok h1, item_ok h2, item_ok h3, hG, ?_⟩
  unfold scalars2 at h
  simp only at h
  split_ifs at h with h1 h2 h3 h4
  injection h with h
  rw [← h]

/-- C85: the coefficient of muon decay, `(ν̄_μ γ ν_e)(ē γ μ)`, is `-2√2 G_F` with the `G_F` of the
parameters, whatever the SMEFT coefficients, as long as the tree-level correction does not change the
sign of `G_F`. -/
theorem C85_muon (C : Dict Key Ten) (p : Dict String ℝ) (m : Dict WKey Ten) (h : matchRaw C p = .ok m)
    (GF x : ℝ) (ll phil3 A : Ten) (hp : p.get? "GF" = some GF) (hll : C.get? .ll = some ll)
    (h3 : C.get? .phil3 = some phil3) (hx : 0 < x)
    (hG : (GF : ℂ) - (Real.sqrt 2 : ℝ) / 4 *
      (2 * phil3 [0, 0] + 2 * phil3 [1, 1] - ll [1, 0, 0, 1] - ll [0, 1, 1, 0]) = x)
    (hA : m.get? .VnueLL = some A) : A [1, 0, 0, 1] = -2 * (Real.sqrt 2 : ℝ) * GF := by
  obtain ⟨s, hs, _, rfl⟩ := raw_ok h
  obtain ⟨hW, hZ, hv⟩ := scalars_ne hs
  obtain ⟨⟨k, e⟩, hm, he⟩ := List.mem_map.1 (Dict.mem_of_get? hA)
  injection he with he1 he2
  subst he1 he2
  rw [prog_spec C s hW hZ hv _ e hm _ _ rfl]
  obtain ⟨GF', ll', phil3', e1, e2, e3, -, hvT⟩ := scalars_vT hs
  rw [hp] at e1; rw [hll] at e2; rw [h3] at e3
  cases e1; cases e2; cases e3
  have hGx : GFx GF ll phil3 = x := by rw [← hG, GFx]; ring
  rw [hGx, Complex.norm_real, Real.norm_eq_abs, abs_of_pos hx] at hvT
  have hs2 : Real.sqrt 2 ^ 2 = 2 := Real.sq_sqrt (by norm_num)
  have h20 : 0 < Real.sqrt 2 := by positivity
  have hv2 : s.vT ^ 2 * (Real.sqrt 2 * x) = 1 := by
    rw [hvT, Real.sq_sqrt (by positivity)]
    field_simp
  have hv2' : (s.vT : ℂ) ^ 2 * ((Real.sqrt 2 : ℝ) * x) = 1 := by exact_mod_cast hv2
  have hs2' : ((Real.sqrt 2 : ℝ) : ℂ) ^ 2 = 2 := by exact_mod_cast hs2
  have hvc : (s.vT : ℂ) ≠ 0 := by exact_mod_cast hv
  have hinv : 1 / (s.vT : ℂ) ^ 2 = (Real.sqrt 2 : ℝ) * x := by
    field_simp; linear_combination -hv2'
  have key : total (ct (inp C s) .ll 1 0 0 1 + ct (inp C s) .ll 0 1 1 0
      + zz (inp C s) (zNu (inp C s)) (zEL (inp C s)) 1 0 0 1 + ww (inp C s) (wL (inp C s) 1 1) (wL (inp C s) 0 0))
      = ll [1, 0, 0, 1] + ll [0, 1, 1, 0] - 2 * (phil3 [1, 1] + phil3 [0, 0]) - 2 * (1 / (s.vT : ℂ) ^ 2) := by
    simp only [total, TrivSqZeroExt.fst_add, TrivSqZeroExt.snd_add, TrivSqZeroExt.fst_sub,
      TrivSqZeroExt.snd_sub, TrivSqZeroExt.fst_neg, TrivSqZeroExt.snd_neg, mul_fst, mul_snd, lin_fst, lin_snd,
      ct, contact, zz, ww, zNu, zEL, wL, zed, gZ2, sin2, inp, Inp.c0, hll, h3, Option.getD_some, delta]
    simp only [if_neg (show ¬(1 : Fin 3) = 0 by decide), if_neg (show ¬(0 : Fin 3) = 1 by decide), if_true]
    field_simp
    ring
  refine key.trans ?_
  rw [hinv, ← hG]
  linear_combination (phil3 [0, 0] + phil3 [1, 1] - (ll [1, 0, 0, 1] + ll [0, 1, 1, 0]) / 2) * hs2'

/-- C85: tree-level matching gives no contribution to muon decay beyond `G_F`. -/
theorem C85_muon_tree (C : Dict Key Ten) (p : Dict String ℝ) (D : Dict WKey Ten) (h : matchTree C p = .ok D)
    (GF x : ℝ) (ll phil3 A : Ten) (hp : p.get? "GF" = some GF) (hGF : 0 < GF) (hll : C.get? .ll = some ll)
    (h3 : C.get? .phil3 = some phil3) (hx : 0 < x)
    (hG : (GF : ℂ) - (Real.sqrt 2 : ℝ) / 4 *
      (2 * phil3 [0, 0] + 2 * phil3 [1, 1] - ll [1, 0, 0, 1] - ll [0, 1, 1, 0]) = x)
    (hA : D.get? .VnueLL = some A) : A [1, 0, 0, 1] = 0 := by
  obtain ⟨s, s0, hs, hs0, hk, rfl⟩ := tree_ok h
  obtain ⟨e, hm, rfl⟩ := tree_get hA
  have hk0 : treeKeys.all (zeroed C).mem = true := by
    rw [List.all_eq_true]
    intro k hm
    rw [Dict.mem_iff, zeroed, Dict.keys_mapVal, ← Dict.mem_iff]
    exact hk k hm
  have r1 : matchRaw C p = .ok (treeProg.map fun ke => (ke.1, eval (env C s) ke.2)) := by
    unfold matchRaw; rw [hs]; simp only [Bind.bind, Except.bind]; rw [if_pos (List.all_eq_true.2 hk)]
  have r2 : matchRaw (zeroed C) p = .ok (treeProg.map fun ke => (ke.1, eval (env (zeroed C) s0) ke.2)) := by
    unfold matchRaw; rw [hs0]; simp only [Bind.bind, Except.bind]; rw [if_pos hk0]
  have a1 := C85_muon C p _ r1 GF x ll phil3 _ hp hll h3 hx hG (get?_prog (eval (env C s)) _ e hm)
  have a2 := C85_muon (zeroed C) p _ r2 GF GF _ _ _ hp (get_zeroed (hk .ll (by decide)))
    (get_zeroed (hk .phil3 (by decide))) hGF (by simp) (get?_prog (eval (env (zeroed C) s0)) _ e hm)
  unfold diffE
  rw [a1, a2, sub_self]

/-- an array with the entries of `ll` that shift `G_F`, all other coefficients zero -/
noncomputable def exC : Dict Key Ten := keys.map fun k =>
  (k, fun ix => if k = .ll ∧ (ix = [1, 0, 0, 1] ∨ ix = [0, 1, 1, 0]) then 1 / 1000000 else 0)

theorem exC_get (k : Key) (hk : k ∈ keys) : exC.get? k = some fun ix =>
    if k = .ll ∧ (ix = [1, 0, 0, 1] ∨ ix = [0, 1, 1, 0]) then 1 / 1000000 else 0 := by
  refine Dict.get?_of_mem ?_ (List.mem_map.2 ⟨k, hk, rfl⟩)
  unfold Dict.NodupKeys Dict.keys exC
  rw [List.map_map]
  simpa [Function.comp_def] using (by decide : keys.Nodup)

/-- the hypotheses of `C85_muon_tree` are met: `C_ll` shifts `G_F` by about 6 % (`m_W` = 80,
`G_F` = 1.1e-5, `α_e` = 1/128) -/
example : ∃ (p : Dict String ℝ) (D : Dict WKey Ten) (GF x : ℝ) (ll phil3 A : Ten),
    matchTree exC p = .ok D ∧ p.get? "GF" = some GF ∧ 0 < GF ∧ exC.get? .ll = some ll ∧
    exC.get? .phil3 = some phil3 ∧ 0 < x ∧ x ≠ GF ∧ (GF : ℂ) - (Real.sqrt 2 : ℝ) / 4 *
      (2 * phil3 [0, 0] + 2 * phil3 [1, 1] - ll [1, 0, 0, 1] - ll [0, 1, 1, 0]) = x ∧
    D.get? .VnueLL = some A := by
  have hk : ∀ k ∈ treeKeys, exC.mem k = true := by
    intro k hm
    have : k ∈ keys := by revert hm; revert k; decide
    unfold Dict.mem
    rw [exC_get k this]; rfl
  obtain ⟨x, hx⟩ : ∃ x : ℝ, x = 11 / 1000000 + Real.sqrt 2 / 2 / 1000000 := ⟨_, rfl⟩
  have h20 : 0 < Real.sqrt 2 := by positivity
  have h21 : (1 : ℝ) ≤ Real.sqrt 2 := by
    rw [show (1 : ℝ) = Real.sqrt 1 by simp]
    exact Real.sqrt_le_sqrt (by norm_num)
  have hpi := Real.pi_le_four
  have hx0 : 11 / 1000000 < x := by rw [hx]; linarith [show 0 < Real.sqrt 2 / 2 / 1000000 by positivity]
  have hineq : Real.pi * (1 / 128) < Real.sqrt 2 * |x| * 80 ^ 2 := by
    rw [abs_of_pos (by linarith)]; nlinarith
  obtain ⟨s0, hs0⟩ := scalars_zeroed exC hk [("m_W", 80), ("GF", 11 / 1000000), ("alpha_e", 1 / 128)]
    80 (11 / 1000000) (1 / 128) rfl rfl rfl (by norm_num) (by norm_num)
    (by rw [abs_of_pos (by norm_num)]; nlinarith)
  obtain ⟨s, hs⟩ := scalars_zeroed exC hk [("m_W", 80), ("GF", x), ("alpha_e", 1 / 128)]
    80 x (1 / 128) rfl rfl rfl (by linarith) (by norm_num) hineq
  have hG : (11 / 1000000 : ℂ) - (Real.sqrt 2 : ℝ) / 4 * (2 * 0 + 2 * 0 - 1 / 1000000 - 1 / 1000000) = x := by
    rw [hx]; push_cast; ring
  have hs' : scalars exC [("m_W", 80), ("GF", 11 / 1000000), ("alpha_e", 1 / 128)] = .ok s := by
    rw [← hs]
    unfold scalars
    have g : ∀ k ∈ treeKeys, item (zeroed exC) k = .ok fun _ => 0 :=
      fun k hm => item_of_get (get_zeroed (hk k hm))
    rw [g .ll (by decide), g .phil3 (by decide), g .phiWB (by decide), g .phiD (by decide),
      item_of_get (exC_get .ll (by decide)), item_of_get (exC_get .phil3 (by decide)),
      item_of_get (exC_get .phiWB (by decide)), item_of_get (exC_get .phiD (by decide))]
    have h1 : item ([("m_W", 80), ("GF", 11 / 1000000), ("alpha_e", 1 / 128)] : Dict String ℝ) "GF"
        = .ok (11 / 1000000) := rfl
    have h2 : item ([("m_W", 80), ("GF", x), ("alpha_e", 1 / 128)] : Dict String ℝ) "GF" = .ok x := rfl
    have h3 : item ([("m_W", 80), ("GF", x), ("alpha_e", 1 / 128)] : Dict String ℝ) "m_W"
      = item ([("m_W", 80), ("GF", 11 / 1000000), ("alpha_e", 1 / 128)] : Dict String ℝ) "m_W" := rfl
    have h4 : item ([("m_W", 80), ("GF", x), ("alpha_e", 1 / 128)] : Dict String ℝ) "alpha_e"
      = item ([("m_W", 80), ("GF", 11 / 1000000), ("alpha_e", 1 / 128)] : Dict String ℝ) "alpha_e" := rfl
    rw [h1, h2, h3, h4]
    simp only [Bind.bind, Except.bind]
    have e1 : GFx (11 / 1000000) (fun ix => if True ∧ (ix = [1, 0, 0, 1] ∨ ix = [0, 1, 1, 0]) then 1 / 1000000 else 0)
        (fun ix => if Key.phil3 = Key.ll ∧ (ix = [1, 0, 0, 1] ∨ ix = [0, 1, 1, 0]) then 1 / 1000000 else 0) = x := by
      rw [← hG]; simp [GFx]
    have e2 : GFx x (fun _ => 0) (fun _ => 0) = (x : ℂ) := by simp [GFx]
    rw [e1, e2]
    simp
  refine ⟨[("m_W", 80), ("GF", 11 / 1000000), ("alpha_e", 1 / 128)], _, 11 / 1000000, x, _, _, _,
    tree_of_scal hs' hs0 hk, rfl, by norm_num, exC_get .ll (by decide), exC_get .phil3 (by decide),
    by linarith, hx0.ne', ?_, get?_prog (diffE exC s s0) .VnueLL m_VnueLL (by simp [treeProg])⟩
  rw [← hG]; simp

/-! ### The electric charge and the Z boson -/

/-- lines 28-33 for real coefficients -/
theorem scalars2_real {mW vT eb a b : ℝ} {s : Scal} (h : scalars2 mW vT eb (a : ℝ) (b : ℝ) = .ok s) :
    let g2 := 2 * mW / vT
    let d := g2 ^ 2 - eb ^ 2
    let g1 := eb * g2 / Real.sqrt d + eb ^ 2 * g2 / d * (a * vT ^ 2)
    0 < d ∧ s.mW = mW ∧ s.vT = vT ∧ s.g1bar = (g1 : ℝ) ∧
      s.mZ ^ 2 = vT ^ 2 / 4 * (1 + vT ^ 2 / 2 * b) * (g2 ^ 2 + g1 ^ 2) + vT ^ 2 / 2 * (a * vT ^ 2) * g1 * g2 ∧
      0 < s.mZ := by
  intro g2 d g1
  unfold scalars2 at h
  simp only at h
  split_ifs at h with h1 h2 h3 h4
  injection h with h
  have hd : 0 < d := lt_of_le_of_ne (not_lt.1 h1) (Ne.symm h2)
  have hre : ∀ z : ℂ, z = ((vT ^ 2 / 4 * (1 + vT ^ 2 / 2 * b) * (g2 ^ 2 + g1 ^ 2) + vT ^ 2 / 2 * (a * vT ^ 2) * g1 * g2 : ℝ) : ℂ) →
      z.re = vT ^ 2 / 4 * (1 + vT ^ 2 / 2 * b) * (g2 ^ 2 + g1 ^ 2) + vT ^ 2 / 2 * (a * vT ^ 2) * g1 * g2 := by
    rintro z rfl; exact Complex.ofReal_re _
  rw [← h]
  refine ⟨hd, rfl, rfl, ?_, ?_, ?_⟩
  · simp only [g1, d, g2]; push_cast; rfl
  · simp only
    rw [Real.sq_sqrt (not_lt.1 h3)]
    apply hre
    simp only [g1, d, g2]; push_cast; ring
  · exact Real.sqrt_pos.2 (lt_of_le_of_ne (not_lt.1 h3) (Ne.symm h4))

/-- C85: let `C_φWB` and `C_φD` be `λ a` and `λ b`.  The couplings and masses of lines 28-33 are such
that, up to terms of order `λ²`, the electric charge is the one of the parameters, the mass of the Z is
the squared mass that is used, and the Z couplings are those of the specification of C84. -/
theorem C85_electroweak (mW v eb a b : ℝ) (sc : ℝ → Scal)
    (hsc : ∀ᶠ l : ℝ in 𝓝 0, scalars2 mW v eb (l * a : ℝ) (l * b : ℝ) = .ok (sc l))
    (C : ℝ → Dict Key Ten) (hWB : ∀ l, ∃ A, (C l).get? .phiWB = some A ∧ A [] = (l * a : ℝ))
    (hD : ∀ l, ∃ A, (C l).get? .phiD = some A ∧ A [] = (l * b : ℝ)) :
    (∀ e : ℝ → ℝ, (∀ᶠ l in 𝓝 0, Ew.ElectricCharge v (1 + v ^ 2 * (l * b) / 2) (v ^ 2 * (l * a))
        (sc l).g1bar.re (2 * mW / v) (e l)) →
      (fun l => ((e l ^ 2 - eb ^ 2 : ℝ) : ℂ)) =O[𝓝 0] fun l => l ^ 2) ∧
    (∀ m2 g s2 : ℝ → ℝ, (∀ᶠ l in 𝓝 0, Ew.ZBoson v (1 + v ^ 2 * (l * b) / 2) (v ^ 2 * (l * a))
        (sc l).g1bar.re (2 * mW / v) (m2 l) (g l) (s2 l)) →
      ((fun l => ((m2 l - (sc l).mZ ^ 2 : ℝ) : ℂ)) =O[𝓝 0] fun l => l ^ 2) ∧
      ((fun l => ((g l / m2 l : ℝ) : ℂ) - total (gZ2 (inp (C l) (sc l)))) =O[𝓝 0] fun l => l ^ 2) ∧
      ((fun l => (s2 l : ℂ) - total (sin2 (inp (C l) (sc l)))) =O[𝓝 0] fun l => l ^ 2)) := by
  obtain ⟨hd, -⟩ := scalars2_real hsc.self_of_nhds
  have hv : v ≠ 0 := by rintro rfl; simp at hd; nlinarith [sq_nonneg eb]
  have hW : mW ≠ 0 := by rintro rfl; simp at hd; nlinarith [sq_nonneg eb]
  obtain ⟨g2, hg2⟩ : ∃ g2, g2 = 2 * mW / v := ⟨_, rfl⟩
  have hg20 : g2 ≠ 0 := by rw [hg2]; positivity
  have hmW : mW = g2 * v / 2 := by rw [hg2]; field_simp
  rw [← hg2] at hd
  obtain ⟨d, hdd⟩ : ∃ d, d = g2 ^ 2 - eb ^ 2 := ⟨_, rfl⟩
  rw [← hdd] at hd
  obtain ⟨k, hk⟩ : ∃ k, k = eb ^ 2 * g2 / d * (a * v ^ 2) := ⟨_, rfl⟩
  obtain ⟨g0, hg0⟩ : ∃ g0, g0 = eb * g2 / Real.sqrt d := ⟨_, rfl⟩
  have hg0d : d * g0 ^ 2 = eb ^ 2 * g2 ^ 2 := by
    rw [hg0, div_pow, Real.sq_sqrt hd.le]; field_simp
  have hkd : d * k = eb ^ 2 * g2 * (a * v ^ 2) := by rw [hk]; field_simp
  obtain ⟨G, hG⟩ : ∃ G : ℝ → ℝ, G = fun l => g0 + k * l := ⟨_, rfl⟩
  have hGc : Continuous G := by rw [hG]; fun_prop
  -- the scalars near 0
  have key : ∀ᶠ l : ℝ in 𝓝 0, (sc l).mW = mW ∧ (sc l).vT = v ∧ (sc l).g1bar = (G l : ℝ) ∧
      (sc l).mZ ^ 2 = v ^ 2 / 4 * ((1 + v ^ 2 * (l * b) / 2) * (g2 ^ 2 + G l ^ 2) + 2 * (v ^ 2 * (l * a)) * G l * g2) ∧
      0 < (sc l).mZ := by
    filter_upwards [hsc] with l hl
    obtain ⟨-, h1, h2, h3, h4, h5⟩ := scalars2_real hl
    simp only [← hg2, ← hdd, ← hg0] at h3 h4
    have hGl : g0 + eb ^ 2 * g2 / d * (l * a * v ^ 2) = G l := by rw [hG, hk]; ring
    rw [hGl] at h3 h4
    exact ⟨h1, h2, h3, by rw [h4]; ring, h5⟩
  have hε : ∀ᶠ l : ℝ in 𝓝 0, (v ^ 2 * (l * a)) ^ 2 < 1 := by
    have : Continuous fun l : ℝ => (v ^ 2 * (l * a)) ^ 2 := by fun_prop
    exact (this.tendsto 0).eventually (gt_mem_nhds (by norm_num))
  have hρ : ∀ᶠ l : ℝ in 𝓝 0, 0 < 1 + v ^ 2 * (l * b) / 2 := by
    have : Continuous fun l : ℝ => 1 + v ^ 2 * (l * b) / 2 := by fun_prop
    exact (this.tendsto 0).eventually (lt_mem_nhds (by norm_num))
  have hNc : Continuous fun l : ℝ => Ew.nrm (v ^ 2 * (l * a)) (G l) g2 := by
    unfold Ew.nrm; fun_prop
  have hN0 : ∀ l : ℝ, (v ^ 2 * (l * a)) ^ 2 < 1 → 0 < Ew.nrm (v ^ 2 * (l * a)) (G l) g2 :=
    fun l h => Ew.nrm_pos h hg20
  rw [← hg2]
  refine ⟨fun e he => ?_, fun m2 g s2 hz => ⟨?_, ?_, ?_⟩⟩
  · refine second_order (R := fun l => -(d * k ^ 2) / Ew.nrm (v ^ 2 * (l * a)) (G l) g2)
      (ContinuousAt.div (by fun_prop) hNc.continuousAt (hN0 0 (by norm_num)).ne') ?_
    filter_upwards [key, hε, hρ, he] with l ⟨_, _, h3, _, _⟩ h6 h7 h8
    rw [h3, Complex.ofReal_re] at h8
    have := Ew.charge_sq hv h7.ne' h6 hg20 h8
    have hN := (hN0 l h6).ne'
    obtain ⟨N, hNN⟩ : ∃ N, N = Ew.nrm (v ^ 2 * (l * a)) (G l) g2 := ⟨_, rfl⟩
    rw [this, ← hNN]
    rw [← hNN] at hN
    congr 1
    field_simp
    rw [hNN]
    unfold Ew.nrm
    have hGl : G l = g0 + k * l := by rw [hG]
    rw [hGl]
    linear_combination hg0d + (2 * l * g0 + 2 * k * l ^ 2) * hkd - (g0 + k * l) ^ 2 * hdd
  · refine second_order (R := fun l => v ^ 2 / 4 *
        ((v ^ 2 * a * v ^ 2 * b * G l * g2 + (v ^ 2 * a) ^ 2 *
          ((1 + v ^ 2 * (l * b) / 2) * (g2 ^ 2 + G l ^ 2) + 2 * (v ^ 2 * (l * a)) * G l * g2)) /
          (1 - (v ^ 2 * (l * a)) ^ 2)))
      (ContinuousAt.mul (by fun_prop) (ContinuousAt.div (by fun_prop) (by fun_prop) (by norm_num))) ?_
    filter_upwards [key, hε, hρ, hz] with l ⟨_, _, h3, h4, _⟩ h6 h7 h8
    rw [h3, Complex.ofReal_re] at h8
    obtain ⟨r1, -, -⟩ := Ew.z_facts hv h7.ne' h6 hg20 h8
    rw [r1, h4]
    congr 1
    have hE : 1 - (v ^ 2 * (l * a)) ^ 2 ≠ 0 := by nlinarith
    obtain ⟨E, hEE⟩ : ∃ E, E = 1 - (v ^ 2 * (l * a)) ^ 2 := ⟨_, rfl⟩
    rw [← hEE] at hE ⊢
    field_simp
    rw [hEE]
    unfold Ew.nrm
    ring
  · refine second_order (R := fun l => b ^ 2 * v ^ 2 / (1 + v ^ 2 * (l * b) / 2))
      (ContinuousAt.div (by fun_prop) (by fun_prop) (by norm_num)) ?_
    filter_upwards [key, hε, hρ, hz] with l ⟨_, h2, h3, _, _⟩ h6 h7 h8
    rw [h3, Complex.ofReal_re] at h8
    obtain ⟨r1, r2, -⟩ := Ew.z_facts hv h7.ne' h6 hg20 h8
    obtain ⟨A, hA, hA0⟩ := hD l
    have hE : 1 - (v ^ 2 * (l * a)) ^ 2 ≠ 0 := by nlinarith
    have hN := (hN0 l h6).ne'
    have h7' := h7.ne'
    have e1 : total (gZ2 (inp (C l) (sc l))) = ((4 / v ^ 2 - 2 * (l * b) : ℝ) : ℂ) := by
      simp only [total, gZ2, lin_fst, lin_snd, inp, Inp.c0, hA, Option.getD_some, hA0, h2]
      push_cast; ring
    have e2 : g l / m2 l = 4 / (v ^ 2 * (1 + v ^ 2 * (l * b) / 2)) := by
      rw [r2, r1]
      obtain ⟨E, hEE⟩ : ∃ E, E = 1 - (v ^ 2 * (l * a)) ^ 2 := ⟨_, rfl⟩
      obtain ⟨N, hNN⟩ : ∃ N, N = Ew.nrm (v ^ 2 * (l * a)) (G l) g2 := ⟨_, rfl⟩
      obtain ⟨q, hq⟩ : ∃ q, q = 1 + v ^ 2 * (l * b) / 2 := ⟨_, rfl⟩
      rw [← hEE] at hE ⊢
      rw [← hNN] at hN ⊢
      rw [← hq] at h7' ⊢
      field_simp
    rw [e1, e2, ← Complex.ofReal_sub]
    congr 1
    obtain ⟨q, hq⟩ : ∃ q, q = 1 + v ^ 2 * (l * b) / 2 := ⟨_, rfl⟩
    rw [← hq] at h7' ⊢
    field_simp
    rw [hq]; ring
  · refine second_order (R := fun l => -(g2 ^ 2 * (v ^ 2 * b / 2) *
          (v ^ 2 * a * G l / g2 * (g2 ^ 2 + G l ^ 2) - 2 * (v ^ 2 * a) * G l * g2)) /
          (Ew.nrm (v ^ 2 * (l * a)) (G l) g2 * ((1 + v ^ 2 * (l * b) / 2) * (g2 ^ 2 + G l ^ 2)
            + 2 * (v ^ 2 * (l * a)) * G l * g2)))
      (ContinuousAt.div (by fun_prop) (ContinuousAt.mul hNc.continuousAt (by fun_prop)) ?_) ?_
    · have := (hN0 0 (by norm_num)).ne'
      have h' : (0 : ℝ) < g2 ^ 2 + G 0 ^ 2 := by positivity
      simp only [zero_mul, mul_zero, zero_div, add_zero, one_mul] at this ⊢
      exact mul_ne_zero this h'.ne'
    filter_upwards [key, hε, hρ, hz] with l ⟨h1, h2, h3, h4, h5⟩ h6 h7 h8
    rw [h3, Complex.ofReal_re] at h8
    obtain ⟨-, -, r3⟩ := Ew.z_facts hv h7.ne' h6 hg20 h8
    obtain ⟨A, hA, hA0⟩ := hD l
    obtain ⟨B, hB, hB0⟩ := hWB l
    have hN := (hN0 l h6).ne'
    have hM : v ^ 2 / 4 * ((1 + v ^ 2 * (l * b) / 2) * (g2 ^ 2 + G l ^ 2) + 2 * (v ^ 2 * (l * a)) * G l * g2) ≠ 0 := by
      rw [← h4]; positivity
    have e1 : total (sin2 (inp (C l) (sc l))) = ((1 - mW ^ 2 / (sc l).mZ ^ 2
        - mW ^ 2 / (sc l).mZ ^ 2 * (v ^ 2 / 2 * (l * b) + G l * v ^ 3 / (2 * mW) * (l * a)) : ℝ) : ℂ) := by
      simp only [total, sin2, lin_fst, lin_snd, inp, Inp.c0, hA, hB, Option.getD_some, hA0, hB0, h1, h2, h3]
      push_cast; ring
    rw [e1, r3, h4, ← Complex.ofReal_sub, hmW]
    congr 1
    obtain ⟨N, hNN⟩ : ∃ N, N = Ew.nrm (v ^ 2 * (l * a)) (G l) g2 := ⟨_, rfl⟩
    obtain ⟨M, hMM⟩ : ∃ M, M = (1 + v ^ 2 * (l * b) / 2) * (g2 ^ 2 + G l ^ 2) + 2 * (v ^ 2 * (l * a)) * G l * g2 :=
      ⟨_, rfl⟩
    rw [← hMM] at hM ⊢
    rw [← hNN] at hN ⊢
    have hM' : M ≠ 0 := fun h => hM (by rw [h, mul_zero])
    field_simp
    rw [hMM, hNN]
    unfold Ew.nrm
    ring

/-- C85: the couplings of lines 28-33 exist near zero coefficients, and so do photon and Z. -/
theorem C85_electroweak_reachable (mW v eb a b : ℝ) (hv : v ≠ 0) (h : eb ^ 2 < (2 * mW / v) ^ 2) :
    ∃ sc : ℝ → Scal, ∀ᶠ l : ℝ in 𝓝 0, scalars2 mW v eb (l * a : ℝ) (l * b : ℝ) = .ok (sc l) ∧
      (∃ e, Ew.ElectricCharge v (1 + v ^ 2 * (l * b) / 2) (v ^ 2 * (l * a)) (sc l).g1bar.re (2 * mW / v) e) ∧
      ∃ m2 g s2, Ew.ZBoson v (1 + v ^ 2 * (l * b) / 2) (v ^ 2 * (l * a)) (sc l).g1bar.re (2 * mW / v) m2 g s2 := by
  obtain ⟨g2, hg2⟩ : ∃ g2, g2 = 2 * mW / v := ⟨_, rfl⟩
  rw [← hg2] at h ⊢
  have hg20 : g2 ≠ 0 := by rintro rfl; nlinarith [sq_nonneg eb]
  have hd : 0 < g2 ^ 2 - eb ^ 2 := by linarith
  have hε : ∀ᶠ l : ℝ in 𝓝 0, (v ^ 2 * (l * a)) ^ 2 < 1 := by
    have : Continuous fun l : ℝ => (v ^ 2 * (l * a)) ^ 2 := by fun_prop
    exact (this.tendsto 0).eventually (gt_mem_nhds (by norm_num))
  have hρ : ∀ᶠ l : ℝ in 𝓝 0, 0 < 1 + v ^ 2 * (l * b) / 2 := by
    have : Continuous fun l : ℝ => 1 + v ^ 2 * (l * b) / 2 := by fun_prop
    exact (this.tendsto 0).eventually (lt_mem_nhds (by norm_num))
  let z : ℝ → ℂ := fun l =>
    let eps : ℂ := ((l * a : ℝ) : ℂ) * v ^ 2
    let g1b : ℂ := eb * g2 / Real.sqrt (g2 ^ 2 - eb ^ 2) + eb ^ 2 * g2 / (g2 ^ 2 - eb ^ 2 : ℝ) * eps
    v ^ 2 / 4 * (1 + v ^ 2 / 2 * ((l * b : ℝ) : ℂ)) * (g2 ^ 2 + g1b ^ 2) + v ^ 2 / 2 * eps * g1b * g2
  have hzc : Continuous fun l => (z l).re := by
    refine Complex.continuous_re.comp ?_
    simp only [z]
    fun_prop
  have hz0 : 0 < (z 0).re := by
    have : z 0 = ((v ^ 2 / 4 * (g2 ^ 2 + (eb * g2 / Real.sqrt (g2 ^ 2 - eb ^ 2)) ^ 2) : ℝ) : ℂ) := by
      simp only [z]; push_cast; ring
    rw [this, Complex.ofReal_re]
    positivity
  have hz : ∀ᶠ l : ℝ in 𝓝 0, 0 < (z l).re := (hzc.tendsto 0).eventually (lt_mem_nhds hz0)
  refine ⟨fun l => match scalars2 mW v eb (l * a : ℝ) (l * b : ℝ) with | .ok s => s | .error _ => ⟨0, 0, 0, 0⟩, ?_⟩
  filter_upwards [hz, hε, hρ] with l h1 h2 h3
  refine ⟨?_, ⟨_, Ew.charge_exists _ _ h2 hg20⟩, Ew.z_exists hv h3 h2 hg20⟩
  have : ∃ s, scalars2 mW v eb (l * a : ℝ) (l * b : ℝ) = .ok s := by
    unfold scalars2
    simp only [← hg2]
    rw [if_neg (by linarith), if_neg (by linarith)]
    have h1' : 0 < (z l).re := h1
    simp only [z] at h1'
    push_cast at h1' ⊢
    rw [if_neg (not_lt.2 h1'.le), if_neg h1'.ne']
    exact ⟨_, rfl⟩
  obtain ⟨s, hs⟩ := this
  rw [hs]

end Verif.Exchange
