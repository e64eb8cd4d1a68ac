import Verif.Props.SmPar
import Verif.Lemmas.Electroweak

/-!
# C48: Z mass and electric charge extracted from SMEFT parameters
-/

set_option autoImplicit false

namespace Verif.SmPar

open Verif.Tens (Ten)
open Verif.Beta (Key)
open Verif.WetRun (ok_bind)
open Verif.Ew (second_order)
open Filter Topology Asymptotics

/-- the electroweak quantities in a successful extraction -/
theorem smpar_ew {X : Ext} {C : Key → Ten} {q : Inputs} (h : smpar X C = .ok q) :
    ∃ v2, v2Of (C .m2 []).re (C .Lambda []).re C = .ok v2 ∧ 0 < v2 ∧
      let v := Real.sqrt v2
      let gb := (C .g []).re / (1 - (C .phiW []).re * v ^ 2)
      let gpb := (C .gp []).re / (1 - (C .phiB []).re * v ^ 2)
      let eps := (C .phiWB []).re * v ^ 2
      1 - (C .phiW []).re * v ^ 2 ≠ 0 ∧ 1 - (C .phiB []).re * v ^ 2 ≠ 0 ∧ gb ^ 2 + gpb ^ 2 ≠ 0 ∧ q.GF = 1 / (Real.sqrt 2 * v ^ 2) ∧ q.m_W = gb * v / 2 ∧
      q.m_Z = Real.sqrt (gb ^ 2 + gpb ^ 2) / 2 * v * (1 + eps * gb * gpb / (gb ^ 2 + gpb ^ 2)) *
        (1 + (C .phiD []).re * v ^ 2 / 4) ∧
      q.alpha_e = (gb * gpb / Real.sqrt (gb ^ 2 + gpb ^ 2) *
        (1 - eps * gb * gpb / (gb ^ 2 + gpb ^ 2))) ^ 2 / (4 * Real.pi) := by
  unfold smpar at h
  obtain ⟨⟨v, Mh2⟩, hv, h⟩ := ok_bind h
  unfold toVMh2 at hv
  obtain ⟨v2, hv2, hv⟩ := ok_bind hv
  split_ifs at hv with h1
  obtain ⟨r, hr, hv⟩ := ok_bind hv
  dsimp only at hv
  split_ifs at hv with h2
  injection hv with hv
  injection hv with hv hM
  subst hv
  refine ⟨v2, hv2, h1, ?_⟩
  dsimp only at h
  obtain ⟨GF, a1, h⟩ := ok_bind h
  obtain ⟨gb, a2, h⟩ := ok_bind h
  obtain ⟨gpb, a3, h⟩ := ok_bind h
  obtain ⟨gsb, a4, h⟩ := ok_bind h
  obtain ⟨mix, a5, h⟩ := ok_bind h
  obtain ⟨eb, a6, h⟩ := ok_bind h
  unfold ebOf at a6
  obtain ⟨x, a7, a6⟩ := ok_bind a6
  obtain ⟨y, a8, a6⟩ := ok_bind a6
  injection a6 with a6
  obtain ⟨-, rfl⟩ := fdiv_ok a1
  obtain ⟨b2, rfl⟩ := fdiv_ok a2
  obtain ⟨b3, rfl⟩ := fdiv_ok a3
  obtain ⟨b5, rfl⟩ := fdiv_ok a5
  obtain ⟨-, rfl⟩ := fdiv_ok a7
  obtain ⟨-, rfl⟩ := fdiv_ok a8
  subst a6
  injection h with h
  subst h
  exact ⟨b2, b3, b5, rfl, rfl, rfl, rfl⟩

/-- C48: let `C_φWB` and `C_φD` be `λ a` and `λ b` and the other parameters fixed.  The vacuum
expectation value `v` and the couplings `g₂`, `g₁` do not depend on `λ`, and up to terms of order `λ²`
the extracted Z mass is the mass and the extracted `α_e` is the coupling of the physical states. -/
theorem C48_electroweak (X : Ext) (C : ℝ → Key → Ten) (a b : ℝ)
    (hfix : ∀ l k, k ≠ .phiWB → k ≠ .phiD → C l k = C 0 k)
    (hWB : ∀ l, C l .phiWB [] = (l * a : ℝ)) (hD : ∀ l, C l .phiD [] = (l * b : ℝ))
    (q : ℝ → Inputs) (hq : ∀ᶠ l in 𝓝 0, smpar X (C l) = .ok (q l)) (h0 : (q 0).m_W ≠ 0) :
    ∃ v g2 g1 : ℝ, 0 < v ∧ (∀ᶠ l in 𝓝 0, (q l).GF = 1 / (Real.sqrt 2 * v ^ 2) ∧ (q l).m_W = g2 * v / 2) ∧
      (C 0 .g []).re = g2 * (1 - (C 0 .phiW []).re * v ^ 2) ∧
      (C 0 .gp []).re = g1 * (1 - (C 0 .phiB []).re * v ^ 2) ∧
    (∀ e : ℝ → ℝ, (∀ᶠ l in 𝓝 0, Ew.ElectricCharge v (1 + v ^ 2 * (l * b) / 2) (v ^ 2 * (l * a)) g1 g2 (e l)) →
      (fun l => ((e l ^ 2 - 4 * Real.pi * (q l).alpha_e : ℝ) : ℂ)) =O[𝓝 0] fun l => l ^ 2) ∧
    (∀ m2 g s2 : ℝ → ℝ, (∀ᶠ l in 𝓝 0,
        Ew.ZBoson v (1 + v ^ 2 * (l * b) / 2) (v ^ 2 * (l * a)) g1 g2 (m2 l) (g l) (s2 l)) →
      (fun l => ((m2 l - (q l).m_Z ^ 2 : ℝ) : ℂ)) =O[𝓝 0] fun l => l ^ 2) := by
  obtain ⟨v2, hv2, hpos, hW, hB, hs, -, hmW, -, -⟩ := smpar_ew hq.self_of_nhds
  have hvp : 0 < Real.sqrt v2 := Real.sqrt_pos.2 hpos
  obtain ⟨v, hv⟩ : ∃ v, v = Real.sqrt v2 := ⟨_, rfl⟩
  rw [← hv] at hW hB hs hmW hvp
  obtain ⟨g2, hg2⟩ : ∃ g2, g2 = (C 0 .g []).re / (1 - (C 0 .phiW []).re * v ^ 2) := ⟨_, rfl⟩
  obtain ⟨g1, hg1⟩ : ∃ g1, g1 = (C 0 .gp []).re / (1 - (C 0 .phiB []).re * v ^ 2) := ⟨_, rfl⟩
  rw [← hg2] at hs hmW
  rw [← hg1] at hs
  have hg20 : g2 ≠ 0 := by rintro rfl; exact h0 (by rw [hmW]; ring)
  obtain ⟨s, hss⟩ : ∃ s, s = g2 ^ 2 + g1 ^ 2 := ⟨_, rfl⟩
  have hs0 : 0 < s := by rw [hss]; positivity
  obtain ⟨τ, hτ⟩ : ∃ τ, τ = v ^ 2 * a * g1 * g2 / s := ⟨_, rfl⟩
  have hτs : v ^ 2 * a * g1 * g2 = τ * s := by rw [hτ]; field_simp
  -- the extracted values near 0
  have key : ∀ᶠ l : ℝ in 𝓝 0, (q l).GF = 1 / (Real.sqrt 2 * v ^ 2) ∧ (q l).m_W = g2 * v / 2 ∧
      (q l).m_Z ^ 2 = s / 4 * v ^ 2 * (1 + l * τ) ^ 2 * (1 + l * b * v ^ 2 / 4) ^ 2 ∧
      4 * Real.pi * (q l).alpha_e = g2 ^ 2 * g1 ^ 2 / s * (1 - l * τ) ^ 2 := by
    filter_upwards [hq] with l hl
    obtain ⟨w2, hw2, -, -, -, -, r1, r2, r3, r4⟩ := smpar_ew hl
    have f := fun k h1 h2 => hfix l k h1 h2
    have hw : w2 = v2 := by
      have e : v2Of (C l .m2 []).re (C l .Lambda []).re (C l) = v2Of (C 0 .m2 []).re (C 0 .Lambda []).re (C 0) := by
        unfold v2Of cphi
        rw [f .m2 (by decide) (by decide), f .Lambda (by decide) (by decide), f .phi (by decide) (by decide)]
      rw [e, hv2] at hw2
      exact (Except.ok.inj hw2).symm
    rw [hw, ← hv, hWB, hD, f .g (by decide) (by decide), f .gp (by decide) (by decide),
      f .phiW (by decide) (by decide), f .phiB (by decide) (by decide), ← hg2, ← hg1, ← hss,
      Complex.ofReal_re, Complex.ofReal_re] at r3
    rw [hw, ← hv, hWB, f .g (by decide) (by decide), f .gp (by decide) (by decide),
      f .phiW (by decide) (by decide), f .phiB (by decide) (by decide), ← hg2, ← hg1, ← hss,
      Complex.ofReal_re] at r4
    rw [hw, ← hv] at r1
    rw [hw, ← hv, f .g (by decide) (by decide), f .phiW (by decide) (by decide), ← hg2] at r2
    have et : l * a * v ^ 2 * g2 * g1 / s = l * τ := by rw [hτ]; ring
    rw [et] at r3 r4
    refine ⟨r1, r2, ?_, ?_⟩
    · rw [r3, mul_pow, mul_pow, mul_pow, div_pow, Real.sq_sqrt hs0.le]; ring
    · have hpi := Real.pi_pos
      rw [r4, mul_pow, div_pow, Real.sq_sqrt hs0.le]
      field_simp
  have hε : ∀ᶠ l : ℝ in 𝓝 0, (v ^ 2 * (l * a)) ^ 2 < 1 := by
    have : Continuous fun l : ℝ => (v ^ 2 * (l * a)) ^ 2 := by fun_prop
    exact (this.tendsto 0).eventually (gt_mem_nhds (by norm_num))
  have hρ : ∀ᶠ l : ℝ in 𝓝 0, 0 < 1 + v ^ 2 * (l * b) / 2 := by
    have : Continuous fun l : ℝ => 1 + v ^ 2 * (l * b) / 2 := by fun_prop
    exact (this.tendsto 0).eventually (lt_mem_nhds (by norm_num))
  have hN : ∀ l : ℝ, Ew.nrm (v ^ 2 * (l * a)) g1 g2 = s * (1 + 2 * (l * τ)) := by
    intro l
    unfold Ew.nrm
    linear_combination 2 * l * hτs - hss
  refine ⟨v, g2, g1, hvp, key.mono fun l h => ⟨h.1, h.2.1⟩, ?_, ?_, fun e he => ?_, fun m2 g s2 hz => ?_⟩
  · rw [hg2]; field_simp
  · rw [hg1]; field_simp
  · refine second_order (R := fun l => g2 ^ 2 * g1 ^ 2 / s * (τ ^ 2 * (3 - 2 * (l * τ)) / (1 + 2 * (l * τ))))
      (ContinuousAt.mul (by fun_prop) (ContinuousAt.div (by fun_prop) (by fun_prop) (by norm_num))) ?_
    filter_upwards [key, hε, hρ, he] with l ⟨_, _, _, h4⟩ h6 h7 h8
    have r := Ew.charge_sq hvp.ne' h7.ne' h6 hg20 h8
    have hn := (Ew.nrm_pos (g1 := g1) h6 hg20).ne'
    rw [hN] at r hn
    have hn' : 1 + 2 * (l * τ) ≠ 0 := fun h => hn (by rw [h, mul_zero])
    rw [r, h4]
    congr 1
    obtain ⟨w, hw⟩ : ∃ w, w = 1 + 2 * (l * τ) := ⟨_, rfl⟩
    rw [← hw] at hn' ⊢
    field_simp
    rw [hw]; ring
  · refine second_order (R := fun l => v ^ 2 * s / 4 * ((-(τ ^ 2 * (1 + v ^ 2 * (l * b) / 2)
        + (1 + 2 * (l * τ)) * (v ^ 2 * b / 2) ^ 2 / 4 + τ ^ 2 * l ^ 2 * (v ^ 2 * b / 2) ^ 2 / 4)
        + (v ^ 2 * a) ^ 2 * (1 + l * τ) ^ 2 * (1 + l * b * v ^ 2 / 4) ^ 2) / (1 - (v ^ 2 * (l * a)) ^ 2)))
      (ContinuousAt.mul (by fun_prop) (ContinuousAt.div (by fun_prop) (by fun_prop) (by norm_num))) ?_
    filter_upwards [key, hε, hρ, hz] with l ⟨_, _, h3, _⟩ h6 h7 h8
    obtain ⟨r1, -, -⟩ := Ew.z_facts hvp.ne' h7.ne' h6 hg20 h8
    rw [hN] at r1
    rw [r1, h3]
    congr 1
    have hE : 1 - (v ^ 2 * (l * a)) ^ 2 ≠ 0 := by nlinarith
    obtain ⟨E, hEE⟩ : ∃ E, E = 1 - (v ^ 2 * (l * a)) ^ 2 := ⟨_, rfl⟩
    rw [← hEE] at hE ⊢
    field_simp
    rw [hEE]
    ring

/-- couplings 2, `v` = 1 and both mixing coefficients `λ` -/
noncomputable def exEw (l : ℝ) : Key → Ten
  | .m2 => scal (1 / 2 : ℝ)
  | .Lambda => scal (1 : ℝ)
  | .g => scal (2 : ℝ)
  | .gp => scal (2 : ℝ)
  | .phiWB => scal (l : ℝ)
  | .phiD => scal (l : ℝ)
  | _ => scal 0

/-- the hypotheses of `C48_electroweak` are met -/
example (X : Ext) : ∃ q : ℝ → Inputs, (∀ l k, k ≠ .phiWB → k ≠ .phiD → exEw l k = exEw 0 k) ∧
    (∀ l, exEw l .phiWB [] = (l * 1 : ℝ)) ∧ (∀ l, exEw l .phiD [] = (l * 1 : ℝ)) ∧
    (∀ᶠ l in 𝓝 0, smpar X (exEw l) = .ok (q l)) ∧ (q 0).m_W ≠ 0 := by
  have hv : ∀ l : ℝ, -1 < l → toVMh2 (1 / 2) 1 (exEw l) = .ok (1, 1 / (1 + l / 2)) := by
    intro l hl
    have h1 : cphi (exEw l) = 0 := by simp [cphi, exEw, scal]
    have h2 : ckin (exEw l) = -l / 4 := by simp [ckin, exEw, scal]; ring
    have h3 : v2Of (1 / 2) 1 (exEw l) = .ok 1 := by
      unfold v2Of
      rw [h1, if_pos (by norm_num), fdiv_eq (by norm_num)]
      norm_num
    unfold toVMh2
    rw [h3, h1, h2]
    simp only [Bind.bind, Except.bind]
    have hp : 0 < 1 + l / 2 := by linarith
    rw [if_neg (by norm_num), fdiv_eq (by linarith)]
    simp only
    rw [if_neg ?_]
    · rw [Real.sqrt_one]; congr 2; norm_num; ring
    · have e : (1 : ℝ) / (1 - 2 * (-l / 4) * 1) * (1 - 3 * 0 * 1) = 1 / (1 + l / 2) := by norm_num; ring
      rw [e, not_not]; positivity
  have hok : ∀ l : ℝ, -1 < l → ∃ r, smpar X (exEw l) = .ok r ∧ r.m_W = 1 := by
    intro l hl
    have e1 : (exEw l .m2 []).re = 1 / 2 := by simp [exEw, scal]
    have e2 : (exEw l .Lambda []).re = 1 := by simp [exEw, scal]
    have e3 : (exEw l .g []).re = 2 := by simp [exEw, scal]
    have e4 : (exEw l .gp []).re = 2 := by simp [exEw, scal]
    have e5 : (exEw l .phiW []).re = 0 := by simp [exEw, scal]
    have e6 : (exEw l .phiB []).re = 0 := by simp [exEw, scal]
    have e7 : (exEw l .phiG []).re = 0 := by simp [exEw, scal]
    have n1 : (1 : ℝ) - 0 * 1 ^ 2 ≠ 0 := by norm_num
    have n2 : (2 / (1 - 0 * 1 ^ 2) : ℝ) ^ 2 + (2 / (1 - 0 * 1 ^ 2)) ^ 2 ≠ 0 := by norm_num
    have n3 : Real.sqrt ((2 / (1 - 0 * 1 ^ 2) : ℝ) ^ 2 + (2 / (1 - 0 * 1 ^ 2)) ^ 2) ≠ 0 := by
      rw [Real.sqrt_ne_zero (by positivity)]; exact n2
    have n4 : Real.sqrt 2 * (1 : ℝ) ^ 2 ≠ 0 := by positivity
    unfold smpar
    rw [e1, e2, hv l hl]
    simp only [Bind.bind, Except.bind]
    rw [e3, e4, e5, e6, e7, fdiv_eq n4]
    simp only
    rw [fdiv_eq n1]
    simp only
    rw [fdiv_eq n1, fdiv_eq n2]
    simp only [ebOf, Bind.bind, Except.bind]
    rw [fdiv_eq n3, fdiv_eq n2]
    refine ⟨_, rfl, ?_⟩
    norm_num
  refine ⟨fun l => match smpar X (exEw l) with | .ok r => r | .error _ => Example.p, ?_, ?_, ?_, ?_, ?_⟩
  · intro l k h1 h2
    cases k <;> first | rfl | exact absurd rfl h1 | exact absurd rfl h2
  · intro l; simp [exEw, scal]
  · intro l; simp [exEw, scal]
  · filter_upwards [lt_mem_nhds (show (-1 : ℝ) < 0 by norm_num)] with l hl
    obtain ⟨r, hr, -⟩ := hok l hl
    rw [hr]
  · obtain ⟨r, hr, h1⟩ := hok 0 (by norm_num)
    dsimp only
    rw [hr]
    simp only
    rw [h1]; norm_num

end Verif.SmPar
