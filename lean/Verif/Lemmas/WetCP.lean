import Verif.Spec.WetCP
import Verif.Lemmas.WetEntries

/-!
# CP
-/

set_option autoImplicit false

namespace Verif.WetTab
open Verif Verif.Rotation Verif.WetRun

/-- the CP-odd three-gluon operator, for the kernel -/
def gtB (c : Coef) : Bool := match c.1 with | .Gtilde => true | _ => false

theorem gtB_eq (c : Coef) : gtB c = decide (c.1 = .Gtilde) := by
  obtain ⟨k, m⟩ := c
  cases k <;> rfl

/-- entries are imaginary exactly between CP-even and CP-odd coefficients -/
def cpRowOK (m : ℕ) (R : Rows) : Bool :=
  rowsAll (fun i j e => beqB (beqB (Nat.testBit m i) (Nat.testBit m j)) e.isRe) 0 R

/-- both matrices of a sector -/
def cpOK (S : Sec) : Bool :=
  force (maskOf gtB S.coefs) fun m => cpRowOK m S.rE && cpRowOK m S.rS

theorem secs_cpOK : secs.all cpOK = true := by decide +kernel

theorem conj_mprod (x : ℝ) : (starRingEnd ℂ) (x : ℂ) = x := Complex.conj_ofReal x

theorem coef_im {e : Ent} (f : ℕ) (h : e.isRe = false) : (starRingEnd ℂ) (e.coef f) = -e.coef f := by
  cases e with
  | i k l => simp [Ent.coef]
  | _ => cases h

/-- conjugation of an entry -/
theorem cp_entry {a b : Coef} {F : Force} {f : ℕ} {p : Par} (ha : a ∈ allCoefs) (hb : b ∈ allCoefs) :
    (starRingEnd ℂ) (mix F f p a b) =
      sgn (decide (a.1 = .Gtilde)) * sgn (decide (b.1 = .Gtilde)) * mix F f p a b := by
  by_cases h0 : mix F f p a b = 0
  · rw [h0]; simp
  obtain ⟨s, i, j, n, S, e, hA, hB, he, hm⟩ := mix_entry ha hb h0
  have h1 := List.all_eq_true.1 secs_cpOK S hA.mem
  rw [cpOK, force_eq, Bool.and_eq_true] at h1
  have h2 : cpRowOK (maskOf gtB S.coefs) (S.rows F) = true := by
    cases F
    · exact h1.2
    · exact h1.1
  have h3 := rowsAll_spec h2 he
  rw [Nat.zero_add, testBit_maskOf hA.coef, testBit_maskOf hB.coef, gtB_eq, gtB_eq] at h3
  rw [hm, map_mul, conj_mprod, eval_coef, map_mul, conj_mprod]
  cases hr : e.isRe
  · rw [hr] at h3
    rw [coef_im f hr]
    cases h4 : decide (a.1 = .Gtilde) <;> cases h5 : decide (b.1 = .Gtilde) <;> rw [h4, h5] at h3 <;>
      simp [beqB, sgn] at h3 ⊢
  · rw [hr] at h3
    rw [coef_real f (by rintro k l rfl; cases hr)]
    cases h4 : decide (a.1 = .Gtilde) <;> cases h5 : decide (b.1 = .Gtilde) <;> rw [h4, h5] at h3 <;>
      simp [beqB, sgn] at h3 ⊢

theorem transformed_cp {C C' : Coef → ℂ} : Transformed cpSym C C' ↔
    ∀ a ∈ allCoefs, C' a = sgn (decide (a.1 = .Gtilde)) * (starRingEnd ℂ) (C a) := by
  constructor
  · intro h a ha
    exact h a ha a ha _ _ ⟨rfl, rfl, rfl⟩
  · rintro h a ha a' ha' c n ⟨rfl, rfl, rfl⟩
    exact h _ ha

theorem cp_cov {F : Force} {f : ℕ} {p : Par} {C C' : Coef → ℂ} (h : Transformed cpSym C C') :
    Transformed cpSym (rate F f p C) (rate F f p C') := by
  rw [transformed_cp] at h ⊢
  intro b hb
  rw [rate_eq, rate_eq, map_sum, Finset.mul_sum]
  refine Finset.sum_congr rfl fun a ha => ?_
  have ha := List.mem_toFinset.1 ha
  rw [h a ha, map_mul, cp_entry ha hb]
  have := sgn_sq (decide (b.1 = .Gtilde))
  linear_combination (-sgn (decide (a.1 = .Gtilde)) * (starRingEnd ℂ) (C a) * mix F f p a b) * this

theorem cpEven_iff {C : Coef → ℂ} (h : RealOnReal C) : CPEven C ↔ Transformed cpSym C C := by
  rw [transformed_cp]
  constructor
  · intro hC a ha
    obtain ⟨h1, h2⟩ := hC a ha
    rw [Complex.conj_eq_iff_im.2 h1]
    by_cases hg : a.1 = .Gtilde
    · rw [h2 hg]; simp
    · simp [hg, sgn]
  · intro hC a ha
    have := hC a ha
    by_cases hg : a.1 = .Gtilde
    · have hr : IsReal a.1 (ixOf a) := by
        obtain ⟨k, m⟩ := a
        obtain rfl : k = .Gtilde := hg
        exact .step (k := .Gtilde) .real (by decide) .refl
      have him := h a ha hr
      refine ⟨him, fun _ => ?_⟩
      rw [Complex.conj_eq_iff_im.2 him] at this
      simp only [hg, decide_true, sgn, if_true] at this
      linear_combination this / 2
    · refine ⟨Complex.conj_eq_iff_im.1 ?_, fun h => absurd h hg⟩
      simp only [hg, decide_false, sgn] at this
      rw [← one_mul ((starRingEnd ℂ) (C a))]
      simpa using this.symm

end Verif.WetTab
