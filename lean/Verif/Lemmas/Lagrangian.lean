import Verif.Lemmas.Symmetrize
import Verif.Model.EFTUtil
import Mathlib.Algebra.BigOperators.Group.Finset.Basic
import Mathlib.Algebra.BigOperators.Fin
import Mathlib.Algebra.Order.BigOperators.Group.Finset
import Mathlib.Data.Fintype.Prod
import Mathlib.Data.Complex.BigOperators

set_option autoImplicit false
set_option linter.unusedSectionVars false

/-! Summing symmetrized coefficients against operators (helper lemmas). -/

namespace Verif.Reflect
open Verif Verif.Spec

section
variable {ι : Type} [DecidableEq ι]

/-- substitute the results of a first program into a linear form over its output -/
def substLF (s : SArr ι) (l : LF ι) : LF ι :=
  l.flatMap fun t => scale t.1 (if t.2.2 then (look s t.2.1).2 else (look s t.2.1).1)

lemma evalLF_subst (p : List (Instr ι)) (b : ι → ℂ) (l : LF ι) :
    evalLF (runProg p b) l = evalLF b (substLF (symRun p) l) := by
  induction l with
  | nil => rfl
  | cons t l ih =>
    obtain ⟨c, i, part⟩ := t
    simp only [substLF, List.flatMap_cons, evalLF_append, evalLF_cons] at ih ⊢
    rw [ih, evalLF_scale]
    congr 2
    simp only [slotVal]
    rw [symRun_sound p b i]
    cases part <;> rfl

/-- result of running `q` after `p` -/
theorem comp_eq_of_check (p q : List (Instr ι)) (f : ι → SV ι) (dom : List ι)
    (h : (let s := symRun p; let r := symRun q; dom.all fun i =>
      sameLF (substLF s (look r i).1) (f i).1 && sameLF (substLF s (look r i).2) (f i).2) = true)
    (b : ι → ℂ) {i : ι} (hi : i ∈ dom) : runProg q (runProg p b) i = evalSV b (f i) := by
  rw [symRun_sound]
  simp only [List.all_eq_true, Bool.and_eq_true] at h
  obtain ⟨h1, h2⟩ := h i hi
  apply Complex.ext
  · show evalLF (runProg p b) _ = _
    rw [evalLF_subst]; exact sameLF_sound b h1
  · show evalLF (runProg p b) _ = _
    rw [evalLF_subst]; exact sameLF_sound b h2

variable [Fintype ι]

/-- weight with which the product at `r` enters without / with conjugation -/
def weight (d : ι → ℕ) (tab : List (ι × ι × Bool)) (cc : Bool) (r : ι) : ℚ :=
  (tab.map fun t => if t.2.1 = r ∧ t.2.2 = cc then (1 : ℚ) / d t.1 else 0).sum

def repTable (code : ι → Nat) (rels : List (Rel ι)) (dom : List ι) : List (ι × ι × Bool) :=
  dom.map fun i => let g := pick code rels i; (i, g.perm i, g.cc)

def checkWeights (code : ι → Nat) (rels : List (Rel ι)) (dom : List ι) (d : ι → ℕ) (herm : Bool) : Bool :=
  let tab := repTable code rels dom
  dom.all fun r =>
    if NonRed code rels r then
      if SelfConj rels r then weight d tab false r + weight d tab true r = 1
      else weight d tab false r = 1 ∧ weight d tab true r = if herm then 1 else 0
    else weight d tab false r = 0 ∧ weight d tab true r = 0

theorem lagrangian_orbit (p : List (Instr ι)) (code : ι → Nat) (rels : List (Rel ι)) (dom : List ι)
    (hp : checkOrbit p code rels dom = true) (hd : ∀ i, i ∈ dom) (hnd : dom.Nodup)
    (d : ι → ℕ) (herm : Bool) (hw : checkWeights code rels dom d herm = true) (b O : ι → ℂ)
    (hO : ∀ g ∈ rels, ∀ i, O i = if g.cc then starRingEnd ℂ (O (g.perm i)) else O (g.perm i)) :
    ∑ i, runProg p b i / d i * O i =
      ∑ r, if NonRed code rels r then
        (if SelfConj rels r then ((b r).re : ℂ) * O r
         else b r * O r + if herm then starRingEnd ℂ (b r * O r) else 0) else 0 := by
  classical
  set rep : ι → ι := fun i => (pick code rels i).perm i with hrep
  set cc : ι → Bool := fun i => (pick code rels i).cc with hcc
  set w : ι → ℂ := fun r => if SelfConj rels r then ((b r).re : ℂ) else b r with hwdef
  set X : ι → ℂ := fun r => w r * O r with hX
  -- each term
  have hterm : ∀ i, runProg p b i / d i * O i =
      (((1 : ℚ) / d i : ℚ) : ℂ) * (if cc i then starRingEnd ℂ (X (rep i)) else X (rep i)) := by
    intro i
    rw [orbit_eq p code rels dom hp b (hd i)]
    have e : expSV code rels i = (let w := if SelfConj rels (rep i) then reSV (svOf (rep i)) else svOf (rep i)
      if cc i then conjSV w else w) := rfl
    rw [e]
    have hw' : evalSV b (if SelfConj rels (rep i) then reSV (svOf (rep i)) else svOf (rep i)) = w (rep i) := by
      simp only [hwdef]
      split_ifs
      · rw [evalSV_re, evalSV_svOf]
      · rw [evalSV_svOf]
    have hOi : O i = if cc i then starRingEnd ℂ (O (rep i)) else O (rep i) := by
      rcases pick_mem code rels i with hm | hm
      · exact hO _ hm i
      · simp only [hrep, hcc]; rw [hm]; simp
    dsimp only
    rw [hOi]
    by_cases hc : cc i = true
    · simp only [hc, if_true, evalSV_conj, hw', hX, map_mul]; push_cast; ring
    · rw [if_neg hc, if_neg hc, if_neg hc, hw']; simp only [hX]; push_cast; ring
  -- reality of self-conjugate products
  have hreal : ∀ r, SelfConj rels r → starRingEnd ℂ (X r) = X r := by
    intro r hs
    have hOr : starRingEnd ℂ (O r) = O r := by
      obtain ⟨g', hg', hc, hpm⟩ := hs
      have := hO g' hg' r
      rw [hc, if_pos rfl, hpm] at this
      exact this.symm
    simp only [hX, hwdef, if_pos hs, map_mul, hOr, Complex.conj_ofReal]
  -- the weights as sums over all indices
  have htab : ∀ (c : Bool) (r : ι), ((weight d (repTable code rels dom) c r : ℚ) : ℂ)
      = ∑ i, if rep i = r ∧ cc i = c then (((1 : ℚ) / d i : ℚ) : ℂ) else 0 := by
    intro c r
    have huniv : dom.toFinset = Finset.univ := by ext i; simp [hd i]
    rw [← huniv, List.sum_toFinset _ hnd]
    simp only [weight, repTable, List.map_map]
    rw [← Rat.coe_castHom, map_list_sum, List.map_map]
    congr 1
    apply List.map_congr_left
    intro i _
    simp only [Function.comp, Rat.coe_castHom]
    split_ifs <;> simp_all
  have hsum : ∑ i, runProg p b i / d i * O i
      = ∑ r, ((weight d (repTable code rels dom) false r : ℂ) * X r
        + (weight d (repTable code rels dom) true r : ℂ) * starRingEnd ℂ (X r)) := by
    simp only [htab, Finset.sum_mul, ← Finset.sum_add_distrib]
    rw [Finset.sum_comm]
    apply Finset.sum_congr rfl
    intro i _
    rw [hterm i, Finset.sum_eq_single (rep i)]
    · by_cases hc : cc i = true
      · simp [hc]
      · have : cc i = false := by simpa using hc
        simp [this]
    · intro r _ hr
      have : rep i ≠ r := fun e => hr e.symm
      simp [this]
    · simp
  rw [hsum]
  apply Finset.sum_congr rfl
  intro r _
  simp only [checkWeights, List.all_eq_true] at hw
  have hr := hw r (hd r)
  by_cases hnr : NonRed code rels r
  · rw [if_pos hnr]
    rw [if_pos hnr] at hr
    by_cases hs : SelfConj rels r
    · rw [if_pos hs]
      rw [if_pos hs, decide_eq_true_eq] at hr
      rw [hreal r hs, ← add_mul]
      have : ((weight d (repTable code rels dom) false r : ℚ) : ℂ)
          + ((weight d (repTable code rels dom) true r : ℚ) : ℂ) = 1 := by exact_mod_cast hr
      rw [this, one_mul]
      simp [hX, hwdef, hs]
    · rw [if_neg hs]
      rw [if_neg hs, decide_eq_true_eq] at hr
      rw [hr.1, hr.2]
      have hXr : X r = b r * O r := by simp [hX, hwdef, hs]
      rw [hXr]
      cases herm <;> simp
  · rw [if_neg hnr]
    rw [if_neg hnr, decide_eq_true_eq] at hr
    rw [hr.1, hr.2]; simp

end

end Verif.Reflect
