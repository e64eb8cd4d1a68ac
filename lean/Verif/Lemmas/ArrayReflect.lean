import Verif.Model.ArrayProg
import Mathlib.Algebra.BigOperators.Group.List.Lemmas
import Mathlib.Tactic.Ring
import Mathlib.Tactic.Linarith
import Mathlib.Tactic.LinearCombination
import Mathlib.Data.Rat.Cast.CharZero

/-!
# Symbolic execution of array programs

`symRun p i` computes, for every entry `i` of the result, its real and imaginary
parts as rational linear forms in the real and imaginary parts of the input entries.
`symRun_sound` says that this is correct; the remaining lemmas turn Boolean checks
on linear forms into statements about all input arrays.
-/

set_option autoImplicit false
set_option linter.unusedSectionVars false

namespace Verif.Reflect
open Verif

variable {ι : Type} [DecidableEq ι]

/-- a real or imaginary part (`true`) of an input entry -/
abbrev Slot (ι : Type) := ι × Bool
/-- rational linear form in slots -/
abbrev LF (ι : Type) := List (ℚ × Slot ι)

noncomputable def slotVal (b : ι → ℂ) (s : Slot ι) : ℝ := if s.2 then (b s.1).im else (b s.1).re

noncomputable def evalLF (b : ι → ℂ) (l : LF ι) : ℝ := (l.map fun t => (t.1 : ℝ) * slotVal b t.2).sum

@[simp] lemma evalLF_nil (b : ι → ℂ) : evalLF b [] = 0 := rfl
@[simp] lemma evalLF_cons (b : ι → ℂ) (t : ℚ × Slot ι) (l : LF ι) :
    evalLF b (t :: l) = (t.1 : ℝ) * slotVal b t.2 + evalLF b l := by simp [evalLF]
@[simp] lemma evalLF_append (b : ι → ℂ) (l m : LF ι) :
    evalLF b (l ++ m) = evalLF b l + evalLF b m := by simp [evalLF]

def scale (c : ℚ) (l : LF ι) : LF ι := l.map fun t => (c * t.1, t.2)

lemma evalLF_scale (b : ι → ℂ) (c : ℚ) (l : LF ι) : evalLF b (scale c l) = c * evalLF b l := by
  induction l with
  | nil => simp [scale]
  | cons t l ih =>
    have : scale c (t :: l) = (c * t.1, t.2) :: scale c l := rfl
    rw [this, evalLF_cons, evalLF_cons, ih]; push_cast; ring

/-- add one term, merging with an existing term of the same slot and dropping zeros -/
def addTerm (t : ℚ × Slot ι) : LF ι → LF ι
  | [] => if t.1 = 0 then [] else [t]
  | u :: l => if u.2 = t.2 then (if u.1 + t.1 = 0 then l else (u.1 + t.1, u.2) :: l)
              else u :: addTerm t l

lemma evalLF_addTerm (b : ι → ℂ) (t : ℚ × Slot ι) (l : LF ι) :
    evalLF b (addTerm t l) = (t.1 : ℝ) * slotVal b t.2 + evalLF b l := by
  induction l with
  | nil => unfold addTerm; split_ifs with h <;> simp [h]
  | cons u l ih =>
    unfold addTerm
    split_ifs with h h0
    · have : (u.1 : ℝ) + t.1 = 0 := by exact_mod_cast h0
      rw [evalLF_cons, h]; linear_combination (-slotVal b t.2) * this
    · rw [evalLF_cons, evalLF_cons, h]; push_cast; ring
    · rw [evalLF_cons, evalLF_cons, ih]; ring

def norm (l : LF ι) : LF ι := l.foldr addTerm []

lemma evalLF_norm (b : ι → ℂ) (l : LF ι) : evalLF b (norm l) = evalLF b l := by
  induction l with
  | nil => rfl
  | cons t l ih => rw [evalLF_cons, ← ih]; exact evalLF_addTerm b t _

/-- the two linear forms agree -/
def sameLF (l m : LF ι) : Bool := (norm (l ++ scale (-1) m)).isEmpty

lemma sameLF_sound (b : ι → ℂ) {l m : LF ι} (h : sameLF l m = true) : evalLF b l = evalLF b m := by
  have h' : norm (l ++ scale (-1) m) = [] := by simpa [sameLF] using h
  have := evalLF_norm b (l ++ scale (-1) m)
  rw [h', evalLF_nil, evalLF_append, evalLF_scale] at this
  push_cast at this; linarith

/-- symbolic value: real and imaginary part -/
abbrev SV (ι : Type) := LF ι × LF ι

noncomputable def evalSV (b : ι → ℂ) (v : SV ι) : ℂ := ⟨evalLF b v.1, evalLF b v.2⟩

def svOf (i : ι) : SV ι := ([(1, (i, false))], [(1, (i, true))])

lemma evalSV_svOf (b : ι → ℂ) (i : ι) : evalSV b (svOf i) = b i := by
  apply Complex.ext <;> simp [evalSV, svOf, slotVal]

def sameSV (v w : SV ι) : Bool := sameLF v.1 w.1 && sameLF v.2 w.2

lemma sameSV_sound (b : ι → ℂ) {v w : SV ι} (h : sameSV v w = true) : evalSV b v = evalSV b w := by
  simp only [sameSV, Bool.and_eq_true] at h
  apply Complex.ext
  · exact sameLF_sound b h.1
  · exact sameLF_sound b h.2

def conjSV (v : SV ι) : SV ι := (v.1, scale (-1) v.2)
def scaleSV (c : ℚ) (v : SV ι) : SV ι := (scale c v.1, scale c v.2)
def addSV (v w : SV ι) : SV ι := (v.1 ++ w.1, v.2 ++ w.2)
def reSV (v : SV ι) : SV ι := (v.1, [])

lemma evalSV_conj (b : ι → ℂ) (v : SV ι) : evalSV b (conjSV v) = (starRingEnd ℂ) (evalSV b v) := by
  apply Complex.ext <;> simp [evalSV, conjSV, evalLF_scale]
lemma evalSV_scale (b : ι → ℂ) (c : ℚ) (v : SV ι) :
    evalSV b (scaleSV c v) = (c : ℂ) * evalSV b v := by
  apply Complex.ext <;> simp [evalSV, scaleSV, evalLF_scale]
lemma evalSV_add (b : ι → ℂ) (v w : SV ι) :
    evalSV b (addSV v w) = evalSV b v + evalSV b w := by
  apply Complex.ext <;> simp [evalSV, addSV]
lemma evalSV_re (b : ι → ℂ) (v : SV ι) : evalSV b (reSV v) = ((evalSV b v).re : ℂ) := by
  apply Complex.ext <;> simp [evalSV, reSV]
@[simp] lemma evalSV_nil (b : ι → ℂ) : evalSV b (([], []) : SV ι) = 0 := by
  apply Complex.ext <;> simp [evalSV]

/-- symbolic array: overrides, most recent first -/
abbrev SArr (ι : Type) := List (ι × SV ι)

def look (s : SArr ι) (i : ι) : SV ι :=
  match s with
  | [] => svOf i
  | (j, v) :: s => if j = i then v else look s i

def combCS (f : ι → SV ι) (rhs : List (ℚ × Bool × ι)) : SV ι :=
  rhs.foldr (fun t acc => addSV (scaleSV t.1 (if t.2.1 then conjSV (f t.2.2) else f t.2.2)) acc) ([], [])
def combRS (f : ι → LF ι) (rhs : List (ℚ × ι)) : LF ι :=
  rhs.foldr (fun t acc => scale t.1 (f t.2) ++ acc) []

def symStep (s : SArr ι) : Instr ι → SArr ι
  | .cplx d rhs  => (d, let v := combCS (look s) rhs; (norm v.1, norm v.2)) :: s
  | .cplxB d rhs => (d, combCS svOf rhs) :: s
  | .real d rhs  => (d, norm (combRS (fun i => (look s i).1) rhs), (look s d).2) :: s
  | .imag d rhs  => (d, (look s d).1, norm (combRS (fun i => (look s i).2) rhs)) :: s

def symRun (p : List (Instr ι)) : SArr ι := p.foldl symStep []

lemma eval_combCS (b a : ι → ℂ) (f : ι → SV ι) (hf : ∀ i, evalSV b (f i) = a i)
    (rhs : List (ℚ × Bool × ι)) : evalSV b (combCS f rhs) = Instr.combC a rhs := by
  induction rhs with
  | nil => simp [combCS, Instr.combC]
  | cons t rhs ih =>
    have h1 : combCS f (t :: rhs)
        = addSV (scaleSV t.1 (if t.2.1 then conjSV (f t.2.2) else f t.2.2)) (combCS f rhs) := rfl
    rw [h1, evalSV_add, ih, evalSV_scale]
    simp only [Instr.combC, List.map_cons, List.sum_cons]
    split_ifs
    · rw [evalSV_conj, hf]
    · rw [hf]

lemma eval_combRS (b a : ι → ℂ) (g : ℂ → ℝ) (f : ι → LF ι) (hf : ∀ i, evalLF b (f i) = g (a i))
    (rhs : List (ℚ × ι)) : evalLF b (combRS f rhs) = Instr.combR a g rhs := by
  induction rhs with
  | nil => simp [combRS, Instr.combR]
  | cons t rhs ih =>
    have h1 : combRS f (t :: rhs) = scale t.1 (f t.2) ++ combRS f rhs := rfl
    rw [h1, evalLF_append, ih, evalLF_scale, hf]
    simp [Instr.combR]

lemma look_cons (d : ι) (v : SV ι) (s : SArr ι) (i : ι) :
    look ((d, v) :: s) i = if d = i then v else look s i := rfl

lemma symStep_sound (b a : ι → ℂ) (s : SArr ι) (h : ∀ i, evalSV b (look s i) = a i)
    (ins : Instr ι) (i : ι) : evalSV b (look (symStep s ins) i) = ins.step b a i := by
  have hre : ∀ i, evalLF b (look s i).1 = (a i).re := fun i => by rw [← h i]; rfl
  have him : ∀ i, evalLF b (look s i).2 = (a i).im := fun i => by rw [← h i]; rfl
  cases ins with
  | cplx d rhs =>
    simp only [symStep, Instr.step, look_cons]
    by_cases hd : d = i
    · subst hd
      rw [if_pos rfl, Function.update_self, ← eval_combCS b a (look s) h rhs]
      apply Complex.ext <;> simp [evalSV, evalLF_norm]
    · rw [if_neg hd, Function.update_of_ne (Ne.symm hd)]; exact h i
  | cplxB d rhs =>
    simp only [symStep, Instr.step, look_cons]
    by_cases hd : d = i
    · subst hd
      rw [if_pos rfl, Function.update_self]
      exact eval_combCS b b svOf (evalSV_svOf b) rhs
    · rw [if_neg hd, Function.update_of_ne (Ne.symm hd)]; exact h i
  | real d rhs =>
    simp only [symStep, Instr.step, look_cons]
    by_cases hd : d = i
    · subst hd
      rw [if_pos rfl, Function.update_self]
      apply Complex.ext
      · simp only [evalSV, evalLF_norm]; exact eval_combRS b a _ _ hre rhs
      · exact him d
    · rw [if_neg hd, Function.update_of_ne (Ne.symm hd)]; exact h i
  | imag d rhs =>
    simp only [symStep, Instr.step, look_cons]
    by_cases hd : d = i
    · subst hd
      rw [if_pos rfl, Function.update_self]
      apply Complex.ext
      · exact hre d
      · simp only [evalSV, evalLF_norm]; exact eval_combRS b a _ _ him rhs
    · rw [if_neg hd, Function.update_of_ne (Ne.symm hd)]; exact h i

theorem symRun_sound (p : List (Instr ι)) (b : ι → ℂ) (i : ι) :
    runProg p b i = evalSV b (look (symRun p) i) := by
  have key : ∀ (p : List (Instr ι)) (a : ι → ℂ) (s : SArr ι),
      (∀ i, evalSV b (look s i) = a i) →
      ∀ i, evalSV b (look (p.foldl symStep s) i) = p.foldl (fun a s => s.step b a) a i := by
    intro p
    induction p with
    | nil => intro a s h i; exact h i
    | cons ins p ih => intro a s h i; exact ih _ _ (symStep_sound b a s h ins) i
  exact (key p b [] (evalSV_svOf b) i).symm

/-- The workhorse: if for every index the symbolic result agrees with `f i`, the
program computes `evalSV b (f i)` for every input array. -/
theorem run_eq_of_check (p : List (Instr ι)) (f : ι → SV ι) (dom : List ι)
    (h : (let s := symRun p; dom.all fun i => sameSV (look s i) (f i)) = true)
    (b : ι → ℂ) {i : ι} (hi : i ∈ dom) : runProg p b i = evalSV b (f i) := by
  rw [symRun_sound]
  simp only [List.all_eq_true] at h
  exact sameSV_sound b (h i hi)

end Verif.Reflect
