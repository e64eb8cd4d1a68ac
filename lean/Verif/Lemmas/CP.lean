import Verif.Model.Tensor
import Mathlib.Tactic.Ring

/-!
# Lemmas: CP parity of tensor expressions

A checker for `E`, sound for complex conjugation of all variables together with a change
of sign of the CP-odd ones.
-/

set_option autoImplicit false

namespace Verif.CP
open Verif.Tens BigOperators

/-- `-1` for CP-odd, `1` for CP-even -/
def sg (b : Bool) : ℂ := if b then -1 else 1

theorem sg_xor (a b : Bool) : sg (a ^^ b) = sg a * sg b := by
  cases a <;> cases b <;> simp [sg]

theorem conj_sg (b : Bool) : (starRingEnd ℂ) (sg b) = sg b := by cases b <;> simp [sg]

/-- the CP conjugate of an array -/
noncomputable def cpT (odd : Bool) (A : Ten) : Ten := fun ix => sg odd * (starRingEnd ℂ) (A ix)

variable {κ : Type}

/-- parity of a product -/
def parMul (a b : Option Bool) : Option Bool := match a, b with
  | some x, some y => some (x ^^ y)
  | _, _ => none

/-- parity of a sum -/
def parAdd (a b : Option Bool) : Option Bool := match a, b with
  | some x, some y => if x = y then some x else none
  | _, _ => none

/-- CP parity of an expression, given those of the variables; `none` if it has none -/
def par (o : κ → Bool) : E κ → Option Bool
  | .s k => some (o k)
  | .t k => some (o k)
  | .num _ => some false
  | .i => some true
  | .eye => some false
  | .add a b => parAdd (par o a) (par o b)
  | .sub a b => parAdd (par o a) (par o b)
  | .neg a => par o a
  | .mul a b => parMul (par o a) (par o b)
  | .div a b => parMul (par o a) (par o b)
  | .pow a n => (par o a).map fun x => x && decide (n % 2 = 1)
  | .mat a b => parMul (par o a) (par o b)
  | .conj a => par o a
  | .tr a => par o a
  | .trace a => par o a
  | .ein _ a _ b _ c => parMul (parMul (par o a) (par o b)) (par o c)

theorem parMul_some {a b : Option Bool} {z : Bool} (h : parMul a b = some z) :
    ∃ x y, a = some x ∧ b = some y ∧ z = (x ^^ y) := by
  cases a <;> cases b <;> simp_all [parMul]

theorem parAdd_some {a b : Option Bool} {z : Bool} (h : parAdd a b = some z) :
    a = some z ∧ b = some z := by
  cases a with
  | none => simp [parAdd] at h
  | some x =>
    cases b with
    | none => simp [parAdd] at h
    | some y =>
      simp only [parAdd] at h
      split at h
      · rename_i e; subst e; exact ⟨h, h⟩
      · cases h

theorem sg_pow (x : Bool) (n : ℕ) : sg x ^ n = sg (x && decide (n % 2 = 1)) := by
  cases x
  · simp [sg]
  · rcases Nat.mod_two_eq_zero_or_one n with h | h
    · rw [h]
      have : Even n := Nat.even_iff.2 h
      simp [sg, this.neg_one_pow]
    · rw [h]
      have : Odd n := Nat.odd_iff.2 h
      simp [sg, this.neg_one_pow]

theorem par_sound (o : κ → Bool) (env env' : κ → Ten) (henv : ∀ k, env' k = cpT (o k) (env k))
    (e : E κ) (z : Bool) (h : par o e = some z) : eval env' e = cpT z (eval env e) := by
  induction e generalizing z with
  | s k =>
    injection h with h; subst h
    funext ix; simp only [eval, henv k, cpT]
  | t k => injection h with h; subst h; simp only [eval, henv k]
  | num n => injection h with h; subst h; funext ix; simp [eval, cpT, sg]
  | i => injection h with h; subst h; funext ix; simp [eval, cpT, sg]
  | eye =>
    injection h with h; subst h; funext ix
    simp only [eval, cpT, sg]
    unfold eyeT
    split
    · split <;> simp
    · simp
  | add a b iha ihb =>
    obtain ⟨h1, h2⟩ := parAdd_some h
    funext ix; simp only [eval, iha _ h1, ihb _ h2, cpT, map_add]; ring
  | sub a b iha ihb =>
    obtain ⟨h1, h2⟩ := parAdd_some h
    funext ix; simp only [eval, iha _ h1, ihb _ h2, cpT, map_sub]; ring
  | neg a ih => funext ix; simp only [eval, ih _ h, cpT, map_neg]; ring
  | mul a b iha ihb =>
    obtain ⟨x, y, h1, h2, rfl⟩ := parMul_some h
    funext ix; simp only [eval, iha _ h1, ihb _ h2, cpT, map_mul, sg_xor]; ring
  | div a b iha ihb =>
    obtain ⟨x, y, h1, h2, rfl⟩ := parMul_some h
    funext ix; simp only [eval, iha _ h1, ihb _ h2, cpT, map_div₀, sg_xor]
    have : sg y = (sg y)⁻¹ := by cases y <;> simp [sg]
    conv_rhs => rw [this]
    rw [mul_div_mul_comm]; ring
  | pow a n ih =>
    simp only [par, Option.map_eq_some_iff] at h
    obtain ⟨x, h1, rfl⟩ := h
    funext ix; simp only [eval, ih _ h1, cpT, map_pow, mul_pow, sg_pow]
  | mat a b iha ihb =>
    obtain ⟨x, y, h1, h2, rfl⟩ := parMul_some h
    funext ix
    simp only [eval, iha _ h1, ihb _ h2, cpT, sg_xor]
    unfold matT
    split
    · rw [map_sum, Finset.mul_sum]
      refine Finset.sum_congr rfl fun k _ => ?_
      rw [map_mul]; simp only [cpT]; ring
    · simp
  | conj a ih =>
    funext ix; simp only [eval, ih _ h, cpT, map_mul, conj_sg, Complex.conj_conj]
  | tr a ih => funext ix; simp only [eval, ih _ h, cpT]
  | trace a ih =>
    funext ix
    simp only [eval, ih _ h, cpT, traceT]
    rw [map_sum, Finset.mul_sum]
  | ein s1 a s2 b s3 c iha ihb ihc =>
    obtain ⟨x', w, h', h3, rfl⟩ := parMul_some h
    obtain ⟨x, y, h1, h2, rfl⟩ := parMul_some h'
    funext ix
    simp only [eval, iha _ h1, ihb _ h2, ihc _ h3, cpT, einT, sg_xor]
    rw [map_sum, Finset.mul_sum]
    refine Finset.sum_congr rfl fun σ _ => ?_
    rw [map_mul, map_mul]; ring

end Verif.CP
