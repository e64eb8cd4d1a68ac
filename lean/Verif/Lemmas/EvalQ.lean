import Verif.Lemmas.TermNF

/-!
# Lemmas: evaluation of tensor expressions at Gaussian rational points

A computable twin of `Tens.eval`, for concrete witnesses.
-/

set_option autoImplicit false
set_option linter.unusedSectionVars false
set_option linter.unusedSimpArgs false

namespace Verif.EvalQ
open Verif.Tens Verif.NF BigOperators

/-- `re + i im` -/
structure G where
  re : ℚ
  im : ℚ
  deriving DecidableEq

namespace G
def add (a b : G) : G := ⟨a.re + b.re, a.im + b.im⟩
def sub (a b : G) : G := ⟨a.re - b.re, a.im - b.im⟩
def neg (a : G) : G := ⟨-a.re, -a.im⟩
def mul (a b : G) : G := ⟨a.re * b.re - a.im * b.im, a.re * b.im + a.im * b.re⟩
def conj (a : G) : G := ⟨a.re, -a.im⟩
def inv (a : G) : G := ⟨a.re / (a.re * a.re + a.im * a.im), -a.im / (a.re * a.re + a.im * a.im)⟩
def zero : G := ⟨0, 0⟩
def one : G := ⟨1, 0⟩
def pow (a : G) : ℕ → G
  | 0 => one
  | n + 1 => mul (pow a n) a
/-- multiplication that does not look at the second factor if the first is zero -/
def lmul (a b : G) : G := if a = zero then zero else mul a b
def sum3 (f : Fin 3 → G) : G := add (f 0) (add (f 1) (f 2))

noncomputable def toC (a : G) : ℂ := (a.re : ℂ) + (a.im : ℂ) * Complex.I

theorem toC_add (a b : G) : toC (add a b) = toC a + toC b := by
  simp only [toC, add]; push_cast; ring
theorem toC_sub (a b : G) : toC (sub a b) = toC a - toC b := by
  simp only [toC, sub]; push_cast; ring
theorem toC_neg (a : G) : toC (neg a) = - toC a := by
  simp only [toC, neg]; push_cast; ring
theorem toC_mul (a b : G) : toC (mul a b) = toC a * toC b := by
  simp only [toC, mul]; push_cast
  linear_combination (-(a.im : ℂ) * b.im) * Complex.I_mul_I
theorem toC_conj (a : G) : toC (conj a) = (starRingEnd ℂ) (toC a) := by
  simp [toC, conj]
theorem toC_zero : toC zero = 0 := by simp [toC, zero]
theorem toC_one : toC one = 1 := by simp [toC, one]
theorem toC_re (a : G) : (toC a).re = (a.re : ℝ) := by simp [toC]
theorem toC_im (a : G) : (toC a).im = (a.im : ℝ) := by simp [toC]
theorem toC_inv (a : G) : toC (inv a) = (toC a)⁻¹ := by
  apply Complex.ext
  · rw [toC_re, Complex.inv_re, Complex.normSq_apply, toC_re, toC_im]
    simp [inv]
  · rw [toC_im, Complex.inv_im, Complex.normSq_apply, toC_re, toC_im]
    simp [inv]
theorem toC_pow (a : G) (n : ℕ) : toC (pow a n) = toC a ^ n := by
  induction n with
  | zero => simp [pow, toC_one]
  | succ n ih => rw [pow, toC_mul, ih, pow_succ]
theorem toC_lmul (a b : G) : toC (lmul a b) = toC a * toC b := by
  unfold lmul
  split
  · rename_i h; rw [h, toC_zero, zero_mul]
  · exact toC_mul a b
theorem toC_sum3 (f : Fin 3 → G) : toC (sum3 f) = ∑ x, toC (f x) := by
  rw [sum3, toC_add, toC_add, Fin.sum_univ_three]; ring
theorem toC_inj_ne {a b : G} (h : a ≠ b) : toC a ≠ toC b := by
  intro e
  apply h
  have h1 := congrArg Complex.re e
  have h2 := congrArg Complex.im e
  simp [toC] at h1 h2
  rcases a with ⟨a1, a2⟩; rcases b with ⟨b1, b2⟩
  simp only at h1 h2
  rw [h1, h2]
end G

abbrev GTen := Ix → G

def eyeG : GTen
  | [i, j] => if i = j then G.one else G.zero
  | _ => G.zero

def matG (a b : GTen) : GTen
  | [i, j] => G.sum3 fun k => G.lmul (a [i, k]) (b [k, j])
  | _ => G.zero

def nestG (S : List Lbl) (ix : Ix) : List Lbl → (Lbl → Fin 3) → ((Lbl → Fin 3) → G) → G
  | [], σ, f => f σ
  | l :: L, σ, f =>
    if 2 ≤ S.count l then G.sum3 fun x => nestG S ix L (Function.update σ l x) f
    else if S.count l = 1 then
      nestG S ix L (Function.update σ l ((ix[(outLabels S).idxOf l]?).getD 0)) f
    else nestG S ix L (Function.update σ l 0) f

variable {κ : Type} [DecidableEq κ]

def evalG (env : κ → GTen) : E κ → GTen
  | .s k => fun _ => env k []
  | .t k => env k
  | .num n => fun _ => ⟨n, 0⟩
  | .i => fun _ => ⟨0, 1⟩
  | .eye => eyeG
  | .add a b => fun ix => G.add (evalG env a ix) (evalG env b ix)
  | .sub a b => fun ix => G.sub (evalG env a ix) (evalG env b ix)
  | .neg a => fun ix => G.neg (evalG env a ix)
  | .mul a b => fun ix => G.lmul (evalG env a ix) (evalG env b ix)
  | .div a b => fun ix => G.lmul (evalG env a ix) (G.inv (evalG env b ix))
  | .pow a n => fun ix => G.pow (evalG env a ix) n
  | .mat a b => matG (evalG env a) (evalG env b)
  | .conj a => fun ix => G.conj (evalG env a ix)
  | .tr a => fun ix => evalG env a ix.reverse
  | .trace a => fun _ => G.sum3 fun k => evalG env a [k, k]
  | .ein s1 a s2 b s3 c => fun ix =>
    nestG (s1 ++ s2 ++ s3) ix Lbl.all (fun _ => 0) fun σ =>
      G.lmul (G.lmul (evalG env a (s1.map σ)) (evalG env b (s2.map σ))) (evalG env c (s3.map σ))

noncomputable def lift (env : κ → GTen) : κ → Ten := fun k ix => G.toC (env k ix)

theorem nestG_sound (S : List Lbl) (ix : Ix) (f : (Lbl → Fin 3) → G) (L : List Lbl) (σ : Lbl → Fin 3) :
    G.toC (nestG S ix L σ f) = nest (einDom S ix) L σ (fun σ => G.toC (f σ)) := by
  induction L generalizing σ with
  | nil => rfl
  | cons l L ih =>
    simp only [nestG, nest, einDom]
    split
    · rw [G.toC_sum3]
      exact Finset.sum_congr rfl fun x _ => ih _
    · split
      · rw [Finset.sum_singleton, ih]
      · rw [Finset.sum_singleton, ih]

theorem evalG_sound (env : κ → GTen) (e : E κ) (ix : Ix) :
    G.toC (evalG env e ix) = eval (lift env) e ix := by
  induction e generalizing ix with
  | s k => rfl
  | t k => rfl
  | num n => simp [evalG, eval, G.toC]
  | i => simp [evalG, eval, G.toC]
  | eye =>
    simp only [evalG, eval]
    match ix with
    | [i, j] =>
      simp only [eyeG, eyeT]
      split
      · exact G.toC_one
      · exact G.toC_zero
    | [] => exact G.toC_zero
    | [_] => exact G.toC_zero
    | _ :: _ :: _ :: _ => exact G.toC_zero
  | add a b iha ihb => simp only [evalG, eval, G.toC_add, iha, ihb]
  | sub a b iha ihb => simp only [evalG, eval, G.toC_sub, iha, ihb]
  | neg a iha => simp only [evalG, eval, G.toC_neg, iha]
  | mul a b iha ihb => simp only [evalG, eval, G.toC_lmul, iha, ihb]
  | div a b iha ihb => simp only [evalG, eval, G.toC_lmul, G.toC_inv, iha, ihb, div_eq_mul_inv]
  | pow a n iha => simp only [evalG, eval, G.toC_pow, iha]
  | mat a b iha ihb =>
    simp only [evalG, eval]
    match ix with
    | [i, j] =>
      simp only [matG, matT, G.toC_sum3, G.toC_lmul, iha, ihb]
    | [] => exact G.toC_zero
    | [_] => exact G.toC_zero
    | _ :: _ :: _ :: _ => exact G.toC_zero
  | conj a iha => simp only [evalG, eval, G.toC_conj, iha]
  | tr a iha => simp only [evalG, eval, iha]
  | trace a iha => simp only [evalG, eval, traceT, G.toC_sum3, iha]
  | ein s1 a s2 b s3 c iha ihb ihc =>
    simp only [evalG, eval, einT]
    rw [sum_piFinset_nest, nestG_sound]
    congr 1
    funext σ
    simp only [G.toC_lmul, iha, ihb, ihc]

def runLocalsG (env : κ → GTen) (prog : List (κ × E κ)) : κ → GTen :=
  prog.foldl (fun env ke => Function.update env ke.1 (evalG env ke.2)) env

theorem runLocalsG_sound (env : κ → GTen) (prog : List (κ × E κ)) :
    lift (runLocalsG env prog) = runLocals (lift env) prog := by
  induction prog generalizing env with
  | nil => rfl
  | cons ke prog ih =>
    simp only [runLocalsG, runLocals, List.foldl_cons] at ih ⊢
    rw [ih]
    congr 1
    funext k ix
    by_cases e : k = ke.1
    · subst e; simp [lift, evalG_sound]
    · simp [lift, Function.update_of_ne e]

end Verif.EvalQ
