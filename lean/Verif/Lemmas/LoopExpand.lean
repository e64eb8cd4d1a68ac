import Verif.Model.LoopCompile
import Verif.Spec.BetaSym
import Mathlib.Tactic.Ring
import Mathlib.Tactic.FinCases

/-!
# Expansion of the one-loop matching conditions into entries

At given indices a matching condition is a sum of scalar factors times products of entries of the
coefficient arrays.  `formItems` computes this list.
-/

set_option autoImplicit false

namespace Verif.Loop
open Verif Verif.Tens Verif.Beta Verif.Rotation Verif.Match

/-- an entry, conjugated if `f` -/
structure Ent where
  v : Var
  f : Bool
  ix : List ℕ
  deriving DecidableEq

/-- a product of entries with its scalar factor -/
structure Item where
  coef : ℕ
  es : List Ent
  deriving DecidableEq

/-- the operand does not vanish identically at the indices -/
def condOk : Op → List ℕ → Bool
  | .c _, _ => true
  | .dag _, [_, _] => true
  | .dag _, [_, _, _, _] => true
  | .kd, [i, j] => Nat.beq i j
  | .kdt, [i, j] => Nat.beq i 2 && Nat.beq j 2
  | .V, [_, _] => true
  | .Vdag, [_, _] => true
  | .diagU, [i, j] => Nat.beq i j
  | .diagD, [i, j] => Nat.beq i j
  | .diagE, [i, j] => Nat.beq i j
  | .mu, [_] => true
  | .md, [_] => true
  | .me, [_] => true
  | .c22 _, _ => true
  | .dag22 _, _ => true
  | _, _ => false

/-- its entry, if it is not a number -/
def ents : Op → List ℕ → List Ent
  | .c k, ix => [⟨.c k, false, ix⟩]
  | .dag k, [p, r] => [⟨.c k, true, [r, p]⟩]
  | .dag k, [p, r, s, t] => [⟨.c k, true, [r, p, t, s]⟩]
  | .V, [i, j] => [⟨.V, false, [i, j]⟩]
  | .Vdag, [i, j] => [⟨.V, true, [j, i]⟩]
  | .diagU, [i, _] => [⟨.mu, false, [i]⟩]
  | .diagD, [i, _] => [⟨.md, false, [i]⟩]
  | .diagE, [i, _] => [⟨.me, false, [i]⟩]
  | .mu, [i] => [⟨.mu, false, [i]⟩]
  | .md, [i] => [⟨.md, false, [i]⟩]
  | .me, [i] => [⟨.me, false, [i]⟩]
  | .c22 k, _ => [⟨.c k, false, [2, 2]⟩]
  | .dag22 k, _ => [⟨.c k, true, [2, 2]⟩]
  | _, _ => []

/-- the nonvanishing terms of the sum over the given subscripts -/
def expand (ops : List (List ℕ × Op)) : List ℕ → (ℕ → ℕ) → List (List Ent)
  | [], ρ => bif ops.all fun o => condOk o.2 (o.1.map ρ) then [ops.flatMap fun o => ents o.2 (o.1.map ρ)] else []
  | a :: as, ρ => expand ops as (upd ρ a 0) ++ (expand ops as (upd ρ a 1) ++ expand ops as (upd ρ a 2))

/-- the terms of an array -/
def tnItems (t : Tn) (ix : List ℕ) : List (List Ent) :=
  (expand t.ops t.inner (assign 0 t.outs ix)).map fun es => (t.sc.map fun k => ⟨.c k, false, []⟩) ++ es

/-- the terms of a condition -/
def formItems (f : List (ℕ × ℕ)) (ix : List ℕ) : List Item :=
  f.flatMap fun x => (tnItems (tn x.1) ix).map fun es => ⟨x.2, es⟩

/-- the arrays entries are taken from -/
noncomputable def varVal (C : Key → Ten) (S : LEnv) : Var → Ten
  | .c k => C k
  | .V => matrixT S.V
  | .mu => vecT S.mu
  | .md => vecT S.md
  | .me => vecT S.me

/-- indices -/
def fin (i : ℕ) : Fin 3 := Fin.ofNat 3 i

/-- complex conjugation if the flag is set -/
noncomputable def conjIf (f : Bool) (z : ℂ) : ℂ := if f then (starRingEnd ℂ) z else z

/-- the value of an entry -/
noncomputable def entVal (C : Key → Ten) (S : LEnv) (e : Ent) : ℂ :=
  conjIf e.f (varVal C S e.v (e.ix.map fin))

/-- the value of a term -/
noncomputable def itemVal (C : Key → Ten) (S : LEnv) (it : Item) : ℂ :=
  coefVal S it.coef * (it.es.map (entVal C S)).prod

theorem fin_inj {i j : ℕ} (hi : i < 3) (hj : j < 3) : fin i = fin j ↔ i = j := by
  unfold fin
  constructor
  · intro h
    have := congrArg Fin.val h
    simpa [Fin.ofNat, Nat.mod_eq_of_lt hi, Nat.mod_eq_of_lt hj] using this
  · rintro rfl; rfl

theorem op_val (C : Key → Ten) (S : LEnv) (o : Op) (ix : List ℕ) (h : ∀ i ∈ ix, i < 3) :
    opVal C S o (ix.map fin) = if condOk o ix then ((ents o ix).map (entVal C S)).prod else 0 := by
  have key2 : ∀ {i j : ℕ}, ix = [i, j] → (Nat.beq i j = true ↔ fin i = fin j) := by
    rintro i j rfl
    rw [fin_inj (h i (by simp)) (h j (by simp))]
    exact Nat.beq_eq ▸ Iff.rfl
  have key22 : ∀ {i j : ℕ}, ix = [i, j] →
      ((Nat.beq i 2 && Nat.beq j 2) = true ↔ (fin i = 2 ∧ fin j = 2)) := by
    rintro i j rfl
    have e2 : (2 : Fin 3) = fin 2 := rfl
    rw [e2, fin_inj (h i (by simp)) (by norm_num), fin_inj (h j (by simp)) (by norm_num), Bool.and_eq_true]
    simp [Nat.beq_eq]
  cases o with
  | c k => simp [condOk, ents, opVal, entVal, conjIf, varVal]
  | c22 k =>
    have e2 : fin 2 = 2 := rfl
    simp [condOk, ents, opVal, entVal, conjIf, varVal, e2]
  | dag22 k =>
    have e2 : fin 2 = 2 := rfl
    simp [condOk, ents, opVal, entVal, conjIf, varVal, e2, dagT]
  | dag k =>
    match ix with
    | [] => rfl
    | [_] => rfl
    | [i, j] => simp [condOk, ents, opVal, entVal, conjIf, varVal, dagT]
    | [_, _, _] => rfl
    | [i, j, k, l] => simp [condOk, ents, opVal, entVal, conjIf, varVal, dagT]
    | _ :: _ :: _ :: _ :: _ :: _ => rfl
  | kd =>
    match ix with
    | [] => rfl
    | [_] => rfl
    | [i, j] =>
      have := key2 rfl
      simp only [condOk, ents, opVal, List.map_cons, List.map_nil, eyeT, List.prod_nil]
      by_cases hh : fin i = fin j
      · rw [if_pos hh, if_pos (this.2 hh)]
      · rw [if_neg hh, if_neg (fun h' => hh (this.1 h'))]
    | _ :: _ :: _ :: _ => rfl
  | kdt =>
    match ix with
    | [] => rfl
    | [_] => rfl
    | [i, j] =>
      have := key22 rfl
      simp only [condOk, ents, opVal, List.map_cons, List.map_nil, kdtT, List.prod_nil]
      by_cases hh : fin i = 2 ∧ fin j = 2
      · rw [if_pos hh, if_pos (this.2 hh)]
      · rw [if_neg hh, if_neg (fun h' => hh (this.1 h'))]
    | _ :: _ :: _ :: _ => rfl
  | V =>
    match ix with
    | [] => rfl
    | [_] => rfl
    | [i, j] => simp [condOk, ents, opVal, entVal, conjIf, varVal, matrixT]
    | _ :: _ :: _ :: _ => rfl
  | Vdag =>
    match ix with
    | [] => rfl
    | [_] => rfl
    | [i, j] => simp [condOk, ents, opVal, entVal, conjIf, varVal, matrixT]
    | _ :: _ :: _ :: _ => rfl
  | diagU =>
    match ix with
    | [] => rfl
    | [_] => rfl
    | [i, j] =>
      have := key2 rfl
      simp only [condOk, ents, opVal, List.map_cons, List.map_nil, diagT, List.prod_cons, List.prod_nil, entVal,
        conjIf, varVal, vecT, mul_one, Bool.false_eq_true, if_false]
      by_cases hh : fin i = fin j
      · rw [if_pos hh, if_pos (this.2 hh)]
      · rw [if_neg hh, if_neg (fun h' => hh (this.1 h'))]
    | _ :: _ :: _ :: _ => rfl
  | diagD =>
    match ix with
    | [] => rfl
    | [_] => rfl
    | [i, j] =>
      have := key2 rfl
      simp only [condOk, ents, opVal, List.map_cons, List.map_nil, diagT, List.prod_cons, List.prod_nil, entVal,
        conjIf, varVal, vecT, mul_one, Bool.false_eq_true, if_false]
      by_cases hh : fin i = fin j
      · rw [if_pos hh, if_pos (this.2 hh)]
      · rw [if_neg hh, if_neg (fun h' => hh (this.1 h'))]
    | _ :: _ :: _ :: _ => rfl
  | diagE =>
    match ix with
    | [] => rfl
    | [_] => rfl
    | [i, j] =>
      have := key2 rfl
      simp only [condOk, ents, opVal, List.map_cons, List.map_nil, diagT, List.prod_cons, List.prod_nil, entVal,
        conjIf, varVal, vecT, mul_one, Bool.false_eq_true, if_false]
      by_cases hh : fin i = fin j
      · rw [if_pos hh, if_pos (this.2 hh)]
      · rw [if_neg hh, if_neg (fun h' => hh (this.1 h'))]
    | _ :: _ :: _ :: _ => rfl
  | mu =>
    match ix with
    | [] => rfl
    | [i] => simp [condOk, ents, opVal, entVal, conjIf, varVal]
    | _ :: _ :: _ => rfl
  | md =>
    match ix with
    | [] => rfl
    | [i] => simp [condOk, ents, opVal, entVal, conjIf, varVal]
    | _ :: _ :: _ => rfl
  | me =>
    match ix with
    | [] => rfl
    | [i] => simp [condOk, ents, opVal, entVal, conjIf, varVal]
    | _ :: _ :: _ => rfl

theorem ops_val (C : Key → Ten) (S : LEnv) (ops : List (List ℕ × Op)) (ρ : ℕ → ℕ) (h : ∀ a, ρ a < 3) :
    (ops.map fun o => opVal C S o.2 (o.1.map fun a => fin (ρ a))).prod =
      if (ops.all fun o => condOk o.2 (o.1.map ρ)) = true then
        ((ops.flatMap fun o => ents o.2 (o.1.map ρ)).map (entVal C S)).prod else 0 := by
  induction ops with
  | nil => simp
  | cons o ops ih =>
    have e : (o.1.map fun a => fin (ρ a)) = (o.1.map ρ).map fin := by simp [Function.comp_def]
    have := op_val C S o.2 (o.1.map ρ) (by
      intro i hi
      obtain ⟨a, -, rfl⟩ := List.mem_map.1 hi
      exact h a)
    rw [List.map_cons, List.prod_cons, ih, e, this, List.all_cons, List.flatMap_cons, List.map_append,
      List.prod_append]
    by_cases h1 : condOk o.2 (o.1.map ρ) = true
    · by_cases h2 : (ops.all fun o => condOk o.2 (o.1.map ρ)) = true
      · simp only [h1, h2, Bool.true_and, if_true]
      · rw [if_neg h2, mul_zero, if_neg]
        simpa [h1] using h2
    · rw [if_neg h1, zero_mul, if_neg]
      simp [h1]

theorem upd_lt {ρ : ℕ → ℕ} (h : ∀ a, ρ a < 3) (a i : ℕ) (hi : i < 3) : ∀ b, upd ρ a i b < 3 := by
  intro b
  unfold upd
  cases Nat.beq b a
  · exact h b
  · exact hi

theorem upd_fin (ρ : ℕ → ℕ) (a i : ℕ) : (fun b => fin (upd ρ a i b)) = upd (fun b => fin (ρ b)) a (fin i) := by
  funext b
  unfold upd
  cases Nat.beq b a <;> rfl

theorem expand_val (C : Key → Ten) (S : LEnv) (ops : List (List ℕ × Op)) (as : List ℕ) :
    ∀ ρ : ℕ → ℕ, (∀ a, ρ a < 3) →
    sumOver as (fun ρ => (ops.map fun o => opVal C S o.2 (o.1.map ρ)).prod) (fun a => fin (ρ a)) =
      ((expand ops as ρ).map fun es => (es.map (entVal C S)).prod).sum := by
  induction as with
  | nil =>
    intro ρ h
    simp only [sumOver, expand]
    rw [ops_val C S ops ρ h]
    cases hc : ops.all fun o => condOk o.2 (o.1.map ρ)
    · rw [if_neg (by simp), cond_false]; rfl
    · rw [if_pos rfl, cond_true]; simp
  | cons a as ih =>
    intro ρ h
    simp only [sumOver, expand]
    rw [Fin.sum_univ_three, List.map_append, List.sum_append, List.map_append, List.sum_append,
      ← ih _ (upd_lt h a 0 (by norm_num)), ← ih _ (upd_lt h a 1 (by norm_num)),
      ← ih _ (upd_lt h a 2 (by norm_num)), upd_fin, upd_fin, upd_fin, add_assoc]
    rfl

theorem assign_lt (as is : List ℕ) (h : ∀ i ∈ is, i < 3) : ∀ a, assign 0 as is a < 3 := by
  induction as generalizing is with
  | nil => intro a; simp [assign]
  | cons b as ih =>
    cases is with
    | nil => intro a; simp [assign]
    | cons i is =>
      intro a
      exact upd_lt (ih is fun j hj => h j (by simp [hj])) b i (h i (by simp)) a

theorem assign_fin (as is : List ℕ) : (fun a => fin (assign 0 as is a)) = assign 0 as (is.map fin) := by
  induction as generalizing is with
  | nil => rfl
  | cons b as ih =>
    cases is with
    | nil => rfl
    | cons i is => simp only [assign, List.map_cons]; rw [upd_fin, ih]

theorem tn_val (C : Key → Ten) (S : LEnv) (t : Tn) (ix : List ℕ) (h : ∀ i ∈ ix, i < 3) :
    tnVal C S t (ix.map fin) = ((tnItems t ix).map fun es => (es.map (entVal C S)).prod).sum := by
  unfold tnVal tnItems
  rw [← assign_fin, expand_val C S _ _ _ (assign_lt _ _ h), List.map_map, ← List.sum_map_mul_left]
  congr 1
  apply List.map_congr_left
  intro es _
  simp only [Function.comp, List.map_append, List.prod_append, List.map_map]
  congr 1

theorem form_val (C : Key → Ten) (S : LEnv) (f : List (ℕ × ℕ)) (ix : List ℕ) (h : ∀ i ∈ ix, i < 3) :
    formVal C S f (ix.map fin) = ((formItems f ix).map (itemVal C S)).sum := by
  unfold formVal formItems
  induction f with
  | nil => rfl
  | cons x f ih =>
    rw [List.map_cons, List.sum_cons, ih, List.flatMap_cons, List.map_append, List.sum_append,
      tn_val C S _ ix h, ← List.sum_map_mul_left, List.map_map]
    congr 1

end Verif.Loop
