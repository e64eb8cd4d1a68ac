import Verif.Model.MatchLoop

/-!
# Four-fermion matching conditions as lists of index equations and entries

An auxiliary form of the tables of `Verif.Gen.LoopProg` that the kernel can evaluate quickly.
-/

set_option autoImplicit false

namespace Verif.Loop
open Verif.Beta Verif.Rotation

/-- what an entry can be taken from -/
inductive Var
  | c (k : Key)
  | V
  | mu
  | md
  | me
  deriving DecidableEq

/-- an array: the pairs of subscripts whose values must agree, and the entries (conjugated or not) with their
subscripts -/
structure Cu where
  eqs : List (ℕ × ℕ)
  es : List (Var × Bool × List ℕ)
  deriving DecidableEq

/-- subscripts are represented by powers of 4; the one of `T`, whose value is always 2, is 256 -/
def wt : ℕ → ℕ
  | 0 => 256
  | 4 => 1
  | 5 => 4
  | 6 => 16
  | 7 => 64
  | _ => 0

/-- the equations an operand imposes -/
def opEqs : Op → List ℕ → Option (List (ℕ × ℕ))
  | .c _, _ => some []
  | .dag _, [_, _] => some []
  | .dag _, [_, _, _, _] => some []
  | .kd, [a, b] => some [(wt a, wt b)]
  | .kdt, [a, b] => some [(wt a, 256), (wt b, 256)]
  | _, _ => none

/-- the entries of an operand -/
def opEnts : Op → List ℕ → List (Var × Bool × List ℕ)
  | .c k, ix => [(.c k, false, ix.map wt)]
  | .dag k, [p, r] => [(.c k, true, [wt r, wt p])]
  | .dag k, [p, r, s, t] => [(.c k, true, [wt r, wt p, wt t, wt s])]
  | _, _ => []

/-- all equations -/
def opsEqs : List (List ℕ × Op) → Option (List (ℕ × ℕ))
  | [] => some []
  | o :: ops => (opEqs o.2 o.1).bind fun l => (opsEqs ops).map fun m => l ++ m

/-- an array with the output subscripts `prst`, summed at most over a subscript `T` that is fixed by `kdt_TT` -/
def compile (t : Tn) : Option Cu :=
  if t.outs = [4, 5, 6, 7] ∧ (t.inner = [] ∧ (∀ o ∈ t.ops, ∀ a ∈ o.1, a ∈ [4, 5, 6, 7]) ∨
      t.inner = [0] ∧ ([0, 0], Op.kdt) ∈ t.ops ∧ ∀ o ∈ t.ops, ∀ a ∈ o.1, a ∈ [0, 4, 5, 6, 7]) then
    (opsEqs t.ops).map fun l => ⟨l.filter fun x => x.1 ≠ x.2,
      (t.sc.map fun k => (.c k, false, [])) ++ t.ops.flatMap fun o => opEnts o.2 o.1⟩
  else none

/-- element of a list, for the kernel -/
noncomputable def getF {α : Type} (d : α) (l : List α) : ℕ → α :=
  List.rec (fun _ => d) (fun a _ ih n => Nat.rec a (fun m _ => ih m) n) l

/-- `tn`, for the kernel -/
noncomputable def tnF (n : ℕ) : Tn := getF ⟨[], [], none⟩ tens n

theorem tnF_eq (n : ℕ) : tnF n = tn n := by
  have : ∀ (l : List Tn) (d : Tn) (n : ℕ), getF d l n = l.getD n d := by
    intro l d
    induction l with
    | nil => exact fun _ => rfl
    | cons a l ih =>
      intro n
      cases n with
      | zero => rfl
      | succ n => exact ih n
  exact this _ _ _

/-- a condition all of whose arrays are of this kind -/
noncomputable def compileForm (wf : WKey × List (ℕ × ℕ)) : Option (WKey × List (Cu × ℕ)) :=
  (wf.2.mapM fun x => (compile (tnF x.1)).map fun u => (u, x.2)).map fun l => (wf.1, l)

end Verif.Loop
