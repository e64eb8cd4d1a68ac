import Verif.Model.Tensor
import Verif.Model.WCxf
import Mathlib.LinearAlgebra.Matrix.ConjTranspose

/-!
# Flavour rotations

The statement language of `flavor_rotation` (`/repo/wilson/util/smeft_warsaw.py` lines
8-115), `SMEFT._flavor_rotation` (`/repo/wilson/run/smeft/classes.py` lines 141-205) and
`rotate_down` (`/repo/wilson/util/wet_jms.py` lines 153-232).  The statements themselves
are in `Verif.Gen.Rotation` (generated).

Simplifications: as in `Verif.Model.Tensor` (exact complex numbers, arrays are functions
of the index tuple, all axes have length 3).
-/

set_option autoImplicit false

namespace Verif.Rotation
open Verif Verif.Tens BigOperators

/-- subscript letters of the explicit-mode `einsum` calls -/
inductive Lb
  | a | b | c | d | i | j | k | l
  deriving DecidableEq, Repr

/-- all letters -/
def Lb.all : List Lb := [.a, .b, .c, .d, .i, .j, .k, .l]

instance : Fintype Lb := ⟨⟨↑Lb.all, by decide⟩, by intro x; cases x <;> decide⟩

/-- matrix arguments: `U`, `m.conj()`, `m.T` -/
inductive M (F : Type)
  | U (f : F)
  | conj (m : M F)
  | tr (m : M F)
  deriving DecidableEq, Repr

/-- right-hand sides: `C_in[k]`; `X @ C_in[k] @ Y`;
`np.einsum('s₁,…,sₙ,s->out', m₁, …, mₙ, C_in[k])` -/
inductive RE (F : Type)
  | copy
  | sand (x y : M F)
  | ein (ops : List (List Lb × M F)) (s out : List Lb)
  deriving DecidableEq, Repr

/-- `C[key] = rhs`, guarded by `if key in C_in:` or not -/
structure Stmt (κ F : Type) where
  key : κ
  guarded : Bool
  rhs : RE F
  deriving DecidableEq, Repr

variable {κ F : Type}

/-- value of a matrix argument -/
noncomputable def M.eval (U : F → Matrix (Fin 3) (Fin 3) ℂ) : M F → Matrix (Fin 3) (Fin 3) ℂ
  | .U f => U f
  | .conj m => (m.eval U).map (starRingEnd ℂ)
  | .tr m => (m.eval U).transpose

/-- a matrix as an array -/
def ofMat (m : Matrix (Fin 3) (Fin 3) ℂ) : Ten
  | [i, j] => m i j
  | _ => 0

/-- values a letter runs over when entry `ix` is computed -/
def dom (used out : List Lb) (ix : Ix) (x : Lb) : Finset (Fin 3) :=
  if x ∈ out then {(ix[out.idxOf x]?).getD 0} else if x ∈ used then Finset.univ else {0}

/-- explicit-mode `np.einsum` -/
noncomputable def einX (ops : List (List Lb × Ten)) (out : List Lb) : Ten := fun ix =>
  ∑ σ ∈ Fintype.piFinset (dom (ops.flatMap (·.1)) out ix), (ops.map fun o => o.2 (o.1.map σ)).prod

/-- value of a right-hand side for a given `C_in[k]` -/
noncomputable def RE.eval (U : F → Matrix (Fin 3) (Fin 3) ℂ) (A : Ten) : RE F → Ten
  | .copy => A
  | .sand x y => matT (matT (ofMat (x.eval U)) A) (ofMat (y.eval U))
  | .ein ops s out => einX (ops.map (fun o => (o.1, ofMat (o.2.eval U))) ++ [(s, A)]) out

/-- one statement; `C_in[key]` raises `KeyError` for a missing key -/
noncomputable def step [DecidableEq κ] (U : F → Matrix (Fin 3) (Fin 3) ℂ) (Cin : Dict κ Ten)
    (C : Dict κ Ten) (s : Stmt κ F) : Except (Exc) (Dict κ Ten) :=
  match Cin.get? s.key with
  | some A => .ok (C.set s.key (s.rhs.eval U A))
  | none => if s.guarded then .ok C else .error .keyError

/-- a sequence of statements -/
noncomputable def run [DecidableEq κ] (U : F → Matrix (Fin 3) (Fin 3) ℂ) (Cin : Dict κ Ten)
    (prog : List (Stmt κ F)) (C : Dict κ Ten) : Except (Exc) (Dict κ Ten) :=
  prog.foldlM (step U Cin) C

end Verif.Rotation
