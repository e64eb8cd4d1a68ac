import Mathlib.Data.Complex.Basic
import Mathlib.Data.Complex.BigOperators
import Mathlib.Algebra.BigOperators.Fin
import Mathlib.Data.Fintype.BigOperators
import Mathlib.Data.Fintype.Pi

/-!
# numpy tensor expressions

The expression language in which `/repo/wilson/run/smeft/beta.py` and
`/repo/wilson/match/smeft_tree.py` are written: `+ - * / **`, `@`, `np.conj`, `.T`,
`np.trace`, `np.identity(3)` and `np.einsum` in implicit mode, on scalars and arrays of
shape `(3,)*n`, with numpy's meaning.

Simplifications: complex numbers are exact (no floating point); an array is a function of
its index list, so only its entries matter (no dtype, memory layout or views); a scalar is
an array that does not depend on the index, which is exactly numpy's broadcasting of
scalars in `+ - * /`; the `lru_cache` around `np.einsum` (beta.py lines 12-33) is the
identity, since `np.einsum` is a pure function of its arguments.
-/

set_option autoImplicit false

namespace Verif.Tens
open BigOperators

/-- index tuples -/
abbrev Ix := List (Fin 3)

/-- an array of shape `(3,)*n` (entries at index tuples of length `n` matter); a scalar is
a constant function -/
abbrev Ten := Ix → ℂ

/-- the subscript letters occurring in the `einsum` calls -/
inductive Lbl
  | p | r | s | t | v | w
  deriving DecidableEq, Repr

/-- alphabetical order -/
def Lbl.all : List Lbl := [.p, .r, .s, .t, .v, .w]

instance : Fintype Lbl := ⟨⟨↑Lbl.all, by decide⟩, by intro x; cases x <;> decide⟩

/-- numpy expressions over variables `κ`; `s k` is a variable holding a scalar, `t k` one
holding an array; `ein s₁ a s₂ b s₃ c` is `einsum("s₁,s₂,s₃", a, b, c)`, where an absent
operand is the number 1 with no subscripts -/
inductive E (κ : Type)
  | s (k : κ)
  | t (k : κ)
  | num (n : ℤ)
  | i
  | eye
  | add (a b : E κ)
  | sub (a b : E κ)
  | neg (a : E κ)
  | mul (a b : E κ)
  | div (a b : E κ)
  | pow (a : E κ) (n : ℕ)
  | mat (a b : E κ)
  | conj (a : E κ)
  | tr (a : E κ)
  | trace (a : E κ)
  | ein (s1 : List Lbl) (a : E κ) (s2 : List Lbl) (b : E κ) (s3 : List Lbl) (c : E κ)
  deriving DecidableEq

/-- `np.identity(3)` -/
def eyeT : Ten
  | [i, j] => if i = j then 1 else 0
  | _ => 0

/-- `a @ b` for two matrices -/
def matT (a b : Ten) : Ten
  | [i, j] => ∑ k : Fin 3, a [i, k] * b [k, j]
  | _ => 0

/-- `np.trace(a)` -/
def traceT (a : Ten) : Ten := fun _ => ∑ k : Fin 3, a [k, k]

/-- output labels of implicit-mode `einsum`: those occurring exactly once, alphabetically -/
def outLabels (S : List Lbl) : List Lbl := Lbl.all.filter fun l => S.count l = 1

/-- the values a label runs over, when entry `ix` of the result is computed: all values
for a label occurring more than once, the value at its position in the output otherwise
(labels that do not occur are given the value 0) -/
def einDom (S : List Lbl) (ix : Ix) (l : Lbl) : Finset (Fin 3) :=
  if 2 ≤ S.count l then Finset.univ
  else if S.count l = 1 then {(ix[(outLabels S).idxOf l]?).getD 0}
  else {0}

/-- `np.einsum("s₁,s₂,s₃", a, b, c)` -/
def einT (s1 : List Lbl) (a : Ten) (s2 : List Lbl) (b : Ten) (s3 : List Lbl) (c : Ten) : Ten :=
  fun ix => ∑ σ ∈ Fintype.piFinset (einDom (s1 ++ s2 ++ s3) ix),
    a (s1.map σ) * b (s2.map σ) * c (s3.map σ)

/-- the value of an expression in an environment -/
noncomputable def eval {κ : Type} (env : κ → Ten) : E κ → Ten
  | .s k => fun _ => env k []
  | .t k => env k
  | .num n => fun _ => (n : ℂ)
  | .i => fun _ => Complex.I
  | .eye => eyeT
  | .add a b => fun ix => eval env a ix + eval env b ix
  | .sub a b => fun ix => eval env a ix - eval env b ix
  | .neg a => fun ix => - eval env a ix
  | .mul a b => fun ix => eval env a ix * eval env b ix
  | .div a b => fun ix => eval env a ix / eval env b ix
  | .pow a n => fun ix => eval env a ix ^ n
  | .mat a b => matT (eval env a) (eval env b)
  | .conj a => fun ix => (starRingEnd ℂ) (eval env a ix)
  | .tr a => fun ix => eval env a ix.reverse
  | .trace a => traceT (eval env a)
  | .ein s1 a s2 b s3 c => einT s1 (eval env a) s2 (eval env b) s3 (eval env c)

/-- sequential assignments `k = e` to local variables -/
noncomputable def runLocals {κ : Type} [DecidableEq κ] (env : κ → Ten) (prog : List (κ × E κ)) :
    κ → Ten :=
  prog.foldl (fun env ke => Function.update env ke.1 (eval env ke.2)) env

end Verif.Tens
