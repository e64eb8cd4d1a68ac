import Verif.Gen.Beta
import Verif.Gen.Rotation

/-!
# Types for the one-loop matching conditions (`/repo/wilson/match/smeft_loop.py`)
-/

set_option autoImplicit false

namespace Verif.Loop
open Verif.Beta Verif.Rotation

/-- the operands of `einsum` in smeft_loop.py lines 57-153: `C["k"]`, `C["kDag"]`, `kd`, `kdt`, `V`,
`Vdag`, `np.diag(mu)` etc., `mu` etc.; and `C["k"][2,2]`, `C["kDag"][2,2]` -/
inductive Op
  | c (k : Key)
  | dag (k : Key)
  | kd
  | kdt
  | V
  | Vdag
  | diagU
  | diagD
  | diagE
  | mu
  | md
  | me
  | c22 (k : Key)
  | dag22 (k : Key)
  deriving DecidableEq

/-- an array in a matching condition: `C["k"]` for the (bosonic) `k ∈ sc` times
`einsum("…", …)` of the operands; `out` is the part after `->`, if there is one.
`np.diag(mu)` alone is an `einsum` of one operand, `C["k"] * mu` is `einsum("pr,r->pr", C["k"], mu)`
and `(C["k"].T * mu).T` is `einsum("pr,p->pr", C["k"], mu)`. -/
structure Tn where
  sc : List Key
  ops : List (List ℕ × Op)
  out : Option (List ℕ)
  deriving DecidableEq

/-- the numbers defined in smeft_loop.py lines 17-43 and 142: couplings, masses, the CKM matrix -/
structure LEnv where
  mW : ℝ
  mZ : ℝ
  vT : ℝ
  g1bar : ℂ
  g2bar : ℝ
  g3bar : ℝ
  scale : ℝ
  mu : Fin 3 → ℝ
  md : Fin 3 → ℝ
  me : Fin 3 → ℝ
  V : Fin 3 → Fin 3 → ℂ

/-- lines 7-12, 34, 35 -/
noncomputable def mH : ℝ := 125
/-- line 35 -/
noncomputable def mt : ℝ := 173
/-- line 7 -/
noncomputable def Nc : ℝ := 3
/-- line 8 -/
noncomputable def cf : ℝ := 4 / 3
/-- line 12 -/
noncomputable def aEvan : ℝ := 1
/-- line 12 -/
noncomputable def bEvan : ℝ := 1
/-- line 12 -/
noncomputable def cEvan : ℝ := 1
/-- line 12 -/
noncomputable def dEvan : ℝ := 1
/-- line 12 -/
noncomputable def eEvan : ℝ := 1

end Verif.Loop
