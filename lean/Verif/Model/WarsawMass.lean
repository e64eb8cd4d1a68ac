import Verif.Model.TranslateSmeft

/-!
# Warsaw → Warsaw mass (`/repo/wilson/translate/smeft.py` lines 10-63)

`msvd` stands for `ckmutil.diag.msvd` (not part of the repository): it returns the matrices
`U`, `S`, `V` of a singular value decomposition.
-/

set_option autoImplicit false

namespace Verif.TranslateSmeft
open Verif Verif.EFT Verif.EFT.Util Verif.Rotation Verif.Bridge

/-- the type of `ckmutil.diag.msvd` -/
abbrev Msvd := Mat → Mat × (Fin 3 → ℝ) × Mat

/-- smeft.py:16-21, the loop of `smeft_toarray`: entries of other coefficients are skipped -/
def toarrayFrom (name : Str) (a : NDArr) : Dict Str ℂ → Except Err NDArr
  | [] => .ok a
  | (k, v) :: d =>
    if (splitUS k).headD [] ≠ name then toarrayFrom name a d
    else match pyIdx a.shape ((splitUS k).getLastD []) with
      | .error e => .error e
      | .ok idx => toarrayFrom name (setAt a idx v) d

/-- smeft.py:10-23 `smeft_toarray`.  Simplification: a scalar coefficient (shape 1), for which the
function is never called, is treated as an error. -/
noncomputable def smeftToarray (U : Util) (name : Str) (d : Dict Str ℂ) : Except Err AVal :=
  match U.keysShape.get? name with
  | none => .error .keyError
  | some none => .error .typeError
  | some (some s) =>
    (toarrayFrom name (zeros s) d).bind fun a =>
    (U.symmetrize [(name, .arr a)]).bind fun C =>
    match C.get? name with
    | some v => .ok v
    | none => .error .keyError

/-- smeft.py:26-32 `smeft_fromarray` of an array with the given entries -/
def smeftFromarray (name : Str) (a : NDArr) : Dict Str ℂ :=
  ((indices a.shape).map fun i => (wcName name i, a.get i)).foldl (fun d e => d.set e.1 e.2) []

/-- a dictionary value as a 3x3 matrix (all arrays rotated here are 3x3) -/
def toMat : AVal → Mat
  | .num z => fun _ _ => z
  | .arr a => fun i j => a.get [i.val, j.val]

/-- a matrix as an array -/
noncomputable def matArr (M : Mat) : NDArr :=
  NDArr.ofFn [3, 3] fun idx => match idx with
    | [i, j] => M (Fin.ofNat 3 i) (Fin.ofNat 3 j)
    | _ => 0

/-- smeft.py:49 `C_rotate_u` -/
def rotateU : List Str := ["uphi".toList, "uG".toList, "uW".toList, "uB".toList]

/-- smeft.py:50-56, the loop over `C_rotate_u` -/
noncomputable def massUp (U : Util) (ckm : Ckm) (p : Dict String ℝ) (C : Dict Str ℂ) (Cout : Dict Str ℂ) :
    List Str → Except Exc (Dict Str ℂ)
  | [] => .ok Cout
  | name :: names =>
    lift (smeftToarray U name C) >>= fun a =>
    ckmOf ckm p >>= fun V =>
    let UuL := V.conjTranspose
    massUp U ckm p C (Cout.update (smeftFromarray name (matArr (UuL.conjTranspose * toMat a)))) names

/-- smeft.py:35-63 `warsaw_to_warsawmass` -/
noncomputable def warsawToWarsawmass (U : Util) (ckm : Ckm) (msvd : Msvd) (defaults : Dict String ℝ)
    (C : Dict Str ℂ) (parameters : Option (Dict String ℝ)) : Except Exc (Dict Str ℂ) :=
  massUp U ckm (params defaults parameters) C C rotateU >>= fun Cout =>
  lift (smeftToarray U "llphiphi".toList C) >>= fun a =>
  .ok (Cout.update (smeftFromarray "llphiphi".toList
    (matArr (Matrix.diagonal fun i => ((msvd (toMat a)).2.1 i : ℂ)))))

end Verif.TranslateSmeft
