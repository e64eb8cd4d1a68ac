import Verif.Gen.Beta
import Verif.Model.Dict

/-!
# `beta` and `beta_array` (`/repo/wilson/run/smeft/beta.py`)

The right-hand sides are in `Verif.Gen.Beta` (generated); here is the control flow.
-/

set_option autoImplicit false

namespace Verif.Beta
open Verif Verif.Tens

/-- the variables visible to the assignments: the entries of the dictionary `C`
(keys `keys`) and the argument `HIGHSCALE`; beta.py lines 37-49 -/
noncomputable def input (C : Key → Ten) (h : ℂ) : Key → Ten := fun k =>
  if k = .HIGHSCALE then fun _ => h else if k ∈ keys then C k else fun _ => 0

/-- local variables after lines 52-93 -/
noncomputable def env1 (C : Key → Ten) (h : ℂ) : Key → Ten := runLocals (input C h) locProg

/-- local variables after lines 171-190 -/
noncomputable def env2 (C : Key → Ten) (h : ℂ) : Key → Ten := runLocals (env1 C h) loc2Prog

/-- a sequence of assignments `Beta[k] = e` -/
noncomputable def assign (env : Key → Ten) (prog : List (Key × E Key)) (d : Dict Key Ten) :
    Dict Key Ten :=
  prog.foldl (fun d ke => d.set ke.1 (eval env ke.2)) d

/-- `smeftutil.C_array2dict(np.zeros(5000))`: every coefficient is a zero array
(beta.py line 166; `cKeys` is `smeftutil.C_keys`, determined by the Warsaw basis file) -/
noncomputable def zeroDict (cKeys : List Key) : Dict Key Ten := cKeys.map fun k => (k, fun _ => 0)

/-- `beta(C, HIGHSCALE, newphys)`, beta.py lines 37-1790 -/
noncomputable def beta (cKeys : List Key) (C : Key → Ten) (h : ℂ) (newphys : Bool) : Dict Key Ten :=
  let B := assign (env1 C h) smProg []
  if !newphys then (zeroDict cKeys).update B
  else assign (env2 C h) npProg B

end Verif.Beta
