import Verif.Gen.Rotation

/-!
# `flavor_rotation`, `SMEFT._flavor_rotation`, `rotate_down`

The statements are in `Verif.Gen.Rotation`.
-/

set_option autoImplicit false

namespace Verif.Rotation
open Verif Verif.Tens Verif.Beta

/-- a 3×3 matrix -/
abbrev Mat := Matrix (Fin 3) (Fin 3) ℂ

/-- the rotation arguments by name -/
def args (Uq Uu Ud Ul Ue : Mat) : Arg → Mat
  | .q => Uq | .u => Uu | .d => Ud | .l => Ul | .e => Ue

/-- `smeft_warsaw.flavor_rotation(C_in, Uq, Uu, Ud, Ul, Ue)`,
/repo/wilson/util/smeft_warsaw.py lines 8-103 -/
noncomputable def flavorRotation (Cin : Dict Key Ten) (Uq Uu Ud Ul Ue : Mat) :
    Except Exc (Dict Key Ten) :=
  run (args Uq Uu Ud Ul Ue) Cin flavorRotationProg []

/-- `SMEFT._flavor_rotation(C_in, Uq, Uu, Ud, Ul, Ue, sm_parameters)`,
/repo/wilson/run/smeft/classes.py lines 141-205 -/
noncomputable def smeftFlavorRotation (Cin : Dict Key Ten) (Uq Uu Ud Ul Ue : Mat)
    (smParameters : Bool := true) : Except Exc (Dict Key Ten) := do
  let C ← if smParameters then run (args Uq Uu Ud Ul Ue) Cin smeftRotationSM [] else pure []
  run (args Uq Uu Ud Ul Ue) Cin smeftRotationWC C

/-- `wet_jms.rotate_down(C_in, p)`, /repo/wilson/util/wet_jms.py lines 153-232; `V` is
`ckmutil.ckm.ckm_tree(p["Vus"], p["Vub"], p["Vcb"], p["gamma"])` (not modelled: any matrix) -/
noncomputable def rotateDown (Cin : Dict WKey Ten) (V : Mat) : Except Exc (Dict WKey Ten) :=
  run (fun _ => V) Cin rotateDownProg Cin

end Verif.Rotation
