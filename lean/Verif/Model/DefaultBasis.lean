import Verif.Model.FlavorRotation
import Mathlib.Analysis.SpecialFunctions.Pow.Real

/-!
# The rotation to the default basis (`SMEFT._rotate_defaultbasis`)
-/

set_option autoImplicit false

namespace Verif.DefaultBasis
open Verif Verif.Tens Verif.Beta Verif.Rotation

/-- the functions of the external package `ckmutil` used by the rotation (not part of the
repository): `ckmutil.diag.msvd`, `ckmutil.diag.mtakfac`, `ckmutil.phases.rephase_standard` with the
arguments `UuL, UdL, UuR, UdR`, and `ckmutil.phases.rephase_pmns_standard` with the arguments
`Unu, UeL, UeR` -/
structure Ckmutil where
  msvd : Mat → Mat × (Fin 3 → ℝ) × Mat
  mtakfac : Mat → Mat × (Fin 3 → ℝ)
  rephase : Mat → Mat → Mat → Mat → Mat × Mat × Mat × Mat
  rephasePmns : Mat → Mat → Mat → Mat × Mat × Mat

/-- `C[k]` for a coefficient with two flavour indices, as a matrix -/
def item2 (C : Dict Key Ten) (k : Key) : Except Exc Mat :=
  match C.get? k with
  | some A => .ok fun i j => A [i, j]
  | none => .error .keyError

/-- `v = 246.22`, run/smeft/classes.py:127 -/
noncomputable def vev : ℝ := 246.22

/-- `v/sqrt(2) * (G - C * v**2/2)`, run/smeft/classes.py:128-130 -/
noncomputable def massOf (G C : Mat) : Mat := fun i j =>
  (vev / Real.sqrt 2 : ℝ) * (G i j - C i j * (vev : ℂ) ^ 2 / 2)

/-- run/smeft/classes.py:120-139 `SMEFT._rotate_defaultbasis` -/
noncomputable def rotateDefault (K : Ckmutil) (C : Dict Key Ten) : Except Exc (Dict Key Ten) :=
  item2 C .Ge >>= fun Ge => item2 C .ephi >>= fun ephi =>
  item2 C .Gu >>= fun Gu => item2 C .uphi >>= fun uphi =>
  item2 C .Gd >>= fun Gd => item2 C .dphi >>= fun dphi =>
  item2 C .llphiphi >>= fun llphiphi =>
  let Mep := massOf Ge ephi
  let Mup := massOf Gu uphi
  let Mdp := massOf Gd dphi
  let Mnup : Mat := fun i j => -(vev : ℂ) ^ 2 * llphiphi i j
  let e := K.msvd Mep
  let u := K.msvd Mup
  let d := K.msvd Mdp
  let nu := K.mtakfac Mnup
  let r := K.rephase u.1 d.1 u.2.2 d.2.2
  let s := K.rephasePmns nu.1 e.1 e.2.2
  smeftFlavorRotation C r.2.1 r.2.2.1 r.2.2.2 s.2.1 s.2.2

end Verif.DefaultBasis
