import Verif.Model.Dsix
import Verif.Spec.EFTUtil
import Verif.Spec.Smeft

/-! # Specification vocabulary for the DsixTools converter -/

set_option autoImplicit false

namespace Verif.Dsix
open Verif Verif.EFT

/-- 1-based index list of a 0-based multi-index, as it appears in an LHA row -/
def oneBased (ix : List ℕ) : List ℤ := ix.map fun (j : ℕ) => (j : ℤ) + 1

/-- `x` is the value in the last row with this index -/
def LastAt (rows : List Row) (i : List ℤ) (x : ℝ) : Prop :=
  ∃ pre post, rows = pre ++ (i, x) :: post ∧ ∀ r ∈ post, r.1 ≠ i

/-- A helper object as built for the SMEFT: `Regular`, every listed coefficient has a
non-redundant name whose base is a coefficient key, and the remaining keys are the
dimension-4 parameters. -/
structure SmeftUtil (U : Util) (dim4 : List Str) : Prop where
  reg : Spec.Regular U
  names : ∀ n ∈ U.allWcs, ∃ r, Spec.NonRedName U n r
  base : ∀ n ∈ U.allWcs, (Util.splitUS n).headD [] ∈ U.wcKeys
  split : ∀ k ∈ U.keysShape.keys, k ∈ dim4 ↔ k ∉ U.wcKeys

/-- the power of the high scale that makes a coefficient dimensionless: the operator
dimension minus four (`llphiphi` is the only dimension-5 coefficient of the Warsaw basis) -/
noncomputable def dimFactor (high : ℝ) (n : Str) : ℝ :=
  if (Util.splitUS n).headD [] = "llphiphi".toList then high else high ^ 2

/-- the value of a coefficient allowed by hermiticity: the real part if it has to be real -/
noncomputable def allowed (U : Util) (n : Str) (z : ℂ) : ℂ :=
  open Classical in if Spec.RealName U n then (z.re : ℂ) else z

/-- The helper object of the package for the SMEFT (`wilson/util/__init__.py:5-22`): the
operators of the Warsaw basis, each listed once, and the dimension-4 parameters, a class for
each of these keys and for no other. -/
structure SmeftHelper (U : Util) : Prop where
  smeft : Spec.IsSmeft U
  once : U.wcKeys.Nodup
  shapes : ∀ s sh, U.keysShape.get? s = some sh ↔
    ∃ k ∈ Beta.keys, s = Bridge.keyName k ∧ sh = Spec.shapeK k
  classes : ∀ k ∈ Spec.smKeys, Spec.InClass U (Spec.fullClass k) (Bridge.keyName k)
  only : ∀ c, ∀ s ∈ U.symm c, ∃ k ∈ Beta.keys, s = Bridge.keyName k

/-- A dictionary has all Wilson coefficients of the Warsaw basis with the shapes and the
symmetries of their operators (hermiticity, Fierz identities, identical currents). -/
def Physical (C : Dict Str AVal) : Prop := ∀ k ∈ Spec.coeffKeys,
  ∃ v, C.get? (Bridge.keyName k) = some v ∧ Spec.Fits (Spec.shapeK k) v ∧
    Spec.SymVal (Spec.fullClass k) v

/-- a dictionary has the parameters of the Standard Model, the numbers among them real -/
def SmParameters (C : Dict Str AVal) : Prop :=
  (∀ k ∈ ["g", "gp", "gs", "Lambda", "m2", "Theta", "Thetap", "Thetas"],
    ∃ x : ℝ, C.get? k.toList = some (.num (x : ℂ))) ∧
  (∀ k ∈ ["Gu", "Gd", "Ge"], ∃ a : NDArr, C.get? k.toList = some (.arr a) ∧ a.shape = [3, 3] ∧ a.WF)

/-- the rows of a block, none if there is no such block -/
def rowsOf (B : Blocks) (b : Str) : List Row := (B.get? b).getD []

end Verif.Dsix
