import Verif.Spec.Complete
import Verif.Spec.Rotation
import Verif.Model.Bridge

/-!
# Specification: the SMEFT Warsaw basis

The list of coefficients of the basis is data outside the checkout; this says what is assumed
about it.
-/

set_option autoImplicit false

namespace Verif.Spec
open Verif Verif.EFT Verif.Beta Verif.Flavour Verif.Bridge

/-- the Standard Model parameters among the keys of the beta functions -/
def smKeys : List Key := [.g, .gp, .gs, .Lambda, .m2, .Gu, .Gd, .Ge]

/-- the Wilson coefficients of the Warsaw basis -/
def coeffKeys : List Key := keys.filter fun k => decide (k ∉ smKeys)

/-- number of flavour indices -/
def rankOf (k : Key) : ℕ := ((smeftTy k).getD []).length

/-- symmetry class including the classes without relations: 0 scalar, 1 matrix, 3 four indices -/
def fullClass (k : Key) : ℕ :=
  if smeftClass k ≠ 0 then smeftClass k
  else if rankOf k = 0 then 0 else if rankOf k = 2 then 1 else 3

/-- shape of the array of a coefficient: three generations for each index -/
def shapeK (k : Key) : Shape := if rankOf k = 0 then none else some (List.replicate (rankOf k) 3)

/-- The helper object describes the Warsaw basis: its coefficients are the operators of the
Warsaw basis with three generations, each in the class of its operator, and the basis lists
exactly their non-redundant entries. -/
structure IsSmeft (U : Util) : Prop where
  regular : Regular U
  complete : Complete U
  wc : ∀ s, s ∈ U.wcKeys ↔ ∃ k ∈ coeffKeys, s = keyName k
  shape : ∀ k ∈ coeffKeys, U.keysShape.get? (keyName k) = some (shapeK k)
  cls : ∀ k ∈ coeffKeys, InClass U (fullClass k) (keyName k)

/-- only the left-handed quark doublets are rotated -/
def onlyQ (W : Rotation.Mat) : Fl → Rotation.Mat := fun f => if f = .q then W else 1

end Verif.Spec
