import Verif.Spec.EFTUtil

/-!
# Specification: complete bases, arrays with the symmetries of their class
-/

set_option autoImplicit false

namespace Verif.Spec
open Verif Verif.EFT

/-- The basis lists exactly the non-redundant entries of its coefficients: every listed name is
non-redundant and belongs to a coefficient key, and every non-redundant name of a coefficient
key is listed. -/
structure Complete (U : Util) : Prop where
  names : ∀ n ∈ U.allWcs, ∃ r, NonRedName U n r
  only : ∀ n ∈ U.allWcs, ∀ k s, U.keysShape.get? k = some s →
    (n = k ∨ ∃ idx, n = Util.wcName k idx) → k ∈ U.wcKeys
  scalar : ∀ k ∈ U.wcKeys, U.keysShape.get? k = some none → k ∈ U.allWcs
  two : ∀ k ∈ U.wcKeys, ∀ s c (i : I2), U.keysShape.get? k = some (some s) → InClass U c k →
    inRange s (Util.idx2 i) = true → NonRedOf2 c i → Util.wcName k (Util.idx2 i) ∈ U.allWcs
  four : ∀ k ∈ U.wcKeys, ∀ s c (i : I4), U.keysShape.get? k = some (some s) → InClass U c k →
    inRange s (Util.idx4 i) = true → NonRedOf4 c i → Util.wcName k (Util.idx4 i) ∈ U.allWcs

/-- The value has the symmetry of class `c`: scalars are real, arrays obey the relations of
their class (entries beyond the last generation of an index are zero). -/
def SymVal (c : ℕ) : AVal → Prop
  | .num z => z.im = 0
  | .arr a =>
    (c = 2 → IsClass2 fun i => a.get (Util.idx2 i)) ∧
    (c = 9 → IsClass9 fun i => a.get (Util.idx2 i)) ∧
    (c = 4 → IsClass4 fun i => a.get (Util.idx4 i)) ∧
    (c = 41 → IsClass41 fun i => a.get (Util.idx4 i)) ∧
    (c = 5 → IsClass5 fun i => a.get (Util.idx4 i)) ∧
    (c = 6 → IsClass6 fun i => a.get (Util.idx4 i)) ∧
    (c = 7 → IsClass7 fun i => a.get (Util.idx4 i)) ∧
    (c = 71 → IsClass71 fun i => a.get (Util.idx4 i)) ∧
    (c = 8 → IsClass8 fun i => a.get (Util.idx4 i))

end Verif.Spec
