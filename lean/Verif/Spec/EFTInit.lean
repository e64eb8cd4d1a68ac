import Verif.Model.EFTInit
import Verif.Spec.EFTUtil

/-! # Specification: bases described by symmetry classes -/

set_option autoImplicit false

namespace Verif.Spec
open Verif Verif.EFT

/-- An operator coefficient of a basis: name, symmetry class, number of generations per index. -/
structure Coeff where
  name : Str
  cls : ℕ
  shape : Shape

/-- The index ranges are compatible with the symmetry of the class (indices that the symmetry
exchanges run over the same range), there are 2 or 3 generations. -/
def ShapeOK (c : ℕ) (l : List ℕ) : Prop :=
  (∀ n ∈ l, 2 ≤ n ∧ n ≤ 3) ∧ l.length = rank c ∧
  match l with
  | [n, m] => c = 2 ∨ c = 9 → n = m
  | [n, m, p, q] => (c = 4 ∨ c = 6 → n = m ∧ m = p ∧ p = q) ∧ (c = 41 → n = p ∧ m = q) ∧
      (c = 5 → n = m ∧ p = q) ∧ (c = 7 ∨ c = 71 → n = m) ∧ (c = 8 → n = 3 ∧ m = 3 ∧ p = 3 ∧ q = 3)
  | _ => True

open Classical in
/-- `n` is the WCxf name of a non-redundant entry of the coefficient and `r` its "real" flag
(arbitrary for scalars). -/
inductive EntryOf (x : Coeff) : Str → Bool → Prop
  | scalar {r : Bool} (h : x.shape = none) : EntryOf x x.name r
  | two {l : List ℕ} {i : I2} (h : x.shape = some l) (hi : inRange l (Util.idx2 i) = true)
      (hn : NonRedOf2 x.cls i) : EntryOf x (Util.wcName x.name (Util.idx2 i)) (decide (RealOf2 x.cls i))
  | four {l : List ℕ} {i : I4} (h : x.shape = some l) (hi : inRange l (Util.idx4 i) = true)
      (hn : NonRedOf4 x.cls i) : EntryOf x (Util.wcName x.name (Util.idx4 i)) (decide (RealOf4 x.cls i))

/-- `n` occurs in the basis file with flag `r` -/
def Listed (sectors : Sectors) (n : Str) (r : Bool) : Prop := ∃ s ∈ sectors, (n, r) ∈ s.2

/-- The basis file lists exactly the non-redundant entries of the given coefficients, each once. -/
structure Describes (sectors : Sectors) (desc : List Coeff) : Prop where
  distinct : (desc.map Coeff.name).Nodup
  good : ∀ x ∈ desc, '_' ∉ x.name ∧ x.cls ∈ classIds ∧ (x.shape = none ↔ x.cls = 0) ∧
    ∀ l, x.shape = some l → ShapeOK x.cls l
  once : (Init.allWcs sectors).Nodup
  sound : ∀ n r, Listed sectors n r → ∃ x ∈ desc, EntryOf x n r
  complete : ∀ x ∈ desc, (x.shape = none → ∃ r, Listed sectors x.name r) ∧
    (x.shape ≠ none → ∀ n r, EntryOf x n r → Listed sectors n r)

/-- The dimension-4 parameters handed to the constructor: numbers in class 0, square matrices in
class 1, names different from the coefficients'; the basis has coefficients of those classes. -/
structure Dim4OK (desc : List Coeff) (shapes : Dict Str Shape) (classes : Dict ℕ (List Str)) : Prop where
  nodup : shapes.NodupKeys
  nodupC : classes.NodupKeys
  good : ∀ k s, shapes.get? k = some s → '_' ∉ k ∧ k ∉ desc.map Coeff.name ∧
    ((s = none ∧ k ∈ (classes.get? 0).getD []) ∨
      (∃ l, s = some l ∧ l.length = 2 ∧ (∀ n ∈ l, 2 ≤ n ∧ n ≤ 3) ∧ k ∈ (classes.get? 1).getD []))
  classes01 : ∀ c ks, classes.get? c = some ks → (c = 0 ∨ c = 1) ∧ (∃ x ∈ desc, x.cls = c) ∧
    ∀ k ∈ ks, ∃ s, shapes.get? k = some s ∧ (s = none ↔ c = 0)

end Verif.Spec
