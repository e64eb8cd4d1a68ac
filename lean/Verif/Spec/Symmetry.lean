import Verif.Model.ArrayProg
import Mathlib.Data.Set.Card

/-!
# Operator symmetry classes of the WCxf bases

Specification, written from the physics definition of the operators, of
* the symmetry relations the (redundant) coefficient array of each class obeys, and
* which entries are the non-redundant ones (the ones that exist as WCxf names).

Class numbers are those of `EFTutil` (`util/common.py:13-66`).  Indices are 0-based.
-/

set_option autoImplicit false

namespace Verif.Spec
open Verif

local notation "conj" => starRingEnd ℂ

/-- class 2: hermitian matrix -/
def IsClass2 (a : I2 → ℂ) : Prop := ∀ i j, a (j, i) = conj (a (i, j))
/-- class 9: symmetric matrix -/
def IsClass9 (a : I2 → ℂ) : Prop := ∀ i j, a (j, i) = a (i, j)
/-- class 4: two identical hermitian currents, `(ψ̄_i ψ_j)(ψ̄_k ψ_l)` -/
def IsClass4 (a : I4 → ℂ) : Prop := ∀ i j k l,
  a (k, l, i, j) = a (i, j, k, l) ∧ a (j, i, l, k) = conj (a (i, j, k, l))
/-- class 41: two identical non-hermitian currents -/
def IsClass41 (a : I4 → ℂ) : Prop := ∀ i j k l, a (k, l, i, j) = a (i, j, k, l)
/-- class 5: two different hermitian currents -/
def IsClass5 (a : I4 → ℂ) : Prop := ∀ i j k l, a (j, i, l, k) = conj (a (i, j, k, l))
/-- class 6: as class 4, with the additional Fierz identity (`ee`) -/
def IsClass6 (a : I4 → ℂ) : Prop := ∀ i j k l,
  a (k, l, i, j) = a (i, j, k, l) ∧ a (j, i, l, k) = conj (a (i, j, k, l)) ∧
  a (i, l, k, j) = a (i, j, k, l)
/-- class 7: symmetric in the first two indices -/
def IsClass7 (a : I4 → ℂ) : Prop := ∀ i j k l, a (j, i, k, l) = a (i, j, k, l)
/-- class 71: antisymmetric in the first two indices -/
def IsClass71 (a : I4 → ℂ) : Prop := ∀ i j k l, a (j, i, k, l) = - a (i, j, k, l)
/-- class 8 (`qqql`): the flavour relation
`C_prst + C_rpst = C_sprt + C_srpt` of Alonso et al., arXiv:1405.0486 -/
def IsClass8 (a : I4 → ℂ) : Prop := ∀ p r s t,
  a (p, r, s, t) + a (r, p, s, t) = a (s, p, r, t) + a (s, r, p, t)

/-- An index relation of an operator class: the entry at `perm i` equals the entry at
`i`, complex conjugated if `cc`. -/
structure Rel (ι : Type) where
  perm : ι → ι
  cc : Bool

/-- all index relations (the full group) of the orbit-type classes -/
def rels2 : List (Rel I2) := [⟨id, false⟩, ⟨fun (i, j) => (j, i), true⟩]
def rels9 : List (Rel I2) := [⟨id, false⟩, ⟨fun (i, j) => (j, i), false⟩]
def rels4 : List (Rel I4) :=
  [⟨id, false⟩, ⟨fun (i, j, k, l) => (k, l, i, j), false⟩,
   ⟨fun (i, j, k, l) => (j, i, l, k), true⟩, ⟨fun (i, j, k, l) => (l, k, j, i), true⟩]
def rels41 : List (Rel I4) := [⟨id, false⟩, ⟨fun (i, j, k, l) => (k, l, i, j), false⟩]
def rels5 : List (Rel I4) := [⟨id, false⟩, ⟨fun (i, j, k, l) => (j, i, l, k), true⟩]
def rels6 : List (Rel I4) :=
  [⟨id, false⟩, ⟨fun (i, j, k, l) => (k, l, i, j), false⟩,
   ⟨fun (i, j, k, l) => (i, l, k, j), false⟩, ⟨fun (i, j, k, l) => (k, j, i, l), false⟩,
   ⟨fun (i, j, k, l) => (j, i, l, k), true⟩, ⟨fun (i, j, k, l) => (l, k, j, i), true⟩,
   ⟨fun (i, j, k, l) => (l, i, j, k), true⟩, ⟨fun (i, j, k, l) => (j, k, l, i), true⟩]
def rels7 : List (Rel I4) := [⟨id, false⟩, ⟨fun (i, j, k, l) => (j, i, k, l), false⟩]

/-- position in the lexicographic order of indices -/
def code2 : I2 → Nat | (i, j) => 3 * i + j
def code4 : I4 → Nat | (i, j, k, l) => 27 * i + 9 * j + 3 * k + l

/-- An index is non-redundant if no related index comes before it in lexicographic
order (that is the WCxf convention for all orbit-type classes). -/
def NonRed {ι : Type} (code : ι → Nat) (rels : List (Rel ι)) (i : ι) : Prop :=
  ∀ g ∈ rels, code i ≤ code (g.perm i)

/-- An entry is self-conjugate (hence real) if a conjugating relation maps it to itself. -/
def SelfConj {ι : Type} (rels : List (Rel ι)) (i : ι) : Prop :=
  ∃ g ∈ rels, g.cc = true ∧ g.perm i = i

instance {ι : Type} (code : ι → Nat) (rels : List (Rel ι)) (i : ι) :
    Decidable (NonRed code rels i) := by unfold NonRed; infer_instance
instance {ι : Type} [DecidableEq ι] (rels : List (Rel ι)) (i : ι) :
    Decidable (SelfConj rels i) := by unfold SelfConj; infer_instance

/-- class 71: the non-redundant entries have `i < j` -/
def NonRed71 : I4 → Prop | (i, j, _, _) => i < j
instance (i : I4) : Decidable (NonRed71 i) := by unfold NonRed71; infer_instance

/-- class 8: all entries but the eight families `(1,0,0),(1,1,0),(2,0,0),(2,0,1),(2,1,0),
(2,1,1),(2,2,0),(2,2,1)` are non-redundant (57 of 81). -/
def redundant8 : List (Fin 3 × Fin 3 × Fin 3) :=
  [(1,0,0), (1,1,0), (2,0,0), (2,0,1), (2,1,0), (2,1,1), (2,2,0), (2,2,1)]
def NonRed8 : I4 → Prop | (i, j, k, _) => (i, j, k) ∉ redundant8
instance (i : I4) : Decidable (NonRed8 i) := by unfold NonRed8; infer_instance

end Verif.Spec
