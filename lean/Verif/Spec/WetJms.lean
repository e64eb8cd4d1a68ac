import Verif.Model.WetJms
import Verif.Spec.Symmetry

/-!
# Specification vocabulary for the JMS flavour structure (C31, C32, C33)
-/

set_option autoImplicit false

namespace Verif.Jms
open Verif Verif.EFT

/-- how the value changes between equivalent entries -/
inductive Act
  | same | conj | neg

noncomputable def Act.apply : Act → ℂ → ℂ
  | .same, z => z
  | .conj, z => starRingEnd ℂ z
  | .neg, z => -z

/-- The entry at `perm i` equals the entry at `i` up to conjugation or sign. -/
structure JRel where
  perm : I4 → I4
  act : Act

/-- All relations (a group) between the entries of the array of a class, from the definition
of the operators: 4 two identical hermitian currents, 41 two identical non-hermitian currents,
5 two different hermitian currents, 71 antisymmetric in the first two indices. -/
def jrels : ℕ → List JRel
  | 4 => [⟨id, .same⟩, ⟨fun (i, j, k, l) => (k, l, i, j), .same⟩,
      ⟨fun (i, j, k, l) => (j, i, l, k), .conj⟩, ⟨fun (i, j, k, l) => (l, k, j, i), .conj⟩]
  | 41 => [⟨id, .same⟩, ⟨fun (i, j, k, l) => (k, l, i, j), .same⟩]
  | 5 => [⟨id, .same⟩, ⟨fun (i, j, k, l) => (j, i, l, k), .conj⟩]
  | 71 => [⟨id, .same⟩, ⟨fun (i, j, k, l) => (j, i, k, l), .neg⟩]
  | _ => [⟨id, .same⟩]

/-- the classes with equivalent entries, except 6 (see `C31_class6_violation`) -/
def relClasses : List ℕ := [4, 41, 5, 71]

/-- the name `Name_ijkl` (digits from 1) -/
def name4 (name : Str) (i : I4) : Str := Util.wcName name (Util.idx4 i)

/-- A list of coefficient names: `Name` without indices, or `Name_i...` with as many indices
from 1 to 3 as `r Name` says (four for the classes with equivalent entries). -/
structure JmsNames (r : Str → ℕ) (keys : List Str) : Prop where
  form : ∀ k ∈ keys, ('_' ∉ k ∧ r k = 0) ∨
    ∃ name idx, '_' ∉ name ∧ k = Util.wcName name idx ∧ r name ≠ 0 ∧
      inRange (List.replicate (r name) 3) idx = true
  four : ∀ c ∈ relClasses, ∀ name, isClass c name = true → r name = 4

/-- At most one of several equivalent entries is listed. -/
def NonRedundant (keys : List Str) : Prop :=
  ∀ c ∈ relClasses, ∀ name, isClass c name = true → ∀ g ∈ jrels c, ∀ i,
    name4 name i ∈ keys → name4 name (g.perm i) ∈ keys → g.perm i = i

/-- The value is compatible with the relations that map the entry to itself (real for a
self-conjugate entry). -/
def Compatible (c : ℕ) (i : I4) (z : ℂ) : Prop := ∀ g ∈ jrels c, g.perm i = i → g.act.apply z = z

end Verif.Jms
