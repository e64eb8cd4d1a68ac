import Verif.Spec.Symmetry
import Verif.Spec.Beta

/-!
# Specification: symmetries of the SMEFT coefficient arrays

Which symmetry class (`Verif.Spec.Symmetry`) the array of each SMEFT parameter belongs to.
-/

set_option autoImplicit false

namespace Verif.BetaSym
open Verif Verif.Spec Verif.Tens Verif.Beta

/-- symmetry classes of SMEFT parameters -/
inductive Cl
  /-- a real number -/
  | real
  /-- no symmetry -/
  | any
  /-- hermitian matrix -/
  | herm
  /-- symmetric matrix -/
  | symm
  | cl4 | cl5 | cl6 | cl7 | cl8
  deriving DecidableEq

/-- the class of each parameter: flavour-neutral couplings and coefficients of hermitian
bosonic operators are real; `phil1`, ... multiply hermitian currents; four-fermion classes
from the currents in the operator -/
def cl : Key → Cl
  | .Gu | .Gd | .Ge | .uphi | .dphi | .ephi | .eW | .eB | .uG | .uW | .uB | .dG | .dW | .dB
  | .phiud | .ledq | .quqd1 | .quqd8 | .lequ1 | .lequ3 | .duql | .duue => .any
  | .phil1 | .phil3 | .phie | .phiq1 | .phiq3 | .phiu | .phid => .herm
  | .llphiphi => .symm
  | .ll | .qq1 | .qq3 | .uu | .dd => .cl4
  | .lq1 | .lq3 | .eu | .ed | .ud1 | .ud8 | .le | .lu | .ld | .qe | .qu1 | .qd1 | .qu8 | .qd8 => .cl5
  | .ee => .cl6
  | .qque => .cl7
  | .qqql => .cl8
  | _ => .real

/-- the classes up to the identities that need a Fierz rearrangement: `ee` as `ll`, and
`qqql` without a relation -/
def clNoFierz (k : Key) : Cl :=
  match k with
  | .ee => .cl4
  | .qqql => .any
  | k => cl k

/-- an array has the symmetries of a class -/
def Has (c : Cl) (A : Ten) : Prop :=
  match c with
  | .real => (A []).im = 0
  | .any => True
  | .herm => IsClass2 fun i => A [i.1, i.2]
  | .symm => IsClass9 fun i => A [i.1, i.2]
  | .cl4 => IsClass4 fun i => A [i.1, i.2.1, i.2.2.1, i.2.2.2]
  | .cl5 => IsClass5 fun i => A [i.1, i.2.1, i.2.2.1, i.2.2.2]
  | .cl6 => IsClass6 fun i => A [i.1, i.2.1, i.2.2.1, i.2.2.2]
  | .cl7 => IsClass7 fun i => A [i.1, i.2.1, i.2.2.1, i.2.2.2]
  | .cl8 => IsClass8 fun i => A [i.1, i.2.1, i.2.2.1, i.2.2.2]

end Verif.BetaSym
