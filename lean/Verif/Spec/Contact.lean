import Verif.Spec.WetOps
import Verif.Spec.Beta

/-!
# Specification: QCD running and tree-level matching commute (C95)

The SMEFT and the WET contain the same four-fermion operators of the light quarks, and gluons couple to
them in the same way.  So for contact interactions it must not matter whether QCD corrections are added above
the matching scale (`beta.py`) or below (`adm.py`), except for diagrams in which a quark line of the operator
is closed: these involve the top quark above the matching scale only.
-/

set_option autoImplicit false

namespace Verif.Contact
open Verif Verif.Tens Verif.Beta Verif.BetaSpec Verif.Rotation Verif.WetTab

/-- only the strong interaction is switched on (`g = g' = 0`, no Yukawa couplings), all Wilson coefficients
except those of four-fermion operators vanish, and so do the two that change the muon lifetime, by which the
Higgs vacuum expectation value is measured -/
structure OnlyStrong (C : Key → Ten) : Prop where
  couplings : ∀ k ∈ [Key.g, .gp, .Gu, .Gd, .Ge], ∀ ix, C k ix = 0
  fourFermion : ∀ k ∈ keys, k ∉ smKeys → rank k ≠ 4 → ∀ ix, C k ix = 0
  muon : C .ll [1, 0, 0, 1] = 0 ∧ C .ll [0, 1, 1, 0] = 0

/-- a quark -/
def quark (F : Fld) : Prop := F.sp = .u ∨ F.sp = .d

/-- A four-fermion operator into which no diagram with a closed quark line feeds: it is not an operator of four
quarks in which some quark has the flavour and chirality of some antiquark. -/
def NoClosedLoop (c : Coef) : Prop :=
  (fields c.1).length = 4 ∧
    ((∀ F ∈ fields c.1, quark F) → ∀ x ∈ (fields c.1).zip (ixOf c), ∀ y ∈ (fields c.1).zip (ixOf c),
      x.1.bar = true → y.1.bar = false → x.1.sp = y.1.sp → x.1.ch = y.1.ch → x.2 ≠ y.2)

/-- the value of a WET coefficient in a dictionary of arrays (indices in names count from 1) -/
noncomputable def valueOf (R : Dict WKey Ten) (c : Coef) : ℂ :=
  match R.get? c.1 with
  | some A => A ((ixOf c).map fun i => Fin.ofNat 3 (i - 1))
  | none => 0

/-- the arrays of a dictionary; a missing key counts as zero -/
def arrays (C : Dict Key Ten) : Key → Ten := fun k => (C.get? k).getD fun _ => 0

end Verif.Contact
