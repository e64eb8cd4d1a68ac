import Verif.Gen.WetTables
import Verif.Gen.Adm
import Verif.Model.Bridge
import Verif.Model.WetRun

/-!
# The WET running with the tables of the package

`Verif.Model.WetRun` takes the sector tables and the anomalous dimension matrices as parameters.
This file supplies the ones of the package (`Gen/WetTables.lean`, `Gen/Adm.lean`).
-/

set_option autoImplicit false

namespace Verif.WetTab
open Verif Verif.Rotation Verif.WetRun

/-- a coefficient: its name and its index digits as a decimal number (0: no indices) -/
abbrev Coef := WKey × ℕ

/-- the indices of a coefficient: the decimal digits of its number.  Simplification: all names in
the table have no or two or four indices. -/
def ixOf (c : Coef) : List ℕ :=
  if c.2 = 0 then []
  else if c.2 < 100 then [c.2 / 10, c.2 % 10]
  else [c.2 / 1000, c.2 / 100 % 10, c.2 / 10 % 10, c.2 % 10]

/-- the digit character -/
def digit (i : ℕ) : Char := Char.ofNat (48 + i)

/-- the name as it stands in run_wet_definitions_coeffs.json -/
def nameOf (c : Coef) : String :=
  if c.2 = 0 then Bridge.wkeyString c.1
  else String.ofList (Bridge.wkeyName c.1 ++ '_' :: (ixOf c).map digit)

/-- adm.py lines 13-14 `_b0g` -/
noncomputable def b0g (f : ℕ) : ℝ := 11 - 2 / 3 * f

/-- the mass arguments of adm.py -/
def Q.val (m : Masses) : Q → ℝ
  | .u => m.u | .d => m.d | .s => m.s | .c => m.c | .b => m.b | .e => m.e | .mu => m.mu
  | .tau => m.tau

/-- the value of a matrix entry -/
noncomputable def Ent.eval (f : ℕ) (m : Masses) : Ent → ℂ
  | .p k l => ((k / l : ℝ) : ℂ)
  | .n k l => ((-(k / l) : ℝ) : ℂ)
  | .b k l k' l' => ((-(k / l) * b0g f + k' / l' : ℝ) : ℂ)
  | .mp k l x y => ((k / l * (x.val m / y.val m) : ℝ) : ℂ)
  | .mn k l x y => ((-(k / l) * (x.val m / y.val m) : ℝ) : ℂ)
  | .i k l => ((k / l : ℝ) : ℂ) * Complex.I

/-- the entry in column `j` of a row (`none`: zero) -/
def lookupRow (row : List (ℕ × Ent)) (j : ℕ) : Option Ent :=
  match row with
  | [] => none
  | (k, e) :: rest => if k = j then some e else lookupRow rest j

/-- the entry in row `i`, column `j` (`none`: zero) -/
def entry (R : Rows) (i j : ℕ) : Option Ent := lookupRow (R.getD i []) j

/-- the value of the entry in row `i`, column `j` -/
noncomputable def value (R : Rows) (f : ℕ) (m : Masses) (i j : ℕ) : ℂ :=
  match entry R i j with
  | none => 0
  | some e => e.eval f m

/-- `getattr(adm, 'adm_X_' + classname)(f, masses)` (rge.py lines 42, 63); an unknown class raises
AttributeError. -/
noncomputable def admOf (table : Dict String Rows) (cls : String) (f : ℕ) (m : Masses) :
    Except Exc WetRun.Mat :=
  match table.get? cls with
  | none => .error .attributeError
  | some R => .ok ⟨R.length, fun i j => value R f m i j⟩

/-- definitions.py lines 42-45: `sectors[s] = c` for all classes -/
def sectorTable : Dict String String :=
  Dict.update [] (classes.flatMap fun cs => cs.2.map fun s => (s, cs.1))

/-- The WET running of the package.  `np.linalg.eig` and the JMS basis files (which are not in the
repository) remain parameters. -/
noncomputable def backend
    (eig : (n : ℕ) → Matrix (Fin n) (Fin n) ℂ → (Fin n → ℂ) × Matrix (Fin n) (Fin n) ℂ)
    (basisKeys : ℕ → String → Except Exc (List String)) : WetRun.Backend where
  sectors := sectorTable
  coeffs := coefTable.map fun sl => (sl.1, sl.2.map nameOf)
  admS := admOf admSTable
  admE := admOf admETable
  eig := eig
  basisKeys := basisKeys

end Verif.WetTab
