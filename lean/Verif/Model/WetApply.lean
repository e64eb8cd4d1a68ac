import Verif.Model.WetTranslate
import Verif.Model.Dict

/-!
# Calling the translators of `/repo/wilson/translate/wet.py`

`Model/WetTranslate` runs the source of a translator and returns formulas; here the formulas are
evaluated for a dictionary of coefficients.
-/

set_option autoImplicit false

namespace Verif.WetApply
open Verif.Py

/-- What a translator reads besides the coefficients. -/
structure Params where
  /-- the dictionary returned by `get_parameters` (wet.py:1700-1722) -/
  par : String → ℝ
  /-- the matrix returned by `ckmutil.ckm.ckm_tree` -/
  ckm : ℕ → ℕ → ℂ

/-- a coefficient that is missing in the dictionary is zero (`C_incomplete.get(k, 0)`) -/
noncomputable def inputsOf (P : Params) (C : Dict String ℂ) : Inputs :=
  ⟨fun n => C.getD (decode n) 0, fun n => P.par (decode n), P.ckm⟩

/-- wet.py:1853-1858, 2207-2212: the dictionary `dlep` (its keys are distinct) -/
def dlep : List (String × String) :=
  (Gen.WetPy.tableNunull ++ Gen.WetPy.tableLfv).map fun p => (decode p.1, decode p.2)

/-- wet.py:1859-1861 -/
def lfvForward (C : Dict String ℂ) (t : List (String × String)) (d : Dict String ℂ) : Dict String ℂ :=
  t.foldl (fun d p => match C.get? p.1 with | some v => d.set p.2 v | none => d) d

/-- wet.py:2213-2215.  `C` is the dictionary filled with zeros; simplification: all names in the table
are taken to be names of the basis, whose definition is outside the checkout. -/
def lfvBackward (C : Dict String ℂ) (t : List (String × String)) (d : Dict String ℂ) : Dict String ℂ :=
  t.foldl (fun d p => d.set p.1 (C.getD p.2 0)) d

/-- the last lines of `JMS_to_flavio` and `flavio_to_JMS`, which copy coefficients -/
def tail (f : String) (C d : Dict String ℂ) : Dict String ℂ :=
  if f = "JMS_to_flavio" then lfvForward C dlep d
  else if f = "flavio_to_JMS" then lfvBackward C dlep d
  else d

/-- `f(C, scale, parameters)` for one of the functions `JMS_to_Bern`, `Bern_to_JMS`, `JMS_to_flavio`,
`flavio_to_JMS`, `Bern_to_flavio`, `flavio_to_Bern`, `JMS_to_FormFlavor` (wet.py:1768-2217), with
`sectors=None` -/
noncomputable def run (f : String) (P : Params) (C : Dict String ℂ) : Res (Dict String ℂ) :=
  outputs (code f) >>- fun l => .ok (tail f C (l.map fun p => (decode p.1, p.2.eval (inputsOf P C))))

/-- The parameters by which the translators divide do not vanish. -/
structure Physical (P : Params) : Prop where
  pos : ∀ k ∈ ["GF", "alpha_e", "alpha_s", "m_b", "m_c", "m_s", "m_u", "m_d", "m_e", "m_mu", "m_tau"], 0 < P.par k
  ckm : ∀ i j, i < 3 → j < 3 → P.ckm i j ≠ 0

end Verif.WetApply
