import Verif.Model.WetApply

/-!
# The export to EOS (`/repo/wilson/translate/wet.py` lines 1727-1765)

`JMS_to_EOS` is run by the interpreter like the other translators.  Some of the values it returns are arrays
instead of numbers.
-/

set_option autoImplicit false

namespace Verif.WetEos
open Verif.Py Verif.WetApply

/-- the values that are numbers and those that are arrays -/
def split : List (ℕ × Val) → Res (List (ℕ × Sym) × List (ℕ × List Sym))
  | [] => .ok ([], [])
  | (k, .vec a) :: l => split l >>- fun r => .ok (r.1, (k, a) :: r.2)
  | (k, v) :: l =>
    match v.sym with
    | some s => split l >>- fun r => .ok ((k, s) :: r.1, r.2)
    | none => .error .typeError

/-- wet.py:1727-1765 `JMS_to_EOS`: names and formulas -/
noncomputable def eosOutputs : Res (List (ℕ × Sym) × List (ℕ × List Sym)) :=
  translate n!"JMS_to_EOS" >>- fun t => split t.toList

/-- a value in the dictionary returned to the caller -/
inductive Value
  | number (z : ℂ)
  | array (l : List ℂ)

/-- `JMS_to_EOS(C, scale, parameters)`, with `sectors=None` -/
noncomputable def runEos (P : WetApply.Params) (C : Dict String ℂ) : Res (Dict String Value) :=
  eosOutputs >>- fun r =>
    .ok ((r.1.map fun p => (decode p.1, .number (p.2.eval (inputsOf P C)))) ++
      r.2.map fun p => (decode p.1, .array (p.2.map (Sym.eval (inputsOf P C)))))

end Verif.WetEos
