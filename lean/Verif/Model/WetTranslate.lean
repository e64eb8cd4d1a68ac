import Verif.Gen.WetPy

/-!
# The translators between the WET bases (`/repo/wilson/translate/wet.py`)

The functions of the file are the syntax trees in `Gen/WetPy`; here they are linked with the functions
they import.
-/

set_option autoImplicit false

namespace Verif.Py
open Verif.Jms (Act)

/-- wet_jms.py:112-159 `symmetrize_JMS_dict` -/
def symmetrizeDict : List (ℕ × Val) → List (ℕ × Val) → Res (List (ℕ × Val))
  | [], acc => .ok acc
  | (op, v) :: l, acc =>
    match target op with
    | none => .error .valueError
    | some none => symmetrizeDict l acc
    | some (some (a, k)) => actVal a v >>- fun w => symmetrizeDict l (put k w acc)

/-- the tables in /repo/wilson/data -/
def loadTable (f : ℕ) : Res Val :=
  bif Nat.beq f n!"data/flavio_jms_vii.json" then
    .ok (.dict (Gen.WetPy.tableVII.map fun p => (p.1, .str p.2)))
  else .error .keyError

/-- part of a number (`np.real`, `np.imag`), also of sequences -/
def partVal (f : Sym → Sym) : Val → Res Val
  | .num s => .ok (.num (f s))
  | .int n => .ok (.num (f (.rat n 1)))
  | .list l => .ok (.vec (l.filterMap fun v => v.sym.map f))
  | _ => .error .typeError

/-- The functions imported by wet.py.  `get_parameters(scale, f, input_parameters)` returns the
dictionary of parameters (an input of the model); `ckm_tree(Vus, Vub, Vcb, gamma)` the CKM matrix
(an input of the model); `JMS_to_array` see `arrEntry`; `fill_zeros` stands for
`{k: C_incomplete.get(k, 0) for k in wc_keys}` (simplification: the names that are read are taken to be
names of the basis, whose definition is outside the checkout). -/
noncomputable def imported : Funs := fun f args =>
  match args with
  | [a] =>
    bif Nat.beq f n!"sqrt" then
      match a.sym with
      | some s => .ok (.num (.sqrt s))
      | none => .error .typeError
    else bif Nat.beq f n!"np.real" then partVal .re a
    else bif Nat.beq f n!"np.imag" then partVal .im a
    else bif Nat.beq f n!"int" then
      match a with
      | .str s => .ok (.int (strInt s))
      | _ => .error .typeError
    else bif Nat.beq f n!"str" then (strVal a).map .str
    else bif Nat.beq f n!"len" then
      match a with
      | .str s => .ok (.int (slen s))
      | .list l => .ok (.int l.length)
      | _ => .error .typeError
    else bif Nat.beq f n!"symmetrize_JMS_dict" then
      match a with
      | .dict l => (symmetrizeDict l []).map .dict
      | _ => .error .typeError
    else bif Nat.beq f n!"fill_zeros" then
      match a with
      | .inputs => .ok .inputs
      | _ => .error .typeError
    else bif Nat.beq f n!"load_table" then
      match a with
      | .str s => loadTable s
      | _ => .error .typeError
    else .error .nameError
  | [.inputs, _] => bif Nat.beq f n!"JMS_to_array" then .ok .arrays else .error .nameError
  | [_, _, _] => bif Nat.beq f n!"get_parameters" then .ok .params else .error .nameError
  | [_, _, _, _] => bif Nat.beq f n!"ckmutil.ckm.ckm_tree" then .ok .ckm else .error .nameError
  | _ => .error .nameError

/-- the module-level variables of wet.py (and `pi`, imported from `math`) -/
noncomputable def globalEnv : Env :=
  match evalSs imported Gen.WetPy.globals [(n!"pi", .num .pi)] with
  | .ok (env, _) => env
  | .error _ => []

/-- the functions of wet.py -/
noncomputable def wetPy : Funs := link imported globalEnv Gen.WetPy.functions.reverse

/-- a dictionary built by adding items -/
def asTree : Val → Res (DTree Val)
  | .big t => .ok t
  | _ => .error .typeError

/-- A translator called with a dictionary of coefficients, a scale and parameters; `sectors=None`. -/
noncomputable def translate (f : ℕ) : Res (DTree Val) := wetPy f [.inputs, .none, .none, .none] >>- asTree

/-- the value under each name must be a number -/
def numbers : List (ℕ × Val) → Res (List (ℕ × Sym))
  | [] => .ok []
  | (k, v) :: l =>
    match v.sym with
    | some s => numbers l >>- fun r => .ok ((k, s) :: r)
    | none => .error .typeError

/-- the dictionary returned by a translator: names and formulas -/
noncomputable def outputs (f : ℕ) : Res (List (ℕ × Sym)) := translate f >>- fun t => numbers t.toList

end Verif.Py
