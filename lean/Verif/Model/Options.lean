import Verif.Model.WCxf

/-!
# Model of the option handling in `wilson/classes.py` (lines 20-131, 176-199)
-/

open Classical

set_option autoImplicit false

namespace Verif

/-- Values a caller may pass to `set_option`. -/
inductive PyVal
  | str (s : String)
  | num (x : ℝ)                     -- int or float
  | dict (d : List (String × PyVal))   -- a `Dict String PyVal`
  | other                           -- None, lists, ...

/-- Validated option values. -/
inductive OptVal
  | str (s : String)
  | num (x : ℝ)
  | params (d : Params)

/-- `vol.Coerce(float)`; `parse` is Python's `float(str)`. -/
def coerceFloat (parse : String → Option ℝ) : PyVal → Except Exc ℝ
  | .num x => .ok x
  | .str s => match parse s with
    | some x => .ok x
    | none => .error .valueError
  | _ => .error .valueError

/-- `vol.Schema({vol.Extra: vol.Coerce(float)})` (classes.py:130): every value is
coerced, any failure rejects the whole dictionary. -/
def coerceParams (parse : String → Option ℝ) : Dict String PyVal → Except Exc Params
  | [] => .ok []
  | (k, v) :: d =>
    match coerceFloat parse v, coerceParams parse d with
    | .ok x, .ok r => .ok ((k, x) :: r)
    | .error e, _ => .error e
    | _, .error e => .error e

/-- classes.py:122-131 `Wilson._option_schema` applied to `{key: value}`.  Unknown keys
are rejected (`vol.PREVENT_EXTRA` is voluptuous' default). -/
noncomputable def schema (parse : String → Option ℝ) (key : String) (v : PyVal) : Except Exc OptVal :=
  if key = "smeft_accuracy" then
    match v with
    | .str s => if s = "integrate" ∨ s = "leadinglog" then .ok (.str s) else .error .valueError
    | _ => .error .valueError
  else if key = "qed_order" ∨ key = "qcd_order" ∨ key = "smeft_matching_order" then
    match v with
    | .num x => if x = 0 ∨ x = 1 then .ok (.num x) else .error .valueError
    | _ => .error .valueError
  else if key = "smeft_matchingscale" ∨ key = "mb_matchingscale" ∨ key = "mc_matchingscale" then
    match coerceFloat parse v with
    | .ok x => .ok (.num x)
    | .error e => .error e
  else if key = "parameters" then
    match v with
    | .dict d => match coerceParams parse d with
      | .ok p => .ok (.params p)
      | .error e => .error e
    | _ => .error .valueError
  else .error .valueError

/-- classes.py:110-118 `Wilson._default_options` at import time. -/
noncomputable def importDefaults : Dict String OptVal :=
  [("smeft_accuracy", .str "integrate"), ("qed_order", .num 1), ("qcd_order", .num 1),
   ("smeft_matching_order", .num 0), ("smeft_matchingscale", .num 91.1876),
   ("mb_matchingscale", .num 4.2), ("mc_matchingscale", .num 1.3), ("parameters", .params [])]

/-- classes.py:54-61 and 73-80: the backwards-compatibility block.  Returns the value as
modified *in place* (it is also the caller's object afterwards).  `'delta' in value` on a
number or None raises TypeError; on a string it is a substring test and the following item
assignment raises TypeError, or the schema rejects the string: all raise. -/
def renameDelta (key : String) (v : PyVal) : Except Exc PyVal :=
  if key = "parameters" then
    match v with
    | .dict d => match Dict.get? d "delta" with
      | some x => .ok (.dict (Dict.erase (Dict.set d "gamma" x) "delta"))
      | none => .ok (.dict d)
    | _ => .error .typeError
  else .ok v

/-- The option state of a class and one of its instances. `α` is the type of cached results. -/
structure Instance (α : Type) where
  options : Dict String OptVal
  cache : α

/-- classes.py:40-41 `ConfigurableClass.__init__`: a copy of the class defaults
(together with the empty cache of classes.py:150). -/
def Instance.create {α : Type} (defaults : Dict String OptVal) (empty : α) : Instance α :=
  { options := defaults, cache := empty }

/-- classes.py:43-62 `set_default_option`: new defaults (unchanged if an exception is
raised). -/
noncomputable def setDefaultOption (parse : String → Option ℝ) (defaults : Dict String OptVal)
    (key : String) (v : PyVal) : Except Exc Unit × Dict String OptVal :=
  match renameDelta key v with
  | .error e => (.error e, defaults)
  | .ok v' => match schema parse key v' with
    | .error e => (.error e, defaults)
    | .ok o => (.ok (), defaults.update [(key, o)])

/-- classes.py:64-82 `set_option` on an instance, with `clear_cache` (284-285). -/
noncomputable def setOption {α : Type} (parse : String → Option ℝ) (empty : α) (i : Instance α)
    (key : String) (v : PyVal) : Except Exc Unit × Instance α :=
  match renameDelta key v with
  | .error e => (.error e, i)
  | .ok v' => match schema parse key v' with
    | .error e => (.error e, i)
    | .ok o => (.ok (), { options := i.options.update [(key, o)], cache := empty })

/-- classes.py:84-88 `get_option`: `self._options.get(key, self._default_options[key])`.
The default argument is evaluated first, so a key without default raises KeyError. -/
def getOption {α : Type} (defaults : Dict String OptVal) (i : Instance α) (key : String) :
    Except Exc OptVal :=
  match defaults.get? key with
  | none => .error .keyError
  | some dv => .ok ((i.options.get? key).getD dv)

/-- classes.py:176-183 the property `parameters` (`p` is `wilson.parameters.p`). -/
def effParameters (p : Params) (user : Params) : Params := p.update user

/-- classes.py:185-192 the property `matching_parameters`. -/
def matchingParameters (p : Params) (user : Params) (loopOrder : ℝ) : Params :=
  (effParameters p user).set "loop_order" loopOrder

/-! ## A class with several instances -/

/-- The class defaults and the instances created so far, in order of creation. -/
structure World (α : Type) where
  defaults : Dict String OptVal
  insts : List (Instance α)

/-- API calls on the class and its instances. -/
inductive WorldOp
  | create
  | setOption (i : ℕ) (key : String) (v : PyVal)
  | setDefault (key : String) (v : PyVal)

/-- One API call (classes.py:40-82); calls on instances that do not exist do nothing. -/
noncomputable def World.step {α : Type} (parse : String → Option ℝ) (empty : α) (w : World α) :
    WorldOp → World α
  | .create => { w with insts := w.insts ++ [Instance.create w.defaults empty] }
  | .setOption i key v =>
    match w.insts[i]? with
    | none => w
    | some x => { w with insts := w.insts.set i (setOption parse empty x key v).2 }
  | .setDefault key v => { w with defaults := (setDefaultOption parse w.defaults key v).2 }

/-- A history of API calls, starting from the imported module. -/
noncomputable def World.run {α : Type} (parse : String → Option ℝ) (empty : α) (ops : List WorldOp) :
    World α :=
  ops.foldl (World.step parse empty) { defaults := importDefaults, insts := [] }

/-- `get_option(key)` of instance number `i`. -/
def World.get {α : Type} (w : World α) (i : ℕ) (key : String) : Option (Except Exc OptVal) :=
  (w.insts[i]?).map fun x => getOption w.defaults x key

end Verif
