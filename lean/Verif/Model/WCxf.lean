import Verif.Model.Dict
import Mathlib.Data.Complex.Basic

/-!
# Model of `wilson/wcxf/classes.py`

Numbers: Python floats are modelled as real numbers and Python complex numbers
as `ℂ`.  Equality tests on them use classical decidability.
-/

open Classical

set_option autoImplicit false

namespace Verif

/-- Python exceptions raised by the modelled code. -/
inductive Exc
  | valueError   -- `raise ValueError(...)`
  | keyError     -- failed dictionary lookup
  | attributeError
  | typeError
  | assertionError
  | other (n : Nat)  -- an exception raised by an external function
  deriving DecidableEq, Repr

/-! ## Coefficient values -/

/-- A Wilson coefficient value as stored in a WCxf file: a number or a dict with
optional keys `Re`, `Im` (wcxf/classes.py:340-356). -/
inductive Val
  | num (x : ℝ)
  | reim (re im : Option ℝ)

/-- wcxf/classes.py:340-347 `WC._to_number`. -/
noncomputable def Val.toNumber : Val → ℂ
  | .num x => (x : ℂ)
  | .reim re im => ((re.getD 0 : ℝ) : ℂ) + Complex.I * ((im.getD 0 : ℝ) : ℂ)

/-- wcxf/classes.py:349-356 `WC._to_complex_dict`. -/
noncomputable def Val.ofNumber (v : ℂ) : Val :=
  if v.im ≠ 0 then .reim (some v.re) (some v.im) else .num v.re

/-- wcxf/classes.py:358-360 `WC.dict2values`. -/
noncomputable def dict2values (d : Dict String ℂ) : Dict String Val := d.mapVal Val.ofNumber

/-! ## `WC` objects -/

/-- wcxf/classes.py:322-335.  A `wcxf.WC` instance: its public attributes.
`extra` holds the additional keyword arguments (metadata).  The private attributes
(`_dict`, `_df`, `_hash`) are caches / a random number and are modelled where needed. -/
structure WC where
  eft : String
  basis : String
  scale : ℝ
  values : Dict String Val
  extra : Dict String String := []

/-- wcxf/classes.py:382-388 the property `WC.dict` (memoisation of a pure function). -/
noncomputable def WC.dict (wc : WC) : Dict String ℂ := wc.values.mapVal Val.toNumber

/-- wcxf/classes.py:362-366 `WC.__getitem__`. -/
noncomputable def WC.getItem (wc : WC) (k : String) : ℂ :=
  match wc.dict.get? k with
  | some v => v
  | none => 0

/-! ## Named instances -/

/-- wcxf/classes.py:120-155 the class attribute `instances` of a `NamedInstanceClass`
subclass; `none`: the attribute does not exist yet. -/
abbrev Registry (κ α : Type) := Option (Dict κ α)

namespace Registry
variable {κ α : Type} [DecidableEq κ]

/-- wcxf/classes.py:135-139 `NamedInstanceClass.__init__` (registration). -/
def register (r : Registry κ α) (name : κ) (x : α) : Registry κ α :=
  some ((r.getD []).set name x)

/-- wcxf/classes.py:141-143 `get_instance`, i.e. `Cls[name]` (110-118). -/
def get (r : Registry κ α) (name : κ) : Except Exc α :=
  match r with
  | none => .error .attributeError
  | some d => match d.get? name with
    | some x => .ok x
    | none => .error .keyError

/-- wcxf/classes.py:145-147 `del_instance`: the new registry, or the exception
(then the registry is unchanged). -/
def del (r : Registry κ α) (name : κ) : Except Exc (Registry κ α) :=
  match r with
  | none => .error .attributeError
  | some d => if d.mem name then .ok (some (d.erase name)) else .error .keyError

/-- wcxf/classes.py:149-152 `clear_all`. -/
def clearAll (_ : Registry κ α) : Registry κ α := some []

/-- `try: Cls[name] except (KeyError, AttributeError)`: used in `translate`, `match`,
`validate` (wcxf/classes.py:370-377, 460-464, 471-475). -/
def get? (r : Registry κ α) (name : κ) : Option α := (r.getD []).get? name

end Registry

/-! ## EFT and Basis -/

/-- wcxf/classes.py:195-203.  An `EFT` instance; only the sector names are used. -/
structure EFT where
  eft : String
  sectors : Dict String Unit

/-- Entry of a basis sector: the per-coefficient record (`tex`, `real`, or null);
its content is not used by the modelled code. -/
abbrev Info := Option String

/-- wcxf/classes.py:216-233.  A `Basis` instance.  `sectors = none` is an instance whose
attribute `sectors` was never assigned (constructor failed after registration). -/
structure Basis where
  eft : String
  basis : String
  parent : Option String
  sectors : Option (Dict String (Dict String Info))

/-- The two registries `EFT.instances`, `Basis.instances`. -/
structure Bases where
  efts : Registry String EFT := none
  bases : Registry (String × String) Basis := none

/-- wcxf/classes.py:218-233 `Basis.__init__`.  The instance is registered *before* the
parent is looked up (l. 222); the registries after the call are returned also
when an exception is raised. -/
def Basis.init (st : Bases) (eft basis : String) (sectors : Dict String (Dict String Info))
    (parent : Option String) : Except Exc Basis × Bases :=
  let b0 : Basis := { eft, basis, parent, sectors := none }
  let st0 : Bases := { st with bases := st.bases.register (eft, basis) b0 }
  match parent with
  | some p =>
    match st0.bases.get? (eft, p) with
    | some pb =>
      match pb.sectors with
      | some ps =>
        let b1 : Basis := { b0 with sectors := some (ps.update sectors) }
        (.ok b1, { st with bases := st.bases.register (eft, basis) b1 })
      | none => (.error .valueError, st0)
    | none => (.error .valueError, st0)
  | none =>
    let b1 : Basis := { b0 with sectors := some sectors }
    (.ok b1, { st with bases := st.bases.register (eft, basis) b1 })

/-- wcxf/classes.py:245-250 `Basis.all_wcs` (memoisation of a pure function).
A missing `sectors` attribute is an AttributeError. -/
def Basis.allWcs (b : Basis) : Except Exc (List String) :=
  match b.sectors with
  | some s => .ok (s.flatMap fun kv => kv.2.keys)
  | none => .error .attributeError

/-- wcxf/classes.py:252-278 `Basis.validate`; `latexOk` is the external LaTeX check
(`_testtex`). -/
def Basis.validate (st : Bases) (latexOk : Basis → Bool) (b : Basis) : Except Exc Unit :=
  match st.efts.get? b.eft with
  | none => .error .valueError
  | some e =>
    match b.sectors with
    | none => .error .attributeError
    | some s =>
      if (s.keys.filter fun k => !(e.sectors.mem k)) ≠ [] then .error .valueError
      else
        let allKeys := s.flatMap fun kv => kv.2.keys
        if allKeys.length ≠ allKeys.dedup.length then .error .valueError
        else if latexOk b then .ok () else .error .valueError

/-- wcxf/classes.py:368-380 `WC.validate`.  (A registered but half-initialised basis raises
AttributeError, outside the `try`.) -/
def WC.validate (st : Bases) (wc : WC) : Except Exc Unit :=
  match st.efts.get? wc.eft with
  | none => .error .valueError
  | some _ =>
    match st.bases.get? (wc.eft, wc.basis) with
    | none => .error .valueError
    | some b =>
      match b.allWcs with
      | .error e => .error e
      | .ok all =>
        if (wc.values.keys.filter fun k => !(all.contains k)) ≠ [] then .error .assertionError
        else .ok ()

/-! ## Translators and matchers -/

/-- Numerical parameters (`parameters.py`). -/
abbrev Params := Dict String ℝ

/-- A translator function `f(C, scale, parameters[, sectors=...])`; the last argument is
`none` when the keyword is not passed (wcxf/classes.py:499-502). -/
abbrev TransFn := Dict String ℂ → ℝ → Option Params → Option (List String) →
  Except Exc (Dict String ℂ)

/-- A matcher function `f(C, scale, parameters)` (wcxf/classes.py:524). -/
abbrev MatchFn := Dict String ℂ → ℝ → Option Params → Except Exc (Dict String ℂ)

/-- The registries of translators and matchers (wcxf/classes.py:479-487, 510-519),
keyed by the instance names. -/
structure Physics where
  translators : Registry (String × String × String) TransFn
  matchers : Registry (String × String × String × String) MatchFn

/-- wcxf/classes.py:503-504, 525-526 `{k: v for k, v in dict_out.items() if v != 0}`. -/
noncomputable def dropZeros (d : Dict String ℂ) : Dict String ℂ :=
  d.filterKV fun _ v => decide (v ≠ 0)

/-- wcxf/classes.py:489-507 `Translator.translate` for the translator registered under
`(eft, frm, to)` (its attributes equal its name by construction, 480-487). -/
noncomputable def translatorApply (eft toB : String) (f : TransFn) (wc : WC)
    (parameters : Option Params) (sectors : Option (List String)) : Except Exc WC :=
  match f wc.dict wc.scale parameters sectors with
  | .error e => .error e
  | .ok out => .ok { eft, basis := toB, scale := wc.scale, values := dict2values (dropZeros out) }

/-- wcxf/classes.py:448-465 `WC.translate`. -/
noncomputable def WC.translate (ph : Physics) (wc : WC) (toBasis : String)
    (parameters : Option Params) (sectors : Option (List String)) : Except Exc WC :=
  if toBasis = wc.basis then .ok wc
  else match ph.translators.get? (wc.eft, wc.basis, toBasis) with
    | none => .error .valueError
    | some f => translatorApply wc.eft toBasis f wc parameters sectors

/-- wcxf/classes.py:521-529 `Matcher.match`. -/
noncomputable def matcherApply (toEft toBasis : String) (f : MatchFn) (wc : WC)
    (parameters : Option Params) : Except Exc WC :=
  match f wc.dict wc.scale parameters with
  | .error e => .error e
  | .ok out => .ok { eft := toEft, basis := toBasis, scale := wc.scale,
                     values := dict2values (dropZeros out) }

/-- wcxf/classes.py:467-476 `WC.match`. -/
noncomputable def WC.match (ph : Physics) (wc : WC) (toEft toBasis : String)
    (parameters : Option Params) : Except Exc WC :=
  if toEft = wc.eft ∧ toBasis = wc.basis then .ok wc
  else match ph.matchers.get? (wc.eft, wc.basis, toEft, toBasis) with
    | none => .error .valueError
    | some f => matcherApply toEft toBasis f wc parameters

/-! ## Files -/

/-- An attribute value of an object as written to a WCxf file. -/
inductive Attr
  | str (s : String)
  | num (x : ℝ)
  | values (d : Dict String Val)
  | priv            -- caches (`_dict`, `_df`) and the random `_hash`

/-- The instance `__dict__` of a `WC` object in assignment order
(wcxf/classes.py:326-335). -/
def WC.attrs (wc : WC) : Dict String Attr :=
  [("eft", .str wc.eft), ("basis", .str wc.basis), ("scale", .num wc.scale),
   ("values", .values wc.values), ("_dict", .priv), ("_df", .priv), ("_hash", .priv)]
  ++ wc.extra.mapVal Attr.str

/-- wcxf/classes.py:179 the dictionary handed to the serialiser:
`{k: v for k,v in self.__dict__.items() if k[0] != '_'}`.  (`k[0]` on an empty attribute
name would raise IndexError; attribute names are non-empty.) -/
def WC.dumpDict (wc : WC) : Dict String Attr :=
  wc.attrs.filterKV fun k _ => decide (k.toList.head? ≠ some '_')

/-- wcxf/classes.py:162-165, 324-335 `cls(**wcxf)`: the four required keyword arguments, all
others become attributes.  Missing arguments: TypeError. -/
def WC.ofDict (d : Dict String Attr) : Except Exc WC :=
  match d.get? "eft", d.get? "basis", d.get? "scale", d.get? "values" with
  | some (.str e), some (.str b), some (.num s), some (.values v) =>
    .ok { eft := e, basis := b, scale := s, values := v,
          extra := d.filterMap fun kv =>
            if kv.1 = "eft" ∨ kv.1 = "basis" ∨ kv.1 = "scale" ∨ kv.1 = "values" then none
            else match kv.2 with
              | .str s => some (kv.1, s)
              | _ => none }
  | _, _, _, _ => .error .typeError

end Verif
