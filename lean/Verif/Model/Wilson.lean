import Verif.Model.Options
import Mathlib.Data.Finset.Dedup

/-!
# Model of `Wilson.match_run` and its cache (`wilson/classes.py:133-303`)
-/

open Classical

set_option autoImplicit false

namespace Verif

/-- The `sectors` argument of `match_run`: the string `'all'` or a tuple of names.
(Other strings / unhashable lists are outside the documented interface.) -/
inductive Sectors
  | all
  | tuple (l : List String)
  deriving DecidableEq

/-- classes.py:220-224: translators get `None` for `'all'`. -/
def Sectors.forTranslate : Sectors → Option (List String)
  | .all => none
  | .tuple l => some l

/-! ## Cache -/

/-- classes.py:150, 287-303: nested dict `eft → scale → basis → sector → WC`. -/
abbrev Cache := Dict String (Dict ℝ (Dict String (Dict Sectors WC)))

/-- classes.py:287-293 `_get_from_cache` (a KeyError at any level gives `None`). -/
noncomputable def Cache.get (c : Cache) (sector : Sectors) (scale : ℝ) (eft basis : String) :
    Option WC :=
  match Dict.get? c eft with
  | none => none
  | some c1 => match Dict.get? c1 scale with
    | none => none
    | some c2 => match Dict.get? c2 basis with
      | none => none
      | some c3 => Dict.get? c3 sector

/-- classes.py:295-303 `_set_cache`. -/
noncomputable def Cache.set (c : Cache) (sector : Sectors) (scale : ℝ) (eft basis : String)
    (w : WC) : Cache :=
  match Dict.get? c eft with
  | none => Dict.set c eft [(scale, [(basis, [(sector, w)])])]
  | some c1 => match Dict.get? c1 scale with
    | none => Dict.set c eft (Dict.set c1 scale [(basis, [(sector, w)])])
    | some c2 => match Dict.get? c2 basis with
      | none => Dict.set c eft (Dict.set c1 scale (Dict.set c2 basis [(sector, w)]))
      | some c3 =>
        Dict.set c eft (Dict.set c1 scale (Dict.set c2 basis (Dict.set c3 sector w)))

/-! ## Physics calls -/

/-- Calls into the physics code made by `match_run`, in order (ghost log). -/
inductive Ev
  /-- a translator function is called -/
  | translate (eft frm toB : String) (scale : ℝ) (p : Option Params) (sectors : Option (List String))
  /-- a matcher function is called -/
  | «match» (frmEft frmBasis toEft toBasis : String) (scale : ℝ) (p : Option Params)
  /-- `SMEFT(wc).run(scale, accuracy)` -/
  | smeftRun (frm toS : ℝ) (accuracy : String)
  /-- `WETrunner(wc, qed_order, qcd_order).run(scale, sectors)` -/
  | wetRun (eft : String) (frm toS : ℝ) (sectors : Sectors) (qed qcd : ℝ)

/-- A computation that may raise and logs its physics calls. -/
abbrev Phys (α : Type) := Except Exc α × List Ev

namespace Phys
/-- return a value without physics calls -/
def ret {α : Type} (x : α) : Phys α := (.ok x, [])
/-- raise an exception -/
def raise {α : Type} (e : Exc) : Phys α := (.error e, [])
/-- sequencing -/
def andThen {α β : Type} (p : Phys α) (f : α → Phys β) : Phys β :=
  match p with
  | (.error e, l) => (.error e, l)
  | (.ok x, l) => ((f x).1, l ++ (f x).2)
end Phys

/-- Everything external to `match_run`: the translator and matcher registries, the package
default parameters (`wilson/parameters.py`) and the numerical evolution in SMEFT
(`run/smeft/classes.py:SMEFT`) and WET (`run/wet/classes.py:WETrunner._run_dict` with the
filter of `run`). All of them may raise. -/
structure Backend where
  ph : Physics
  defaultParams : Params
  smeftEvolve : Dict String ℂ → ℝ → ℝ → String → Except Exc (Dict String ℂ)
  wetEvolve : String → Dict String ℂ → ℝ → ℝ → Sectors → ℝ → ℝ → Except Exc (Dict String ℂ)

/-- `wc.translate(basis, sectors=..., parameters=...)`, logging an actual translator call. -/
noncomputable def Backend.translate (B : Backend) (wc : WC) (toB : String) (p : Option Params)
    (s : Option (List String)) : Phys WC :=
  (wc.translate B.ph toB p s,
   if toB = wc.basis ∨ (B.ph.translators.get? (wc.eft, wc.basis, toB)).isNone then []
   else [.translate wc.eft wc.basis toB wc.scale p s])

/-- `wc.match(eft, basis, parameters=...)`, logging an actual matcher call. -/
noncomputable def Backend.match (B : Backend) (wc : WC) (toEft toB : String) (p : Option Params) :
    Phys WC :=
  (wc.match B.ph toEft toB p,
   if (toEft = wc.eft ∧ toB = wc.basis) ∨
      (B.ph.matchers.get? (wc.eft, wc.basis, toEft, toB)).isNone then []
   else [.match wc.eft wc.basis toEft toB wc.scale p])

/-- `SMEFT(wc).run(scale, accuracy)`: run/smeft/classes.py:63-66 (checks on EFT and basis),
268-285 (`run`), 88-93 (`_to_wcxf`: the result is a SMEFT/Warsaw WC at `scale`). -/
noncomputable def Backend.smeftRun (B : Backend) (wc : WC) (scale : ℝ) (acc : String) : Phys WC :=
  if wc.eft ≠ "SMEFT" then Phys.raise .valueError
  else if wc.basis ≠ "Warsaw" then Phys.raise .valueError
  else match B.smeftEvolve wc.dict wc.scale scale acc with
    | .error e => (.error e, [.smeftRun wc.scale scale acc])
    | .ok d => (.ok { eft := "SMEFT", basis := "Warsaw", scale, values := dict2values d },
                [.smeftRun wc.scale scale acc])

/-- `WETrunner(wc, **opt).run(scale, sectors)`: run/wet/classes.py:34-36 (assertion), 38-44,
84-102 (`run`: the result is a WC of the same EFT in the JMS basis at `scale`). An EFT other
than WET/WET-4/WET-3 leaves `self.f` unset, so running raises AttributeError. -/
noncomputable def Backend.wetRun (B : Backend) (wc : WC) (scale : ℝ) (sectors : Sectors)
    (qed qcd : ℝ) : Phys WC :=
  if wc.basis ≠ "JMS" then Phys.raise .assertionError
  else if wc.eft ≠ "WET" ∧ wc.eft ≠ "WET-4" ∧ wc.eft ≠ "WET-3" then Phys.raise .attributeError
  else match B.wetEvolve wc.eft wc.dict wc.scale scale sectors qed qcd with
    | .error e => (.error e, [.wetRun wc.eft wc.scale scale sectors qed qcd])
    | .ok d => (.ok { eft := wc.eft, basis := "JMS", scale, values := dict2values d },
                [.wetRun wc.eft wc.scale scale sectors qed qcd])

/-! ## match_run -/

/-- The option values read by `match_run` via `get_option`. -/
structure Opts where
  accuracy : String
  qed : ℝ
  qcd : ℝ
  matchingOrder : ℝ
  scaleEw : ℝ
  mb : ℝ
  mc : ℝ
  user : Params

/-- `get_option(k)` for a string-valued option. (The schema guarantees the type; the
import-time default is used for ill-typed states, which are unreachable.) -/
def optStr {α : Type} (defaults : Dict String OptVal) (i : Instance α) (k dflt : String) : String :=
  match getOption defaults i k with
  | .ok (.str s) => s
  | _ => dflt

/-- `get_option(k)` for a numeric option, see `optStr`. -/
def optNum {α : Type} (defaults : Dict String OptVal) (i : Instance α) (k : String) (dflt : ℝ) : ℝ :=
  match getOption defaults i k with
  | .ok (.num x) => x
  | _ => dflt

/-- `get_option(k)` for a dictionary-valued option, see `optStr`. -/
def optParams {α : Type} (defaults : Dict String OptVal) (i : Instance α) (k : String) : Params :=
  match getOption defaults i k with
  | .ok (.params d) => d
  | _ => []

/-- classes.py:182, 191, 198-199, 225-227, 235: the options read by `match_run`. -/
noncomputable def readOpts {α : Type} (defaults : Dict String OptVal) (i : Instance α) : Opts where
  accuracy := optStr defaults i "smeft_accuracy" "integrate"
  qed := optNum defaults i "qed_order" 1
  qcd := optNum defaults i "qcd_order" 1
  matchingOrder := optNum defaults i "smeft_matching_order" 0
  scaleEw := optNum defaults i "smeft_matchingscale" 91.1876
  mb := optNum defaults i "mb_matchingscale" 4.2
  mc := optNum defaults i "mc_matchingscale" 1.3
  user := optParams defaults i "parameters"

section
variable (B : Backend) (o : Opts)

/-- `self.parameters` (classes.py:176-183). -/
def selfParams : Params := effParameters B.defaultParams o.user

/-- `self.matching_parameters` (classes.py:185-192). -/
def selfMatchParams : Params := matchingParameters B.defaultParams o.user o.matchingOrder

/-- classes.py:237-239: SMEFT to SMEFT. The final `.translate(basis)` is called *without*
parameters and sectors. -/
noncomputable def smeftToSmeft (wc : WC) (scale : ℝ) (basis : String) (sectors : Sectors) : Phys WC :=
  (B.translate wc "Warsaw" (some (selfParams B o)) sectors.forTranslate).andThen fun w =>
  (B.smeftRun w scale o.accuracy).andThen fun r =>
  B.translate r basis none none

/-- classes.py:245-250: the WET coefficients at the electroweak matching scale. -/
noncomputable def smeftToWet (wc : WC) : Phys WC :=
  if wc.scale = o.scaleEw then
    B.match wc "WET" "JMS" (some (selfMatchParams B o))
  else
    (B.translate wc "Warsaw" (some (selfParams B o)) none).andThen fun w =>
    (B.smeftRun w o.scaleEw o.accuracy).andThen fun r =>
    B.match r "WET" "JMS" (some (selfMatchParams B o))

/-- `wet.run(scale, sectors=sectors).translate(basis, sectors=..., parameters=...)`
(classes.py:258, 264, 270, 278). -/
noncomputable def wetRunTranslate (w : WC) (scale : ℝ) (basis : String) (sectors : Sectors) : Phys WC :=
  (B.wetRun w scale sectors o.qed o.qcd).andThen fun r =>
  B.translate r basis (some (selfParams B o)) sectors.forTranslate

/-- `wet.run(threshold, sectors=sectors).match(eft', 'JMS', parameters=...)`
(classes.py:262, 268, 274, 276). -/
noncomputable def wetRunMatch (w : WC) (threshold : ℝ) (toEft : String) (sectors : Sectors) : Phys WC :=
  (B.wetRun w threshold sectors o.qed o.qcd).andThen fun r =>
  B.match r toEft "JMS" (some (selfMatchParams B o))

/-- classes.py:257-282: from a WETrunner on `w` to the requested EFT.
(The constructor assertion on the basis, run/wet/classes.py:35, precedes the branch.) -/
noncomputable def wetPart (w : WC) (scale : ℝ) (eft basis : String) (sectors : Sectors) : Phys WC :=
  if w.basis ≠ "JMS" then Phys.raise .assertionError
  else if eft = w.eft then
    wetRunTranslate B o w scale basis sectors
  else if eft = "WET-4" ∧ w.eft = "WET" then
    (wetRunMatch B o w o.mb "WET-4" sectors).andThen fun w4 =>
    wetRunTranslate B o w4 scale basis sectors
  else if eft = "WET-3" ∧ w.eft = "WET-4" then
    (wetRunMatch B o w o.mc "WET-3" sectors).andThen fun w3 =>
    wetRunTranslate B o w3 scale basis sectors
  else if eft = "WET-3" ∧ w.eft = "WET" then
    (wetRunMatch B o w o.mb "WET-4" sectors).andThen fun w4 =>
    (wetRunMatch B o w4 o.mc "WET-3" sectors).andThen fun w3 =>
    wetRunTranslate B o w3 scale basis sectors
  else Phys.raise .valueError

/-- Run `p`, store its value with `store` on success, and return (classes.py:230-232 etc.). -/
def storing (p : Phys WC) (c : Cache) (store : WC → Cache) : Phys WC × Cache :=
  match p.1 with
  | .ok w => (p, store w)
  | .error _ => (p, c)

/-- classes.py:201-282 `Wilson.match_run` on an instance with coefficients `wc`, options `o`
and cache `c`; returns the outcome and the new cache. -/
noncomputable def matchRun (wc : WC) (c : Cache) (scale : ℝ) (eft basis : String)
    (sectors : Sectors) : Phys WC × Cache :=
  match c.get sectors scale eft basis with
  | some w => (Phys.ret w, c)
  | none =>
    if wc.basis = basis ∧ wc.eft = eft ∧ scale = wc.scale then (Phys.ret wc, c)
    else if wc.eft = eft ∧ scale = wc.scale then
      storing (B.translate wc basis (some (selfParams B o)) sectors.forTranslate) c
        (fun out => c.set sectors scale eft basis out)
    else if wc.eft = "SMEFT" then
      if eft = "SMEFT" then
        storing (smeftToSmeft B o wc scale basis sectors) c
          (fun out => c.set .all scale "SMEFT" out.basis out)
      else
        match c.get .all o.scaleEw "WET" "JMS" with
        | some wcEw =>
          let c1 := c.set .all o.scaleEw wcEw.eft wcEw.basis wcEw
          storing (wetPart B o wcEw scale eft basis sectors) c1
            (fun out => c1.set sectors scale eft basis out)
        | none =>
          match smeftToWet B o wc with
          | (.error e, l) => ((.error e, l), c)
          | (.ok wcEw, l) =>
            let c1 := c.set .all o.scaleEw wcEw.eft wcEw.basis wcEw
            let r := storing (wetPart B o wcEw scale eft basis sectors) c1
              (fun out => c1.set sectors scale eft basis out)
            ((r.1.1, l ++ r.1.2), r.2)
    else if wc.eft = "WET" ∨ wc.eft = "WET-4" ∨ wc.eft = "WET-3" then
      storing ((B.translate wc "JMS" (some (selfParams B o)) sectors.forTranslate).andThen fun w =>
          wetPart B o w scale eft basis sectors) c
        (fun out => c.set sectors scale eft basis out)
    else (Phys.raise .valueError, c)

end

/-! ## Histories -/

/-- API calls on a `Wilson` instance that concern `match_run`. -/
inductive Op
  | matchRun (scale : ℝ) (eft basis : String) (sectors : Sectors)
  | setOption (key : String) (value : PyVal)
  | clearCache

/-- State of a `Wilson` instance: coefficients, options, cache (classes.py:133-150). -/
structure Wilson where
  wc : WC
  inst : Instance Cache

/-- classes.py:133-150 `Wilson.__init__`: validated coefficients, default options, empty
cache. -/
noncomputable def Wilson.init (st : Bases) (defaults : Dict String OptVal) (wcdict : Dict String ℂ)
    (scale : ℝ) (eft basis : String) : Except Exc Wilson :=
  let wc : WC := { eft, basis, scale, values := dict2values wcdict }
  match wc.validate st with
  | .error e => .error e
  | .ok () => .ok { wc, inst := Instance.create defaults [] }

/-- One API call; the class defaults `defaults` are read by `get_option`. -/
noncomputable def Wilson.step (B : Backend) (parse : String → Option ℝ) (defaults : Dict String OptVal)
    (s : Wilson) : Op → Wilson
  | .matchRun scale eft basis sectors =>
    { s with inst := { s.inst with
        cache := (matchRun B (readOpts defaults s.inst) s.wc s.inst.cache scale eft basis sectors).2 } }
  | .setOption k v => { s with inst := (setOption parse [] s.inst k v).2 }
  | .clearCache => { s with inst := { s.inst with cache := [] } }

/-- The result of `match_run` on an instance. -/
noncomputable def Wilson.result (B : Backend) (defaults : Dict String OptVal) (s : Wilson)
    (scale : ℝ) (eft basis : String) (sectors : Sectors) : Except Exc WC :=
  (matchRun B (readOpts defaults s.inst) s.wc s.inst.cache scale eft basis sectors).1.1

/-- A history of API calls. -/
noncomputable def Wilson.run (B : Backend) (parse : String → Option ℝ) (defaults : Dict String OptVal)
    (s : Wilson) (ops : List Op) : Wilson :=
  ops.foldl (Wilson.step B parse defaults) s

/-! ## Hash -/

/-- classes.py:152-156 `__hash__`: `hash((self.wc, frozenset(self._options)))`.
`frozenset(dict)` is the set of its keys; `wcHash` is the random identity of the WC object;
`h` is Python's hash of the pair. -/
def Wilson.hash (h : ℤ → Finset String → ℤ) (wcHash : WC → ℤ) (s : Wilson) : ℤ :=
  h (wcHash s.wc) (Dict.keys s.inst.options).toFinset

end Verif
