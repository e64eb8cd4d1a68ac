import Verif.Model.Dict
import Verif.Model.WCxf
import Verif.Model.EFTUtil
import Mathlib.Data.Complex.Basic

/-!
# EOS parameter files (`/repo/wilson/wcxf/converters/eos.py`)

The dictionary `wc.dict` has complex values and names as character lists.  Reading the SM
values from YAML files (`get_sm_wcs`) is not modelled; their dictionary is an input.
-/

set_option autoImplicit false

namespace Verif.Eos
open Verif Verif.EFT

/-- Python `sub in s` for strings -/
def contains (sub : Str) : Str → Bool
  | [] => sub.isEmpty
  | c :: s => sub.isPrefixOf (c :: s) || contains sub s

/-- Python `s.replace(old, new)` (leftmost, non-overlapping); the number bounds the length -/
def replaceAux (old new : Str) : ℕ → Str → Str
  | 0, s => s
  | _ + 1, [] => []
  | n + 1, c :: s =>
    if old.isPrefixOf (c :: s) then new ++ replaceAux old new n ((c :: s).drop old.length)
    else c :: replaceAux old new n s

/-- Python `s.replace(old, new)` -/
def replace (old new s : Str) : Str := replaceAux old new s.length s

/-- Python `re.sub(r'T\{([^\}]+)\}', r'\1', s)` for `op = "T{"`: every leftmost match of
`T{`, one or more characters other than `}`, `}` is replaced by the characters in between -/
def unwrapAux (op : Str) : ℕ → Str → Str
  | 0, s => s
  | _ + 1, [] => []
  | n + 1, c :: s =>
    if op.isPrefixOf (c :: s) then
      let t := (c :: s).drop op.length
      let body := t.takeWhile (· ≠ '}')
      match t.dropWhile (· ≠ '}') with
      | _ :: rest =>
        if body.isEmpty then c :: unwrapAux op n s else body ++ unwrapAux op n rest
      | [] => c :: unwrapAux op n s
    else c :: unwrapAux op n s

/-- `re.sub(r'T\{([^\}]+)\}', r'\1', s)` -/
def unwrap (op s : Str) : Str := unwrapAux op s.length s

/-- eos.py:30-38 and 39-47: the two branches of `get_eos_np`; `part` is `.real` or `.imag` -/
noncomputable def branch (part : ℂ → ℝ) (wc : Dict Str ℂ) (k2 : Str) : Except Exc ℝ :=
  open Classical in
  match wc.get? k2 with
  | some z => .ok (part z)
  | none =>
    let ke := replace "lnu".toList "enue".toList k2
    let km := replace "lnu".toList "munumu".toList k2
    if wc.mem ke || wc.mem km then
      if wc.getD ke 0 ≠ wc.getD km 0 then .error .valueError
      else .ok (part (wc.getD ke 0))
    else .ok 0

/-- eos.py:25-48 `get_eos_np` -/
noncomputable def getEosNp (smKey : Str) (wc : Dict Str ℂ) : Except Exc ℝ :=
  match wc.get? smKey with
  | some z => .ok z.re
  | none =>
    if contains "Re{".toList smKey then branch Complex.re wc (unwrap "Re{".toList smKey)
    else if contains "Im{".toList smKey then branch Complex.im wc (unwrap "Im{".toList smKey)
    else .ok 0

/-- eos.py:60-61 the inner loop: the dictionary of one parameter -/
def entry (x : ℝ) : Dict Str ℝ :=
  ["central".toList, "min".toList, "max".toList].foldl (fun d q => d.set q x) []

/-- eos.py:56-61 one pass of the loop of `wcxf2eos` -/
noncomputable def step (wc : Dict Str ℂ) (eosd : Dict Str (Dict Str ℝ)) (kv : Str × Dict Str ℝ) :
    Except Exc (Dict Str (Dict Str ℝ)) :=
  match kv.2.get? "central".toList with
  | none => .error .keyError
  | some x =>
    match getEosNp kv.1 wc with
    | .error e => .error e
    | .ok np => .ok (eosd.set kv.1 (entry (x + np)))

/-- eos.py:51-62 `wcxf2eos` -/
noncomputable def wcxf2eos (wc : Dict Str ℂ) (sm : Dict Str (Dict Str ℝ)) :
    Except Exc (Dict Str (Dict Str ℝ)) :=
  sm.foldlM (step wc) []

end Verif.Eos
