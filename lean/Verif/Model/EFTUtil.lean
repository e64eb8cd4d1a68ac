import Verif.Model.Dict
import Verif.Model.ArrayProg
import Verif.Gen.Symmetrize
import Mathlib.Data.Finset.Card
import Mathlib.Data.Finset.Insert
import Mathlib.Algebra.BigOperators.Group.List.Defs

/-!
# `EFTutil` (`/repo/wilson/util/common.py`)

Strings (coefficient names) are lists of characters.  A numpy array is its shape and
the function from (0-based) multi-indices to entries; out of range the function is 0
(`NDArr.WF`), so that equality of arrays is equality of shapes and of all entries.
-/

set_option autoImplicit false

namespace Verif.EFT
open Verif Classical

/-- Python `str` -/
abbrev Str := List Char

/-- exceptions raised by the modelled functions -/
inductive Err
  | keyError | indexError | valueError | typeError
  deriving DecidableEq, Repr

/-- multi-index within the shape -/
def inRange : List ℕ → List ℕ → Bool
  | [], [] => true
  | s :: ss, i :: is => decide (i < s) && inRange ss is
  | _, _ => false

/-- numpy array (`dtype=complex` or coercible) -/
structure NDArr where
  shape : List ℕ
  get : List ℕ → ℂ

/-- entries outside the shape are 0 (normalisation, so that `=` is array equality) -/
def NDArr.WF (a : NDArr) : Prop := ∀ idx, inRange a.shape idx = false → a.get idx = 0

/-- array with the given entries -/
noncomputable def NDArr.ofFn (shape : List ℕ) (f : List ℕ → ℂ) : NDArr :=
  ⟨shape, fun idx => if inRange shape idx then f idx else 0⟩

/-- value in a coefficient dictionary: number or array -/
inductive AVal
  | num (z : ℂ)
  | arr (a : NDArr)

/-- `C_keys_shape` entry: `none` is Python `1` (scalar), otherwise the tuple -/
abbrev Shape := Option (List ℕ)

/-- `np.indices(shape).reshape(ndim, size).T`: all multi-indices in row-major order -/
def indices : List ℕ → List (List ℕ)
  | [] => [[]]
  | s :: ss => (List.range s).flatMap fun i => (indices ss).map fun r => i :: r

/-- row-major position of a multi-index -/
def pos : List ℕ → List ℕ → ℕ
  | _ :: ss, i :: is => i * ss.prod + pos ss is
  | _, _ => 0

/-- `np.asarray(v).ravel()` -/
def ravel : AVal → List ℂ
  | .num z => [z]
  | .arr a => (indices a.shape).map a.get

/-- `y.reshape(s)` of a 1D array; numpy raises `ValueError` on a size mismatch -/
noncomputable def reshape (s : List ℕ) (y : List ℂ) : Except Err NDArr :=
  if y.length = s.prod then .ok (NDArr.ofFn s fun idx => y.getD (pos s idx) 0)
  else .error .valueError

/-- The `EFTutil` instance attributes (`util/common.py:69-93`). -/
structure Util where
  allWcs : List Str
  symmKeys : Dict ℕ (List Str)
  wcKeys : List Str
  keysShape : Dict Str Shape
  nGen : ℕ

namespace Util
variable (U : Util)

/-- `self.C_keys` (l. 134: `list(C_keys_shape.keys())`) -/
def cKeys : List Str := U.keysShape.keys

/-- `self._needs_padding` (l. 84-86):
`n_gen != min([min(v) for v in self.C_keys_shape.values() if v != 1])`.
(Python raises on an empty list of shapes; modelled as "no padding".) -/
def needsPadding : Bool :=
  match (U.keysShape.filterMap fun kv => kv.2.bind List.min?).min? with
  | some m => decide (U.nGen ≠ m)
  | none => false

/-- `self.C_symm_keys.get(c, ())` -/
def symm (c : ℕ) : List Str := (U.symmKeys.get? c).getD []

/-! ### Flattening (l. 257-274) -/

/-- l. 257-270 `C_array2dict`.  The loop variable `i` is the offset; `C[i]` raises
`IndexError` beyond the end, `C[i:j].reshape(s)` raises `ValueError` if too short. -/
noncomputable def arrayToDictFrom (y : List ℂ) : List (Str × Shape) → ℕ → Except Err (Dict Str AVal)
  | [], _ => .ok []
  | (k, none) :: ks, i =>
    match y[i]? with
    | none => .error .indexError
    | some z => (arrayToDictFrom y ks (i + 1)).map fun d => (k, .num z) :: d
  | (k, some s) :: ks, i =>
    match reshape s ((y.drop i).take s.prod) with
    | .error e => .error e
    | .ok a => (arrayToDictFrom y ks (i + s.prod)).map fun d => (k, .arr a) :: d
noncomputable def arrayToDict (y : List ℂ) : Except Err (Dict Str AVal) :=
  arrayToDictFrom y U.keysShape 0

/-- l. 272-274 `C_dict2array`: `np.hstack([np.asarray(C[k]).ravel() for k in self.C_keys])` -/
def dictToArrayOf (C : Dict Str AVal) : List Str → Except Err (List ℂ)
  | [] => .ok []
  | k :: ks =>
    match C.get? k with
    | none => .error .keyError
    | some v => (dictToArrayOf C ks).map fun r => ravel v ++ r
def dictToArray (C : Dict Str AVal) : Except Err (List ℂ) := dictToArrayOf C U.cKeys

/-! ### Padding (l. 210-255) -/

/-- loop `for k, v in C.items(): C_out[k] = f(k, v)` where `f` may raise or skip the key -/
def mapDictM {α β : Type} (f : Str → α → Except Err (Option β)) : Dict Str α → Except Err (Dict Str β)
  | [] => .ok []
  | (k, v) :: d =>
    match f k v with
    | .error e => .error e
    | .ok none => mapDictM f d
    | .ok (some w) => (mapDictM f d).map fun r => (k, w) :: r

/-- l. 224-236 body of the loop of `pad_C`.  Copying into the corner of a smaller array
raises `ValueError`; arrays of other rank than 2 and 4 are silently dropped. -/
noncomputable def padVal (n : ℕ) (fill : ℂ) : AVal → Except Err (Option AVal)
  | .num z => .ok (some (.num z))
  | .arr a =>
    if a.shape.min? = some n then .ok (some (.arr a))
    else if a.shape.length = 4 ∨ a.shape.length = 2 then
      if a.shape.all (· ≤ n) then
        .ok (some (.arr (NDArr.ofFn (List.replicate a.shape.length n)
          fun idx => if inRange a.shape idx then a.get idx else fill)))
      else .error .valueError
    else .ok none

/-- l. 210-237 `pad_C` -/
noncomputable def pad (C : Dict Str AVal) (fill : ℂ := 0) : Except Err (Dict Str AVal) :=
  if U.needsPadding then mapDictM (fun _ v => padVal U.nGen fill v) C else .ok C

/-- l. 247-254 body of the loop of `unpad_C`: `v[:shape[0], :shape[1], ...]`.
(Slicing with a smaller bound truncates; a larger bound keeps the dimension.) -/
noncomputable def unpadVal (shape : Shape) : AVal → Except Err (Option AVal)
  | .num z => .ok (some (.num z))
  | .arr a =>
    match shape with
    | none => if a.shape.length = 4 ∨ a.shape.length = 2 then .error .typeError else .ok none
    | some s =>
      if a.shape = s then .ok (some (.arr a))
      else if a.shape.length = 4 ∨ a.shape.length = 2 then
        if a.shape.length ≤ s.length then
          .ok (some (.arr (NDArr.ofFn (List.zipWith min s a.shape) a.get)))
        else .error .indexError
      else .ok none

/-- l. 239-255 `unpad_C` -/
noncomputable def unpad (C : Dict Str AVal) : Except Err (Dict Str AVal) :=
  if U.needsPadding then
    mapDictM (fun k v =>
      match U.keysShape.get? k with
      | none => .error .keyError
      | some s => unpadVal s v) C
  else .ok C

/-! ### WCxf names (l. 276-321) -/

/-- `v.split("_")` -/
def splitUS : Str → List Str
  | [] => [[]]
  | c :: cs =>
    if c = '_' then [] :: splitUS cs
    else match splitUS cs with
      | [] => [[c]]
      | w :: ws => (c :: w) :: ws

/-- `str(int(j) + 1)` -/
def digitStr (j : ℕ) : Str := Nat.toDigits 10 (j + 1)

/-- l. 289 `k + "_" + "".join([str(int(j) + 1) for j in i])` -/
def wcName (k : Str) (idx : List ℕ) : Str := k ++ '_' :: idx.flatMap digitStr

/-- l. 282-290: entries contributed by one array -/
def entries (k : Str) : AVal → List (Str × ℂ)
  | .num z => [(k, z)]
  | .arr a =>
    if a.shape = [] then [(k, a.get [])]
    else if a.shape = [1] then [(k, a.get [0])]
    else (indices a.shape).map fun i => (wcName k i, a.get i)

/-- l. 276-291 `arrays2wcxf` -/
def arrays2wcxf (C : Dict Str AVal) : Dict Str ℂ :=
  (C.flatMap fun kv => entries kv.1 kv.2).foldl (fun d e => d.set e.1 e.2) []

/-- `int(c)` for a one-character string -/
def intOf (c : Char) : Except Err ℕ :=
  if '0' ≤ c ∧ c ≤ '9' then .ok (c.toNat - 48) else .error .valueError

/-- numpy position for the Python index `int(c) - 1` in a dimension of size `s`
(index `-1`, from the digit 0, addresses the last element). -/
def pyPos (s : ℕ) (c : Char) : Except Err ℕ :=
  match intOf c with
  | .error e => .error e
  | .ok 0 => if 0 < s then .ok (s - 1) else .error .indexError
  | .ok (n + 1) => if n < s then .ok n else .error .indexError

/-- `tuple([int(i) - 1 for i in ind])` as array position.  Simplification: an index string
shorter than the rank (numpy would fill a whole sub-array) is treated as an error. -/
def pyIdx : List ℕ → Str → Except Err (List ℕ)
  | [], [] => .ok []
  | s :: ss, c :: cs =>
    match pyPos s c with
    | .error e => .error e
    | .ok i => (pyIdx ss cs).map fun r => i :: r
  | _, _ => .error .indexError

/-- `C[name][idx] = v` -/
def setAt (a : NDArr) (idx : List ℕ) (v : ℂ) : NDArr :=
  ⟨a.shape, fun i => if i = idx then v else a.get i⟩

/-- `np.zeros(s, dtype=complex)` -/
def zeros (s : List ℕ) : NDArr := ⟨s, fun _ => 0⟩

/-- l. 299-309 body of the loop of `wcxf2arrays` -/
def wcxfStep (C : Dict Str AVal) (k : Str) (v : ℂ) : Except Err (Dict Str AVal) :=
  let name := (splitUS k).headD []
  match U.keysShape.get? name with
  | none => .error .keyError
  | some none => .ok (C.set k (.num v))
  | some (some s) =>
    let ind := (splitUS k).getLastD []
    match pyIdx s ind with
    | .error e => .error e
    | .ok idx =>
      match C.get? name with
      | some (.arr a) => .ok (C.set name (.arr (setAt a idx v)))
      | some (.num _) => .error .typeError
      | none => .ok (C.set name (.arr (setAt (zeros s) idx v)))

/-- l. 293-310 `wcxf2arrays` -/
def wcxf2arraysFrom (C : Dict Str AVal) : Dict Str ℂ → Except Err (Dict Str AVal)
  | [] => .ok C
  | (k, v) :: d =>
    match U.wcxfStep C k v with
    | .error e => .error e
    | .ok C' => wcxf2arraysFrom C' d
def wcxf2arrays (d : Dict Str ℂ) : Except Err (Dict Str AVal) := U.wcxf2arraysFrom [] d

/-- the value `add_missing` inserts for a key of the given shape -/
def zeroVal : Shape → AVal
  | none => .num 0
  | some s => .arr (zeros s)

/-- l. 312-321 `add_missing`.  (The loop runs over a Python set; the order of insertion
is taken to be that of `WC_keys`.) -/
def addMissingOf (C : Dict Str AVal) : List Str → Except Err (Dict Str AVal)
  | [] => .ok C
  | k :: ks =>
    if C.mem k then addMissingOf C ks
    else match U.keysShape.get? k with
      | none => .error .keyError
      | some s => addMissingOf (C.set k (zeroVal s)) ks
def addMissing (C : Dict Str AVal) : Except Err (Dict Str AVal) := U.addMissingOf C U.wcKeys

/-! ### Symmetrization (l. 177-208, 890-977) -/

/-- index tuple as list of numbers -/
def idx4 : I4 → List ℕ | (i, j, k, l) => [i.val, j.val, k.val, l.val]
def idx2 : I2 → List ℕ | (i, j) => [i.val, j.val]

/-- l. 189 `len({(i, j, k, l), (k, l, i, j)})` -/
def d4 : I4 → ℕ | (i, j, k, l) => ({(i, j, k, l), (k, l, i, j)} : Finset I4).card
/-- l. 191-198 -/
def d6 : I4 → ℕ
  | (i, j, k, l) => ({(i, j, k, l), (k, l, i, j), (k, j, i, l), (i, l, k, j)} : Finset I4).card
/-- l. 200 -/
def d7 : I4 → ℕ | (i, j, k, l) => ({(i, j, k, l), (j, i, k, l)} : Finset I4).card

/-- apply a function on 3x3x3x3 arrays.  (numpy raises `IndexError` on smaller arrays;
other shapes never occur and are treated as errors.) -/
noncomputable def onArr4 (f : (I4 → ℂ) → I4 → ℂ) : AVal → Except Err AVal
  | .num _ => .error .indexError
  | .arr a =>
    if a.shape = [3, 3, 3, 3] then
      .ok (.arr ⟨[3, 3, 3, 3], fun idx =>
        match idx with
        | [i, j, k, l] =>
          if h : i < 3 ∧ j < 3 ∧ k < 3 ∧ l < 3 then
            f (fun m => a.get (idx4 m)) (⟨i, h.1⟩, ⟨j, h.2.1⟩, ⟨k, h.2.2.1⟩, ⟨l, h.2.2.2⟩)
          else 0
        | _ => 0⟩)
    else .error .indexError
/-- apply a function on 3x3 arrays -/
noncomputable def onArr2 (f : (I2 → ℂ) → I2 → ℂ) : AVal → Except Err AVal
  | .num _ => .error .indexError
  | .arr a =>
    if a.shape = [3, 3] then
      .ok (.arr ⟨[3, 3], fun idx =>
        match idx with
        | [i, j] =>
          if h : i < 3 ∧ j < 3 then f (fun m => a.get (idx2 m)) (⟨i, h.1⟩, ⟨j, h.2⟩) else 0
        | _ => 0⟩)
    else .error .indexError

/-- `v.real` -/
noncomputable def realVal : AVal → AVal
  | .num z => .num (z.re : ℂ)
  | .arr a => .arr ⟨a.shape, fun i => ((a.get i).re : ℂ)⟩

/-- the `if/elif` chain of `symmetrize` and `symmetrize_nonred`: the first class list
that contains the key (l. 906-931, 945-974); `none` if there is none (the key is then
dropped from the result). -/
def classOf (k : Str) : Option ℕ :=
  if k ∈ U.symm 0 then some 0
  else if k ∈ U.symm 1 ++ U.symm 3 then some 1
  else if k ∈ U.symm 2 then some 2
  else if k ∈ U.symm 4 then some 4
  else if k ∈ U.symm 41 then some 41
  else if k ∈ U.symm 5 then some 5
  else if k ∈ U.symm 6 then some 6
  else if k ∈ U.symm 7 then some 7
  else if k ∈ U.symm 71 then some 71
  else if k ∈ U.symm 8 then some 8
  else if k ∈ U.symm 9 then some 9
  else none

/-- l. 906-932 one value in `symmetrize` -/
noncomputable def symmVal (c : ℕ) (v : AVal) : Except Err AVal :=
  match c with
  | 0 => .ok (realVal v)
  | 1 => .ok v
  | 2 => onArr2 (runProg Gen.symmetrize_2) v
  | 4 => onArr4 (runProg Gen.symmetrize_4) v
  | 41 => onArr4 (runProg Gen.symmetrize_41) v
  | 5 => onArr4 (runProg Gen.symmetrize_5) v
  | 6 => onArr4 (runProg Gen.symmetrize_6) v
  | 7 => onArr4 (runProg Gen.symmetrize_7) v
  | 71 => onArr4 (runProg Gen.symmetrize_71) v
  | 8 => onArr4 (runProg Gen.symmetrize_8) v
  | 9 => onArr2 (runProg Gen.symmetrize_9) v
  | _ => .ok v

/-- l. 945-975 one value in `symmetrize_nonred` -/
noncomputable def symmNonredVal (c : ℕ) (v : AVal) : Except Err AVal :=
  match c with
  | 0 => .ok (realVal v)
  | 1 => .ok v
  | 2 => onArr2 (runProg Gen.symmetrize_2) v
  | 4 => onArr4 (fun b i => runProg Gen.symmetrize_4 b i / d4 i) v
  | 41 => onArr4 (fun b i => runProg Gen.symmetrize_41 b i / d4 i) v
  | 5 => onArr4 (runProg Gen.symmetrize_5) v
  | 6 => onArr4 (fun b i => runProg Gen.symmetrize_6 b i / d6 i) v
  | 7 => onArr4 (fun b i => runProg Gen.symmetrize_7 b i / d7 i) v
  | 71 => onArr4 (fun b i => runProg Gen.symmetrize_71 b i / d7 i) v
  | 8 => onArr4 (fun b => runProg Gen.symmetrize_8 (runProg Gen.scale_8 b)) v
  | 9 => onArr2 (runProg Gen.symmetrize_9) v
  | _ => .ok v

/-- the loop shared by l. 899-934 and 936-977 -/
noncomputable def symmLoop (f : ℕ → AVal → Except Err AVal) (C : Dict Str AVal) :
    Except Err (Dict Str AVal) :=
  mapDictM (fun k v =>
    match U.classOf k with
    | none => .ok none
    | some c => (f c v).map some) C

/-- l. 899-934 `symmetrize` -/
noncomputable def symmetrize (C : Dict Str AVal) : Except Err (Dict Str AVal) :=
  (U.pad C).bind fun C => (U.symmLoop symmVal C).bind U.unpad

/-- l. 936-977 `symmetrize_nonred` -/
noncomputable def symmetrizeNonred (C : Dict Str AVal) : Except Err (Dict Str AVal) :=
  (U.pad C).bind fun C => (U.symmLoop symmNonredVal C).bind U.unpad

/-- l. 201-207: which table of factors `_scale_dict[k]` is (later loops overwrite earlier
ones): `d_7`, `d_6`, `d_4`, or ones (`pad_C(C_array2dict(np.ones(9999)), fill_value=1)`
is an array of ones for every key). -/
def scaleTable (k : Str) : Option (I4 → ℕ) :=
  if k ∈ U.symm 7 ++ U.symm 71 then some d7
  else if k ∈ U.symm 6 then some d6
  else if k ∈ U.symm 4 ++ U.symm 41 then some d4
  else none

/-- l. 893 `self._scale_dict[k] * v` (numpy broadcasting of the 3x3x3x3 table with anything
but a 3x3x3x3 array never occurs and is treated as an error). -/
noncomputable def scaleVal (k : Str) (v : AVal) : Except Err AVal :=
  match U.scaleTable k with
  | none => .ok v
  | some d => onArr4 (fun b i => (d i : ℂ) * b i) v

/-- l. 894-895 `for k in C_symm_keys.get(8, ()): C[k] = self.unscale_8(C[k])` -/
noncomputable def unscale8Of (C : Dict Str AVal) : List Str → Except Err (Dict Str AVal)
  | [] => .ok C
  | k :: ks =>
    match C.get? k with
    | none => .error .keyError
    | some v =>
      match onArr4 (runProg Gen.unscale_8) v with
      | .error e => .error e
      | .ok w => unscale8Of (C.set k w) ks

/-- l. 890-897 `unscale_dict` -/
noncomputable def unscaleDict (C : Dict Str AVal) : Except Err (Dict Str AVal) :=
  (U.pad C).bind fun C =>
  (mapDictM (fun k v => if k ∈ U.cKeys then (U.scaleVal k v).map some else .error .keyError) C).bind
    fun C => (unscale8Of C (U.symm 8)).bind U.unpad

/-- l. 979-994 `wcxf2arrays_symmetrized` -/
noncomputable def wcxf2arraysSymmetrized (d : Dict Str ℂ) : Except Err (Dict Str AVal) :=
  (U.wcxf2arrays d).bind fun C => (U.symmetrizeNonred C).bind U.addMissing

/-- l. 996-1012 `arrays2wcxf_nonred` -/
noncomputable def arrays2wcxfNonred (C : Dict Str AVal) : Except Err (Dict Str ℂ) :=
  (U.unscaleDict C).map fun C =>
    (arrays2wcxf C).filterKV fun k v => decide (k ∈ U.allWcs) && decide (v ≠ 0)

end Util
end Verif.EFT
