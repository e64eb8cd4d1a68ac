import Verif.Model.EFTUtil
import Verif.Model.WCxf
import Verif.Gen.Dsix

/-!
# DsixTools input and output (`/repo/wilson/wcxf/converters/dsixtools.py`)

An LHA block is its list of rows; a row `[i, j, ..., x]` is the pair of the index list and
the value.  The text form (pylha, JSON, YAML) and floating-point printing are not modelled.
-/

set_option autoImplicit false

namespace Verif.Dsix
open Verif Verif.EFT Classical

/-- a row `[i, j, ..., x]` of an LHA block -/
abbrev Row := List ℤ × ℝ
/-- `lha['BLOCK']`: block name to `values` -/
abbrev Blocks := Dict Str (List Row)

/-- numpy position for the Python index `i` in a dimension of size `n`: negative indices
count from the end, anything else out of range raises -/
def npPos (n : ℕ) (i : ℤ) : Option ℕ :=
  if 0 ≤ i ∧ i < n then some i.toNat
  else if -(n : ℤ) ≤ i ∧ i < 0 then some (i + n).toNat
  else none

/-- numpy positions for an index tuple; a tuple shorter than the rank addresses a whole
sub-array (its positions are a prefix), a longer one raises -/
def npIndex : List ℕ → List ℤ → Option (List ℕ)
  | _, [] => some []
  | [], _ :: _ => none
  | s :: ss, i :: is =>
    match npPos s i, npIndex ss is with
    | some p, some ps => some (p :: ps)
    | _, _ => none

/-- dsixtools.py:34 `M[tuple([int(i-1) for i in v[:-1]])] = v[-1]` -/
noncomputable def lhaStep (shape : List ℕ) (M : List ℕ → ℝ) (v : Row) : Except Err (List ℕ → ℝ) :=
  match npIndex shape (v.1.map fun i => i - 1) with
  | none => .error .indexError
  | some p => .ok fun ix => if p <+: ix then v.2 else M ix

/-- dsixtools.py:26-35 `lha2matrix` (rows have integer indices) -/
noncomputable def lha2matrix (values : List Row) (shape : List ℕ) : Except Err (List ℕ → ℝ) :=
  values.foldlM (lhaStep shape) fun _ => 0

/-- dsixtools.py:37-43 `matrix2lha` of an array of shape `shape` with entries `M` -/
def matrix2lha (shape : List ℕ) (M : List ℕ → ℝ) : List Row :=
  (indices shape).map fun i => (i.map fun (j : ℕ) => (j : ℤ) + 1, M i)

/-- `dict(values)` for rows `[i, x]`; a row of other length raises `ValueError` -/
def dictOf (values : List Row) : Except Err (Dict ℤ ℝ) :=
  values.foldlM (fun d v => match v.1 with
    | [i] => .ok (d.set i v.2)
    | _ => .error .valueError) []

/-- `d[k]` -/
def item {κ α : Type} [DecidableEq κ] (d : Dict κ α) (k : κ) : Except Err α :=
  match d.get? k with
  | none => .error .keyError
  | some v => .ok v

/-- complex array from real and imaginary parts, `re + 1j*im` -/
noncomputable def cplxArr (shape : List ℕ) (re im : List ℕ → ℝ) : NDArr :=
  NDArr.ofFn shape fun i => (re i : ℂ) + Complex.I * (im i : ℂ)

/-! ### Standard Model parameters (l. 45-91) -/

/-- l. 55-64: a mandatory real block and an optional imaginary block -/
noncomputable def smMatrix (B : Blocks) (re im : String) : Except Err AVal :=
  item B re.toList >>= fun r => lha2matrix r [3, 3] >>= fun R =>
  match B.get? im.toList with
  | none => .ok (.arr (cplxArr [3, 3] R fun _ => 0))
  | some r => lha2matrix r [3, 3] >>= fun I => .ok (.arr (cplxArr [3, 3] R I))

/-- dsixtools.py:45-75 `sm_lha2dict` -/
noncomputable def smLha2dict (B : Blocks) : Except Err (Dict Str AVal) :=
  item B "GAUGE".toList >>= fun r => dictOf r >>= fun v =>
  item v 1 >>= fun g => item v 2 >>= fun gp => item v 3 >>= fun gs =>
  item B "SCALAR".toList >>= fun r => dictOf r >>= fun v =>
  item v 1 >>= fun lam => item v 2 >>= fun m2 =>
  smMatrix B "GU" "IMGU" >>= fun gu =>
  smMatrix B "GD" "IMGD" >>= fun gd =>
  smMatrix B "GE" "IMGE" >>= fun ge =>
  (match B.get? "THETA".toList with
   | none => .ok []
   | some r => dictOf r) >>= fun (v : Dict ℤ ℝ) =>
  .ok [("g".toList, .num g), ("gp".toList, .num gp), ("gs".toList, .num gs),
    ("Lambda".toList, .num lam), ("m2".toList, .num m2),
    ("Gu".toList, gu), ("Gd".toList, gd), ("Ge".toList, ge),
    ("Theta".toList, .num (v.getD 1 0 : ℝ)), ("Thetap".toList, .num (v.getD 2 0 : ℝ)),
    ("Thetas".toList, .num (v.getD 3 0 : ℝ))]

/-- `d[k].real` of a number -/
noncomputable def realItem (d : Dict Str AVal) (k : String) : Except Err ℝ :=
  match d.get? k.toList with
  | none => .error .keyError
  | some (.num z) => .ok z.re
  | some (.arr _) => .error .typeError

/-- `d[k]` of an array -/
def arrItem (d : Dict Str AVal) (k : String) : Except Err NDArr :=
  match d.get? k.toList with
  | none => .error .keyError
  | some (.num _) => .error .typeError
  | some (.arr a) => .ok a

/-- dsixtools.py:77-91 `sm_dict2lha` -/
noncomputable def smDict2lha (d : Dict Str AVal) : Except Err Blocks :=
  realItem d "g" >>= fun g => realItem d "gp" >>= fun gp => realItem d "gs" >>= fun gs =>
  realItem d "Lambda" >>= fun lam => realItem d "m2" >>= fun m2 =>
  arrItem d "Gu" >>= fun gu => arrItem d "Gd" >>= fun gd => arrItem d "Ge" >>= fun ge =>
  realItem d "Theta" >>= fun t => realItem d "Thetap" >>= fun tp => realItem d "Thetas" >>= fun ts =>
  .ok [("GAUGE".toList, [([1], g), ([2], gp), ([3], gs)]),
    ("SCALAR".toList, [([1], lam), ([2], m2)]),
    ("GU".toList, matrix2lha gu.shape fun i => (gu.get i).re),
    ("IMGU".toList, matrix2lha gu.shape fun i => (gu.get i).im),
    ("GD".toList, matrix2lha gd.shape fun i => (gd.get i).re),
    ("IMGD".toList, matrix2lha gd.shape fun i => (gd.get i).im),
    ("GE".toList, matrix2lha ge.shape fun i => (ge.get i).re),
    ("IMGE".toList, matrix2lha ge.shape fun i => (ge.get i).im),
    ("THETA".toList, [([1], t), ([2], tp), ([3], ts)])]

/-! ### Wilson coefficients (l. 112-201) -/

/-- `'WC' + k.upper()` -/
def reBlock (k : Str) : Str := "WC".toList ++ k.map Char.toUpper
/-- `'IMWC' + k.upper()` -/
def imBlock (k : Str) : Str := "IMWC".toList ++ k.map Char.toUpper

/-- `smeftutil.WC_keys_2f` (`n = 2`), `smeftutil.WC_keys_4f` (`n = 4`); util/common.py:99-112.
(Names with two, four generation digits are the keys whose shape has two, four dimensions.) -/
def keysOfRank (U : Util) (n : ℕ) : List Str :=
  U.wcKeys.filter fun k => match U.keysShape.get? k with
    | some (some s) => decide (s.length = n)
    | _ => false

/-- l. 122-126: a scalar; `KeyError` (block or entry missing) gives 0 -/
noncomputable def read0 (B : Blocks) (block : Str) (i : ℕ) : Except Err ℝ :=
  match B.get? block with
  | none => .ok 0
  | some r => dictOf r >>= fun d => .ok (d.getD (i : ℤ) 0)

/-- l. 128-135, 137-144: real and imaginary part of an array, zero if the block is missing -/
noncomputable def readPart (B : Blocks) (block : Str) (shape : List ℕ) : Except Err (List ℕ → ℝ) :=
  match B.get? block with
  | none => .ok fun _ => 0
  | some r => lha2matrix r shape

noncomputable def readArr (B : Blocks) (k : Str) (shape : List ℕ) : Except Err AVal :=
  readPart B (reBlock k) shape >>= fun R => readPart B (imBlock k) shape >>= fun I =>
  .ok (.arr (cplxArr shape R I))

/-- the loop `for k in keys: C[k] = f(k)` -/
def loopSet {κ : Type} (key : κ → Str) (f : κ → Except Err AVal) :
    List κ → Dict Str AVal → Except Err (Dict Str AVal)
  | [], C => .ok C
  | k :: ks, C => f k >>= fun v => loopSet key f ks (C.set (key k) v)

/-- dsixtools.py:117-145 `wc_lha2dict` -/
noncomputable def wcLha2dict (U : Util) (B : Blocks) : Except Err (Dict Str AVal) :=
  loopSet (fun e : Str × Str × ℕ => e.1)
    (fun e => read0 B e.2.1 e.2.2 >>= fun x => .ok (.num (x : ℂ))) Gen.dsixWC0f [] >>= fun C =>
  loopSet id (fun k => readArr B k [3, 3]) (keysOfRank U 2) C >>= fun C =>
  loopSet id (fun k => readArr B k [3, 3, 3, 3]) (keysOfRank U 4) C

/-- `d[block]['values'] += rows`, creating the (empty) block if necessary -/
def addRows (d : Blocks) (block : Str) (rows : List Row) : Blocks :=
  d.set block ((d.get? block).getD [] ++ rows)

/-- l. 151-155: `if wc[name] != 0: append [i, wc[name].real]` -/
noncomputable def write0 (C : Dict Str AVal) (d : Blocks) (e : Str × Str × ℕ) : Except Err Blocks :=
  match C.get? e.1 with
  | none => .error .keyError
  | some (.arr _) => .error .valueError
  | some (.num z) => .ok (addRows d e.2.1 (if z ≠ 0 then [([(e.2.2 : ℤ)], z.re)] else []))

/-- l. 163-169 (l. 181-189): the rows of the real part -/
noncomputable def reRows (red : List (List ℕ)) (skipRedundant skipZero : Bool) (shape : List ℕ)
    (a : NDArr) : List Row :=
  (indices shape).filterMap fun i =>
    if i ∈ red ∧ skipRedundant then none
    else if (a.get i).re ≠ 0 ∨ !skipZero then some (i.map fun (j : ℕ) => (j : ℤ) + 1, (a.get i).re)
    else none

/-- l. 163-173 (l. 181-193): the rows of the imaginary part -/
noncomputable def imRows (red van : List (List ℕ)) (skipRedundant skipZero : Bool) (shape : List ℕ)
    (a : NDArr) : List Row :=
  (indices shape).filterMap fun i =>
    if i ∈ red ∧ skipRedundant then none
    else if (a.get i).im ≠ 0 ∨ !skipZero then
      if i ∉ van then some (i.map fun (j : ℕ) => (j : ℤ) + 1, (a.get i).im) else none
    else none

/-- l. 156-173 (l. 174-193): one array.  The two `append`s of the innermost loop go to
different blocks, so the rows of each are collected separately.  An array that is not of
shape `shape` is treated as an error (numpy raises on a smaller one). -/
noncomputable def writeArr (skipRedundant skipZero : Bool) (shape : List ℕ) (C : Dict Str AVal)
    (d : Blocks) (k : Str) : Except Err Blocks :=
  item Gen.dsixRedundant k >>= fun red => item Gen.dsixVanishingIm k >>= fun van =>
  match C.get? k with
  | none => .error .keyError
  | some (.num _) => .error .indexError
  | some (.arr a) =>
    if a.shape = shape then
      .ok (addRows (addRows d (reBlock k) (reRows red skipRedundant skipZero shape a))
        (imBlock k) (imRows red van skipRedundant skipZero shape a))
    else .error .indexError

/-- dsixtools.py:147-201 `wc_dict2lha` -/
noncomputable def wcDict2lha (U : Util) (C : Dict Str AVal) (skipRedundant skipZero : Bool) :
    Except Err Blocks :=
  Gen.dsixWC0f.foldlM (write0 C) [] >>= fun d =>
  (keysOfRank U 2).foldlM (writeArr skipRedundant skipZero [3, 3] C) d >>= fun d =>
  (keysOfRank U 4).foldlM (writeArr skipRedundant skipZero [3, 3, 3, 3] C) d >>= fun d =>
  .ok (d.filterKV fun _ rows => !rows.isEmpty)

/-! ### `SMEFTio` (l. 204-367) -/

/-- the attributes of `SMEFTio` (l. 206-210) -/
structure IO where
  cIn : Option (Dict Str AVal) := none
  scaleIn : Option ℝ := none
  scaleHigh : Option ℝ := none

/-- `C[k] * x` -/
noncomputable def mulVal (x : ℂ) : AVal → AVal
  | .num z => .num (z * x)
  | .arr a => .arr ⟨a.shape, fun i => a.get i * x⟩

/-- `keys_dim5 = ['llphiphi']` (l. 262, 325) -/
def keysDim5 : List Str := ["llphiphi".toList]

/-- l. 263, 326-327: `keys_dim6` -/
def isDim6 (U : Util) (k : Str) : Bool := decide (k ∈ U.wcKeys) && !decide (k ∈ keysDim5)

/-- l. 265-270: multiply by the high scale to the power of the operator dimension minus 4.
(The two loops over keys present in `C` change each value at most once.) -/
noncomputable def scaleUp (U : Util) (high : ℝ) (C : Dict Str AVal) : Dict Str AVal :=
  C.map fun kv => (kv.1, if kv.1 ∈ keysDim5 then mulVal (high : ℂ) kv.2
    else if isDim6 U kv.1 then mulVal ((high : ℂ) ^ 2) kv.2 else kv.2)

/-- l. 273-278: zeros for the missing coefficients; `dim4` is `smeftutil.dim4_keys` -/
def fillZeros (dim4 : List Str) : List (Str × Shape) → Dict Str AVal → Dict Str AVal
  | [], C => C
  | (k, s) :: ks, C =>
    fillZeros dim4 ks (if !C.mem k && !decide (k ∈ dim4) then C.set k (Util.zeroVal s) else C)

/-- names of WCxf coefficients as character lists -/
def toChars (d : Dict String ℂ) : Dict Str ℂ := d.map fun kv => (kv.1.toList, kv.2)
def ofChars (d : Dict Str ℂ) : Dict String ℂ := d.map fun kv => (String.ofList kv.1, kv.2)

/-- errors of `EFTutil` as exceptions -/
def liftErr {α : Type} : Except Err α → Except Exc α
  | .ok a => .ok a
  | .error .keyError => .error .keyError
  | .error .valueError => .error .valueError
  | .error .typeError => .error .typeError
  | .error .indexError => .error (.other 0)

/-- dsixtools.py:240-282 `SMEFTio.set_initial_wcxf` -/
noncomputable def setInitialWcxf (U : Util) (dim4 : List Str) (io : IO) (wc : WC)
    (scaleHigh : Option ℝ := none) : Except Exc IO :=
  if wc.eft ≠ "SMEFT" then .error .valueError
  else if wc.basis ≠ "Warsaw" then .error .valueError
  else
    let high : ℝ := (scaleHigh.or io.scaleHigh).getD wc.scale
    liftErr (U.wcxf2arrays (toChars wc.dict)) >>= fun C =>
    liftErr (U.symmetrize (scaleUp U high C)) >>= fun C =>
    let C := fillZeros dim4 U.keysShape C
    .ok { cIn := some (match io.cIn with
            | none => C
            | some C0 => C0.update C)
          scaleIn := some wc.scale, scaleHigh := some high }

/-- l. 328-333: divide by the high scale to the power of the operator dimension minus 4; the
dimension is looked up from the part of the name before the underscore.  (Python: 0 raises
`ZeroDivisionError` for a nonzero coefficient to be divided.) -/
noncomputable def scaleDown (U : Util) (high : ℝ) (d : Dict Str ℂ) : Dict Str ℂ :=
  d.map fun kv =>
    let name := (Util.splitUS kv.1).headD []
    (kv.1, if name ∈ keysDim5 then kv.2 / (high : ℂ)
      else if isDim6 U name then kv.2 / (high : ℂ) ^ 2 else kv.2)

/-- dsixtools.py:313-337 `SMEFTio.get_wcxf`; `high` is `self.scale_high`, `U.allWcs` is
`wcxf.Basis['SMEFT', 'Warsaw'].all_wcs` (util/common.py:73). -/
noncomputable def getWcxf (U : Util) (high : ℝ) (C : Dict Str AVal) (scaleOut : ℝ) : WC :=
  let d := (Util.arrays2wcxf C).filterKV fun k v => decide (k ∈ U.allWcs) && decide (v ≠ 0)
  { eft := "SMEFT", basis := "Warsaw", scale := scaleOut
    values := dict2values (ofChars (scaleDown U high d)) }

/-- dsixtools.py:112-115 `lha2scale`: `dict(lha['BLOCK']['SCALES']['values'])[1]` -/
def lha2scale (B : Blocks) : Except Err ℝ :=
  item B "SCALES".toList >>= fun r => dictOf r >>= fun d => item d 1

/-- dsixtools.py:220-238 `SMEFTio.load_initial` on the parsed blocks of the streams (merged
by `d.update`). -/
noncomputable def loadInitial (U : Util) (streams : List Blocks) : Except Err IO :=
  let B : Blocks := streams.foldl (fun d s => d.update s) []
  wcLha2dict U B >>= fun C => smLha2dict B >>= fun sm => lha2scale B >>= fun sc =>
  U.symmetrize (C.update sm) >>= fun C =>
  .ok { cIn := some C, scaleIn := some sc, scaleHigh := some sc }

/-- dsixtools.py:296-311 `SMEFTio.dump` up to the text form; `high` is `self.scale_high` -/
noncomputable def dump (U : Util) (high : ℝ) (C : Dict Str AVal) (scaleOut : Option ℝ)
    (skipRedundant : Bool := true) : Except Err Blocks :=
  wcDict2lha U C skipRedundant true >>= fun wc =>
  .ok (Dict.update [("SCALES".toList, match scaleOut with
    | some s => [([1], high), ([2], s)]
    | none => [([1], high)])] wc)

end Verif.Dsix
