import Verif.Model.EFTUtil

/-!
# Flavour structure of the WET (JMS basis) coefficients (`/repo/wilson/util/wet_jms.py`)

Arrays have three generations in every index.  A NaN entry ("not specified") is `none`.
The bases are data files outside the checkout: the list of coefficients of the JMS basis
(`wcxf.Basis['WET', 'JMS'].all_wcs`) and its sectors are parameters.
`rotate_down` is modelled in `Model/Rotation`.
-/

set_option autoImplicit false

namespace Verif.Jms
open Verif Verif.EFT

/-- wet_jms.py:12-38 `C_symm_keys` -/
def symmKeys : ℕ → List String
  | 0 => ["G", "Gtilde"]
  | 1 => ["egamma", "uG", "dG", "ugamma", "dgamma"]
  | 3 => ["S1udRR", "S1udduRR", "S8udRR", "S8udduRR", "SedRL",
      "SedRR", "SeuRL", "SeuRR", "SnueduRL", "SnueduRR", "TedRR", "TeuRR",
      "TnueduRR", "V1udduLR", "V8udduLR", "VnueduLL", "VnueduLR",
      "SuddLL", "SduuLL", "SduuLR", "SduuRL", "SdudRL", "SduuRR"]
  | 4 => ["VuuRR", "VddRR", "VuuLL", "VddLL"]
  | 41 => ["S1ddRR", "S1uuRR", "S8uuRR", "SeeRR", "S8ddRR"]
  | 5 => ["VnueLL", "VnuuLL", "VnudLL", "VeuLL", "VedLL", "V1udLL",
      "V8udLL", "VeuRR", "VedRR", "V1udRR", "V8udRR", "VnueLR",
      "VeeLR", "VnuuLR", "VnudLR", "VeuLR", "VedLR", "VueLR", "VdeLR",
      "V1uuLR", "V8uuLR", "V1udLR", "V8udLR", "V1duLR", "V8duLR",
      "V1ddLR", "V8ddLR"]
  | 6 => ["VeeLL", "VeeRR", "VnunuLL"]
  | 71 => ["SuudLR", "SuudRL", "SdduRL"]
  | _ => []

/-- `name in C_symm_keys[c]` -/
def isClass (c : ℕ) (name : Str) : Bool := (symmKeys c).any fun s => s.toList == name

/-- value of the dictionaries of arrays: a number, or an array with `rank` indices -/
inductive JVal
  | num (z : ℂ)
  | arr (rank : ℕ) (get : List ℕ → Option ℂ)

/-- l. 53 `''.join(k.split('_')[:-1])` -/
def nameOf (k : Str) : Str := (Util.splitUS k).dropLast.flatten
/-- l. 54 `k.split('_')[-1]` -/
def indOf (k : Str) : Str := (Util.splitUS k).getLastD []

/-- l. 49-60, one pass of the loop of `_scalar2array`.  Simplification: an index string whose
length differs from that of the first one for the same name raises (numpy would fill a whole
sub-array if it is shorter). -/
def scalarStep (da : Dict Str JVal) (k : Str) (v : ℂ) : Except Err (Dict Str JVal) :=
  if '_' ∉ k then .ok (da.set k (.num v))
  else
    let name := nameOf k
    let ind := indOf k
    match da.get? name with
    | some (.num _) => .error .typeError
    | some (.arr r a) =>
      (Util.pyIdx (List.replicate r 3) ind).map fun p =>
        da.set name (.arr r fun i => if i = p then some v else a i)
    | none =>
      (Util.pyIdx (List.replicate ind.length 3) ind).map fun p =>
        da.set name (.arr ind.length fun i => if i = p then some v else none)

/-- l. 45-61 `_scalar2array` -/
def scalar2array (d : Dict Str ℂ) : Except Err (Dict Str JVal) :=
  d.foldlM (fun da kv => scalarStep da kv.1 kv.2) []

/-- l. 64-69 `_symm_herm`: `C[nans] = np.einsum('jilk', C)[nans].conj()` -/
noncomputable def symmHerm (a : List ℕ → Option ℂ) : List ℕ → Option ℂ
  | [i, j, k, l] => match a [i, j, k, l] with
    | some z => some z
    | none => (a [j, i, l, k]).map (starRingEnd ℂ)
  | idx => a idx

/-- l. 72-77 `_symm_current`: `C[nans] = np.einsum('klij', C)[nans]` -/
def symmCurrent (a : List ℕ → Option ℂ) : List ℕ → Option ℂ
  | [i, j, k, l] => match a [i, j, k, l] with
    | some z => some z
    | none => a [k, l, i, j]
  | idx => a idx

/-- l. 79-84 `_antisymm_12`: `C[nans] = -np.einsum('jikl', C)[nans]` -/
noncomputable def antisymm12 (a : List ℕ → Option ℂ) : List ℕ → Option ℂ
  | [i, j, k, l] => match a [i, j, k, l] with
    | some z => some z
    | none => (a [j, i, k, l]).map fun z => -z
  | idx => a idx

/-- `f(Ca[k])` for a function on arrays with four indices; anything else raises -/
def onRank4 (f : (List ℕ → Option ℂ) → List ℕ → Option ℂ) : JVal → Except Err JVal
  | .arr 4 a => .ok (.arr 4 (f a))
  | _ => .error .valueError

/-- l. 101-108: the body of the loop of `JMS_to_array` -/
noncomputable def completeVal (k : Str) (v : JVal) : Except Err JVal :=
  (if isClass 5 k then onRank4 symmHerm v else .ok v) >>= fun v =>
  (if isClass 41 k then onRank4 symmCurrent v else .ok v) >>= fun v =>
  (if isClass 4 k then onRank4 (fun a => symmHerm (symmCurrent a)) v else .ok v) >>= fun v =>
  (if isClass 71 k then onRank4 antisymm12 v else .ok v)

/-- l. 100-108: the loop of `JMS_to_array` -/
noncomputable def completeAll (Ca : Dict Str JVal) : Except Err (Dict Str JVal) :=
  Ca.mapM fun kv => (completeVal kv.1 kv.2).map fun v => (kv.1, v)

/-- l. 98 `{k: C.get(k, 0) for k in wc_keys}` -/
noncomputable def fillKeys (wcKeys : List Str) (C : Dict Str ℂ) : Dict Str ℂ :=
  wcKeys.foldl (fun d k => d.set k (C.getD k 0)) []

/-- l. 87-109 `JMS_to_array`, given the list `wc_keys` -/
noncomputable def jmsToArray (wcKeys : List Str) (C : Dict Str ℂ) : Except Err (Dict Str JVal) :=
  scalar2array (fillKeys wcKeys C) >>= completeAll

/-- l. 90-96: `wc_keys` for the argument `sectors`; an unknown sector leaves `wc_keys`
undefined (the `KeyError` is caught, the use of the variable raises) -/
def keysFor (allWcs : List Str) (basisSectors : Dict Str (List Str)) :
    Option (List Str) → Except Err (List Str)
  | none => .ok allWcs
  | some ss => (ss.mapM fun s => (match basisSectors.get? s with
      | some ks => .ok ks
      | none => .error .keyError : Except Err (List Str))).map List.flatten

/-- l. 117-158, one pass of the loop of `symmetrize_JMS_dict` -/
noncomputable def symmStep (wcKeys : List Str) (Cs : Dict Str ℂ) (op : Str) (v : ℂ) :
    Except Err (Dict Str ℂ) :=
  if '_' ∉ op ∨ op ∈ wcKeys then .ok (Cs.set op v)
  else match Util.splitUS op with
    | [name, ind] =>
      if isClass 5 name then
        match ind with
        | [i, j, k, l] => .ok (Cs.set (name ++ '_' :: [j, i, l, k]) (starRingEnd ℂ v))
        | _ => .error .valueError
      else if isClass 41 name then
        match ind with
        | [i, j, k, l] => .ok (Cs.set (name ++ '_' :: [k, l, i, j]) v)
        | _ => .error .valueError
      else if isClass 4 name then
        match ind with
        | [i, j, k, l] =>
          if name ++ '_' :: [l, k, j, i] ∈ wcKeys then
            .ok (Cs.set (name ++ '_' :: [l, k, j, i]) (starRingEnd ℂ v))
          else if name ++ '_' :: [j, i, l, k] ∈ wcKeys then
            .ok (Cs.set (name ++ '_' :: [j, i, l, k]) (starRingEnd ℂ v))
          else .ok (Cs.set (name ++ '_' :: [k, l, i, j]) v)
        | _ => .error .valueError
      else if isClass 71 name then
        match ind with
        | [i, j, k, l] => .ok (Cs.set (name ++ '_' :: [j, i, k, l]) (-v))
        | _ => .error .valueError
      else .ok Cs
    | _ => .error .valueError

/-- l. 112-159 `symmetrize_JMS_dict` -/
noncomputable def symmetrizeJms (wcKeys : List Str) (C : Dict Str ℂ) : Except Err (Dict Str ℂ) :=
  C.foldlM (fun Cs kv => symmStep wcKeys Cs kv.1 kv.2) []

/-! ### Symmetry factors -/

/-- value of a dictionary of arrays with three generations in every index -/
inductive WVal
  | num (z : ℂ)
  | two (a : I2 → ℂ)
  | four (a : I4 → ℂ)

/-- an entry of `_scale_dict`: the number 1, `np.ones((3, 3))`, or an array of factors -/
inductive Factor
  | one
  | ones2
  | four (d : I4 → ℕ)

/-- l. 219-234 `_scale_dict` (later assignments win) -/
def scaleDict (k : Str) : Option Factor :=
  if isClass 71 k then some (.four Util.d7)
  else if isClass 6 k then some (.four Util.d6)
  else if isClass 4 k || isClass 41 k then some (.four Util.d4)
  else if isClass 3 k || isClass 5 k then some (.four fun _ => 1)
  else if isClass 1 k then some .ones2
  else if isClass 0 k then some .one
  else none

/-- `v / _scale_dict[k]` and `_scale_dict[k] * v`: `f x n` is `x / n` resp. `n * x`.
Simplification: shapes that do not fit raise (numpy would broadcast). -/
noncomputable def applyFactor (f : ℂ → ℂ → ℂ) (k : Str) (v : WVal) : Except Err WVal :=
  match scaleDict k, v with
  | none, _ => .error .keyError
  | some .one, .num z => .ok (.num (f z 1))
  | some .one, .two a => .ok (.two fun i => f (a i) 1)
  | some .one, .four a => .ok (.four fun i => f (a i) 1)
  | some .ones2, .two a => .ok (.two fun i => f (a i) 1)
  | some (.four d), .four a => .ok (.four fun i => f (a i) (d i))
  | _, _ => .error .valueError

/-- l. 237-242 `scale_dict_wet` -/
noncomputable def scaleDictWet (C : Dict Str WVal) : Except Err (Dict Str WVal) :=
  C.mapM fun kv => (applyFactor (fun x n => x / n) kv.1 kv.2).map fun v => (kv.1, v)

/-- l. 245-247 `unscale_dict_wet` -/
noncomputable def unscaleDictWet (C : Dict Str WVal) : Except Err (Dict Str WVal) :=
  C.mapM fun kv => (applyFactor (fun x n => n * x) kv.1 kv.2).map fun v => (kv.1, v)

end Verif.Jms
