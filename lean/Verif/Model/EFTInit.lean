import Verif.Model.EFTUtil
import Mathlib.Data.List.Sort
import Mathlib.Data.List.Dedup

/-!
# `EFTutil.__init__` (`/repo/wilson/util/common.py:69-175`)

Recognition of the symmetry class and of the array shape of each coefficient from the list of
names in the WCxf basis.
-/

set_option autoImplicit false

namespace Verif.EFT
open Verif

/-- `wcxf.Basis[eft, basis].sectors`, reduced to what `EFTutil` reads: sector name, coefficient
name, and `v2.get("real", False)`. -/
abbrev Sectors := Dict Str (Dict Str Bool)

namespace Init

/-- `list(dict.fromkeys(l))`: remove duplicates, keeping the first occurrence -/
def uniq {α : Type} [DecidableEq α] (l : List α) : List α := l.reverse.dedup.reverse

/-- Python's order on strings (lexicographic by code point) -/
def strLe : Str → Str → Bool
  | [], _ => true
  | _ :: _, [] => false
  | a :: s, b :: t => decide (a.toNat < b.toNat) || (decide (a = b) && strLe s t)

/-- Python's order on pairs `(str, bool)` -/
def pairLe (p q : Str × Bool) : Bool :=
  (decide (p.1 ≠ q.1) && strLe p.1 q.1) || (decide (p.1 = q.1) && (!p.2 || q.2))

variable (sectors : Sectors)

/-- `Basis.all_wcs` (`wcxf/classes.py:246-250`): all names of all sectors -/
def allWcs : List Str := sectors.flatMap fun s => Dict.keys s.2

/-- l. 150-155 `C_keys_complex = dict(chain.from_iterable(...))` -/
def realFlags : Dict Str Bool := (sectors.flatMap fun s => s.2).foldl (fun d e => Dict.set d e.1 e.2) []

/-- `v.split("_")[0] if "_" in v else v` (l. 158) -/
def pre (v : Str) : Str := (Util.splitUS v).headD []

/-- l. 156-159: the keys of `index_complex_dict`.  (Python iterates over a set; the order is taken
to be that of first occurrence.) -/
def prefixes : List Str := uniq ((allWcs sectors).map pre)

/-- l. 160-165: what the loop appends for the key `k` -/
def indexPairs (k : Str) : List (Str × Bool) :=
  (allWcs sectors).filterMap fun v =>
    match Util.splitUS v with
    | [name, ind] =>
      if name = k ∧ '3' ∉ ind then some (ind, ((realFlags sectors).get? v).getD false) else none
    | _ => none

/-- `tuple(sorted(set(v)))`: Python orders the pairs lexicographically -/
def sortedSet (v : List (Str × Bool)) : List (Str × Bool) :=
  v.dedup.insertionSort (fun p q => pairLe p q = true)

/-- the table l. 13-66 with the index strings as strings -/
def classTable : Dict (List (Str × Bool)) ℕ :=
  Gen.symmetryClassDefinitions.map fun e => (e.1.map fun p => (p.1.flatMap (Nat.toDigits 10), p.2), e.2)

/-- l. 168 `self._symmetry_class_defintions[tuple(sorted(set(v)))]` -/
def classLookup (v : List (Str × Bool)) : Except Err ℕ :=
  match classTable.get? (sortedSet v) with
  | some c => .ok c
  | none => .error .keyError

/-- `if key in C_symm_keys: C_symm_keys[key].append(k) else: C_symm_keys[key] = [k]` (l. 169-172) -/
def appendKey (S : Dict ℕ (List Str)) (c : ℕ) (k : Str) : Dict ℕ (List Str) :=
  S.set c ((S.get? c).getD [] ++ [k])

/-- l. 166-172 -/
def symmKeysFrom (S : Dict ℕ (List Str)) : List Str → Except Err (Dict ℕ (List Str))
  | [] => .ok S
  | k :: ks =>
    match classLookup (indexPairs sectors k) with
    | .error e => .error e
    | .ok c => symmKeysFrom (appendKey S c k) ks

/-- l. 173-174 `for k, v in self._dim4_symm_keys.items(): C_symm_keys[k] += v` -/
def addDim4 (S : Dict ℕ (List Str)) : List (ℕ × List Str) → Except Err (Dict ℕ (List Str))
  | [] => .ok S
  | (c, ks) :: r =>
    match S.get? c with
    | none => .error .keyError
    | some l => addDim4 (S.set c (l ++ ks)) r

/-- l. 148-175 `_get_symm_keys` -/
def symmKeys (dim4 : Dict ℕ (List Str)) : Except Err (Dict ℕ (List Str)) :=
  match symmKeysFrom sectors [] (prefixes sectors) with
  | .error e => .error e
  | .ok S => addDim4 S dim4

/-- l. 96-98 -/
def wcKeys0 : List Str := uniq ((allWcs sectors).filter fun v => '_' ∉ v)
/-- l. 99-105, 106-112 for `n = 2, 4` -/
def wcKeysN (n : ℕ) : List Str :=
  uniq ((allWcs sectors).filterMap fun v =>
    match Util.splitUS v with
    | name :: ind :: _ => if ind.length = n then some name else none
    | _ => none)
/-- l. 113 -/
def wcKeys : List Str := wcKeys0 sectors ++ wcKeysN sectors 2 ++ wcKeysN sectors 4

/-- l. 114-118: the index strings found for the key `k` (a name of two parts whose first part is
not in `WC_keys` would raise `KeyError`, see `indexOK`) -/
def indexList (k : Str) : List Str :=
  (allWcs sectors).filterMap fun v =>
    match Util.splitUS v with
    | [name, ind] => if name = k then some ind else none
    | _ => none

/-- l. 118: `index_dict[v_split[0]]` raises `KeyError` unless the key is known -/
def indexOK : Bool :=
  (allWcs sectors).all fun v =>
    match Util.splitUS v with
    | [name, _] => decide (name ∈ wcKeys sectors)
    | _ => true

/-- `[int(i) for i in index_list]` -/
def intsOf : Str → Except Err (List ℕ)
  | [] => .ok []
  | c :: cs =>
    match Util.intOf c with
    | .error e => .error e
    | .ok n => (intsOf cs).map fun r => n :: r

/-- `np.max(rows, axis=0)`; rows of unequal length are a `ValueError` -/
def maxRows : List (List ℕ) → Except Err (List ℕ)
  | [] => .error .valueError
  | [r] => .ok r
  | r :: r' :: rs =>
    match maxRows (r' :: rs) with
    | .error e => .error e
    | .ok m => if r.length = m.length then .ok (List.zipWith max r m) else .error .valueError

def mapM' {α β : Type} (f : α → Except Err β) : List α → Except Err (List β)
  | [] => .ok []
  | a :: l =>
    match f a with
    | .error e => .error e
    | .ok b => (mapM' f l).map fun r => b :: r

/-- l. 119-128: the shape read off the index strings -/
def shapeOfKey (k : Str) : Except Err Shape :=
  match indexList sectors k with
  | [] => .ok none
  | l =>
    match mapM' intsOf l with
    | .error e => .error e
    | .ok rows => (maxRows rows).map some

/-- l. 129-135: class 71: `tuple([v[1]] + list(v[1:]))` -/
def fix71 (S : Dict ℕ (List Str)) (k : Str) (s : Shape) : Except Err Shape :=
  if k ∈ (S.get? 71).getD [] then
    match s with
    | some (_ :: b :: r) => .ok (some (b :: b :: r))
    | some _ => .error .indexError
    | none => .error .typeError
  else .ok s

/-- l. 119-135 for all keys (the keys of `index_dict`, i.e. `WC_keys` without repetition) -/
def wcShapes (S : Dict ℕ (List Str)) : List Str → Except Err (Dict Str Shape)
  | [] => .ok []
  | k :: ks =>
    match shapeOfKey sectors k with
    | .error e => .error e
    | .ok s =>
      match fix71 S k s with
      | .error e => .error e
      | .ok s' => (wcShapes S ks).map fun r => (k, s') :: r

/-- l. 69-93 `__init__` (without the scale tables, which are `Util.scaleTable`).
`{**dim4_keys_shape, **WC_keys_shape}` is `Dict.update`. -/
def construct (dim4Shapes : Dict Str Shape) (dim4 : Dict ℕ (List Str)) (nGen : ℕ) : Except Err Util :=
  match symmKeys sectors dim4 with
  | .error e => .error e
  | .ok S =>
    if indexOK sectors then
      match wcShapes sectors S (uniq (wcKeys sectors)) with
      | .error e => .error e
      | .ok sh => .ok ⟨allWcs sectors, S, wcKeys sectors, Dict.update dim4Shapes sh, nGen⟩
    else .error .keyError

end Init
end Verif.EFT
