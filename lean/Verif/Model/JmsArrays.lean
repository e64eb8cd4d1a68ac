import Verif.Gen.JmsKeys
import Verif.Spec.WetJms

/-!
# From which coefficient `JMS_to_array` fills an entry, and where `symmetrize_JMS_dict` puts a coefficient

`Model/WetJms` models /repo/wilson/util/wet_jms.py; here are the same rules in terms of names
(represented by numbers, see `Model/PyStr`), for the interpreter of the translators.  The agreement of
the two is proved in `Lemmas/JmsArrays`.  The list of coefficients of the JMS basis is a data file
outside the checkout; it is taken to consist of the coefficients of the sectors in
run_wet_definitions_coeffs.json.
-/

set_option autoImplicit false

namespace Verif.Py
open Verif.Jms (Act)

/-- a name of the JMS basis -/
def isKey (k : ℕ) : Bool := Gen.JmsKeys.keys.mem k

/-- `name_ij..` (indices counted from 0) -/
def addIdx (name : ℕ) (idx : List ℕ) : ℕ := idx.foldl (fun a i => Nat.add (Nat.mul a 256) (Nat.add 49 i)) (Nat.add (Nat.mul name 256) 95)

def memN (x : ℕ) : List ℕ → Bool
  | [] => false
  | y :: l => bif Nat.beq x y then true else memN x l

/-- wet_jms.py:12-38 `C_symm_keys` (classes with relations between the entries) -/
def symmClass (name : ℕ) : ℕ :=
  bif memN name [n!"VnueLL", n!"VnuuLL", n!"VnudLL", n!"VeuLL", n!"VedLL", n!"V1udLL",
      n!"V8udLL", n!"VeuRR", n!"VedRR", n!"V1udRR", n!"V8udRR", n!"VnueLR",
      n!"VeeLR", n!"VnuuLR", n!"VnudLR", n!"VeuLR", n!"VedLR", n!"VueLR", n!"VdeLR",
      n!"V1uuLR", n!"V8uuLR", n!"V1udLR", n!"V8udLR", n!"V1duLR", n!"V8duLR",
      n!"V1ddLR", n!"V8ddLR"] then 5 else
  bif memN name [n!"S1ddRR", n!"S1uuRR", n!"S8uuRR", n!"SeeRR", n!"S8ddRR"] then 41 else
  bif memN name [n!"VuuRR", n!"VddRR", n!"VuuLL", n!"VddLL"] then 4 else
  bif memN name [n!"SuudLR", n!"SuudRL", n!"SdduRL"] then 71 else 0

/-- the entries from which `JMS_to_array` fills the entry `idx` of an array of class `c`, in the order
in which they are tried -/
def candidates (c : ℕ) : List ℕ → List (Act × List ℕ)
  | [i, j, k, l] =>
    bif Nat.beq c 5 then [(.same, [i, j, k, l]), (.conj, [j, i, l, k])] else
    bif Nat.beq c 41 then [(.same, [i, j, k, l]), (.same, [k, l, i, j])] else
    bif Nat.beq c 4 then [(.same, [i, j, k, l]), (.same, [k, l, i, j]), (.conj, [j, i, l, k]), (.conj, [l, k, j, i])] else
    bif Nat.beq c 71 then [(.same, [i, j, k, l]), (.neg, [j, i, k, l])] else
    [(.same, [i, j, k, l])]
  | idx => [(.same, idx)]

noncomputable def firstKey (name : ℕ) : List (Act × List ℕ) → Option (Act × ℕ)
  | [] => none
  | (a, idx) :: l => forceN (addIdx name idx) fun k => bif isKey k then some (a, k) else firstKey name l

/-- wet_jms.py:87-109 `JMS_to_array`: the coefficient of the basis from which the entry `idx` of the
array `name` is filled, and how -/
noncomputable def source (name : ℕ) (idx : List ℕ) : Option (Act × ℕ) := firstKey name (candidates (symmClass name) idx)

/-- `op.split('_')` for a name with one underscore -/
def splitOp (op : ℕ) : Option (ℕ × List ℕ) :=
  match (schars op).span fun c => !Nat.beq c 95 with
  | (name, _ :: ind) => bif memN 95 ind then none else some (ofChars name, ind)
  | _ => none

/-- `'_'.join([name, ''.join(ind)])` for index digits given as characters -/
def joinOp (name : ℕ) (ind : List ℕ) : ℕ := ind.foldl (fun a c => Nat.add (Nat.mul a 256) c) (Nat.add (Nat.mul name 256) 95)

/-- wet_jms.py:117-158, the body of the loop of `symmetrize_JMS_dict`: the name under which the
coefficient `op` is returned, and how its value is changed; `none` if it is dropped, an exception
(outer `none`) if the indices cannot be unpacked -/
def target (op : ℕ) : Option (Option (Act × ℕ)) :=
  bif !memN 95 (schars op) || isKey op then some (some (.same, op)) else
  match splitOp op with
  | none => none
  | some (name, ind) =>
    bif Nat.beq (symmClass name) 0 then some none else
    match ind with
    | [i, j, k, l] =>
      bif Nat.beq (symmClass name) 5 then some (some (.conj, joinOp name [j, i, l, k])) else
      bif Nat.beq (symmClass name) 41 then some (some (.same, joinOp name [k, l, i, j])) else
      bif Nat.beq (symmClass name) 4 then
        bif isKey (joinOp name [l, k, j, i]) then some (some (.conj, joinOp name [l, k, j, i])) else
        bif isKey (joinOp name [j, i, l, k]) then some (some (.conj, joinOp name [j, i, l, k])) else
        some (some (.same, joinOp name [k, l, i, j]))
      else some (some (.neg, joinOp name [j, i, k, l]))
    | _ => none

end Verif.Py
