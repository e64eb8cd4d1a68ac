import Verif.Model.EFTUtil
import Verif.Spec.Symmetry
import Mathlib.Logic.Relation
import Mathlib.Data.Set.Defs

set_option autoImplicit false

/-! # Specification vocabulary for `EFTutil` -/

namespace Verif.Spec
open Verif Verif.EFT

/-- A dictionary value has the shape the basis prescribes: a number for a scalar
coefficient, an array of exactly that shape otherwise. -/
def Fits : Shape → AVal → Prop
  | none, .num _ => True
  | some s, .arr a => a.shape = s ∧ a.WF
  | _, _ => False

/-- number of entries of a coefficient -/
def size : Shape → ℕ
  | none => 1
  | some s => s.prod

/-- A dictionary with all keys in the canonical order and all values in canonical shape. -/
def Canonical (keysShape : Dict Str Shape) (C : Dict Str AVal) : Prop :=
  List.Forall₂ (fun ks kv => ks.1 = kv.1 ∧ Fits ks.2 kv.2) keysShape C

/-- total number of entries -/
def totalSize (keysShape : Dict Str Shape) : ℕ := (keysShape.map fun ks => size ks.2).sum

/-- A coefficient name contains no underscore and its dimensions have between 1 and 9
generations (one digit each). -/
def GoodName (k : Str) (s : Shape) : Prop :=
  '_' ∉ k ∧ ∀ l, s = some l → (l ≠ [] ∧ l ≠ [1] ∧ ∀ n ∈ l, 1 ≤ n ∧ n ≤ 9)

end Verif.Spec

namespace Verif.Spec
open Verif Verif.EFT

/-- The key is listed under symmetry class `c` and no other. -/
def InClass (U : Util) (c : ℕ) (k : Str) : Prop :=
  k ∈ U.symm c ∧ ∀ c', c' ≠ c → k ∉ U.symm c'

/-- The orbit of an index under repeated application of the given index permutations. -/
def orbit {ι : Type} (gens : List (ι → ι)) (i : ι) : Set ι :=
  {j | Relation.ReflTransGen (fun a b => ∃ g ∈ gens, b = g a) i j}

end Verif.Spec

namespace Verif.Spec
open Verif Verif.EFT

/-- the symmetry classes -/
def classIds : List ℕ := [0, 1, 2, 3, 4, 41, 5, 6, 7, 71, 8, 9]

/-- number of flavour indices of the coefficients of a class -/
def rank (c : ℕ) : ℕ := if c = 0 then 0 else if c = 1 ∨ c = 2 ∨ c = 9 then 2 else 4

/-- the non-redundant entries of the two-index classes -/
def NonRedOf2 (c : ℕ) (i : I2) : Prop :=
  (c = 2 → NonRed code2 rels2 i) ∧ (c = 9 → NonRed code2 rels9 i)
/-- the non-redundant entries of the four-index classes -/
def NonRedOf4 (c : ℕ) (i : I4) : Prop :=
  (c = 4 → NonRed code4 rels4 i) ∧ (c = 41 → NonRed code4 rels41 i) ∧ (c = 5 → NonRed code4 rels5 i) ∧
  (c = 6 → NonRed code4 rels6 i) ∧ (c = 7 → NonRed code4 rels7 i) ∧ (c = 71 → NonRed71 i) ∧
  (c = 8 → NonRed8 i)
/-- the entries that are real by hermiticity -/
def RealOf2 (c : ℕ) (i : I2) : Prop := c = 2 ∧ SelfConj rels2 i
def RealOf4 (c : ℕ) (i : I4) : Prop :=
  (c = 4 ∧ SelfConj rels4 i) ∨ (c = 5 ∧ SelfConj rels5 i) ∨ (c = 6 ∧ SelfConj rels6 i)

/-- A helper object as the constructor builds it for the bases of the package: three
generations, each coefficient in exactly one class of the right rank, at most three
generations per index, class 8 (`qqql`) with three generations throughout. -/
structure Regular (U : Util) : Prop where
  nGen : U.nGen = 3
  nodup : U.keysShape.NodupKeys
  good : ∀ k s, U.keysShape.get? k = some s → GoodName k s
  cls : ∀ k s, U.keysShape.get? k = some s → ∃ c ∈ classIds, InClass U c k ∧
    (s = none ↔ c = 0) ∧ (∀ l, s = some l → l.length = rank c ∧ ∀ n ∈ l, n ≤ 3) ∧
    (c = 8 → s = some [3, 3, 3, 3])
  wc : ∀ k ∈ U.wcKeys, k ∈ U.keysShape.keys
  nodup8 : (U.symm 8).Nodup
  wc8 : ∀ k ∈ U.symm 8, k ∈ U.wcKeys

/-- names of non-redundant coefficients: a scalar name, or `Name_ij`, `Name_ijkl` with
non-redundant indices; `r` says whether the coefficient is real. -/
inductive NonRedName (U : Util) : Str → Prop → Prop
  | scalar {k : Str} (h : U.keysShape.get? k = some none) : NonRedName U k True
  | two {k : Str} {s : List ℕ} {c : ℕ} {i : I2} (h : U.keysShape.get? k = some (some s))
      (hc : InClass U c k) (hi : inRange s (Util.idx2 i) = true) (hn : NonRedOf2 c i) :
      NonRedName U (Util.wcName k (Util.idx2 i)) (RealOf2 c i)
  | four {k : Str} {s : List ℕ} {c : ℕ} {i : I4} (h : U.keysShape.get? k = some (some s))
      (hc : InClass U c k) (hi : inRange s (Util.idx4 i) = true) (hn : NonRedOf4 c i) :
      NonRedName U (Util.wcName k (Util.idx4 i)) (RealOf4 c i)

/-- the coefficient of this name is real (scalar, or self-conjugate by hermiticity) -/
def RealName (U : Util) (n : Str) : Prop := ∃ r, NonRedName U n r ∧ r

end Verif.Spec
