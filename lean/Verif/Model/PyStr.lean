import Mathlib.Data.Nat.Log
import Mathlib.Data.Int.Basic

/-!
# Strings of the mini-Python interpreter

Strings are represented by numbers: the base 256 digits of `n!"abc"` are 1 (a sentinel) followed by the
ASCII codes of the characters.
-/

set_option autoImplicit false

namespace Verif.Py

/-! ## Strings as numbers -/

/-- the code of a string -/
def encode (s : List Char) : ℕ := s.foldl (fun a c => a * 256 + c.toNat) 1

/-- the characters of a code, last one first -/
def decodeAux : ℕ → ℕ → List Char
  | 0, _ => []
  | k + 1, n => if n < 256 then [] else Char.ofNat (n % 256) :: decodeAux k (n / 256)

/-- the string with a given code (at most 64 characters, longer than any name) -/
def decode (n : ℕ) : String := String.ofList (decodeAux 64 n).reverse

/-- the code of a string -/
def code (s : String) : ℕ := encode s.toList

/-- `n!"abc"` is the number representing the string (computed when the term is elaborated) -/
macro:max "n!" s:str : term => do
  let n := s.getString.toList.foldl (fun a c => a * 256 + c.toNat) 1
  let l : Lean.TSyntax `num := ⟨Lean.Syntax.mkNumLit (toString n)⟩
  `(nat_lit $l)

/-- `forceN n k = k n`; makes the kernel evaluate the number before it is used -/
noncomputable def forceN {α : Type} (n : ℕ) (k : ℕ → α) : α :=
  Nat.rec (k 0) (fun m _ => k (Nat.succ m)) n

theorem forceN_eq {α : Type} (n : ℕ) (k : ℕ → α) : forceN n k = k n := by
  cases n <;> rfl

/-- number of base 256 digits after the first one, plus `n`, for numbers below `256 ^ 2`, … `256 ^ 32` -/
def slen2 (s n : ℕ) : ℕ := bif Nat.blt s (nat_lit 256) then n else Nat.succ n
def slen4 (s n : ℕ) : ℕ := bif Nat.blt s (nat_lit 65536) then slen2 s n else slen2 (Nat.div s (nat_lit 65536)) (Nat.add n 2)
def slen8 (s n : ℕ) : ℕ := bif Nat.blt s (nat_lit 4294967296) then slen4 s n else slen4 (Nat.div s (nat_lit 4294967296)) (Nat.add n 4)
def slen16 (s n : ℕ) : ℕ :=
  bif Nat.blt s (nat_lit 18446744073709551616) then slen8 s n
  else slen8 (Nat.div s (nat_lit 18446744073709551616)) (Nat.add n 8)
def slen32 (s n : ℕ) : ℕ :=
  bif Nat.blt s (nat_lit 340282366920938463463374607431768211456) then slen16 s n
  else slen16 (Nat.div s (nat_lit 340282366920938463463374607431768211456)) (Nat.add n 16)

/-- number of characters (of a string with less than 32 characters) -/
def slen (s : ℕ) : ℕ := slen32 s 0

/-- concatenation -/
noncomputable def sapp (a b : ℕ) : ℕ := forceN (Nat.pow 256 (slen b)) fun p => Nat.add (Nat.mul a p) (Nat.mod b p)

/-- `s[:n]` -/
def stake (s n : ℕ) : ℕ := Nat.div s (Nat.pow 256 (Nat.sub (slen s) n))

/-- `s[n:]` -/
noncomputable def sdrop (s n : ℕ) : ℕ := forceN (Nat.pow 256 (Nat.sub (slen s) n)) fun p => Nat.add (Nat.mod s p) p

/-- `s[i]` -/
noncomputable def schar (s i : ℕ) : ℕ := forceN (sdrop s i) fun s => stake s 1

/-- the characters of a string (as codes), last character first -/
def srevChars : ℕ → ℕ → List ℕ
  | 0, _ => []
  | k + 1, s => Nat.mod s 256 :: srevChars k (Nat.div s 256)

/-- the characters of a string (as codes) -/
def schars (s : ℕ) : List ℕ := (srevChars (slen s) s).reverse

/-- the string with the given characters -/
def ofChars (l : List ℕ) : ℕ := l.foldl (fun a c => Nat.add (Nat.mul a 256) c) 1

/-- `s[::-1]` -/
def srev (s : ℕ) : ℕ := ofChars (srevChars (slen s) s)

/-- `k * s` -/
noncomputable def srep : ℕ → ℕ → ℕ
  | 0, _ => 1
  | k + 1, s => sapp (srep k s) s

/-- position of the first occurrence of a character in a list -/
def indexOf (c : ℕ) : List ℕ → ℕ → ℤ
  | [], _ => -1
  | x :: l, i => bif Nat.beq x c then (i : ℤ) else indexOf c l (i + 1)

/-- `s.find(c, start)` for a one-character string `c` -/
def sfind (s c start : ℕ) : ℤ := indexOf (c % 256) ((schars s).drop start) start

/-- the smaller of two numbers -/
def nmin (a b : ℕ) : ℕ := bif Nat.ble a b then a else b

/-- `p` is a prefix of `l` -/
def isPfx : List ℕ → List ℕ → Bool
  | [], _ => true
  | _ :: _, [] => false
  | a :: p, b :: l => bif Nat.beq a b then isPfx p l else false

/-- delete the non-overlapping occurrences of `p` from left to right; the second argument counts the
characters of an occurrence that are still to be deleted -/
def deleteAll (p : List ℕ) : List ℕ → ℕ → List ℕ
  | [], _ => []
  | _ :: l, k + 1 => deleteAll p l k
  | c :: l, 0 => bif isPfx p (c :: l) then deleteAll p l (p.length - 1) else c :: deleteAll p l 0

/-- `s.replace(p, '')` for a nonempty `p` -/
def sremove (s p : ℕ) : ℕ := ofChars (deleteAll (schars p) (schars s) 0)

/-- decimal representation of a natural number less than 100 -/
def natStr (n : ℕ) : ℕ :=
  bif Nat.blt n 10 then Nat.add 304 n else Nat.add (Nat.mul (Nat.add 304 (Nat.div n 10)) 256) (Nat.add 48 (Nat.mod n 10))

/-- `str(n)` -/
noncomputable def intStr : ℤ → ℕ
  | .ofNat n => natStr n
  | .negSucc n => sapp n!"-" (natStr (n + 1))

/-- `int(s)` for a string of digits -/
def strInt (s : ℕ) : ℕ := (schars s).foldl (fun a c => a * 10 + (c - 48)) 0

/-! ## Search trees of strings -/

inductive NTree
  | leaf
  | node (l : NTree) (k : ℕ) (r : NTree)

/-- membership in a binary search tree -/
def NTree.mem (x : ℕ) : NTree → Bool
  | .leaf => false
  | .node l k r => bif Nat.beq x k then true else bif Nat.blt x k then l.mem x else r.mem x

/-- the elements in order -/
def NTree.toList : NTree → List ℕ
  | .leaf => []
  | .node l k r => l.toList ++ k :: r.toList

/-! ## Dictionaries as search trees

The order of the keys is that of a hash, to keep the trees shallow. -/

/-- any function will do; this one scatters the names -/
@[irreducible] def hash (k : ℕ) : ℕ :=
  Nat.mod (Nat.mul k 0x9E3779B97F4A7C15F39CC0605CEDC835) 340282366920938463463374607431768211297

inductive DTree (α : Type)
  | leaf
  | node (l : DTree α) (h k : ℕ) (v : α) (r : DTree α)

/-- lookup -/
noncomputable def DTree.get {α : Type} (h k : ℕ) (t : DTree α) : Option α :=
  DTree.rec none (fun _ h' k' v _ ihl ihr =>
    Bool.rec (Bool.rec ihr ihl (Nat.ble (Nat.succ h) h')) (some v) (Nat.beq k k')) t

theorem DTree.get_leaf {α : Type} (h k : ℕ) : (DTree.leaf : DTree α).get h k = none := rfl

theorem DTree.get_node {α : Type} (h k : ℕ) (l : DTree α) (h' k' : ℕ) (v : α) (r : DTree α) :
    (DTree.node l h' k' v r).get h k =
      bif Nat.beq k k' then some v else bif Nat.blt h h' then l.get h k else r.get h k := by
  show (Bool.rec (Bool.rec (r.get h k) (l.get h k) (Nat.blt h h')) (some v) (Nat.beq k k') : Option α) = _
  cases Nat.beq k k'
  · cases Nat.blt h h' <;> rfl
  · rfl

/-- `forceT t k = k t`; makes the kernel evaluate the tree before it is used -/
noncomputable def forceT {α β : Type} (t : DTree α) (c : DTree α → β) : β :=
  DTree.rec (c .leaf) (fun l h k v r _ _ => c (.node l h k v r)) t

theorem forceT_eq {α β : Type} (t : DTree α) (c : DTree α → β) : forceT t c = c t := by
  cases t <;> rfl

/-- `d[k] = v` -/
noncomputable def DTree.put {α : Type} (h k : ℕ) (v : α) (t : DTree α) : DTree α :=
  DTree.rec (.node .leaf h k v .leaf) (fun l h' k' v' r ihl ihr =>
    Bool.rec (Bool.rec (forceT ihr fun r => .node l h' k' v' r) (forceT ihl fun l => .node l h' k' v' r)
      (Nat.ble (Nat.succ h) h')) (.node l h' k' v r) (Nat.beq k k')) t

theorem DTree.put_leaf {α : Type} (h k : ℕ) (v : α) : (DTree.leaf : DTree α).put h k v = .node .leaf h k v .leaf := rfl

theorem DTree.put_node {α : Type} (h k : ℕ) (v : α) (l : DTree α) (h' k' : ℕ) (v' : α) (r : DTree α) :
    (DTree.node l h' k' v' r).put h k v =
      bif Nat.beq k k' then .node l h' k' v r
      else bif Nat.blt h h' then forceT (l.put h k v) fun l => .node l h' k' v' r
      else forceT (r.put h k v) fun r => .node l h' k' v' r := by
  show (Bool.rec (Bool.rec (forceT (r.put h k v) fun r => .node l h' k' v' r)
    (forceT (l.put h k v) fun l => .node l h' k' v' r) (Nat.blt h h')) (.node l h' k' v r) (Nat.beq k k') : DTree α) = _
  cases Nat.beq k k'
  · cases Nat.blt h h' <;> rfl
  · rfl

/-- the items -/
def DTree.toList {α : Type} : DTree α → List (ℕ × α)
  | .leaf => []
  | .node l _ k v r => l.toList ++ (k, v) :: r.toList

/-- `d.update(e)` for a list of items -/
noncomputable def DTree.putAll {α : Type} (d : DTree α) : List (ℕ × α) → DTree α
  | [] => d
  | (k, v) :: l => forceT (forceN (hash k) fun h => d.put h k v) fun d => d.putAll l

end Verif.Py
