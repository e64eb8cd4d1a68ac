import Verif.Spec.WetOps
import Verif.Gen.WetCert

/-!
# Checkers for the WET tables (definitions)

Executable checks, run by the kernel in `Verif.Lemmas.WetCert`, with their soundness there.
-/

set_option autoImplicit false

namespace Verif.WetTab
open Verif Verif.Rotation

/-- all relations -/
def Step.all : List Step := [.swap, .adj, .fierz, .anti, .real]

/-- the allowed relations (`stepsOf_eq` in `Lemmas/WetCert.lean`) -/
def stepsOf : WKey → List Step
  | .G | .Gtilde => [.real]
  | .VuuRR | .VddRR | .VuuLL | .VddLL => [.swap, .adj]
  | .S1ddRR | .S1uuRR | .S8uuRR | .SeeRR | .S8ddRR => [.swap]
  | .VnueLL | .VnuuLL | .VnudLL | .VeuLL | .VedLL | .V1udLL | .V8udLL | .VeuRR | .VedRR
  | .V1udRR | .V8udRR | .VnueLR | .VeeLR | .VnuuLR | .VnudLR | .VeuLR | .VedLR | .VueLR
  | .VdeLR | .V1uuLR | .V8uuLR | .V1udLR | .V8udLR | .V1duLR | .V8duLR | .V1ddLR | .V8ddLR => [.adj]
  | .VeeLL | .VeeRR | .VnunuLL => [.swap, .adj, .fierz]
  | .SuudLR | .SuudRL | .SdduRL => [.anti]
  | _ => []

/-- names related to a name by the allowed relations -/
def relatives (k : WKey) (ix : List ℕ) : List (List ℕ × Bool × Bool) :=
  (stepsOf k).foldl (fun l s =>
    l ++ l.map fun y => (s.act y.1, xor y.2.1 s.conj, xor y.2.2 s.neg)) [(ix, false, false)]

/-- evaluate a number before it is used (the kernel evaluates lazily) -/
def force {α : Type} (n : ℕ) (k : ℕ → α) : α :=
  match n with
  | 0 => k 0
  | m + 1 => k (Nat.succ m)

/-- evaluate the indices before they are used -/
def forceIx {α : Type} (l : List ℕ) (k : List ℕ → α) : α :=
  match l with
  | [a, b, c, d] => force a fun a => force b fun b => force c fun c => force d fun d => k [a, b, c, d]
  | [a, b] => force a fun a => force b fun b => k [a, b]
  | l => k l

/-- equality of booleans, for the kernel -/
def beqB : Bool → Bool → Bool
  | true, b => b
  | false, b => !b

/-- entry `j` of a packed list of images -/
def tgt (cert j : ℕ) : ℕ := Nat.mod (Nat.shiftRight cert (Nat.mul 12 j)) 4096
/-- position -/
def tpos (cert j : ℕ) : ℕ := tgt cert j / 4
/-- conjugated -/
def tconj (cert j : ℕ) : Bool := Nat.beq (tgt cert j / 2 % 2) 1
/-- opposite sign -/
def tneg (cert j : ℕ) : Bool := Nat.beq (tgt cert j % 2) 1

/-- the masses by number -/
def qOf : ℕ → List Q
  | 1 => [.u] | 2 => [.d] | 3 => [.s] | 4 => [.c] | 5 => [.b] | 6 => [.e] | 7 => [.mu] | 8 => [.tau]
  | _ => []

/-- mass of the coefficient `j` of a sector by number (0 unless it is a dipole) -/
def massNo (ms j : ℕ) : ℕ := Nat.mod (Nat.shiftRight ms (Nat.mul 4 j)) 16

/-- the mass a dipole is normalised with -/
def massOf (c : Coef) : List Q :=
  match c.1, ixOf c with
  | .uG, [i, j] => [if Nat.max i j = 1 then .u else .c]
  | .ugamma, [i, j] => [if Nat.max i j = 1 then .u else .c]
  | .dG, [i, j] => [if Nat.max i j = 1 then .d else if Nat.max i j = 2 then .s else .b]
  | .dgamma, [i, j] => [if Nat.max i j = 1 then .d else if Nat.max i j = 2 then .s else .b]
  | .egamma, [i, j] => [if Nat.max i j = 1 then .e else if Nat.max i j = 2 then .mu else .tau]
  | _, _ => []

/-- the entry with the opposite sign (entries with `b0g` do not occur with it) -/
def Ent.flip : Ent → Option Ent
  | .p k l => some (.n k l)
  | .n k l => some (.p k l)
  | .b _ _ _ _ => none
  | .mp k l x y => some (.mn k l x y)
  | .mn k l x y => some (.mp k l x y)
  | .i _ _ => none

/-- with a sign; imaginary entries also change sign under complex conjugation -/
def Ent.signed (e : Ent) (neg conj : Bool) : Option Ent :=
  match e with
  | .i k l => match xor neg conj with
    | true => none
    | false => some (.i k l)
  | e => match neg with
    | true => e.flip
    | false => some e

/-- remove common factors -/
def cancel : List Q → List Q → List Q × List Q
  | [], den => ([], den)
  | x :: num, den =>
    if x ∈ den then cancel num (den.erase x)
    else match cancel num den with
      | (a, b) => (x :: a, b)

/-- numbers of an entry with other masses -/
def Ent.setMasses (e : Ent) (nd : List Q × List Q) : Option Ent :=
  match nd with
  | ([], []) => match e with
    | .mp k l _ _ => some (.p k l)
    | .mn k l _ _ => some (.n k l)
    | e => some e
  | ([x], [y]) => match e with
    | .p k l => some (.mp k l x y)
    | .n k l => some (.mn k l x y)
    | .mp k l _ _ => some (.mp k l x y)
    | .mn k l _ _ => some (.mn k l x y)
    | _ => none
  | _ => none

/-- masses in the numerator and denominator of an entry -/
def Ent.num : Ent → List Q
  | .mp _ _ x _ => [x]
  | .mn _ _ x _ => [x]
  | _ => []
/-- masses in the denominator of an entry -/
def Ent.den : Ent → List Q
  | .mp _ _ _ y => [y]
  | .mn _ _ _ y => [y]
  | _ => []

/-- the entry expected between the images of two coefficients; `ma`, … are the masses (by number)
of the two coefficients and their images -/
def transform (σ : Q → Q) (e : Ent) (neg conj : Bool) (ma mb ma' mb' : ℕ) : Option Ent :=
  match Nat.beq (ma + mb + ma' + mb') 0, e with
  | true, .p k l => (Ent.p k l).signed neg conj
  | true, .n k l => (Ent.n k l).signed neg conj
  | _, e => match e.signed neg conj with
    | none => none
    | some e => e.setMasses (cancel ((e.num ++ qOf mb).map σ ++ qOf ma')
        ((e.den ++ qOf ma).map σ ++ qOf mb'))

/-- a number identifying an entry -/
def Ent.code : Ent → ℕ
  | .p k l => 1 + 8 * (k + 1125899906842624 * l)
  | .n k l => 2 + 8 * (k + 1125899906842624 * l)
  | .b k l k' l' => 3 + 8 * (k + 1024 * (l + 1024 * (k' + 1024 * l')))
  | .mp k l x y => 4 + 8 * (k + 1125899906842624 * (l + 1125899906842624 * (x.ctorIdx + 8 * y.ctorIdx)))
  | .mn k l x y => 5 + 8 * (k + 1125899906842624 * (l + 1125899906842624 * (x.ctorIdx + 8 * y.ctorIdx)))
  | .i k l => 6 + 8 * (k + 1024 * l)

/-- the numbers in an entry are small -/
def Ent.small : Ent → Bool
  | .p k l => Nat.ble k 1125899906842623 && Nat.ble l 1125899906842623
  | .n k l => Nat.ble k 1125899906842623 && Nat.ble l 1125899906842623
  | .b k l k' l' => Nat.ble k 1023 && Nat.ble l 1023 && Nat.ble k' 1023 && Nat.ble l' 1023
  | .mp k l _ _ => Nat.ble k 1125899906842623 && Nat.ble l 1125899906842623
  | .mn k l _ _ => Nat.ble k 1125899906842623 && Nat.ble l 1125899906842623
  | .i k l => Nat.ble k 1023 && Nat.ble l 1023

/-- code of an entry that may be missing (7 is not the code of an entry) -/
def codeO : Option Ent → ℕ
  | none => 7
  | some e => e.code

/-- a row as one number, 112 bits per entry; `κ` renumbers the columns -/
def rowNum (κ : ℕ → ℕ) (cd : ℕ → Ent → ℕ) : List (ℕ × Ent) → ℕ
  | [] => 0
  | (j, e) :: rest => Nat.lor (Nat.shiftLeft (cd j e) (Nat.mul 112 (κ j))) (rowNum κ cd rest)

/-- element of a list, for the kernel -/
noncomputable def getF {α : Type} (d : α) (l : List α) : ℕ → α :=
  List.rec (fun _ => d) (fun a _ ih n => Nat.rec a (fun m _ => ih m) n) l

theorem getF_eq {α : Type} (d : α) (l : List α) (n : ℕ) : getF d l n = l.getD n d := by
  induction l generalizing n with
  | nil => rfl
  | cons a l ih =>
    cases n with
    | zero => rfl
    | succ n => exact ih n

/-- row `i` of the matrix of `S` (`row`), transformed, is the row of the image in the matrix of `S'` -/
noncomputable def rowOK (σ : Q → Q) (S S' : Sec) (cert : ℕ) (row : List (ℕ × Ent)) (R' : Rows) (i : ℕ) : Bool :=
  Nat.beq
    (rowNum (tpos cert) (fun j e => codeO (transform σ e (xor (tneg cert i) (tneg cert j))
      (tconj cert j) (massNo S.ms i) (massNo S.ms j) (massNo S'.ms (tpos cert i))
      (massNo S'.ms (tpos cert j)))) row)
    (rowNum (fun j => j) (fun _ e => e.code) (getF [] R' (tpos cert i)))

/-- the rows from number `i` on; the number of rows is `n` (missing rows are empty) -/
noncomputable def matOK (σ : Q → Q) (S S' : Sec) (cert : ℕ) (R' : Rows) (n : ℕ) (R : Rows) : ℕ → Bool :=
  List.rec (fun i => (List.range (Nat.sub n i)).all fun k => force (Nat.add i k) fun k => rowOK σ S S' cert [] R' k)
    (fun row _ ih i => force i fun i => rowOK σ S S' cert row R' i && ih (Nat.succ i)) R

theorem matOK_row {σ : Q → Q} {S S' : Sec} {cert : ℕ} {R' : Rows} {n : ℕ} {R : Rows} {i0 : ℕ}
    (h : matOK σ S S' cert R' n R i0 = true) :
      ∀ i, i0 + i < n → rowOK σ S S' cert (R.getD i []) R' (i0 + i) = true := by
  have e : ∀ (i0 : ℕ) (f : ℕ → Bool), force i0 f = f i0 := fun i0 f => by cases i0 <;> rfl
  induction R generalizing i0 with
  | nil =>
    intro i hi
    have := List.all_eq_true.1 h i (List.mem_range.2 (show i < n - i0 by omega))
    rw [e] at this
    exact this
  | cons row R ih =>
    have h' : (force i0 fun i => rowOK σ S S' cert row R' i && matOK σ S S' cert R' n R (Nat.succ i)) = true := h
    rw [e, Bool.and_eq_true] at h'
    intro i hi
    cases i with
    | zero => exact h'.1
    | succ i =>
      have := ih h'.2 i (by omega)
      rw [show i0 + (i + 1) = Nat.succ i0 + i from by omega]
      exact this

/-- a row is well formed: increasing columns below `n`, small numbers -/
def rowWF (n : ℕ) : ℕ → List (ℕ × Ent) → Bool
  | _, [] => true
  | m, (j, e) :: rest => Nat.ble m j && Nat.blt j n && e.small && rowWF n (j + 1) rest

/-- a matrix is well formed -/
def matWF (n : ℕ) (R : Rows) : Bool := Nat.beq R.length n && R.all (rowWF n 0)

/-- the number of an index tuple -/
def numOf : List ℕ → ℕ
  | [p, r, s, t] => 1000 * p + 100 * r + 10 * s + t
  | [p, r] => 10 * p + r
  | _ => 0

/-- the number of a coefficient -/
def ccode (k : WKey) (m : ℕ) : ℕ := Nat.succ (Nat.add (Nat.mul 10000 k.ctorIdx) m)

/-- the images of the names, from position `i` on -/
def namesOK (imgs : Coef → List ℕ → List (WKey × List ℕ × Bool × Bool)) (cn cert : ℕ) :
    ℕ → List Coef → Bool
  | _, [] => true
  | i, a :: rest =>
    force i fun i =>
    (force (Nat.mod (Nat.shiftRight cn (Nat.mul 20 (tpos cert i))) 1048576) fun m =>
      forceIx (ixOf a) fun ix =>
        (imgs a ix).any fun y => Nat.beq m (ccode y.1 (numOf y.2.1)) &&
          beqB (tconj cert i) y.2.2.1 && beqB (tneg cert i) y.2.2.2) &&
    namesOK imgs cn cert (i + 1) rest

/-- the images are different -/
def backOK (cert cert' : ℕ) (n : ℕ) : Bool :=
  (List.range n).all fun i => Nat.beq (tpos cert' (tpos cert i)) i

/-- sector `S` with number `n` -/
noncomputable def secOK (σ : Q → Q) (imgs : Coef → List ℕ → List (WKey × List ℕ × Bool × Bool)) (img : List (ℕ × ℕ)) (n : ℕ) (S : Sec) :
    Bool :=
  match img.getD n (0, 0) with
  | (0, _) => S.coefs.all fun a => match imgs a (ixOf a) with
    | [] => true
    | _ :: _ => false
  | (n' + 1, cert) =>
    match secs[n']?, img.getD n' (0, 0) with
    | some S', (n'' + 1, cert') =>
      Nat.beq n'' n && namesOK imgs S'.cn cert 0 S.coefs && backOK cert cert' S.coefs.length &&
        Nat.beq S.coefs.length S'.coefs.length &&
        matOK σ S S' cert S'.rE S.coefs.length S.rE 0 &&
        matOK σ S S' cert S'.rS S.coefs.length S.rS 0
    | _, _ => false

/-- all sectors -/
noncomputable def symOK (σ : Q → Q) (imgs : Coef → List ℕ → List (WKey × List ℕ × Bool × Bool)) (img : List (ℕ × ℕ)) : ℕ → List Sec → Bool
  | _, [] => true
  | n, S :: rest => secOK σ imgs img n S && symOK σ imgs img (n + 1) rest

theorem symOK_append (σ : Q → Q) (imgs : Coef → List ℕ → List (WKey × List ℕ × Bool × Bool))
    (img : List (ℕ × ℕ)) (n : ℕ) (l l' : List Sec) :
    symOK σ imgs img n (l ++ l') = (symOK σ imgs img n l && symOK σ imgs img (n + l.length) l') := by
  induction l generalizing n with
  | nil => rfl
  | cons S l ih =>
    rw [List.cons_append, symOK, symOK, ih, Bool.and_assoc, List.length_cons,
      show n + 1 + l.length = n + (l.length + 1) from by omega]

/-- the check in pieces (the kernel's memory is freed after each) -/
theorem symOK_pieces {σ : Q → Q} {imgs : Coef → List ℕ → List (WKey × List ℕ × Bool × Bool)}
    {img : List (ℕ × ℕ)} (h1 : symOK σ imgs img 0 (secs.take 30) = true)
    (h2 : symOK σ imgs img 30 ((secs.drop 30).take 24) = true)
    (h3 : symOK σ imgs img 54 ((secs.drop 54).take 1) = true)
    (h4 : symOK σ imgs img 55 (secs.drop 55) = true) : symOK σ imgs img 0 secs = true := by
  have e : secs = secs.take 30 ++ ((secs.drop 30).take 24 ++ ((secs.drop 54).take 1 ++ secs.drop 55)) := by
    rfl
  have l1 : (secs.take 30).length = 30 := rfl
  have l2 : ((secs.drop 30).take 24).length = 24 := rfl
  have l3 : ((secs.drop 54).take 1).length = 1 := rfl
  rw [e, symOK_append, symOK_append, symOK_append, l1, l2, l3]
  simp only [Nat.zero_add, Nat.reduceAdd]
  rw [h1, h2, h3, h4]
  rfl

/-- exchange of the generations `x`, `y` of one species, on an index -/
def exch (x y i : ℕ) : ℕ := if i = x then y else if i = y then x else i

/-- on the indices of an operator -/
def exchIx (sp : Sp) (x y : ℕ) (k : WKey) (ix : List ℕ) : List ℕ :=
  List.zipWith (fun F i => if F.sp = sp then exch x y i else i) (fields k) ix

/-- images of a name under an exchange -/
def exchImgs (sp : Sp) (x y : ℕ) (c : Coef) (ix : List ℕ) : List (WKey × List ℕ × Bool × Bool) :=
  forceIx (exchIx sp x y c.1 ix) fun jx => (relatives c.1 jx).map fun r => (c.1, r)

/-- images of a name under parity -/
def parityImgs (c : Coef) (ix : List ℕ) : List (WKey × List ℕ × Bool × Bool) :=
  match parity c.1 ix with
  | none => []
  | some (k, ix, cj, ng) => (relatives k ix).map fun r => (k, r.1, xor r.2.1 cj, xor r.2.2 ng)

/-- exchange of two masses -/
def qswap (x y q : Q) : Q := if q = x then y else if q = y then x else q

end Verif.WetTab
