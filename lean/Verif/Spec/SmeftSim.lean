import Verif.Model.SmeftSim
import Verif.Spec.Smeft
import Mathlib.Analysis.SpecialFunctions.Complex.Circle

/-!
# Specification: reading a SMEFTsim parameter card

SMEFTsim parametrises every independent complex coefficient by its modulus (`…Abs…`) and its
phase (`…Ph…`), and every real one by a single real parameter, in units of the cutoff:
`C = Abs · exp(i Ph) / Λ²`.  A coefficient without phase parameter is real and its parameter may
be negative.
-/

set_option autoImplicit false

namespace Verif.Spec
open Verif Verif.EFT Verif.Beta Verif.Bridge Verif.SmeftSim

/-- the names of the operators in SMEFTsim, model sets A and B -/
def simTable : List (Key × String × String) := [
  (.G, "cG", "cG"), (.Gtilde, "cGtil", "cGtil"), (.W, "cW", "cW"), (.Wtilde, "cWtil", "cWtil"),
  (.phi, "cH", "cH"), (.phiBox, "cHbox", "cHBox"), (.phiD, "cHDD", "cHDD"),
  (.phiG, "cHG", "cHG"), (.phiB, "cHB", "cHB"), (.phiW, "cHW", "cHW"), (.phiWB, "cHWB", "cHWB"),
  (.phiGtilde, "cHGtil", "cHGtil"), (.phiBtilde, "cHBtil", "cHBtil"),
  (.phiWtilde, "cHWtil", "cHWtil"), (.phiWtildeB, "cHWBtil", "cHWBtil"),
  (.uphi, "cuH", "cuH"), (.dphi, "cdH", "cdH"), (.ephi, "ceH", "ceH"),
  (.eW, "ceW", "ceW"), (.eB, "ceB", "ceB"), (.uG, "cuG", "cuG"), (.uW, "cuW", "cuW"),
  (.uB, "cuB", "cuB"), (.dG, "cdG", "cdG"), (.dW, "cdW", "cdW"), (.dB, "cdB", "cdB"),
  (.phil1, "cHl1", "cHl1"), (.phil3, "cHl3", "cHL3"), (.phie, "cHe", "cHe"),
  (.phiq1, "cHq1", "cHq1"), (.phiq3, "cHq3", "cHQ3"), (.phiu, "cHu", "cHu"),
  (.phid, "cHd", "cHd"), (.phiud, "cHud", "cHud"),
  (.ll, "cll", "cll"), (.qq1, "cqq1", "cqq1"), (.qq3, "cqq3", "cQQ3"), (.lq1, "clq1", "clq1"),
  (.lq3, "clq3", "cLQ3"), (.ee, "cee", "cee"), (.uu, "cuu", "cuu"), (.dd, "cdd", "cdd"),
  (.eu, "ceu", "ceu"), (.ed, "ced", "ced"), (.ud1, "cud1", "cud1"), (.ud8, "cud8", "cUD8"),
  (.le, "cle", "cle"), (.lu, "clu", "clu"), (.ld, "cld", "cld"), (.qe, "cqe", "cqe"),
  (.qu1, "cqu1", "cqu1"), (.qu8, "cqu8", "cQU8"), (.qd1, "cqd1", "cqd1"), (.qd8, "cqd8", "cQD8"),
  (.ledq, "cledq", "cledq"), (.quqd1, "cquqd1", "cquqd1"), (.quqd8, "cquqd8", "cQUQD8"),
  (.lequ1, "clequ1", "clequ1"), (.lequ3, "clequ3", "cLeQu3")]

/-- the name of an operator in the given model set -/
def simName (set : ModelSet) (k : Key) : Str :=
  match simTable.lookup k with
  | some (a, b) => (match set with | .A => a | .B => b).toList
  | none => []

/-- the operators of the Warsaw basis that SMEFTsim does not contain: the dimension-five operator
and those violating baryon number -/
def notInSim : List Key := [.llphiphi, .duql, .qque, .qqql, .duue]

/-- flavour indices (from 0) of a non-redundant entry of the operator; `r` says whether the
coefficient is real -/
inductive IsEntry (k : Key) : List ℕ → Prop → Prop
  | scalar (h : rankOf k = 0) : IsEntry k [] True
  | two (i : I2) (h : rankOf k = 2) (hn : NonRedOf2 (fullClass k) i) :
      IsEntry k (Util.idx2 i) (RealOf2 (fullClass k) i)
  | four (i : I4) (h : rankOf k = 4) (hn : NonRedOf4 (fullClass k) i) :
      IsEntry k (Util.idx4 i) (RealOf4 (fullClass k) i)

/-- exchange of the two currents, and of the second and fourth index -/
def exchL : List ℕ → List ℕ
  | [i, j, k, l] => [k, l, i, j]
  | x => x
def fierzL : List ℕ → List ℕ
  | [i, j, k, l] => [i, l, k, j]
  | x => x

/-- index permutations that leave the operator unchanged: exchange of identical currents, and
for four identical right-handed leptons also the Fierz identity -/
def permsOf (k : Key) : List (List ℕ → List ℕ) :=
  if fullClass k = 4 then [exchL] else if fullClass k = 6 then [exchL, fierzL] else []

/-- the entry of an array dictionary -/
def entryOf (C : Dict Str AVal) (k : Key) (fl : List ℕ) : ℂ :=
  match C.get? (keyName k) with
  | some (.num z) => z
  | some (.arr a) => a.get fl
  | none => 0

/-- the real number printed in the row with this label, if there is such a row -/
def realAt (card : List Entry) (l : Label) : Option ℝ :=
  match card.find? fun e => decide (e.label = l) with
  | some ⟨_, _, .real x, _⟩ => some x
  | _ => none

/-- does the card have a row with this label? -/
def hasRow (card : List Entry) (l : Label) : Prop := ∃ e ∈ card, e.label = l

open Classical in
/-- The coefficient a card stands for: `Abs · exp(i Ph) / Λ²`, the phase being 0 if the card has no
phase parameter for it.  `none` if a number is missing. -/
noncomputable def cardCoeff (card : List Entry) (stem : Str) (fl : List ℕ) : Option ℂ :=
  (realAt card .cutoff).bind fun Λ =>
  (realAt card (.coef stem (if fl = [] then .none else .abs) fl)).bind fun a =>
  (if hasRow card (.coef stem .ph fl) then realAt card (.coef stem .ph fl) else some 0).map fun φ =>
    (a : ℂ) / (Λ : ℂ) ^ 2 * Complex.exp (φ * Complex.I)

/-- the real coefficients of which the code prints the absolute value: the diagonal entries of the
Higgs-fermion currents, and in model set A `ee_3333` -/
def unsigned (set : ModelSet) (k : Key) (fl : List ℕ) : Prop :=
  (k ∈ [Key.phil1, .phil3, .phie, .phiq1, .phiq3, .phiu, .phid] ∧ fl ∈ [[0, 0], [1, 1], [2, 2]]) ∨
    (set = .A ∧ k = .ee ∧ fl = [2, 2, 2, 2])

instance (set : ModelSet) (k : Key) (fl : List ℕ) : Decidable (unsigned set k fl) := by
  unfold unsigned; infer_instance

end Verif.Spec
