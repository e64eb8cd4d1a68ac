import Verif.Lemmas.WetRunsFF
import Verif.Model.WetEos
import Verif.Gen.WetOutE

/-!
# The result of `JMS_to_EOS`

Running the interpreter on the source of `JMS_to_EOS` gives the formulas in `Gen/WetOutE`.

(The import of `WetRunsFF` only serves to build one of these memory-hungry files after the other.)
-/

set_option autoImplicit false

namespace Verif.WetEos
open Verif.Py

/-- `eosOutputs`, evaluated fast -/
noncomputable def eosOutputsR : Res (List (ℕ × Sym) × List (ℕ × List Sym)) :=
  wetPyR n!"JMS_to_EOS" [.inputs, .none, .none, .none] >>- asTree >>- fun t => split t.toList

theorem eosOutputsR_eq : eosOutputsR = eosOutputs := by
  unfold eosOutputsR eosOutputs translate
  rw [wetPyR_eq]

def sameList : List Sym → List Sym → Bool
  | [], [] => true
  | a :: l, b :: m => bif a.same b then sameList l m else false
  | _, _ => false

theorem sameList_sound : ∀ {l m : List Sym}, sameList l m = true → l = m
  | [], [], _ => rfl
  | [], _ :: _, h => by cases h
  | _ :: _, [], h => by cases h
  | a :: l, b :: m, h => by
    obtain ⟨h1, h2⟩ := cond_and h
    rw [Sym.same_sound h1, sameList_sound h2]

def sameArrays : List (ℕ × List Sym) → List (ℕ × List Sym) → Bool
  | [], [] => true
  | (k, s) :: l, (k', s') :: l' =>
    bif Nat.beq k k' then bif sameList s s' then sameArrays l l' else false else false
  | _, _ => false

theorem sameArrays_sound : ∀ {l m : List (ℕ × List Sym)}, sameArrays l m = true → l = m
  | [], [], _ => rfl
  | [], _ :: _, h => by cases h
  | (_, _) :: _, [], h => by cases h
  | (k, s) :: l, (k', s') :: m, h => by
    obtain ⟨h1, h2⟩ := cond_and h
    obtain ⟨h2, h3⟩ := cond_and h2
    rw [Nat.eq_of_beq_eq_true h1, sameList_sound h2, sameArrays_sound h3]

def isResult (r : Res (List (ℕ × Sym) × List (ℕ × List Sym))) (l : List (ℕ × Sym)) (a : List (ℕ × List Sym)) : Bool :=
  match r with
  | .ok p => bif sameItems p.1 l then sameArrays p.2 a else false
  | .error _ => false

theorem isResult_sound {r : Res (List (ℕ × Sym) × List (ℕ × List Sym))} {l : List (ℕ × Sym)}
    {a : List (ℕ × List Sym)} (h : isResult r l a = true) : r = .ok (l, a) := by
  cases r with
  | error e => cases h
  | ok p =>
    obtain ⟨h1, h2⟩ := cond_and h
    rw [← sameItems_sound h1, ← sameArrays_sound h2]

set_option maxRecDepth 100000 in
theorem run_JMS_to_EOS : eosOutputs = .ok (Gen.WetOut.JMS_to_EOS, Gen.WetOut.JMS_to_EOS_arrays) := by
  rw [← eosOutputsR_eq]
  exact isResult_sound (by decide +kernel)

end Verif.WetEos
