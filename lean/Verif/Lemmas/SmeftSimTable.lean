import Verif.Spec.SmeftSim
import Verif.Lemmas.SmeftBasis

/-! The tables of the SMEFTsim cards: every row is labelled by its coefficient, every coefficient
has its rows, no label and no position occurs twice. -/

set_option autoImplicit false

namespace Verif.SmeftSim
open Verif Verif.EFT Verif.EFT.Util Verif.Beta Verif.Bridge Verif.Spec Verif.Reflect

/-! ### sets of numbers as bits -/

/-- collects numbers in a bit set; `none` if a number occurs twice -/
def addAll : List ℕ → ℕ → Option ℕ
  | [], m => some m
  | c :: cs, m => bif Nat.beq (Nat.land (Nat.shiftRight m c) 1) 0 then addAll cs (Nat.lor m (Nat.shiftLeft 1 c)) else none

theorem bit_iff (m c : ℕ) : Nat.beq (Nat.land (Nat.shiftRight m c) 1) 0 = !m.testBit c := by
  have : m.testBit c = (1 &&& (m >>> c) != 0) := rfl
  rw [this, show Nat.land (Nat.shiftRight m c) 1 = 1 &&& (m >>> c) from Nat.and_comm _ _]
  rw [bne, Bool.not_not, Bool.eq_iff_iff, Nat.beq_eq, beq_iff_eq]

theorem addAll_spec (cs : List ℕ) : ∀ m m', addAll cs m = some m' →
    cs.Nodup ∧ (∀ c ∈ cs, m.testBit c = false) ∧ ∀ c, m'.testBit c = true → m.testBit c = true ∨ c ∈ cs := by
  induction cs with
  | nil => intro m m' h; simp only [addAll, Option.some.injEq] at h; subst h; simp
  | cons c cs ih =>
    intro m m' h
    rw [addAll, bit_iff] at h
    cases hb : m.testBit c with
    | true => rw [hb] at h; simp at h
    | false =>
      rw [hb] at h
      simp only [Bool.not_false, cond_true] at h
      obtain ⟨h1, h2, h3⟩ := ih _ _ h
      have hor : ∀ x, Nat.testBit (Nat.lor m (Nat.shiftLeft 1 c)) x = (m.testBit x || decide (c = x)) := by
        intro x
        have : Nat.testBit (m ||| 1 <<< c) x = (m.testBit x || decide (c = x)) := by
          rw [Nat.testBit_or, Nat.one_shiftLeft, Nat.testBit_two_pow]
        exact this
      refine ⟨List.nodup_cons.2 ⟨fun hc => ?_, h1⟩, ?_, fun x hx => ?_⟩
      · have := h2 c hc
        rw [hor] at this
        simp at this
      · intro x hx
        rcases List.mem_cons.1 hx with rfl | hx
        · exact hb
        · have := h2 x hx
          rw [hor] at this
          simp only [Bool.or_eq_false_iff] at this
          exact this.1
      · rcases h3 x hx with h | h
        · rw [hor] at h
          simp only [Bool.or_eq_true, decide_eq_true_eq] at h
          rcases h with h | rfl
          · exact .inl h
          · exact .inr (by simp)
        · exact .inr (by simp [h])

/-! ### indices -/

/-- number of a list of indices -/
def flCode (fl : List ℕ) : ℕ := fl.foldl (fun a x => Nat.add (Nat.mul a 4) (Nat.succ x)) 0

/-- the lists of 0, 2 or 4 indices -/
def allFl : List (List ℕ) := [] :: (all2I.map idx2 ++ all4I.map idx4)

theorem flCode_inj : ∀ a ∈ allFl, ∀ b ∈ allFl, flCode a = flCode b → a = b := by
  intro a ha b hb h
  have inv : ∀ x : List ℕ, (∀ y ∈ x, y < 3) → ∀ z : List ℕ, (∀ y ∈ z, y < 3) → flCode x = flCode z → x = z := by
    intro x
    induction x using List.reverseRecOn with
    | nil =>
      intro _ z
      induction z using List.reverseRecOn with
      | nil => intros; rfl
      | append_singleton z c _ =>
        intro hz h
        simp only [flCode, List.foldl_append, List.foldl_cons, List.foldl_nil, Nat.add_eq, Nat.mul_eq, Nat.succ_eq_add_one] at h
        omega
    | append_singleton x d ih =>
      intro hx z
      induction z using List.reverseRecOn with
      | nil =>
        intro hz h
        simp only [flCode, List.foldl_append, List.foldl_cons, List.foldl_nil, Nat.add_eq, Nat.mul_eq, Nat.succ_eq_add_one] at h
        omega
      | append_singleton z c _ =>
        intro hz h
        have h1 : d < 3 := hx d (by simp)
        have h2 : c < 3 := hz c (by simp)
        have h' : flCode x * 4 + (d + 1) = flCode z * 4 + (c + 1) := by
          simpa only [flCode, List.foldl_append, List.foldl_cons, List.foldl_nil, Nat.add_eq, Nat.mul_eq, Nat.succ_eq_add_one] using h
        have e1 : d = c := by omega
        have e2 : flCode x = flCode z := by omega
        rw [e1, ih (fun y hy => hx y (by simp [hy])) z (fun y hy => hz y (by simp [hy])) e2]
  have lt : ∀ x ∈ allFl, ∀ y ∈ x, y < 3 := by decide +kernel
  exact inv a (lt a ha) b (lt b hb) h

theorem flCode_lt : ∀ a ∈ allFl, flCode a < 256 := by decide +kernel

/-- the non-redundant entries of an operator -/
def entriesOf (k : Key) : List (List ℕ) :=
  if rankOf k = 0 then [[]]
  else if rankOf k = 2 then (all2I.filter fun i => decide (NonRedOf2 (fullClass k) i)).map idx2
  else (all4I.filter fun i => decide (NonRedOf4 (fullClass k) i)).map idx4

instance (c : ℕ) (i : I2) : Decidable (RealOf2 c i) := by unfold RealOf2; infer_instance
instance (c : ℕ) (i : I4) : Decidable (RealOf4 c i) := by unfold RealOf4; infer_instance

/-- is the entry real? -/
def isReal (k : Key) : List ℕ → Bool
  | [] => true
  | [a, b] => decide (RealOf2 (fullClass k) (Fin.ofNat 3 a, Fin.ofNat 3 b))
  | [a, b, c, d] => decide (RealOf4 (fullClass k) (Fin.ofNat 3 a, Fin.ofNat 3 b, Fin.ofNat 3 c, Fin.ofNat 3 d))
  | _ => false

/-- is it a non-redundant entry? -/
def isEntryB (k : Key) : List ℕ → Bool
  | [] => decide (rankOf k = 0)
  | [a, b] => decide (a < 3) && decide (b < 3) && decide (rankOf k = 2) &&
      decide (NonRedOf2 (fullClass k) (Fin.ofNat 3 a, Fin.ofNat 3 b))
  | [a, b, c, d] => decide (a < 3) && decide (b < 3) && decide (c < 3) && decide (d < 3) && decide (rankOf k = 4) &&
      decide (NonRedOf4 (fullClass k) (Fin.ofNat 3 a, Fin.ofNat 3 b, Fin.ofNat 3 c, Fin.ofNat 3 d))
  | _ => false

/-- The indices in the label: those of the coefficient, up to a symmetry of the operator. -/
def labelDigits (k : Key) (fl : List ℕ) : List ℕ :=
  if fl = [1, 2, 2, 2] ∧ k ∈ [Key.ll, .qq1, .qq3, .uu, .dd, .ee] then [2, 2, 1, 2]
  else if fl = [0, 1, 1, 2] ∧ k = .ee then [0, 2, 1, 1]
  else fl

/-! ### the rows -/

/-- the operators in the order of the label stems -/
def stemKeys : ModelSet → List Key
  | .A => [.phil1, .phil3, .phie, .phiq1, .phiq3, .phiu, .phid, .ll, .qq1, .qq3, .uu, .dd, .ee, .lq1, .lq3, .eu, .ed, .ud1, .ud8, .le, .lu, .ld, .qe, .qu1, .qd1, .qu8, .qd8, .G, .Gtilde, .W, .Wtilde, .phi, .phiBox, .phiD, .phiG, .phiGtilde, .phiW, .phiWtilde, .phiB, .phiBtilde, .phiWB, .phiWtildeB, .phiud, .ephi, .uphi, .dphi, .ledq, .quqd1, .quqd8, .lequ1, .lequ3, .eW, .eB, .uG, .uW, .uB, .dG, .dW, .dB]
  | .B => [.phil1, .phil3, .phiq1, .phiq3, .phiu, .phid, .phie, .ll, .qq1, .qq3, .lq1, .lq3, .uu, .dd, .ee, .ud1, .ud8, .eu, .ed, .qu1, .qu8, .qd1, .qd8, .le, .lu, .ld, .qe, .uphi, .dphi, .eW, .eB, .uG, .uW, .uB, .dG, .dW, .dB, .phiud, .ephi, .ledq, .quqd1, .quqd8, .lequ1, .lequ3, .phiBox, .phiD, .phi, .phiB, .phiW, .phiWB, .phiG, .W, .G, .Wtilde, .Gtilde, .phiBtilde, .phiWtilde, .phiWtildeB, .phiGtilde]

theorem stem_names (set : ModelSet) : (stemsOf set).map String.toList = (stemKeys set).map (simName set) := by
  cases set <;> decide +kernel

theorem stems_nodup (set : ModelSet) : ((stemsOf set).map String.toList).Nodup := by
  cases set <;> decide +kernel

theorem stem_all (set : ModelSet) : ∀ k ∈ coeffKeys, k ∉ notInSim → k ∈ stemKeys set := by
  cases set <;> decide +kernel

theorem stem_coeff (set : ModelSet) : ∀ k ∈ stemKeys set, k ∈ coeffKeys ∧ k ∉ notInSim ∧ (stemKeys set).Nodup := by
  cases set <;> decide +kernel

/-- number of a label -/
def code (st : ℕ) (part : Part) (fl : List ℕ) : ℕ :=
  Nat.add (Nat.mul (Nat.add (Nat.mul st 3) (match part with | .none => 0 | .abs => 1 | .ph => 2)) 256) (Nat.succ (flCode fl))

/-- numbers of the labels / of the coefficients of the rows -/
def labelCode : Row → ℕ
  | .coef _ _ _ _ _ st part dg => code st part dg
  | .cutoff _ _ => 0
def coefCode : Row → ℕ
  | .coef _ _ _ _ fl st part _ => code st part fl
  | .cutoff _ _ => 0

/-- what has to hold of a row -/
def rowOK (set : ModelSet) : Row → Bool
  | .cutoff _ _ => true
  | .coef _ _ kind k fl st part dg =>
    decide ((stemKeys set)[st]? = some k) && isEntryB k fl && decide (dg = labelDigits k fl) &&
    dg.all (fun x => Nat.blt x 3) && (dg.length == fl.length) &&
    (match kind with
      | .angle => decide (part = .ph) && !isReal k dg
      | .plain => decide (part = if fl = [] then Part.none else .abs) && isReal k dg && !decide (unsigned set k fl)
      | _ => decide (part = .abs) && (!isReal k dg || decide (unsigned set k fl)))

/-- for every coefficient there are the rows it needs -/
def complete (set : ModelSet) (m : ℕ) : Bool :=
  ((stemKeys set).zipIdx).all fun t => (entriesOf t.1).all fun fl =>
    m.testBit (code t.2 (if fl = [] then .none else .abs) fl) &&
      (isReal t.1 fl || m.testBit (code t.2 .ph fl)) && (isReal t.1 fl == isReal t.1 (labelDigits t.1 fl))

set_option maxRecDepth 100000 in
theorem rowsA_ok : Gen.rowsA.all (rowOK .A) = true := by decide +kernel
set_option maxRecDepth 100000 in
theorem rowsB_ok : Gen.rowsB.all (rowOK .B) = true := by decide +kernel

set_option maxRecDepth 100000 in
theorem labelsA : (addAll (Gen.rowsA.map labelCode) 0).isSome = true := by decide +kernel
set_option maxRecDepth 100000 in
theorem labelsB : (addAll (Gen.rowsB.map labelCode) 0).isSome = true := by decide +kernel
set_option maxRecDepth 100000 in
theorem coefsA : (match addAll (Gen.rowsA.map coefCode) 0 with
    | some m => complete .A m && m.testBit 0 | none => false) = true := by decide +kernel
set_option maxRecDepth 100000 in
theorem coefsB : (match addAll (Gen.rowsB.map coefCode) 0 with
    | some m => complete .B m && m.testBit 0 | none => false) = true := by decide +kernel

/-- block and LHA indices of a row -/
def place : Row → List ℕ
  | .coef b pos _ _ _ _ _ _ => b :: pos
  | .cutoff b pos => b :: pos

/-- lexicographic order -/
def lexB : List ℕ → List ℕ → Bool
  | _, [] => false
  | [], _ :: _ => true
  | a :: l, b :: m => Nat.blt a b || (Nat.beq a b && lexB l m)

/-- is the list strictly increasing? -/
def increasing : List (List ℕ) → Bool
  | a :: b :: l => lexB a b && increasing (b :: l)
  | _ => true

set_option maxRecDepth 100000 in
theorem placesA : increasing (Gen.rowsA.map place) = true := by decide +kernel
set_option maxRecDepth 100000 in
theorem placesB : increasing (Gen.rowsB.map place) = true := by decide +kernel

set_option maxRecDepth 100000 in
theorem blocks_lt (set : ModelSet) : ((rowsOf set).map place).all (fun p => Nat.blt (p.headD 0) (blocksOf set).length &&
    !(p == [0, 1475])) = true := by
  cases set <;> decide +kernel

theorem blocks_nodup (set : ModelSet) : ((blocksOf set).map String.toList).Nodup := by
  cases set <;> decide +kernel

theorem mwA : "FRBlock".toList = ((blocksOf .A).getD 0 "").toList := by decide +kernel

end Verif.SmeftSim
