import Verif.Lemmas.SymNorm
import Verif.Model.WetTranslate

/-!
# Comparing and composing the results of translators

`sameItems` compares two lists of names and formulas, `subst` inserts the formulas returned by one
translator for the coefficients read by another one.
-/

set_option autoImplicit false

namespace Verif.Py

/-- equality of integers, for fast evaluation -/
def sameInt : ℤ → ℤ → Bool
  | .ofNat a, .ofNat b => Nat.beq a b
  | .negSucc a, .negSucc b => Nat.beq a b
  | _, _ => false

theorem sameInt_sound {a b : ℤ} (h : sameInt a b = true) : a = b := by
  cases a <;> cases b <;> simp only [sameInt] at h <;> first | cases h | (rw [Nat.eq_of_beq_eq_true h])

/-- equality of formulas, for fast evaluation -/
def Sym.same : Sym → Sym → Bool
  | .rat n d, t => match t with | .rat n' d' => bif sameInt n n' then Nat.beq d d' else false | _ => false
  | .inp k, t => match t with | .inp k' => Nat.beq k k' | _ => false
  | .par k, t => match t with | .par k' => Nat.beq k k' | _ => false
  | .ckm i j, t => match t with | .ckm i' j' => bif Nat.beq i i' then Nat.beq j j' else false | _ => false
  | .pi, t => match t with | .pi => true | _ => false
  | .sqrt a, t => match t with | .sqrt a' => a.same a' | _ => false
  | .add a b, t => match t with | .add a' b' => bif a.same a' then b.same b' else false | _ => false
  | .sub a b, t => match t with | .sub a' b' => bif a.same a' then b.same b' else false | _ => false
  | .mul a b, t => match t with | .mul a' b' => bif a.same a' then b.same b' else false | _ => false
  | .div a b, t => match t with | .div a' b' => bif a.same a' then b.same b' else false | _ => false
  | .neg a, t => match t with | .neg a' => a.same a' | _ => false
  | .conj a, t => match t with | .conj a' => a.same a' | _ => false
  | .re a, t => match t with | .re a' => a.same a' | _ => false
  | .im a, t => match t with | .im a' => a.same a' | _ => false

theorem cond_and {a b : Bool} (h : (bif a then b else false) = true) : a = true ∧ b = true := by
  cases a <;> simp_all

theorem Sym.same_sound : ∀ {a b : Sym}, a.same b = true → a = b := by
  intro a
  induction a with
  | rat n d =>
    intro b h
    cases b <;> simp only [Sym.same] at h <;> try cases h
    obtain ⟨h1, h2⟩ := cond_and h
    rw [sameInt_sound h1, Nat.eq_of_beq_eq_true h2]
  | inp k =>
    intro b h
    cases b <;> simp only [Sym.same] at h <;> try cases h
    rw [Nat.eq_of_beq_eq_true h]
  | par k =>
    intro b h
    cases b <;> simp only [Sym.same] at h <;> try cases h
    rw [Nat.eq_of_beq_eq_true h]
  | ckm i j =>
    intro b h
    cases b <;> simp only [Sym.same] at h <;> try cases h
    obtain ⟨h1, h2⟩ := cond_and h
    rw [Nat.eq_of_beq_eq_true h1, Nat.eq_of_beq_eq_true h2]
  | pi =>
    intro b h
    cases b <;> simp only [Sym.same] at h <;> first | rfl | cases h
  | sqrt a ih | neg a ih | conj a ih | re a ih | im a ih =>
    intro b h
    cases b <;> simp only [Sym.same] at h <;> try cases h
    rw [ih h]
  | add a b iha ihb | sub a b iha ihb | mul a b iha ihb | div a b iha ihb =>
    intro c h
    cases c <;> simp only [Sym.same] at h <;> try cases h
    obtain ⟨h1, h2⟩ := cond_and h
    rw [iha h1, ihb h2]

/-- equality of lists of items, for fast evaluation -/
def sameItems : List (ℕ × Sym) → List (ℕ × Sym) → Bool
  | [], [] => true
  | (k, s) :: l, (k', s') :: l' => bif Nat.beq k k' then bif s.same s' then sameItems l l' else false else false
  | _, _ => false

theorem sameItems_sound : ∀ {l l' : List (ℕ × Sym)}, sameItems l l' = true → l = l'
  | [], [], _ => rfl
  | [], _ :: _, h => by cases h
  | (_, _) :: _, [], h => by cases h
  | (k, s) :: l, (k', s') :: l', h => by
    simp only [sameItems] at h
    obtain ⟨h1, h2⟩ := cond_and h
    obtain ⟨h2, h3⟩ := cond_and h2
    rw [Nat.eq_of_beq_eq_true h1, Sym.same_sound h2, sameItems_sound h3]

/-- a result with the given items -/
def isItems (r : Res (List (ℕ × Sym))) (l : List (ℕ × Sym)) : Bool :=
  match r with
  | .ok l' => sameItems l' l
  | .error _ => false

theorem isItems_sound {r : Res (List (ℕ × Sym))} {l : List (ℕ × Sym)} (h : isItems r l = true) :
    r = .ok l := by
  cases r with
  | error e => cases h
  | ok l' => rw [sameItems_sound h]

/-! ## Search trees -/

theorem DTree.get_put_self {α : Type} (h k : ℕ) (v : α) (t : DTree α) : (t.put h k v).get h k = some v := by
  induction t with
  | leaf => simp [DTree.put_leaf, DTree.get_node]
  | node l h' k' v' r ihl ihr =>
    rw [DTree.put_node]
    cases e : Nat.beq k k' with
    | true => simp [DTree.get_node, e]
    | false =>
      cases e' : Nat.blt h h' with
      | true => simp [DTree.get_node, forceT_eq, e, e', ihl]
      | false => simp [DTree.get_node, forceT_eq, e, e', ihr]

theorem DTree.get_put_other {α : Type} {k x : ℕ} (hx : Nat.beq x k = false) (h hx' : ℕ) (v : α) (t : DTree α) :
    (t.put h k v).get hx' x = t.get hx' x := by
  induction t with
  | leaf => simp [DTree.put_leaf, DTree.get_leaf, DTree.get_node, hx]
  | node l h' k' v' r ihl ihr =>
    rw [DTree.put_node]
    cases e : Nat.beq k k' with
    | true =>
      have := Nat.eq_of_beq_eq_true e
      subst this
      simp [DTree.get_node, hx]
    | false =>
      cases e' : Nat.blt h h' with
      | true => simp [DTree.get_node, forceT_eq, ihl]
      | false => simp [DTree.get_node, forceT_eq, ihr]

/-- another order of the names than that of `hash`, by which the lists are sorted -/
@[irreducible] def hash2 (k : ℕ) : ℕ := k * 0xC2B2AE3D27D4EB4F165667B19E3779F9 % 170141183460469231731687303715884105727

/-- the search tree of an association list (the first item with a key counts) -/
noncomputable def treeOf {α : Type} : List (ℕ × α) → DTree α
  | [] => .leaf
  | (k, v) :: l => forceT (treeOf l) fun t => forceN (hash2 k) fun h => t.put h k v

theorem treeOf_get {α : Type} (k : ℕ) (l : List (ℕ × α)) : (treeOf l).get (hash2 k) k = look k l := by
  induction l with
  | nil => rfl
  | cons p l ih =>
    obtain ⟨k', v⟩ := p
    rw [treeOf, forceT_eq, forceN_eq, look]
    cases e : Nat.beq k' k with
    | true =>
      have := Nat.eq_of_beq_eq_true e
      subst this
      simp [DTree.get_put_self]
    | false =>
      have e' : Nat.beq k k' = false := by
        cases h : Nat.beq k k' with
        | false => rfl
        | true => rw [Nat.eq_of_beq_eq_true h, Nat.beq_refl] at e; cases e
      rw [DTree.get_put_other e', ih]
      rfl

/-! ## Composition -/

/-- the formula for a coefficient (0 for a missing one) -/
def orZero : Option Sym → Sym
  | some s => s
  | none => .rat 0 1

/-- insert formulas for the coefficients (0 for the missing ones) -/
noncomputable def Sym.subst (t : DTree Sym) : Sym → Sym
  | .rat n d => .rat n d
  | .inp k => orZero (forceN (hash2 k) fun h => t.get h k)
  | .par k => .par k
  | .ckm i j => .ckm i j
  | .pi => .pi
  | .sqrt a => .sqrt (a.subst t)
  | .add a b => .add (a.subst t) (b.subst t)
  | .sub a b => .sub (a.subst t) (b.subst t)
  | .mul a b => .mul (a.subst t) (b.subst t)
  | .div a b => .div (a.subst t) (b.subst t)
  | .neg a => .neg (a.subst t)
  | .conj a => .conj (a.subst t)
  | .re a => .re (a.subst t)
  | .im a => .im (a.subst t)

/-- the inputs of the second translator -/
noncomputable def chain (I : Inputs) (l : List (ℕ × Sym)) : Inputs :=
  ⟨fun k => ((look k l).map (Sym.eval I)).getD 0, I.par, I.ckm⟩

theorem eval_subst (I : Inputs) (l : List (ℕ × Sym)) (s : Sym) :
    (s.subst (treeOf l)).eval I = s.eval (chain I l) := by
  induction s with
  | inp k =>
    simp only [Sym.subst, forceN_eq, treeOf_get, Sym.eval, chain]
    cases look k l <;> simp [Sym.eval, orZero]
  | rat | par | ckm | pi => rfl
  | sqrt a ih | neg a ih | conj a ih | re a ih | im a ih => simp only [Sym.subst, Sym.eval, ih]
  | add a b iha ihb | sub a b iha ihb | mul a b iha ihb | div a b iha ihb =>
    simp only [Sym.subst, Sym.eval, iha, ihb]

theorem Good.chain {I : Inputs} (hI : Good I) (l : List (ℕ × Sym)) : Good (chain I l) := ⟨hI.par, hI.ckm⟩

/-- the polynomial inserted for the coefficient of a term -/
noncomputable def inpPoly (tf : DTree Sym) (v : ℕ) (c : Bool) : Option Poly :=
  bif Nat.beq v 0 then some [{ n := .ofNat 1, d := 1, m := [], v := 0, c := false }]
  else match normF (orZero (forceN (hash2 v) fun h => tf.get h v)) with
    | some q => bif c then forceL (conjPolyF q []) some else some q
    | none => none

/-- insert polynomials for the coefficients -/
noncomputable def composeF (tf : DTree Sym) : Poly → Poly → Option Poly
  | [], acc => some acc
  | ⟨n, d, m, v, c⟩ :: p, acc =>
    match inpPoly tf v c with
    | some q =>
      match mulTermPolyF ⟨n, d, m, 0, false⟩ q acc with
      | some acc => composeF tf p acc
      | none => none
    | none => none

theorem inpPoly_sound {I : Inputs} (hI : Good I) {f : List (ℕ × Sym)} {v : ℕ} {c : Bool} {q : Poly}
    (h : inpPoly (treeOf f) v c = some q) :
    Poly.eval I q = varVal (chain I f) v c ∧ Poly.Nice I q := by
  unfold inpPoly at h
  unfold varVal
  cases hv : Nat.beq v 0 with
  | true =>
    rw [hv] at h
    cases h
    refine ⟨?_, nice_single ⟨one_ne_zero, fun _ h => absurd h (by simp)⟩⟩
    rw [eval_single]
    simp [Term.eval, Mono.eval, varVal]
  | false =>
    rw [hv, cond_false, forceN_eq, treeOf_get, normF_eq] at h
    rw [cond_false]
    cases hq : norm (orZero (look v f)) with
    | none => rw [hq] at h; cases h
    | some q' =>
      rw [hq] at h
      obtain ⟨h1, h2⟩ := norm_sound hI hq
      have h3 : (chain I f).inp v = Poly.eval I q' := by
        rw [← h1]
        simp only [chain]
        cases look v f <;> simp [Sym.eval, orZero]
      rw [h3]
      cases c with
      | false =>
        simp only [cond_false] at h
        cases h
        exact ⟨rfl, h2⟩
      | true =>
        simp only [cond_true, forceL_eq, conjPolyF_eq] at h
        cases h
        obtain ⟨h4, h5⟩ := conjPoly_sound q' [] h2 (fun _ h => absurd h (by simp))
        refine ⟨?_, h5⟩
        rw [h4, cond_true]
        exact add_zero _

theorem mono_chain (I : Inputs) (l : List (ℕ × Sym)) : ∀ m : Mono, Mono.eval (chain I l) m = Mono.eval I m
  | [] => rfl
  | (x, e) :: m => by
    simp only [Mono.eval]
    rw [mono_chain I l m]
    rfl

theorem nice_chain {I : Inputs} {l : List (ℕ × Sym)} {p : Poly} (h : Poly.Nice (chain I l) p) : Poly.Nice I p := h

theorem composeF_sound {I : Inputs} (hI : Good I) {f : List (ℕ × Sym)} {p acc r : Poly}
    (h : composeF (treeOf f) p acc = some r) (hp : Poly.Nice I p) (ha : Poly.Nice I acc) :
    Poly.eval I r = Poly.eval (chain I f) p + Poly.eval I acc ∧ Poly.Nice I r := by
  induction p generalizing acc with
  | nil => cases h; exact ⟨by simp [Poly.eval], ha⟩
  | cons t p ih =>
    have ht : t.d ≠ 0 ∧ Mono.Nice I t.m := hp _ (List.mem_cons_self ..)
    have hp' : Poly.Nice I p := fun q hq => hp q (List.mem_cons_of_mem _ hq)
    obtain ⟨n, d, m, v, c⟩ := t
    unfold composeF at h
    cases hq : inpPoly (treeOf f) v c with
    | none => rw [hq] at h; cases h
    | some q =>
      rw [hq] at h
      simp only [mulTermPolyF_eq] at h
      obtain ⟨h1, h2⟩ := inpPoly_sound hI hq
      cases hu : mulTermPoly ⟨n, d, m, 0, false⟩ q acc with
      | none => rw [hu] at h; cases h
      | some u =>
        rw [hu] at h
        obtain ⟨h3, h4⟩ := mulTermPoly_sound hu ht h2 ha
        obtain ⟨h5, h6⟩ := ih h hp' h4
        refine ⟨?_, h6⟩
        rw [h5, h3, h1]
        show _ = (Term.eval (chain I f) ⟨n, d, m, v, c⟩ + Poly.eval (chain I f) p) + _
        unfold Term.eval
        simp only [mono_chain]
        have : varVal I 0 false = 1 := rfl
        rw [this]
        ring

/-- `s`, with the formulas of the tree inserted, is the formula `b` -/
noncomputable def compEq (tf : DTree Sym) (s b : Sym) : Bool :=
  match normF s, normF b with
  | some p, some q =>
    match composeF tf p (negPolyF q) with
    | some [] => true
    | _ => false
  | _, _ => false

theorem compEq_sound {I : Inputs} (hI : Good I) {f : List (ℕ × Sym)} {s b : Sym}
    (h : compEq (treeOf f) s b = true) : s.eval (chain I f) = b.eval I := by
  unfold compEq at h
  rw [normF_eq, normF_eq] at h
  cases hs : norm s with
  | none => rw [hs] at h; cases h
  | some p =>
    cases hb : norm b with
    | none => rw [hs, hb] at h; cases h
    | some q =>
      rw [hs, hb] at h
      simp only [negPolyF_eq] at h
      obtain ⟨h1, h2⟩ := norm_sound (hI.chain f) hs
      obtain ⟨h3, h4⟩ := norm_sound hI hb
      obtain ⟨h5, h6⟩ := negPoly_sound q h4
      cases hc : composeF (treeOf f) p (negPoly q) with
      | none => rw [hc] at h; cases h
      | some r =>
        rw [hc] at h
        obtain ⟨h7, -⟩ := composeF_sound hI hc (nice_chain h2) h6
        cases r with
        | cons t r => cases h
        | nil =>
          rw [h1, h3]
          have : (0 : ℂ) = Poly.eval (chain I f) p + -Poly.eval I q := by rw [← h5]; exact h7
          linear_combination -this

/-- the formula in the table, or the coefficient itself if there is none -/
def target' (k : ℕ) : Option Sym → Sym
  | some b => b
  | none => .inp k

/-- every item of `g`, with the results of `f` inserted, is the coefficient of the same name, except for
the names in the tree `bad` -/
noncomputable def checkBack (tf : DTree Sym) (bad : DTree Sym) : List (ℕ × Sym) → Bool
  | [] => true
  | (k, s) :: l =>
    bif compEq tf s (target' k (forceN (hash2 k) fun h => bad.get h k)) then checkBack tf bad l else false

theorem checkBack_sound {f bad : List (ℕ × Sym)} {I : Inputs} (hI : Good I) :
    ∀ {g : List (ℕ × Sym)}, checkBack (treeOf f) (treeOf bad) g = true → ∀ k s, (k, s) ∈ g →
      s.eval (chain I f) = (target' k (look k bad)).eval I
  | [], _, _, _, h => by cases h
  | (k', s') :: g, h, k, s, hm => by
    rw [checkBack] at h
    obtain ⟨h1, h2⟩ := cond_and h
    rcases List.mem_cons.1 hm with e | hm
    · obtain ⟨rfl, rfl⟩ := Prod.mk.inj e
      rw [forceN_eq, treeOf_get] at h1
      exact compEq_sound hI h1
    · exact checkBack_sound hI h2 k s hm

end Verif.Py
