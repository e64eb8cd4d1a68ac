import Verif.Spec.BetaSym
import Verif.Lemmas.TermNF
import Verif.Lemmas.Beta

/-!
# Lemmas: symmetry classes as index relations
-/

set_option autoImplicit false
set_option linter.unusedSimpArgs false

namespace Verif.BetaSym
open Verif Verif.Spec Verif.Tens Verif.Beta Verif.NF

/-- the relations of a class (not for classes 6 and 8) -/
def relsC : Cl → List Rl
  | .real => [⟨[], true⟩]
  | .herm => [⟨[1, 0], true⟩]
  | .symm => [⟨[1, 0], false⟩]
  | .cl4 => [⟨[2, 3, 0, 1], false⟩, ⟨[1, 0, 3, 2], true⟩, ⟨[3, 2, 1, 0], true⟩]
  | .cl5 => [⟨[1, 0, 3, 2], true⟩]
  | .cl7 => [⟨[1, 0, 2, 3], false⟩]
  | _ => []

theorem obeys0 (A : Ten) : Obeys A ⟨[], true⟩ ↔ (A []).im = 0 := by
  constructor
  · intro h
    have := h [] [] rfl rfl
    exact Complex.conj_eq_iff_im.1 (by simpa [cjIf] using this.symm)
  · intro h ix ix' hl hp
    have h1 : ix = [] := List.length_eq_zero_iff.1 hl
    subst h1
    cases hp
    simpa [cjIf] using (Complex.conj_eq_iff_im.2 h).symm

theorem obeys2 (A : Ten) (b : Bool) :
    Obeys A ⟨[1, 0], b⟩ ↔ ∀ i j, A [i, j] = cjIf b (A [j, i]) := by
  constructor
  · intro h i j
    exact h [i, j] [j, i] rfl rfl
  · intro h ix ix' hl hp
    match ix, hl with
    | [i, j], _ => cases hp; exact h i j

theorem obeys4 (A : Ten) (p q r s : ℕ) (b : Bool) :
    Obeys A ⟨[p, q, r, s], b⟩ ↔ ∀ i j k l ix', permute [p, q, r, s] [i, j, k, l] = some ix' →
      A [i, j, k, l] = cjIf b (A ix') := by
  constructor
  · intro h i j k l ix' hp
    exact h _ _ rfl hp
  · intro h ix ix' hl hp
    match ix, hl with
    | [i, j, k, l], _ => exact h i j k l ix' hp

/-- symmetry classes without Fierz identities -/
def simple (c : Cl) : Bool := match c with | .cl6 | .cl8 => false | _ => true

theorem has_iff (c : Cl) (hc : simple c = true) (A : Ten) :
    Has c A ↔ ∀ g ∈ relsC c, Obeys A g := by
  cases c with
  | real => simp [Has, relsC, obeys0]
  | any => simp [Has, relsC]
  | herm =>
    simp only [Has, relsC, List.mem_singleton, forall_eq, obeys2, IsClass2, cjIf, if_true]
    exact ⟨fun h i j => h j i, fun h i j => h j i⟩
  | symm =>
    simp only [Has, relsC, List.mem_singleton, forall_eq, obeys2, IsClass9, cjIf]
    exact ⟨fun h i j => by simpa using h j i, fun h i j => by simpa using h j i⟩
  | cl4 =>
    simp only [Has, relsC, List.mem_cons, List.not_mem_nil, or_false, forall_eq_or_imp, forall_eq,
      obeys4, IsClass4]
    constructor
    · intro h
      refine ⟨?_, ?_, ?_⟩
      · intro i j k l ix' hp; cases hp
        simpa [cjIf] using (h i j k l).1.symm
      · intro i j k l ix' hp; cases hp
        simpa [cjIf] using (h j i l k).2
      · intro i j k l ix' hp; cases hp
        have h1 := (h l k j i).2
        have h2 := (h k l i j).1
        show A [i, j, k, l] = (starRingEnd ℂ) (A [l, k, j, i])
        rw [← h1, h2]
    · intro h i j k l
      refine ⟨?_, ?_⟩
      · simpa [cjIf] using (h.1 i j k l _ rfl).symm
      · simpa [cjIf] using h.2.1 j i l k _ rfl
  | cl5 =>
    simp only [Has, relsC, List.mem_singleton, forall_eq, obeys4, IsClass5]
    constructor
    · intro h i j k l ix' hp; cases hp
      simpa [cjIf] using h j i l k
    · intro h i j k l
      simpa [cjIf] using h j i l k _ rfl
  | cl6 => simp [simple] at hc
  | cl7 =>
    simp only [Has, relsC, List.mem_singleton, forall_eq, obeys4, IsClass7]
    constructor
    · intro h i j k l ix' hp; cases hp
      simpa [cjIf] using (h i j k l).symm
    · intro h i j k l
      simpa [cjIf] using (h i j k l _ rfl).symm
  | cl8 => simp [simple] at hc

/-- generators of the relations of a class -/
def gensC : Cl → List Rl
  | .cl4 => [⟨[2, 3, 0, 1], false⟩, ⟨[1, 0, 3, 2], true⟩]
  | c => relsC c

theorem has_of_gens (c : Cl) (hc : simple c = true) (A : Ten) (h : ∀ g ∈ gensC c, Obeys A g) :
    Has c A := by
  by_cases e : c = .cl4
  · subst e
    simp only [gensC, List.mem_cons, List.not_mem_nil, or_false, forall_eq_or_imp, forall_eq,
      obeys4] at h
    intro i j k l
    refine ⟨?_, ?_⟩
    · simpa [cjIf] using (h.1 i j k l _ rfl).symm
    · simpa [cjIf] using h.2 j i l k _ rfl
  · refine (has_iff c hc A).2 ?_
    cases c <;> first | exact h | exact absurd rfl e

/-- classes of all variables, including the auxiliary ones -/
def clAll : Key → Cl
  | .Eta1 | .Eta2 | .Eta3 | .Eta4 | .Eta5 | .GammaH | .XiB | .HIGHSCALE => .real
  | .Gammaq | .Gammau | .Gammad | .Gammal | .Gammae => .herm
  | .Xie | .Xid | .Xiu => .any
  | k => clNoFierz k

theorem clAll_simple (k : Key) : simple (clAll k) = true := by cases k <;> rfl

theorem clAll_keys : ∀ k ∈ keys, clAll k = clNoFierz k := by decide

/-- the sort key of variables -/
def rkB (k : Key) : ℕ := k.ctorIdx

def rel (k : Key) : List Rl := relsC (clAll k)

/-- the right-hand side of an assignment has the symmetry of the variable assigned to -/
noncomputable def symOK (ke : Key × E Key) : Bool := (gensC (clAll ke.1)).all fun g => relCheck rkB rel ke.2 g

end Verif.BetaSym
