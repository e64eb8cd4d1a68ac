import Verif.Lemmas.WetUnique
import Verif.Lemmas.Names

/-!
# Names and normalisation of the WET coefficients
-/

set_option autoImplicit false
set_option linter.unusedSimpArgs false
set_option linter.unusedTactic false

namespace Verif.WetTab
open Verif Verif.Rotation Verif.WetRun Verif.Bridge
open Verif.EFT (Str)
open Verif.EFT.Util (splitUS)

theorem wkeyName_noUS (k : WKey) : '_' ∉ wkeyName k := by cases k <;> decide

theorem wkeyName_inj {k k' : WKey} (h : wkeyName k = wkeyName k') : k = k' := by
  have : (allKeys.map wkeyName).Nodup := by decide +kernel
  exact List.inj_on_of_nodup_map this (mem_allKeys k) (mem_allKeys k') h

theorem nameOf_toList (c : Coef) (h : c.2 ≠ 0) :
    (nameOf c).toList = wkeyName c.1 ++ '_' :: (ixOf c).map digit := by
  rw [nameOf, if_neg h, String.toList_ofList]

theorem nameOf_toList_zero (c : Coef) (h : c.2 = 0) : (nameOf c).toList = wkeyName c.1 := by
  rw [nameOf, if_pos h]; rfl

theorem digit_small {i : ℕ} (h : i ≤ 9) : digit i ≠ '_' := by
  interval_cases i <;> decide

theorem digit_inj {i j : ℕ} (h : i ≤ 9) (h' : j ≤ 9) (e : digit i = digit j) : i = j := by
  have : (digit i).toNat = (digit j).toNat := by rw [e]
  interval_cases i <;> interval_cases j <;> first | rfl | (exact absurd this (by decide))

theorem map_digit_inj {l l' : List ℕ} (h : ∀ i ∈ l, i ≤ 9) (h' : ∀ i ∈ l', i ≤ 9)
    (e : l.map digit = l'.map digit) : l = l' := by
  induction l generalizing l' with
  | nil => cases l' with
    | nil => rfl
    | cons => simp at e
  | cons i l ih => cases l' with
    | nil => simp at e
    | cons j l' =>
      simp only [List.map_cons, List.cons.injEq] at e
      rw [digit_inj (h i List.mem_cons_self) (h' j List.mem_cons_self) e.1,
        ih (fun x hx => h x (List.mem_cons_of_mem _ hx))
          (fun x hx => h' x (List.mem_cons_of_mem _ hx)) e.2]

/-- a coefficient with valid indices and their number -/
def WellNamed (c : Coef) : Prop := Valid c.1 (ixOf c) ∧ numOf (ixOf c) = c.2

theorem Listed.wellNamed {c : Coef} {s : String} {i : ℕ} (h : Listed c s i) : WellNamed c :=
  ⟨(listed_ok h).2.1, (listed_ok h).1⟩

theorem splitUS_nameOf {c : Coef} (h : WellNamed c) (h0 : c.2 ≠ 0) :
    splitUS (nameOf c).toList = [wkeyName c.1, (ixOf c).map digit] := by
  rw [nameOf_toList c h0, EFT.Util.splitUS_append (wkeyName_noUS _), EFT.Util.splitUS_of_notMem]
  rintro hm
  obtain ⟨i, hi, e⟩ := List.mem_map.1 hm
  exact digit_small (by have := h.1.digits i hi; omega) e

theorem splitUS_nameOf_zero {c : Coef} (h0 : c.2 = 0) :
    splitUS (nameOf c).toList = [wkeyName c.1] := by
  rw [nameOf_toList_zero c h0, EFT.Util.splitUS_of_notMem (wkeyName_noUS _)]

theorem headD_nameOf {c : Coef} (h : WellNamed c) :
    (splitUS (nameOf c).toList).headD [] = wkeyName c.1 := by
  by_cases h0 : c.2 = 0
  · rw [splitUS_nameOf_zero h0]; rfl
  · rw [splitUS_nameOf h h0]; rfl

/-- different coefficients have different names -/
theorem nameOf_inj {c c' : Coef} (h : WellNamed c) (h' : WellNamed c') (e : nameOf c = nameOf c') :
    c = c' := by
  have hk : c.1 = c'.1 := by
    apply wkeyName_inj
    rw [← headD_nameOf h, ← headD_nameOf h', e]
  have hl : (ixOf c).length = (ixOf c').length := by
    rw [← h.1.length_eq, ← h'.1.length_eq, hk]
  have hix : ixOf c = ixOf c' := by
    by_cases h0 : c.2 = 0
    · have e0 : ixOf c = [] := by rw [ixOf, if_pos h0]
      rw [e0] at hl ⊢
      exact (List.length_eq_zero_iff.1 hl.symm).symm
    · have h0' : c'.2 ≠ 0 := by
        intro h0'
        have e0 : ixOf c' = [] := by rw [ixOf, if_pos h0']
        rw [e0] at hl
        have e1 := List.length_eq_zero_iff.1 hl
        have := h.2
        rw [e1] at this
        exact h0 this.symm
      have e1 := splitUS_nameOf h h0
      rw [e, splitUS_nameOf h' h0'] at e1
      have e2 : (ixOf c).map digit = (ixOf c').map digit := by simpa using (List.cons.inj (List.cons.inj e1).2).1.symm
      exact map_digit_inj (fun i hi => by have := h.1.digits i hi; omega)
        (fun i hi => by have := h'.1.digits i hi; omega) e2
  have h2 : c.2 = c'.2 := by rw [← h.2, ← h'.2, hix]
  exact Prod.ext hk h2

/-! ## The factor of `scale_C` -/

/-- powers of the couplings -/
noncomputable def gfac (k : WKey) (p : Par) : ℝ :=
  match k with
  | .uG | .dG | .G | .Gtilde => Real.sqrt (4 * Real.pi * p.alpha_s)
  | .ugamma | .dgamma | .egamma =>
    Real.sqrt (4 * Real.pi * p.alpha_s) ^ 2 / Real.sqrt (4 * Real.pi * p.alpha_e)
  | _ => 1

/-- product of masses -/
def mprod (m : Masses) : List Q → ℝ
  | [] => 1
  | q :: l => q.val m * mprod m l

theorem scaleC_other {c : Coef} (h : WellNamed c) (p : Par) (h1 : wkeyName c.1 ∉ qG)
    (h2 : wkeyName c.1 ∉ fgamma) (h3 : wkeyName c.1 ∉ G3) : scaleC (nameOf c) p = .ok 1 := by
  unfold scaleC
  simp only [headD_nameOf h, if_neg h1, if_neg h2]
  rw [if_neg]
  intro hm
  have e := headD_nameOf h
  have : (splitUS (nameOf c).toList).headD [] = (nameOf c).toList := by
    simp only [G3, List.mem_cons, List.not_mem_nil, or_false] at hm
    rcases hm with hm | hm <;> rw [hm] <;> decide
  rw [this] at e
  exact h3 (e ▸ hm)

theorem dipole_number {c : Coef} (h : WellNamed c) {x : Sp} (hk : fields c.1 = dipole x) :
    ∃ i j, ixOf c = [i, j] ∧ 1 ≤ i ∧ i ≤ x.gens ∧ 1 ≤ j ∧ j ≤ x.gens ∧ c.2 ≠ 0 := by
  have hv := h.1
  rw [Valid, hk] at hv
  obtain ⟨i, j, e⟩ := List.length_eq_two.1 hv.length_eq.symm
  rw [e] at hv
  simp only [dipole, List.forall₂_cons, List.forall₂_nil_right_iff, and_true] at hv
  refine ⟨i, j, e, hv.1.1, hv.1.2, hv.2.1, hv.2.2, ?_⟩
  rw [← h.2, e]
  simp only [numOf]
  omega

theorem maxChar_digits {i j : ℕ} (hi : 1 ≤ i ∧ i ≤ 3) (hj : 1 ≤ j ∧ j ≤ 3) :
    maxChar [digit i, digit j] = some (digit (Nat.max i j)) := by
  obtain ⟨hi, hi'⟩ := hi
  obtain ⟨hj, hj'⟩ := hj
  interval_cases i <;> interval_cases j <;> decide

theorem digit_spec {i : ℕ} (hi : 1 ≤ i ∧ i ≤ 3) :
    (digit i).isDigit = true ∧ (digit i).toNat - '0'.toNat = i := by
  obtain ⟨hi, hi'⟩ := hi
  interval_cases i <;> decide

theorem dipoleMass_eq {c : Coef} (h : WellNamed c) (p : Par) {x : Sp} (hk : fields c.1 = dipole x)
    (hx : x = .u ∧ (wkeyName c.1).take 2 ≠ ['n', 'u'] ∧ (wkeyName c.1).head? = some 'u' ∨
      x = .d ∧ (wkeyName c.1).take 2 ≠ ['n', 'u'] ∧ (wkeyName c.1).head? = some 'd' ∨
      x = .e ∧ (wkeyName c.1).take 2 ≠ ['n', 'u'] ∧ (wkeyName c.1).head? = some 'e')
    (hl : 2 ≤ (wkeyName c.1).length) :
    ∃ i j, ixOf c = [i, j] ∧ dipoleMass p (nameOf c).toList = .ok (mass p (x, Nat.max i j)) ∧
      1 ≤ Nat.max i j ∧ Nat.max i j ≤ x.gens := by
  obtain ⟨i, j, e, hi1, hi2, hj1, hj2, h0⟩ := dipole_number h hk
  have hg : x.gens ≤ 3 := by cases x <;> decide
  have hm1 : 1 ≤ Nat.max i j := le_trans hi1 (Nat.le_max_left i j)
  have hm2 : Nat.max i j ≤ x.gens := Nat.max_le.2 ⟨hi2, hj2⟩
  refine ⟨i, j, e, ?_, hm1, hm2⟩
  have hd := digit_spec (i := Nat.max i j) ⟨hm1, hm2.trans hg⟩
  unfold dipoleMass
  rw [splitUS_nameOf h h0, e]
  simp only [List.map_cons, List.map_nil, List.getLastD_cons, List.getLastD_nil]
  rw [maxChar_digits ⟨hi1, hi2.trans hg⟩ ⟨hj1, hj2.trans hg⟩]
  simp only [hd.1, hd.2, not_true_eq_false, if_false]
  have ht : (nameOf c).toList.take 2 = (wkeyName c.1).take 2 := by
    rw [nameOf_toList c h0, List.take_append_of_le_length hl]
  have hh : (nameOf c).toList.head? = (wkeyName c.1).head? := by
    rw [nameOf_toList c h0, List.head?_append_of_ne_nil]
    intro h'; rw [h'] at hl; simp at hl
  rw [ht, hh]
  generalize Nat.max i j = g at hm1 hm2
  have hg3 : ¬g > 3 := by omega
  rcases hx with ⟨rfl, h1, h2⟩ | ⟨rfl, h1, h2⟩ | ⟨rfl, h1, h2⟩ <;>
    simp only [h1, h2, hg3, if_false] <;> simp only [Sp.gens] at hm2 <;>
    interval_cases g <;> simp [mass]

theorem scaleC_eq {c : Coef} (h : WellNamed c) (p : Par) :
    scaleC (nameOf c) p = .ok (gfac c.1 p / mprod p.masses (massOf c)) := by
  obtain ⟨k, m⟩ := c
  cases k
  case uG =>
    obtain ⟨i, j, e, hm, h1, h2⟩ := dipoleMass_eq h p (x := .u) rfl (.inl ⟨rfl, by (try dsimp only); decide, by (try dsimp only); decide⟩) (by (try dsimp only); decide)
    unfold scaleC
    simp only [headD_nameOf h]
    rw [if_pos (by (try dsimp only); decide), hm]
    simp only [massOf, e, gfac]
    change Except.ok _ = _
    generalize Nat.max i j = g at h1 h2
    simp only [Sp.gens] at h2
    interval_cases g <;> simp [mass, mprod, Q.val, Par.masses]
  case ugamma =>
    obtain ⟨i, j, e, hm, h1, h2⟩ := dipoleMass_eq h p (x := .u) rfl (.inl ⟨rfl, by (try dsimp only); decide, by (try dsimp only); decide⟩) (by (try dsimp only); decide)
    unfold scaleC
    simp only [headD_nameOf h]
    rw [if_neg (by (try dsimp only); decide), if_pos (by (try dsimp only); decide), hm]
    simp only [massOf, e, gfac]
    change Except.ok _ = _
    generalize Nat.max i j = g at h1 h2
    simp only [Sp.gens] at h2
    interval_cases g <;> simp [mass, mprod, Q.val, Par.masses]
  case dG =>
    obtain ⟨i, j, e, hm, h1, h2⟩ := dipoleMass_eq h p (x := .d) rfl (.inr (.inl ⟨rfl, by (try dsimp only); decide, by (try dsimp only); decide⟩)) (by (try dsimp only); decide)
    unfold scaleC
    simp only [headD_nameOf h]
    rw [if_pos (by (try dsimp only); decide), hm]
    simp only [massOf, e, gfac]
    change Except.ok _ = _
    generalize Nat.max i j = g at h1 h2
    simp only [Sp.gens] at h2
    interval_cases g <;> simp [mass, mprod, Q.val, Par.masses]
  case dgamma =>
    obtain ⟨i, j, e, hm, h1, h2⟩ := dipoleMass_eq h p (x := .d) rfl (.inr (.inl ⟨rfl, by (try dsimp only); decide, by (try dsimp only); decide⟩)) (by (try dsimp only); decide)
    unfold scaleC
    simp only [headD_nameOf h]
    rw [if_neg (by (try dsimp only); decide), if_pos (by (try dsimp only); decide), hm]
    simp only [massOf, e, gfac]
    change Except.ok _ = _
    generalize Nat.max i j = g at h1 h2
    simp only [Sp.gens] at h2
    interval_cases g <;> simp [mass, mprod, Q.val, Par.masses]
  case egamma =>
    obtain ⟨i, j, e, hm, h1, h2⟩ := dipoleMass_eq h p (x := .e) rfl (.inr (.inr ⟨rfl, by (try dsimp only); decide, by (try dsimp only); decide⟩)) (by (try dsimp only); decide)
    unfold scaleC
    simp only [headD_nameOf h]
    rw [if_neg (by (try dsimp only); decide), if_pos (by (try dsimp only); decide), hm]
    simp only [massOf, e, gfac]
    change Except.ok _ = _
    generalize Nat.max i j = g at h1 h2
    simp only [Sp.gens] at h2
    interval_cases g <;> simp [mass, mprod, Q.val, Par.masses]
  case G =>
    have h0 : m = 0 := by
      have := h.1.length_eq
      have e := List.length_eq_zero_iff.1 this.symm
      have h2 := h.2
      rw [e] at h2
      exact h2.symm
    subst h0
    simp only [gfac, massOf, mprod, div_one]
    unfold scaleC
    simp only [headD_nameOf h, nameOf_toList_zero (WKey.G, 0) rfl]
    rw [if_neg (by (try dsimp only); decide), if_neg (by (try dsimp only); decide), if_pos (by (try dsimp only); decide)]
  case Gtilde =>
    have h0 : m = 0 := by
      have := h.1.length_eq
      have e := List.length_eq_zero_iff.1 this.symm
      have h2 := h.2
      rw [e] at h2
      exact h2.symm
    subst h0
    simp only [gfac, massOf, mprod, div_one]
    unfold scaleC
    simp only [headD_nameOf h, nameOf_toList_zero (WKey.Gtilde, 0) rfl]
    rw [if_neg (by (try dsimp only); decide), if_neg (by (try dsimp only); decide), if_pos (by (try dsimp only); decide)]
  all_goals
    rw [scaleC_other h p (by (try dsimp only); decide) (by (try dsimp only); decide) (by (try dsimp only); decide)]
    simp [gfac, massOf, mprod]

end Verif.WetTab
