import Verif.Spec.Flavour
import Mathlib.Tactic.Ring
import Mathlib.Algebra.BigOperators.Pi

/-!
# Lemmas: covariance of tensor expressions

An index-type checker for `E`, sound for rotation of all indices.
-/

set_option autoImplicit false

namespace Verif.Flavour
open Verif.Tens BigOperators

variable {F : Type}

/-- unitarity in the form needed for contractions -/
theorem fac_contract (U : F → Matrix (Fin 3) (Fin 3) ℂ)
    (hU : ∀ f, U f ∈ Matrix.unitaryGroup (Fin 3) ℂ) (t : Ty F) (j j' : Fin 3) :
    ∑ x, fac U t j x * fac U t.flip j' x = if j = j' then 1 else 0 := by
  have h := hU t.f
  rw [Matrix.mem_unitaryGroup_iff] at h
  rcases t with ⟨f, b⟩
  cases b
  · have := congrFun (congrFun h j) j'
    simpa [Matrix.mul_apply, fac, Ty.flip, Matrix.one_apply, Matrix.star_apply] using this
  · have := congrFun (congrFun h j') j
    simp only [fac, Ty.flip, if_true, Bool.not_true, Bool.false_eq_true, if_false]
    have e : ∑ x, (starRingEnd ℂ) (U f j x) * U f j' x = ∑ x, U f j' x * (starRingEnd ℂ) (U f j x) :=
      Finset.sum_congr rfl fun x _ => mul_comm _ _
    rw [e]
    simpa [Matrix.mul_apply, Matrix.one_apply, Matrix.star_apply, eq_comm] using this

theorem rot_const_mul (U : F → Matrix (Fin 3) (Fin 3) ℂ) (τ : List (Ty F)) (c : ℂ) (A : Ten) (ix : Ix) :
    rot U τ (fun j => c * A j) ix = c * rot U τ A ix := by
  induction τ generalizing A ix with
  | nil => rfl
  | cons t τ ih =>
    cases ix with
    | nil => simp [rot]
    | cons i is =>
      simp only [rot, Finset.mul_sum]
      refine Finset.sum_congr rfl fun j _ => ?_
      rw [ih (fun js => A (j :: js))]; ring

theorem rot_add (U : F → Matrix (Fin 3) (Fin 3) ℂ) (τ : List (Ty F)) (A B : Ten) (ix : Ix) :
    rot U τ (fun j => A j + B j) ix = rot U τ A ix + rot U τ B ix := by
  induction τ generalizing A B ix with
  | nil => rfl
  | cons t τ ih =>
    cases ix with
    | nil => simp [rot]
    | cons i is =>
      simp only [rot, ← Finset.sum_add_distrib]
      refine Finset.sum_congr rfl fun j _ => ?_
      rw [ih (fun js => A (j :: js)) (fun js => B (j :: js))]; ring

theorem rot_append (U : F → Matrix (Fin 3) (Fin 3) ℂ) (τ τ' : List (Ty F)) (A : Ten) (x y : Ix)
    (h : x.length = τ.length) :
    rot U (τ ++ τ') A (x ++ y) = rot U τ (fun j => rot U τ' (fun j' => A (j ++ j')) y) x := by
  induction τ generalizing A x with
  | nil =>
    have : x = [] := List.length_eq_zero_iff.1 h
    subst this; rfl
  | cons t τ ih =>
    cases x with
    | nil => simp at h
    | cons i is =>
      simp only [List.cons_append, rot]
      refine Finset.sum_congr rfl fun j _ => ?_
      rw [ih (fun js => A (j :: js)) is (by simpa using h)]

/-- two arrays agreeing on index tuples of the right length rotate equally -/
theorem rot_congr (U : F → Matrix (Fin 3) (Fin 3) ℂ) (τ : List (Ty F)) (A B : Ten) (ix : Ix)
    (h : ∀ j : Ix, j.length = τ.length → A j = B j) : rot U τ A ix = rot U τ B ix := by
  induction τ generalizing A B ix with
  | nil => exact h [] rfl
  | cons t τ ih =>
    cases ix with
    | nil => rfl
    | cons i is =>
      simp only [rot]
      refine Finset.sum_congr rfl fun j _ => ?_
      rw [ih (fun js => A (j :: js)) (fun js => B (j :: js)) is (fun js hj => h _ (by simp [hj]))]

theorem rot_ofFn (U : F → Matrix (Fin 3) (Fin 3) ℂ) {n : ℕ} (T : Fin n → Ty F) (A : Ten)
    (x : Fin n → Fin 3) :
    rot U (List.ofFn T) A (List.ofFn x) =
      ∑ j : Fin n → Fin 3, (∏ p, fac U (T p) (j p) (x p)) * A (List.ofFn j) := by
  induction n generalizing A with
  | zero => simp [rot]
  | succ n ih =>
    rw [List.ofFn_succ, List.ofFn_succ]
    simp only [rot]
    rw [← (Fin.consEquiv (fun _ => Fin 3)).sum_comp, Fintype.sum_prod_type]
    refine Finset.sum_congr rfl fun j _ => ?_
    rw [ih, Finset.mul_sum]
    refine Finset.sum_congr rfl fun js _ => ?_
    rw [Fin.prod_univ_succ]
    simp [Fin.consEquiv, List.ofFn_succ, mul_assoc]

/-- contraction of paired indices commutes with rotation -/
theorem contract_core (U : F → Matrix (Fin 3) (Fin 3) ℂ)
    (hU : ∀ f, U f ∈ Matrix.unitaryGroup (Fin 3) ℂ) {n m : ℕ}
    (S : Fin n → Lbl) (T : Fin n → Ty F) (out : Fin m → Lbl) (ot : Fin m → Ty F)
    (hinj : Function.Injective out)
    (hcase : ∀ l : Lbl, ((∀ p, S p ≠ l) ∧ ∀ o, out o ≠ l) ∨
      (∃ o p, out o = l ∧ S p = l ∧ (∀ p', S p' = l → p' = p) ∧ T p = ot o) ∨
      (∃ p p', p ≠ p' ∧ S p = l ∧ S p' = l ∧ (∀ p'', S p'' = l → p'' = p ∨ p'' = p') ∧
        T p' = (T p).flip ∧ ∀ o, out o ≠ l))
    (D : (Fin m → Fin 3) → Lbl → Finset (Fin 3))
    (hD0 : ∀ x l, (∀ p, S p ≠ l) → D x l = {0})
    (hD1 : ∀ x o, D x (out o) = {x o})
    (hD2 : ∀ x l, (∃ p, S p = l) → (∀ o, out o ≠ l) → D x l = Finset.univ)
    (G : (Fin n → Fin 3) → ℂ) (x : Fin m → Fin 3) :
    ∑ σ ∈ Fintype.piFinset (D x), ∑ j, (∏ p, fac U (T p) (j p) (σ (S p))) * G j =
      ∑ k : Fin m → Fin 3, (∏ o, fac U (ot o) (k o) (x o)) *
        ∑ σ ∈ Fintype.piFinset (D k), G (fun p => σ (S p)) := by
  classical
  -- values of the labels: all for used labels, 0 for unused ones
  let Ed : Lbl → Finset (Fin 3) := fun l => if ∃ p, S p = l then Finset.univ else {0}
  have houtS : ∀ o, ∃ p, S p = out o := by
    intro o
    rcases hcase (out o) with h | ⟨_, p, _, hp, _⟩ | ⟨p, _, _, hp, _⟩
    · exact absurd rfl (h.2 o)
    · exact ⟨p, hp⟩
    · exact ⟨p, hp⟩
  have hR : (∑ k : Fin m → Fin 3, (∏ o, fac U (ot o) (k o) (x o)) *
        ∑ σ ∈ Fintype.piFinset (D k), G (fun p => σ (S p))) =
      ∑ τ ∈ Fintype.piFinset Ed, (∏ o, fac U (ot o) (τ (out o)) (x o)) * G (fun p => τ (S p)) := by
    rw [← Finset.sum_fiberwise (Fintype.piFinset Ed) (fun τ => fun o => τ (out o))]
    refine Finset.sum_congr rfl fun k _ => ?_
    rw [Finset.mul_sum]
    have hset : Fintype.piFinset (D k) =
        (Fintype.piFinset Ed).filter (fun τ => (fun o => τ (out o)) = k) := by
      ext τ
      simp only [Fintype.mem_piFinset, Finset.mem_filter]
      constructor
      · intro h
        refine ⟨fun l => ?_, ?_⟩
        · by_cases hl : ∃ p, S p = l
          · simp [Ed, hl]
          · have := h l
            rw [hD0 k l (fun p hp => hl ⟨p, hp⟩)] at this
            simpa [Ed, hl] using this
        · funext o
          have := h (out o)
          rw [hD1] at this
          simpa using this
      · rintro ⟨h, rfl⟩ l
        by_cases hl : ∃ p, S p = l
        · by_cases ho : ∃ o, out o = l
          · obtain ⟨o, rfl⟩ := ho
            rw [hD1]; simp
          · rw [hD2 _ l hl (fun o e => ho ⟨o, e⟩)]; simp
        · have := h l
          rw [hD0 _ l (fun p hp => hl ⟨p, hp⟩)]
          simpa [Ed, hl] using this
    rw [hset]
    refine Finset.sum_congr rfl fun τ hτ => ?_
    have := (Finset.mem_filter.1 hτ).2
    rw [← this]
  rw [hR, Finset.sum_comm]
  -- the factor multiplying `G j`
  have hL : ∀ j : Fin n → Fin 3,
      (∑ σ ∈ Fintype.piFinset (D x), (∏ p, fac U (T p) (j p) (σ (S p))) * G j) =
      (∏ l : Lbl, ∑ y ∈ D x l, ∏ p with S p = l, fac U (T p) (j p) y) * G j := by
    intro j
    rw [← Finset.sum_mul, Finset.prod_univ_sum]
    congr 1
    refine Finset.sum_congr rfl fun σ _ => ?_
    rw [← Finset.prod_fiberwise Finset.univ S]
    refine Finset.prod_congr rfl fun l _ => ?_
    refine Finset.prod_congr rfl fun p hp => ?_
    rw [(Finset.mem_filter.1 hp).2]
  rw [Finset.sum_congr rfl fun j _ => hL j]
  have hpair : ∀ (j : Fin n → Fin 3) (l : Lbl) (p p' : Fin n), p ≠ p' → S p = l → S p' = l →
      (∀ p'', S p'' = l → p'' = p ∨ p'' = p') → T p' = (T p).flip → (∀ o, out o ≠ l) →
      (∑ y ∈ D x l, ∏ p with S p = l, fac U (T p) (j p) y) = if j p = j p' then 1 else 0 := by
    intro j l p p' hne hp hp' hall ht ho
    rw [hD2 x l ⟨p, hp⟩ ho, ← fac_contract U hU (T p) (j p) (j p')]
    refine Finset.sum_congr rfl fun y _ => ?_
    have : (Finset.univ.filter fun q => S q = l) = {p, p'} := by
      ext q
      simp only [Finset.mem_filter, Finset.mem_univ, true_and, Finset.mem_insert,
        Finset.mem_singleton]
      exact ⟨hall q, fun h => by rcases h with rfl | rfl <;> assumption⟩
    rw [this, Finset.prod_pair hne, ht]
  have hsingle : ∀ (j : Fin n → Fin 3) (l : Lbl) (o : Fin m) (p : Fin n), out o = l → S p = l →
      (∀ p', S p' = l → p' = p) → T p = ot o →
      (∑ y ∈ D x l, ∏ p with S p = l, fac U (T p) (j p) y) = fac U (ot o) (j p) (x o) := by
    intro j l o p ho hp hall ht
    subst ho
    rw [hD1, Finset.sum_singleton]
    have : (Finset.univ.filter fun q => S q = out o) = {p} := by
      ext q
      simp only [Finset.mem_filter, Finset.mem_univ, true_and, Finset.mem_singleton]
      exact ⟨hall q, fun h => by rw [h]; exact hp⟩
    rw [this, Finset.prod_singleton, ht]
  symm
  refine Finset.sum_of_injOn (fun τ p => τ (S p)) ?_ (fun _ _ => Finset.mem_coe.2 (Finset.mem_univ _)) ?_ ?_
  · intro τ hτ τ' hτ' h
    funext l
    by_cases hl : ∃ p, S p = l
    · obtain ⟨p, rfl⟩ := hl
      exact congrFun h p
    · have h1 := Fintype.mem_piFinset.1 (Finset.mem_coe.1 hτ) l
      have h2 := Fintype.mem_piFinset.1 (Finset.mem_coe.1 hτ') l
      simp only [Ed, hl, if_false, Finset.mem_singleton] at h1 h2
      rw [h1, h2]
  · intro j _ hj
    -- `j` is not constant on some label
    have : ∃ p p', p ≠ p' ∧ S p = S p' ∧ j p ≠ j p' := by
      by_contra hcon
      push Not at hcon
      apply hj
      refine ⟨fun l => if h : ∃ p, S p = l then j h.choose else 0, ?_, ?_⟩
      · rw [Finset.mem_coe, Fintype.mem_piFinset]
        intro l
        by_cases hl : ∃ p, S p = l
        · simp [Ed, hl]
        · simp [Ed, hl]
      · funext p
        have hl : ∃ p', S p' = S p := ⟨p, rfl⟩
        simp only [hl, dif_pos]
        by_cases e : hl.choose = p
        · rw [e]
        · exact hcon _ _ e hl.choose_spec
    obtain ⟨p, p', hne, hS, hj'⟩ := this
    have hz : (∑ y ∈ D x (S p), ∏ q with S q = S p, fac U (T q) (j q) y) = 0 := by
      rcases hcase (S p) with h | ⟨o, q, _, _, hall, _⟩ | ⟨q, q', hqq, hq, hq', hall, ht, ho⟩
      · exact absurd rfl (h.1 p)
      · exact absurd ((hall p rfl).trans (hall p' hS.symm).symm) hne
      · rw [hpair j (S p) q q' hqq hq hq' hall ht ho, if_neg]
        rcases hall p rfl with rfl | rfl <;> rcases hall p' hS.symm with rfl | rfl
        · exact absurd rfl hne
        · exact hj'
        · exact fun e => hj' e.symm
        · exact absurd rfl hne
    rw [Finset.prod_eq_zero (Finset.mem_univ (S p)) hz, zero_mul]
  · intro τ hτ
    simp only
    congr 1
    -- the product over labels is the product over output labels
    have : (∏ o, fac U (ot o) (τ (out o)) (x o)) =
        ∏ l ∈ Finset.univ.image out,
          (∑ y ∈ D x l, ∏ p with S p = l, fac U (T p) (τ (S p)) y) := by
      rw [Finset.prod_image (fun a _ b _ h => hinj h)]
      refine Finset.prod_congr rfl fun o _ => ?_
      rcases hcase (out o) with h | ⟨o', q, ho', hq, hall, ht⟩ | ⟨_, _, _, _, _, _, _, ho⟩
      · exact absurd rfl (h.2 o)
      · have := hinj ho'
        subst this
        rw [hsingle (fun p => τ (S p)) (out o') o' q rfl hq hall ht, hq]
      · exact absurd rfl (ho o)
    rw [this]
    refine Finset.prod_subset (Finset.subset_univ _) fun l _ hl => ?_
    have hl' : ∀ o, out o ≠ l := fun o e => hl (Finset.mem_image.2 ⟨o, Finset.mem_univ _, e⟩)
    rcases hcase l with h | ⟨o, _, ho, _⟩ | ⟨q, q', hqq, hq, hq', hall, ht, ho⟩
    · rw [hD0 x l h.1, Finset.sum_singleton]
      have : (Finset.univ.filter fun q => S q = l) = ∅ := by
        ext q; simp [h.1 q]
      rw [this, Finset.prod_empty]
    · exact absurd ho (hl' o)
    · rw [hpair (fun p => τ (S p)) l q q' hqq hq hq' hall ht ho, if_pos]
      rw [hq, hq']

end Verif.Flavour
