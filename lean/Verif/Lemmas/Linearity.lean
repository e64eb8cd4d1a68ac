import Verif.Lemmas.Beta

/-!
# Lemmas: degree of tensor expressions in a set of variables
-/

set_option autoImplicit false

namespace Verif.Tens
open BigOperators

variable {κ : Type}

/-- degree of a product: at most one factor of degree one -/
def degMul : Option Bool → Option Bool → Option Bool
  | some false, some x => some x
  | some x, some false => some x
  | _, _ => none

/-- degree of an expression in the variables marked by `D`: `some false` independent of
them, `some true` linear (with `aff`: affine), `none` unknown -/
def deg (aff : Bool) (D : κ → Bool) : E κ → Option Bool
  | .s k => some (D k)
  | .t k => some (D k)
  | .num _ => some false
  | .i => some false
  | .eye => some false
  | .add a b => match deg aff D a, deg aff D b with
    | some x, some y => if x = y then some x else if aff then some true else none
    | _, _ => none
  | .sub a b => match deg aff D a, deg aff D b with
    | some x, some y => if x = y then some x else if aff then some true else none
    | _, _ => none
  | .neg a => deg aff D a
  | .mul a b => degMul (deg aff D a) (deg aff D b)
  | .div a b => match deg aff D b with
    | some false => deg aff D a
    | _ => none
  | .pow a _ => match deg aff D a with
    | some false => some false
    | _ => none
  | .mat a b => degMul (deg aff D a) (deg aff D b)
  | .conj a => deg aff D a
  | .tr a => deg aff D a
  | .trace a => deg aff D a
  | .ein _ a _ b _ c => degMul (deg aff D a) (degMul (deg aff D b) (deg aff D c))

/-- `A` is the combination `a A₁ + b A₂`, or all three agree -/
def Comb (a b : ℝ) (lin : Bool) (A A₁ A₂ : Ten) : Prop :=
  if lin then ∀ ix, A ix = a * A₁ ix + b * A₂ ix else A = A₁ ∧ A = A₂

theorem degMul_cases {x y : Option Bool} {z : Bool} (h : degMul x y = some z) :
    (x = some false ∧ y = some z) ∨ (x = some z ∧ y = some false) := by
  rcases x with _ | _ | _ <;> rcases y with _ | _ | _ <;> simp_all [degMul]

theorem comb_weaken {a b : ℝ} (hab : a + b = 1) {lin : Bool} {A A₁ A₂ : Ten}
    (h : Comb a b lin A A₁ A₂) : ∀ ix, A ix = a * A₁ ix + b * A₂ ix := by
  cases lin
  · obtain ⟨rfl, h2⟩ := h
    intro ix
    rw [← congrFun h2 ix, ← add_mul, ← Complex.ofReal_add, hab]
    simp
  · exact h

theorem deg_sound (a b : ℝ) (aff : Bool) (haff : aff = true → a + b = 1) (D : κ → Bool)
    (env env₁ env₂ : κ → Ten) (henv : ∀ k, Comb a b (D k) (env k) (env₁ k) (env₂ k))
    (e : E κ) (z : Bool) (h : deg aff D e = some z) :
    Comb a b z (eval env e) (eval env₁ e) (eval env₂ e) := by
  induction e generalizing z with
  | s k =>
    simp only [deg, Option.some.injEq] at h
    subst h
    have := henv k
    cases hD : D k
    · rw [hD] at this
      obtain ⟨h1, h2⟩ := this
      constructor
      · funext ix; simp only [eval]; rw [h1]
      · funext ix; simp only [eval]; rw [h2]
    · rw [hD] at this
      intro ix
      exact this []
  | t k =>
    simp only [deg, Option.some.injEq] at h
    subst h
    exact henv k
  | num n => simp only [deg, Option.some.injEq] at h; subst h; exact ⟨rfl, rfl⟩
  | i => simp only [deg, Option.some.injEq] at h; subst h; exact ⟨rfl, rfl⟩
  | eye => simp only [deg, Option.some.injEq] at h; subst h; exact ⟨rfl, rfl⟩
  | add x y ihx ihy =>
    simp only [deg] at h
    split at h
    · rename_i u v hu hv
      have hx := ihx u hu
      have hy := ihy v hv
      by_cases huv : u = v
      · rw [if_pos huv] at h
        simp only [Option.some.injEq] at h
        subst huv; subst h
        cases u
        · obtain ⟨h1, h2⟩ := hx
          obtain ⟨h3, h4⟩ := hy
          constructor <;> funext ix <;> simp only [eval]
          · rw [h1, h3]
          · rw [h2, h4]
        · intro ix
          simp only [eval]
          rw [hx ix, hy ix]; ring
      · rw [if_neg huv] at h
        split at h
        · rename_i ha
          simp only [Option.some.injEq] at h
          subst h
          intro ix
          simp only [eval]
          rw [comb_weaken (haff ha) hx ix, comb_weaken (haff ha) hy ix]; ring
        · simp at h
    · simp at h
  | sub x y ihx ihy =>
    simp only [deg] at h
    split at h
    · rename_i u v hu hv
      have hx := ihx u hu
      have hy := ihy v hv
      by_cases huv : u = v
      · rw [if_pos huv] at h
        simp only [Option.some.injEq] at h
        subst huv; subst h
        cases u
        · obtain ⟨h1, h2⟩ := hx
          obtain ⟨h3, h4⟩ := hy
          constructor <;> funext ix <;> simp only [eval]
          · rw [h1, h3]
          · rw [h2, h4]
        · intro ix
          simp only [eval]
          rw [hx ix, hy ix]; ring
      · rw [if_neg huv] at h
        split at h
        · rename_i ha
          simp only [Option.some.injEq] at h
          subst h
          intro ix
          simp only [eval]
          rw [comb_weaken (haff ha) hx ix, comb_weaken (haff ha) hy ix]; ring
        · simp at h
    · simp at h
  | neg x ihx =>
    have hx := ihx z h
    cases z
    · exact ⟨by funext ix; simp only [eval]; rw [hx.1], by funext ix; simp only [eval]; rw [hx.2]⟩
    · intro ix; simp only [eval]; rw [hx ix]; ring
  | mul x y ihx ihy =>
    rcases degMul_cases h with ⟨h1, h2⟩ | ⟨h1, h2⟩
    · have hx := ihx _ h1
      have hy := ihy _ h2
      cases z
      · exact ⟨by funext ix; simp only [eval]; rw [hx.1, hy.1],
          by funext ix; simp only [eval]; rw [hx.2, hy.2]⟩
      · intro ix; simp only [eval]; rw [hy ix, ← hx.1, ← hx.2]; ring
    · have hx := ihx _ h1
      have hy := ihy _ h2
      cases z
      · exact ⟨by funext ix; simp only [eval]; rw [hx.1, hy.1],
          by funext ix; simp only [eval]; rw [hx.2, hy.2]⟩
      · intro ix; simp only [eval]; rw [hx ix, ← hy.1, ← hy.2]; ring
  | div x y ihx ihy =>
    simp only [deg] at h
    split at h
    · rename_i hy'
      have hx := ihx z h
      have hy := ihy _ hy'
      cases z
      · exact ⟨by funext ix; simp only [eval]; rw [hx.1, hy.1],
          by funext ix; simp only [eval]; rw [hx.2, hy.2]⟩
      · intro ix; simp only [eval]; rw [hx ix, ← hy.1, ← hy.2]; ring
    · simp at h
  | pow x n ihx =>
    simp only [deg] at h
    split at h
    · rename_i hx'
      simp only [Option.some.injEq] at h
      subst h
      have hx := ihx _ hx'
      exact ⟨by funext ix; simp only [eval]; rw [hx.1], by funext ix; simp only [eval]; rw [hx.2]⟩
    · simp at h
  | mat x y ihx ihy =>
    rcases degMul_cases h with ⟨h1, h2⟩ | ⟨h1, h2⟩
    · have hx := ihx _ h1
      have hy := ihy _ h2
      cases z
      · exact ⟨by simp only [eval]; rw [hx.1, hy.1], by simp only [eval]; rw [hx.2, hy.2]⟩
      · intro ix
        simp only [eval]
        rw [← hx.1, ← hx.2]
        rcases ix with _ | ⟨i, _ | ⟨j, _ | ⟨_, _⟩⟩⟩ <;> simp only [matT]
        · simp
        · simp
        · simp only [hy _, mul_add, Finset.sum_add_distrib, Finset.mul_sum]
          congr 1 <;> exact Finset.sum_congr rfl fun k _ => by ring
        · simp
    · have hx := ihx _ h1
      have hy := ihy _ h2
      cases z
      · exact ⟨by simp only [eval]; rw [hx.1, hy.1], by simp only [eval]; rw [hx.2, hy.2]⟩
      · intro ix
        simp only [eval]
        rw [← hy.1, ← hy.2]
        rcases ix with _ | ⟨i, _ | ⟨j, _ | ⟨_, _⟩⟩⟩ <;> simp only [matT]
        · simp
        · simp
        · simp only [hx _, add_mul, Finset.sum_add_distrib, Finset.mul_sum]
          congr 1 <;> exact Finset.sum_congr rfl fun k _ => by ring
        · simp
  | conj x ihx =>
    have hx := ihx z h
    cases z
    · exact ⟨by funext ix; simp only [eval]; rw [hx.1], by funext ix; simp only [eval]; rw [hx.2]⟩
    · intro ix
      simp only [eval]; rw [hx ix]
      simp [Complex.conj_ofReal]
  | tr x ihx =>
    have hx := ihx z h
    cases z
    · exact ⟨by funext ix; simp only [eval]; rw [hx.1], by funext ix; simp only [eval]; rw [hx.2]⟩
    · intro ix; simp only [eval]; rw [hx _]
  | trace x ihx =>
    have hx := ihx z h
    cases z
    · exact ⟨by simp only [eval]; rw [hx.1], by simp only [eval]; rw [hx.2]⟩
    · intro ix
      simp only [eval, traceT, hx _, Finset.sum_add_distrib, Finset.mul_sum]
  | ein s1 x s2 y s3 w ihx ihy ihw =>
    rcases degMul_cases h with ⟨h1, h2⟩ | ⟨h1, h2⟩
    · rcases degMul_cases h2 with ⟨h3, h4⟩ | ⟨h3, h4⟩
      · have hx := ihx _ h1
        have hy := ihy _ h3
        have hw := ihw _ h4
        cases z
        · exact ⟨by simp only [eval]; rw [hx.1, hy.1, hw.1],
            by simp only [eval]; rw [hx.2, hy.2, hw.2]⟩
        · intro ix
          simp only [eval, einT]
          rw [← hx.1, ← hx.2, ← hy.1, ← hy.2]
          simp only [hw _, mul_add, Finset.sum_add_distrib, Finset.mul_sum]
          congr 1 <;> exact Finset.sum_congr rfl fun k _ => by ring
      · have hx := ihx _ h1
        have hy := ihy _ h3
        have hw := ihw _ h4
        cases z
        · exact ⟨by simp only [eval]; rw [hx.1, hy.1, hw.1],
            by simp only [eval]; rw [hx.2, hy.2, hw.2]⟩
        · intro ix
          simp only [eval, einT]
          rw [← hx.1, ← hx.2, ← hw.1, ← hw.2]
          simp only [hy _, mul_add, add_mul, Finset.sum_add_distrib, Finset.mul_sum]
          congr 1 <;> exact Finset.sum_congr rfl fun k _ => by ring
    · rcases degMul_cases h2 with ⟨h3, h4⟩ | ⟨h3, h4⟩ <;>
      · have hx := ihx _ h1
        have hy := ihy _ h3
        have hw := ihw _ h4
        cases z
        · exact ⟨by simp only [eval]; rw [hx.1, hy.1, hw.1],
            by simp only [eval]; rw [hx.2, hy.2, hw.2]⟩
        · intro ix
          simp only [eval, einT]
          rw [← hy.1, ← hy.2, ← hw.1, ← hw.2]
          simp only [hx _, add_mul, Finset.sum_add_distrib, Finset.mul_sum]
          congr 1 <;> exact Finset.sum_congr rfl fun k _ => by ring

end Verif.Tens
