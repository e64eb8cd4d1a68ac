import Verif.Lemmas.WetMat
import Mathlib.Tactic.FieldSimp

/-!
# Meaning of the expected entries
-/

set_option autoImplicit false
set_option linter.unusedSimpArgs false

namespace Verif.WetTab
open Verif Verif.Rotation Verif.WetRun

/-- an entry without its masses -/
noncomputable def Ent.coef (f : ℕ) : Ent → ℂ
  | .p k l => ((k / l : ℝ) : ℂ)
  | .n k l => ((-(k / l) : ℝ) : ℂ)
  | .b k l k' l' => ((-(k / l) * b0g f + k' / l' : ℝ) : ℂ)
  | .mp k l _ _ => ((k / l : ℝ) : ℂ)
  | .mn k l _ _ => ((-(k / l) : ℝ) : ℂ)
  | .i k l => ((k / l : ℝ) : ℂ) * Complex.I

theorem eval_coef (f : ℕ) (m : Masses) (e : Ent) :
    e.eval f m = e.coef f * ((mprod m e.num / mprod m e.den : ℝ) : ℂ) := by
  cases e <;> simp [Ent.eval, Ent.coef, Ent.num, Ent.den, mprod]

/-- no mass vanishes -/
def Massive (m : Masses) : Prop := ∀ q : Q, q.val m ≠ 0

theorem mprod_ne {m : Masses} (hm : Massive m) (l : List Q) : mprod m l ≠ 0 := by
  induction l with
  | nil => simp [mprod]
  | cons q l ih => exact mul_ne_zero (hm q) ih

theorem mprod_append (m : Masses) (l l' : List Q) : mprod m (l ++ l') = mprod m l * mprod m l' := by
  induction l with
  | nil => simp [mprod]
  | cons q l ih => simp [mprod, ih, mul_assoc]

theorem mprod_map {m m' : Masses} {σ : Q → Q} (h : ∀ q, (σ q).val m' = q.val m) (l : List Q) :
    mprod m' (l.map σ) = mprod m l := by
  induction l with
  | nil => rfl
  | cons q l ih => simp [mprod, ih, h]

theorem mprod_erase {m : Masses} {q : Q} {l : List Q} (h : q ∈ l) :
    mprod m l = q.val m * mprod m (l.erase q) := by
  induction l with
  | nil => cases h
  | cons x l ih =>
    by_cases hx : x = q
    · subst hx; simp [mprod]
    · rw [List.erase_cons_tail (by simpa using hx)]
      rcases List.mem_cons.1 h with h | h
      · exact absurd h.symm hx
      · simp only [mprod]
        rw [ih h]; ring

theorem cancel_sound {m : Masses} (hm : Massive m) (N D : List Q) :
    mprod m (cancel N D).1 / mprod m (cancel N D).2 = mprod m N / mprod m D := by
  induction N generalizing D with
  | nil => rfl
  | cons x N ih =>
    rw [cancel]
    split
    · next h =>
      rw [ih, mprod_erase h, mprod]
      rw [mul_div_mul_left _ _ (hm x)]
    · have := ih D
      revert this
      rcases cancel N D with ⟨a, b⟩
      intro h
      simp only [mprod] at h ⊢
      rw [mul_div_assoc, h, mul_div_assoc]

theorem flip_sound {e e' : Ent} (f : ℕ) (h : e.flip = some e') :
    e'.coef f = -e.coef f ∧ e'.num = e.num ∧ e'.den = e.den := by
  cases e <;> simp only [Ent.flip, Option.some.injEq, reduceCtorEq] at h <;> subst h <;>
    simp [Ent.coef, Ent.num, Ent.den]

theorem coef_real {e : Ent} (f : ℕ) (h : ∀ k l, e ≠ .i k l) :
    (starRingEnd ℂ) (e.coef f) = e.coef f := by
  cases e with
  | i k l => exact absurd rfl (h k l)
  | _ => simp [Ent.coef]

theorem signed_sound {e e' : Ent} {n c : Bool} (f : ℕ) (h : e.signed n c = some e') :
    e'.coef f = sgn n * conjIf c (e.coef f) ∧ e'.num = e.num ∧ e'.den = e.den := by
  by_cases hi : ∃ k l, e = .i k l
  · obtain ⟨k, l, rfl⟩ := hi
    cases n <;> cases c <;> simp only [Ent.signed, Bool.xor_true, Bool.xor_false, Bool.not_true,
      Bool.not_false, Option.some.injEq, reduceCtorEq] at h <;> subst h <;>
      simp [sgn, conjIf, Ent.coef]
  · have hc : conjIf c (e.coef f) = e.coef f := by
      cases c
      · rfl
      · exact coef_real f fun k l h => hi ⟨k, l, h⟩
    rw [hc]
    have hs : e.signed n c = match n with | true => e.flip | false => some e := by
      cases e with
      | i k l => exact absurd ⟨k, l, rfl⟩ hi
      | _ => cases n <;> rfl
    rw [hs] at h
    cases n
    · obtain rfl := Option.some.inj h
      simp [sgn]
    · obtain ⟨h1, h2, h3⟩ := flip_sound f h
      exact ⟨by rw [h1]; simp [sgn], h2, h3⟩

theorem setMasses_sound {e e' : Ent} {nd : List Q × List Q} (f : ℕ) (h : e.setMasses nd = some e') :
    e'.coef f = e.coef f ∧ e'.num = nd.1 ∧ e'.den = nd.2 := by
  obtain ⟨N, D⟩ := nd
  rcases N with _ | ⟨x, _ | ⟨x', N⟩⟩ <;> rcases D with _ | ⟨y, _ | ⟨y', D⟩⟩ <;>
    simp only [Ent.setMasses, reduceCtorEq] at h <;> cases e <;>
    simp only [Option.some.injEq, reduceCtorEq] at h <;> subst h <;>
    simp [Ent.coef, Ent.num, Ent.den]

theorem conjIf_mul_real (c : Bool) (z : ℂ) (x : ℝ) : conjIf c (z * (x : ℂ)) = conjIf c z * (x : ℂ) := by
  cases c <;> simp [conjIf]

/-- the entry between the images, in terms of the original one -/
theorem transform_sound {σ : Q → Q} {e e' : Ent} {neg conj : Bool} {ma mb ma' mb' : ℕ}
    (h : transform σ e neg conj ma mb ma' mb' = some e') (f : ℕ) {m m' : Masses} (hm : Massive m)
    (hm' : Massive m') (hσ : ∀ q, (σ q).val m' = q.val m) :
    e'.eval f m' * ((mprod m' (qOf mb') / mprod m' (qOf ma') : ℝ) : ℂ) =
      sgn neg * conjIf conj (e.eval f m) * ((mprod m (qOf mb) / mprod m (qOf ma) : ℝ) : ℂ) := by
  rw [transform_eq] at h
  obtain ⟨e1, h1, h2⟩ := Option.bind_eq_some_iff.1 h
  obtain ⟨c1, n1, d1⟩ := signed_sound f h1
  obtain ⟨c2, n2, d2⟩ := setMasses_sound f h2
  rw [eval_coef f m' e', c2, c1, n2, d2, cancel_sound hm', eval_coef f m e, conjIf_mul_real,
    List.map_append, List.map_append, mprod_append,
    mprod_append, mprod_append, mprod_append,
    mprod_map hσ, mprod_map hσ, mprod_map hσ, mprod_map hσ, n1, d1]
  rw [mul_assoc, ← Complex.ofReal_mul, mul_assoc (sgn neg) (conjIf conj (e.coef f) * _), mul_assoc (conjIf conj (e.coef f)),
    ← Complex.ofReal_mul, ← mul_assoc]
  congr 2
  have h1 := mprod_ne hm e.den
  have h2 := mprod_ne hm (qOf ma)
  have h3 := mprod_ne hm' (qOf ma')
  have h4 := mprod_ne hm' (qOf mb')
  field_simp

end Verif.WetTab
