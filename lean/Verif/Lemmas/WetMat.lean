import Verif.Lemmas.WetScale

/-!
# Soundness of the matrix comparison
-/

set_option autoImplicit false
set_option linter.unusedSimpArgs false

namespace Verif.WetTab
open Verif Verif.Rotation Verif.WetRun

/-! ## Blocks of bits -/

/-- block `q` of `w` bits -/
def blk (w N q : ℕ) : ℕ := N >>> (w * q) % 2 ^ w

theorem testBit_blk (w N q b : ℕ) :
    (blk w N q).testBit b = (decide (b < w) && N.testBit (w * q + b)) := by
  rw [blk, Nat.testBit_mod_two_pow, Nat.testBit_shiftRight]

theorem blk_or (w a b q : ℕ) : blk w (a ||| b) q = blk w a q ||| blk w b q := by
  apply Nat.eq_of_testBit_eq
  intro i
  simp only [testBit_blk, Nat.testBit_or]
  cases decide (i < w) <;> simp

theorem blk_zero (w q : ℕ) : blk w 0 q = 0 := by simp [blk]

theorem blk_shift (w c p q : ℕ) (hc : c < 2 ^ w) :
    blk w (c <<< (w * p)) q = if p = q then c else 0 := by
  apply Nat.eq_of_testBit_eq
  intro i
  rw [testBit_blk, Nat.testBit_shiftLeft]
  by_cases hi : i < w
  · rcases lt_trichotomy p q with h | rfl | h
    · have h1 : w * p + w ≤ w * q := by
        calc w * p + w = w * (p + 1) := by ring
          _ ≤ w * q := Nat.mul_le_mul_left _ h
      rw [if_neg (by omega), Nat.testBit_lt_two_pow (x := c) (lt_of_lt_of_le hc (Nat.pow_le_pow_right (by omega) (by omega)))]
      simp
    · rw [if_pos rfl]
      simp [hi]
    · have h1 : w * q + w ≤ w * p := by
        calc w * q + w = w * (q + 1) := by ring
          _ ≤ w * p := Nat.mul_le_mul_left _ h
      rw [if_neg (by omega)]
      have : ¬(w * p ≤ w * q + i) := by omega
      simp [this]
  · have hc' : c.testBit i = false :=
      Nat.testBit_lt_two_pow (lt_of_lt_of_le hc (Nat.pow_le_pow_right (by omega) (by omega)))
    by_cases h : p = q
    · simp [hi, h, hc']
    · simp [hi, h]

/-! ## Rows -/

theorem lookup_lt {n m : ℕ} {row : List (ℕ × Ent)} (h : rowWF n m row = true) {j : ℕ} (hj : j < m) :
    lookupRow row j = none := by
  induction row generalizing m with
  | nil => rfl
  | cons ke rest ih =>
    obtain ⟨k, e⟩ := ke
    simp only [rowWF, Bool.and_eq_true, Nat.ble_eq] at h
    rw [lookupRow, if_neg (by omega)]
    exact ih h.2 (by omega)

/-- the entries of a well-formed row are small -/
theorem lookup_small {n m : ℕ} {row : List (ℕ × Ent)} (h : rowWF n m row = true) {j : ℕ} {e : Ent}
    (hj : lookupRow row j = some e) : e.small = true ∧ j < n := by
  induction row generalizing m with
  | nil => cases hj
  | cons ke rest ih =>
    obtain ⟨k, e'⟩ := ke
    simp only [rowWF, Bool.and_eq_true, Nat.ble_eq] at h
    rw [lookupRow] at hj
    split at hj
    · next hk =>
      subst hk
      obtain rfl := Option.some.inj hj
      exact ⟨h.1.2, by have := h.1.1.2; rw [Nat.blt_eq] at this; exact this⟩
    · exact ih h.2 hj

/-- the number of an entry -/
def ecode (cd : Ent → ℕ) : Option Ent → ℕ
  | none => 0
  | some e => cd e

theorem rowNum_blk {n m : ℕ} {row : List (ℕ × Ent)} (h : rowWF n m row = true) (κ : ℕ → ℕ)
    (hκ : ∀ i < n, ∀ j < n, κ i = κ j → i = j) (cd : ℕ → Ent → ℕ)
    (hcd : ∀ j < n, ∀ e : Ent, e.small = true → cd j e < 2 ^ 112) {j : ℕ} (hj : j < n) :
    blk 112 (rowNum κ cd row) (κ j) = ecode (cd j) (lookupRow row j) := by
  induction row generalizing m with
  | nil => exact blk_zero _ _
  | cons ke rest ih =>
    obtain ⟨k, e⟩ := ke
    simp only [rowWF, Bool.and_eq_true, Nat.ble_eq] at h
    have hk : k < n := by have := h.1.1.2; rw [Nat.blt_eq] at this; exact this
    change blk 112 ((cd k e <<< (112 * κ k)) ||| rowNum κ cd rest) (κ j) = _
    rw [blk_or, blk_shift _ _ _ _ (hcd k hk e h.1.2), ih h.2, lookupRow]
    by_cases hkj : k = j
    · subst hkj
      rw [if_pos rfl, if_pos rfl, lookup_lt h.2 (by omega)]
      simp [ecode]
    · rw [if_neg (fun e => hkj (hκ _ hk _ hj e)), if_neg hkj]
      simp

/-! ## Matrices -/

/-- well-formed rows, none beyond the size -/
def matWF' (n : ℕ) (R : Rows) : Bool :=
  Nat.ble n 1024 && R.all (rowWF n 0) && (R.drop n).all fun row => match row with
    | [] => true
    | _ :: _ => false

theorem matWF'_spec {n : ℕ} {R : Rows} (h : matWF' n R = true) :
    n ≤ 1024 ∧ (∀ row ∈ R, rowWF n 0 row = true) ∧ ∀ k, n ≤ 0 + k → R.getD k [] = [] := by
  rw [matWF', Bool.and_eq_true, Bool.and_eq_true, List.all_eq_true, List.all_eq_true] at h
  refine ⟨Nat.le_of_ble_eq_true h.1.1, h.1.2, fun k hk => ?_⟩
  rw [List.getD_eq_getElem?_getD]
  cases e : R[k]? with
  | none => rfl
  | some row =>
    have hm : row ∈ R.drop n := by
      refine List.mem_iff_getElem?.2 ⟨k - n, ?_⟩
      rw [List.getElem?_drop, ← e]
      congr 1
      omega
    have := h.2 row hm
    cases row with
    | nil => rfl
    | cons => simp at this

theorem entry_small {n : ℕ} {R : Rows} (h : matWF' n R = true) {i j : ℕ} {e : Ent}
    (he : entry R i j = some e) : e.small = true ∧ j < n := by
  obtain ⟨_, h2, _⟩ := matWF'_spec h
  rw [entry] at he
  refine lookup_small (m := 0) ?_ he
  rw [List.getD_eq_getElem?_getD] at he ⊢
  cases e : R[i]? with
  | none => rfl
  | some row => exact h2 row (List.mem_of_getElem? e)

theorem row_cell {n : ℕ} {R : Rows} (h : matWF' n R = true) (κ : ℕ → ℕ)
    (hκ : ∀ i < n, ∀ j < n, κ i = κ j → i = j) (cd : ℕ → Ent → ℕ)
    (hcd : ∀ j < n, ∀ e : Ent, e.small = true → cd j e < 2 ^ 112) (i : ℕ) {j : ℕ} (hj : j < n) :
    blk 112 (rowNum κ cd (R.getD i [])) (κ j) = ecode (cd j) (entry R i j) := by
  obtain ⟨_, h2, _⟩ := matWF'_spec h
  rw [entry]
  refine rowNum_blk (m := 0) ?_ κ hκ cd hcd hj
  rw [List.getD_eq_getElem?_getD]
  cases e : R[i]? with
  | none => rfl
  | some row => exact h2 row (List.mem_of_getElem? e)

/-! ## Codes -/

theorem Q.ctorIdx_lt (q : Q) : q.ctorIdx < 8 := by cases q <;> decide

theorem Q.ctorIdx_inj {q q' : Q} (h : q.ctorIdx = q'.ctorIdx) : q = q' := by
  cases q <;> cases q' <;> first | rfl | (exact absurd h (by decide))

theorem small_nat {k : ℕ} (h : Nat.ble k 1023 = true) : k < 1024 := by
  have := Nat.le_of_ble_eq_true h; omega

theorem small_nat' {k : ℕ} (h : Nat.ble k 1125899906842623 = true) : k < 1125899906842624 := by
  have := Nat.le_of_ble_eq_true h; omega

theorem code_lt {e : Ent} (h : e.small = true) : e.code < 2 ^ 112 := by
  cases e with
  | p k l =>
    simp only [Ent.small, Bool.and_eq_true] at h
    have h1 := small_nat' h.1; have h2 := small_nat' h.2
    simp only [Ent.code]; norm_num; omega
  | n k l =>
    simp only [Ent.small, Bool.and_eq_true] at h
    have h1 := small_nat' h.1; have h2 := small_nat' h.2
    simp only [Ent.code]; norm_num; omega
  | i k l =>
    simp only [Ent.small, Bool.and_eq_true] at h
    have h1 := small_nat h.1; have h2 := small_nat h.2
    simp only [Ent.code]; norm_num; omega
  | b k l k' l' =>
    simp only [Ent.small, Bool.and_eq_true] at h
    have h1 := small_nat h.1.1.1; have h2 := small_nat h.1.1.2; have h3 := small_nat h.1.2
    have h4 := small_nat h.2
    simp only [Ent.code]; norm_num; omega
  | mp k l x y =>
    simp only [Ent.small, Bool.and_eq_true] at h
    have h1 := small_nat' h.1; have h2 := small_nat' h.2
    have hx := Q.ctorIdx_lt x; have hy := Q.ctorIdx_lt y
    simp only [Ent.code]; norm_num; omega
  | mn k l x y =>
    simp only [Ent.small, Bool.and_eq_true] at h
    have h1 := small_nat' h.1; have h2 := small_nat' h.2
    have hx := Q.ctorIdx_lt x; have hy := Q.ctorIdx_lt y
    simp only [Ent.code]; norm_num; omega

theorem code_ne {e : Ent} : e.code ≠ 0 ∧ e.code ≠ 7 := by
  cases e <;> simp only [Ent.code] <;> omega

theorem code_inj {e e' : Ent} (h : e.small = true) (h' : e'.small = true) (he : e.code = e'.code) :
    e = e' := by
  cases e <;> cases e' <;>
    simp only [Ent.code, Ent.small, Bool.and_eq_true] at h h' he <;>
    first
    | (exfalso; omega)
    | (have h1 := small_nat' h.1; have h2 := small_nat' h.2
       have h3 := small_nat' h'.1; have h4 := small_nat' h'.2
       congr 1 <;> omega)
    | (have h1 := small_nat h.1; have h2 := small_nat h.2
       have h3 := small_nat h'.1; have h4 := small_nat h'.2
       congr 1 <;> omega)
    | (rename_i k l x y k' l' x' y'
       have h1 := small_nat' h.1; have h2 := small_nat' h.2
       have h3 := small_nat' h'.1; have h4 := small_nat' h'.2
       have hx := Q.ctorIdx_lt x; have hy := Q.ctorIdx_lt y
       have hx' := Q.ctorIdx_lt x'; have hy' := Q.ctorIdx_lt y'
       have ex : x = x' := Q.ctorIdx_inj (by omega)
       have ey : y = y' := Q.ctorIdx_inj (by omega)
       subst ex ey
       congr 1 <;> omega)
    | (have h1 := small_nat h.1.1.1; have h2 := small_nat h.1.1.2; have h3 := small_nat h.1.2
       have h4 := small_nat h.2
       have h5 := small_nat h'.1.1.1; have h6 := small_nat h'.1.1.2; have h7 := small_nat h'.1.2
       have h8 := small_nat h'.2
       congr 1 <;> omega)

/-! ## The expected entries -/

theorem flip_small {e e' : Ent} (h : e.small = true) (he : e.flip = some e') : e'.small = true := by
  cases e <;> simp only [Ent.flip, Option.some.injEq, reduceCtorEq] at he <;> subst he <;> exact h

theorem signed_small {e e' : Ent} {n c : Bool} (h : e.small = true) (he : e.signed n c = some e') :
    e'.small = true := by
  cases e <;> cases n <;> cases c <;>
    simp only [Ent.signed, Bool.xor_true, Bool.xor_false, Bool.not_true, Bool.not_false,
      Option.some.injEq, reduceCtorEq] at he <;>
    first | (subst he; exact h) | exact flip_small h he

theorem setMasses_small {e e' : Ent} {nd : List Q × List Q} (h : e.small = true)
    (he : e.setMasses nd = some e') : e'.small = true := by
  obtain ⟨N, D⟩ := nd
  rcases N with _ | ⟨x, _ | ⟨x', N⟩⟩ <;> rcases D with _ | ⟨y, _ | ⟨y', D⟩⟩ <;>
    simp only [Ent.setMasses, reduceCtorEq] at he <;> cases e <;>
    simp only [Option.some.injEq, reduceCtorEq] at he <;> subst he <;> exact h

theorem transform_eq (σ : Q → Q) (e : Ent) (neg conj : Bool) (ma mb ma' mb' : ℕ) :
    transform σ e neg conj ma mb ma' mb' = (e.signed neg conj).bind fun e =>
      e.setMasses (cancel ((e.num ++ qOf mb).map σ ++ qOf ma') ((e.den ++ qOf ma).map σ ++ qOf mb')) := by
  unfold transform
  split
  · next h =>
    have h := Nat.eq_of_beq_eq_true h
    obtain ⟨rfl, rfl, rfl, rfl⟩ : ma = 0 ∧ mb = 0 ∧ ma' = 0 ∧ mb' = 0 := by omega
    cases neg <;> rfl
  · next h =>
    have h := Nat.eq_of_beq_eq_true h
    obtain ⟨rfl, rfl, rfl, rfl⟩ : ma = 0 ∧ mb = 0 ∧ ma' = 0 ∧ mb' = 0 := by omega
    cases neg <;> rfl
  · generalize Ent.signed _ neg conj = o
    cases o <;> rfl

theorem transform_small {σ : Q → Q} {e e' : Ent} {neg conj : Bool} {ma mb ma' mb' : ℕ}
    (h : e.small = true) (he : transform σ e neg conj ma mb ma' mb' = some e') :
    e'.small = true := by
  rw [transform_eq] at he
  obtain ⟨e1, h1, h2⟩ := Option.bind_eq_some_iff.1 he
  exact setMasses_small (signed_small h h1) h2

/-- the comparison of the matrices shows that the entries correspond -/
theorem entries_correspond {σ : Q → Q} {S S' : Sec} {cert : ℕ} {R R' : Rows} {n n' : ℕ}
    (hR : matWF' n R = true) (hR' : matWF' n' R' = true)
    (hinj : ∀ i < n, ∀ j < n, tpos cert i = tpos cert j → i = j)
    (hrange : ∀ i < n, tpos cert i < n')
    (h : matOK σ S S' cert R' n R 0 = true) {i j : ℕ} (hi : i < n) (hj : j < n) :
    (entry R i j = none ∧ entry R' (tpos cert i) (tpos cert j) = none) ∨
      ∃ e e', entry R i j = some e ∧ entry R' (tpos cert i) (tpos cert j) = some e' ∧
        transform σ e (xor (tneg cert i) (tneg cert j)) (tconj cert j) (massNo S.ms i)
          (massNo S.ms j) (massNo S'.ms (tpos cert i)) (massNo S'.ms (tpos cert j)) = some e' := by
  have h1 := row_cell hR (tpos cert) hinj
    (fun j e => codeO (transform σ e (xor (tneg cert i) (tneg cert j))
    (tconj cert j) (massNo S.ms i) (massNo S.ms j) (massNo S'.ms (tpos cert i))
    (massNo S'.ms (tpos cert j)))) (by
      intro j _ e he
      cases ht : transform σ e (xor (tneg cert i) (tneg cert j))
        (tconj cert j) (massNo S.ms i) (massNo S.ms j) (massNo S'.ms (tpos cert i))
        (massNo S'.ms (tpos cert j)) with
      | none => simp [codeO]
      | some e' => exact code_lt (transform_small he ht)) i hj
  have h2 := row_cell hR' (fun j => j) (fun _ _ _ _ h => h)
    (fun _ e => e.code) (fun _ _ e he => code_lt he) (tpos cert i) (hrange j hj)
  have h0 := matOK_row h i (by omega)
  rw [rowOK, getF_eq, Nat.zero_add] at h0
  have h3 := h1.symm.trans
    ((congrArg (fun N => blk 112 N (tpos cert j)) (Nat.eq_of_beq_eq_true h0)).trans h2)
  cases he : entry R i j with
  | none =>
    cases he' : entry R' (tpos cert i) (tpos cert j) with
    | none => exact .inl ⟨rfl, rfl⟩
    | some e' =>
      rw [he, he'] at h3
      exact absurd h3.symm code_ne.1
  | some e =>
    rw [he] at h3
    have hs := (entry_small hR he).1
    cases ht : transform σ e (xor (tneg cert i) (tneg cert j))
        (tconj cert j) (massNo S.ms i) (massNo S.ms j) (massNo S'.ms (tpos cert i))
        (massNo S'.ms (tpos cert j)) with
    | none =>
      simp only [ecode, ht, codeO] at h3
      cases he' : entry R' (tpos cert i) (tpos cert j) with
      | none => rw [he'] at h3; cases h3
      | some e' => rw [he'] at h3; exact absurd h3.symm code_ne.2
    | some e'' =>
      simp only [ecode, ht, codeO] at h3
      cases he' : entry R' (tpos cert i) (tpos cert j) with
      | none => rw [he'] at h3; exact absurd h3 code_ne.1
      | some e' =>
        rw [he'] at h3
        have := code_inj (transform_small hs ht) (entry_small hR' he').1 h3
        subst this
        exact .inr ⟨e, e'', rfl, rfl, ht⟩

end Verif.WetTab
