import Verif.Lemmas.WetSym

/-!
# Checks of the individual entries of the anomalous dimension matrices
-/

set_option autoImplicit false
set_option linter.unusedSimpArgs false

namespace Verif.WetTab
open Verif Verif.Rotation Verif.WetRun

/-! ## Going through the entries of a matrix -/

/-- all entries of a matrix satisfy `q` -/
def rowsAll (q : ℕ → ℕ → Ent → Bool) : ℕ → Rows → Bool
  | _, [] => true
  | i, row :: rest =>
    force i fun i => row.all (fun x => force x.1 fun j => q i j x.2) && rowsAll q (i + 1) rest

theorem lookupRow_mem {row : List (ℕ × Ent)} {j : ℕ} {e : Ent} (h : lookupRow row j = some e) :
    (j, e) ∈ row := by
  induction row with
  | nil => cases h
  | cons x row ih =>
    obtain ⟨k, e'⟩ := x
    rw [lookupRow] at h
    split at h
    · next hk => subst hk; obtain rfl := Option.some.inj h; exact List.mem_cons_self
    · exact List.mem_cons_of_mem _ (ih h)

theorem rowsAll_spec {q : ℕ → ℕ → Ent → Bool} {i0 : ℕ} {R : Rows} (h : rowsAll q i0 R = true) {i j : ℕ}
    {e : Ent} (he : entry R i j = some e) : q (i0 + i) j e = true := by
  induction R generalizing i0 i with
  | nil => simp [entry, lookupRow] at he
  | cons row rest ih =>
    rw [rowsAll, force_eq, Bool.and_eq_true] at h
    cases i with
    | zero =>
      have := List.all_eq_true.1 h.1 _ (lookupRow_mem (row := row) (j := j) (e := e) (by
        simpa [entry] using he))
      simpa [force_eq] using this
    | succ i =>
      have := ih h.2 (i := i) (by simpa [entry] using he)
      rwa [show i0 + 1 + i = i0 + (i + 1) from by omega] at this

/-- the coefficients with a property, as a number -/
def maskOf (P : Coef → Bool) : List Coef → ℕ
  | [] => 0
  | c :: l => match P c with
    | true => Nat.succ (Nat.mul 2 (maskOf P l))
    | false => Nat.mul 2 (maskOf P l)

theorem testBit_maskOf {P : Coef → Bool} {l : List Coef} {i : ℕ} {c : Coef} (h : l[i]? = some c) :
    (maskOf P l).testBit i = P c := by
  induction l generalizing i with
  | nil => simp at h
  | cons d l ih =>
    have e : maskOf P (d :: l) = 2 * maskOf P l + (if P d then 1 else 0) := by
      rw [maskOf]
      cases hd : P d
      · rfl
      · rfl
    rw [e]
    cases i with
    | zero =>
      obtain rfl : d = c := by simpa using h
      rw [Nat.testBit_zero]
      cases P d <;> simp
    | succ i =>
      rw [Nat.testBit_succ]
      have : (2 * maskOf P l + (if P d then 1 else 0)) / 2 = maskOf P l := by split <;> omega
      rw [this]
      exact ih (by simpa using h)

/-! ## Real coefficients -/

/-- real coefficients, for the kernel -/
def realB (c : Coef) : Bool :=
  forceIx (ixOf c) fun ix => force (numOf ix) fun m =>
    (relatives c.1 ix).any fun y => y.2.1 && (!y.2.2 && Nat.beq (numOf y.1) m)

theorem realB_iff {c : Coef} (h : Valid c.1 (ixOf c)) : realB c = true ↔ IsReal c.1 (ixOf c) := by
  rw [realB, forceIx_eq, force_eq, List.any_eq_true]
  constructor
  · rintro ⟨⟨jx, cc, n⟩, hy, he⟩
    simp only [Bool.and_eq_true, Bool.not_eq_true'] at he
    obtain ⟨rfl, rfl, h3⟩ := he
    have hs := relatives_sound hy
    have := numOf_inj (hs.valid h) h (Nat.eq_of_beq_eq_true h3)
    simp only at this hs
    rw [this] at hs
    exact hs
  · intro hr
    refine ⟨_, relatives_complete hr, ?_⟩
    simp

/-- entries that are real numbers -/
def Ent.isRe : Ent → Bool
  | .i _ _ => false
  | _ => true

/-- the derivative of a real coefficient gets real contributions from real coefficients only -/
def realRowOK (m : ℕ) (R : Rows) : Bool :=
  rowsAll (fun i j e => !Nat.testBit m j || (Nat.testBit m i && e.isRe)) 0 R

/-- both matrices of a sector -/
def realOK (S : Sec) : Bool :=
  force (maskOf realB S.coefs) fun m => realRowOK m S.rE && realRowOK m S.rS

theorem secs_realOK : secs.all realOK = true := by decide +kernel

/-- the conjugation of coefficients that mix under a symmetry agrees -/
def conjOK (img : List (ℕ × ℕ)) (n : ℕ) (S : Sec) : Bool :=
  force (img.getD n (0, 0)).2 fun cert => force (maskOf realB S.coefs) fun m =>
    rowsAll (fun i j _ => beqB (tconj cert i) (tconj cert j) || Nat.testBit m i) 0 S.rE &&
    rowsAll (fun i j _ => beqB (tconj cert i) (tconj cert j) || Nat.testBit m i) 0 S.rS

/-- all sectors -/
def conjAll (img : List (ℕ × ℕ)) : ℕ → List Sec → Bool
  | _, [] => true
  | n, S :: rest => force n fun n => conjOK img n S && conjAll img (n + 1) rest

/-- the conjugations of a coefficient under several symmetries -/
def conjBits (certs : List ℕ) (i : ℕ) : ℕ :=
  certs.foldr (fun c a => Nat.add (Nat.mul 2 a) (Nat.mod (Nat.div (tgt c i) 2) 2)) 0

theorem conjBits_lt (certs : List ℕ) (i : ℕ) : conjBits certs i < 2 ^ certs.length := by
  induction certs with
  | nil => simp [conjBits]
  | cons c certs ih =>
    have e : conjBits (c :: certs) i = 2 * conjBits certs i + tgt c i / 2 % 2 := rfl
    rw [e, List.length_cons, pow_succ]
    omega

theorem conjBits_inj {certs : List ℕ} {i j : ℕ} (h : conjBits certs i = conjBits certs j) {c : ℕ} (hc : c ∈ certs) :
    tconj c i = tconj c j := by
  induction certs with
  | nil => cases hc
  | cons d certs ih =>
    have e : ∀ i, conjBits (d :: certs) i = 2 * conjBits certs i + tgt d i / 2 % 2 := fun _ => rfl
    rw [e, e] at h
    rcases List.mem_cons.1 hc with rfl | hc
    · rw [tconj, tconj, show tgt c i / 2 % 2 = tgt c j / 2 % 2 by omega]
    · exact ih (by omega) hc

theorem rowsAll_mono {q q' : ℕ → ℕ → Ent → Bool} (hq : ∀ i j e, q i j e = true → q' i j e = true) {i0 : ℕ} {R : Rows}
    (h : rowsAll q i0 R = true) : rowsAll q' i0 R = true := by
  induction R generalizing i0 with
  | nil => rfl
  | cons row rest ih =>
    rw [rowsAll, force_eq, Bool.and_eq_true] at h ⊢
    refine ⟨List.all_eq_true.2 fun x hx => ?_, ih h.2⟩
    have := List.all_eq_true.1 h.1 x hx
    rw [force_eq] at this ⊢
    exact hq _ _ _ this

/-- `conjOK` for several symmetries together -/
def conjOKs (imgs : List (List (ℕ × ℕ))) (n : ℕ) (S : Sec) : Bool :=
  force (maskOf realB S.coefs) fun m => force S.coefs.length fun k =>
  force (pack 8 ((List.range k).map (conjBits (imgs.map fun img => (img.getD n (0, 0)).2)))) fun N =>
    rowsAll (fun i j _ => Nat.testBit m i || (Nat.blt i k && (Nat.blt j k &&
      Nat.beq (Nat.mod (Nat.shiftRight N (Nat.mul 8 i)) 256) (Nat.mod (Nat.shiftRight N (Nat.mul 8 j)) 256)))) 0 S.rE &&
    rowsAll (fun i j _ => Nat.testBit m i || (Nat.blt i k && (Nat.blt j k &&
      Nat.beq (Nat.mod (Nat.shiftRight N (Nat.mul 8 i)) 256) (Nat.mod (Nat.shiftRight N (Nat.mul 8 j)) 256)))) 0 S.rS

theorem conjOKs_spec {imgs : List (List (ℕ × ℕ))} (hlen : imgs.length ≤ 8) {n : ℕ} {S : Sec}
    (h : conjOKs imgs n S = true) {img : List (ℕ × ℕ)} (hi : img ∈ imgs) : conjOK img n S = true := by
  rw [conjOKs, force_eq, force_eq, force_eq, Bool.and_eq_true] at h
  rw [conjOK, force_eq, force_eq, Bool.and_eq_true]
  set certs := imgs.map fun img => (img.getD n (0, 0)).2 with hcerts
  have hb : ∀ i < S.coefs.length, Nat.mod (Nat.shiftRight (pack 8 ((List.range S.coefs.length).map (conjBits certs)))
      (Nat.mul 8 i)) 256 = conjBits certs i := by
    intro i hi
    refine (blk_pack (w := 8) (l := (List.range S.coefs.length).map (conjBits certs)) ?_ i).trans ?_
    · intro c hc
      obtain ⟨j, -, rfl⟩ := List.mem_map.1 hc
      refine (conjBits_lt certs j).trans_le (Nat.pow_le_pow_right (by norm_num) ?_)
      simpa [hcerts] using hlen
    · simp [List.getD_eq_getElem?_getD, hi]
  have key : ∀ i j (e : Ent), (Nat.testBit (maskOf realB S.coefs) i || (Nat.blt i S.coefs.length &&
      (Nat.blt j S.coefs.length && Nat.beq
        (Nat.mod (Nat.shiftRight (pack 8 ((List.range S.coefs.length).map (conjBits certs))) (Nat.mul 8 i)) 256)
        (Nat.mod (Nat.shiftRight (pack 8 ((List.range S.coefs.length).map (conjBits certs))) (Nat.mul 8 j)) 256)))) = true →
      (beqB (tconj (img.getD n (0, 0)).2 i) (tconj (img.getD n (0, 0)).2 j) ||
        Nat.testBit (maskOf realB S.coefs) i) = true := by
    intro i j _ h
    rw [Bool.or_eq_true] at h ⊢
    rcases h with h | h
    · exact .inr h
    · rw [Bool.and_eq_true, Bool.and_eq_true] at h
      obtain ⟨h1, h2, h3⟩ := h
      have h1' : i < S.coefs.length := by simpa [Nat.blt] using h1
      have h2' : j < S.coefs.length := by simpa [Nat.blt] using h2
      have h3' := Nat.eq_of_beq_eq_true h3
      rw [hb i h1', hb j h2'] at h3'
      refine .inl ?_
      rw [conjBits_inj h3' (List.mem_map.2 ⟨img, hi, rfl⟩)]
      cases tconj (img.getD n (0, 0)).2 j <;> rfl
  exact ⟨rowsAll_mono key h.1, rowsAll_mono key h.2⟩

/-- all sectors -/
def conjAlls (imgs : List (List (ℕ × ℕ))) : ℕ → List Sec → Bool
  | _, [] => true
  | n, S :: rest => force n fun n => conjOKs imgs n S && conjAlls imgs (n + 1) rest

theorem conjAlls_spec {imgs : List (List (ℕ × ℕ))} (hlen : imgs.length ≤ 8) {n : ℕ} {L : List Sec}
    (h : conjAlls imgs n L = true) {img : List (ℕ × ℕ)} (hi : img ∈ imgs) : conjAll img n L = true := by
  induction L generalizing n with
  | nil => rfl
  | cons S L ih =>
    rw [conjAlls, force_eq, Bool.and_eq_true] at h
    rw [conjAll, force_eq, Bool.and_eq_true]
    exact ⟨conjOKs_spec hlen h.1 hi, ih h.2⟩

theorem conj_all : conjAlls [img_u12, img_d23, img_e12, img_e23, img_nu12, img_nu23, img_parity] 0 secs = true := by
  decide +kernel

theorem conj_u12 : conjAll img_u12 0 secs = true := conjAlls_spec (by simp) conj_all (by simp)
theorem conj_d23 : conjAll img_d23 0 secs = true := conjAlls_spec (by simp) conj_all (by simp)
theorem conj_e12 : conjAll img_e12 0 secs = true := conjAlls_spec (by simp) conj_all (by simp)
theorem conj_e23 : conjAll img_e23 0 secs = true := conjAlls_spec (by simp) conj_all (by simp)
theorem conj_nu12 : conjAll img_nu12 0 secs = true := conjAlls_spec (by simp) conj_all (by simp)
theorem conj_nu23 : conjAll img_nu23 0 secs = true := conjAlls_spec (by simp) conj_all (by simp)
theorem conj_parity : conjAll img_parity 0 secs = true := conjAlls_spec (by simp) conj_all (by simp)

end Verif.WetTab
