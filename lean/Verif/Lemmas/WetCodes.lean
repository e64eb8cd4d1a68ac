import Verif.Model.PyStr
import Verif.Spec.WetTranslate
import Mathlib.Data.List.Induction
import Mathlib.Tactic.Linarith

/-!
# Names and their codes

`decode` and `code` are inverse to each other on the codes and names that occur.
-/

set_option autoImplicit false

namespace Verif.Py
open Verif.WetNames

/-- `k` base 256 digits follow a leading 1 -/
def Digits (k n : ℕ) : Prop := n / 256 ^ k = 1

theorem Digits.step {k n : ℕ} (h : Digits (k + 1) n) : Digits k (n / 256) := by
  unfold Digits at *
  rw [Nat.div_div_eq_div_mul, ← pow_succ']
  exact h

theorem Digits.big {k n : ℕ} (h : Digits (k + 1) n) : ¬ n < 256 := by
  intro hn
  unfold Digits at h
  have : n / 256 ^ (k + 1) = 0 := Nat.div_eq_of_lt (lt_of_lt_of_le hn (by
    rw [pow_succ]; exact Nat.le_mul_of_pos_left _ (by positivity)))
  omega

theorem toNat_ofNat {m : ℕ} (h : m < 256) : (Char.ofNat m).toNat = m := by
  have hv : m.isValidChar := Or.inl (by omega)
  simp only [Char.ofNat, hv, ↓reduceDIte]
  simp only [Char.ofNatAux, Char.toNat, UInt32.toNat]
  rfl

theorem encode_decodeAux : ∀ (k : ℕ) (f : ℕ) (n : ℕ), Digits k n → k ≤ f → encode (decodeAux f n).reverse = n
  | 0, f, n, h, _ => by
    have h1 : n = 1 := by simpa [Digits] using h
    subst h1
    cases f <;> simp [decodeAux, encode]
  | k + 1, 0, n, h, hf => by omega
  | k + 1, f + 1, n, h, hf => by
    have ih := encode_decodeAux k f (n / 256) h.step (by omega)
    unfold encode at ih ⊢
    rw [decodeAux, if_neg h.big, List.reverse_cons, List.foldl_append, ih]
    simp only [List.foldl_cons, List.foldl_nil]
    rw [toNat_ofNat (Nat.mod_lt _ (by norm_num))]
    omega

/-- the number is the code of a string -/
def validN (n : ℕ) : Bool :=
  Nat.beq (Nat.div n (Nat.pow 256 (slen n))) 1 && Nat.ble (slen n) 64

theorem code_decode {n : ℕ} (h : validN n = true) : code (decode n) = n := by
  rw [validN, Bool.and_eq_true] at h
  unfold code decode
  rw [String.toList_ofList]
  exact encode_decodeAux (slen n) 64 n (Nat.eq_of_beq_eq_true h.1) (Nat.le_of_ble_eq_true h.2)

theorem decode_inj {m n : ℕ} (hm : validN m = true) (hn : validN n = true) (h : decode m = decode n) : m = n := by
  rw [← code_decode hm, ← code_decode hn, h]

/-- a name whose code can be decoded -/
structure Plain (x : String) : Prop where
  short : x.toList.length ≤ 64
  ascii : ∀ c ∈ x.toList, c.toNat < 256

theorem ofNat_toNat (c : Char) : Char.ofNat c.toNat = c := by
  exact Char.ofNat_toNat c

theorem encode_ge_one (l : List Char) : 1 ≤ encode l := by
  induction l using List.reverseRecOn with
  | nil => simp [encode]
  | append_singleton l c ih =>
    unfold encode at ih ⊢
    rw [List.foldl_append]
    simp only [List.foldl_cons, List.foldl_nil]
    omega

theorem decodeAux_encode (l : List Char) : ∀ (f : ℕ), l.length ≤ f → (∀ c ∈ l, c.toNat < 256) →
    decodeAux f (encode l) = l.reverse := by
  induction l using List.reverseRecOn with
  | nil =>
    intro f _ _
    cases f <;> simp [decodeAux, encode]
  | append_singleton l c ih =>
    intro f hf hc
    have hl := encode_ge_one l
    have hcn : c.toNat < 256 := hc c (by simp)
    rw [List.length_append] at hf
    have he : encode (l ++ [c]) = encode l * 256 + c.toNat := by
      unfold encode; rw [List.foldl_append]; rfl
    cases f with
    | zero => simp at hf
    | succ f =>
      have h1 : (encode l * 256 + c.toNat) / 256 = encode l := by omega
      have h2 : (encode l * 256 + c.toNat) % 256 = c.toNat := by omega
      rw [he, decodeAux, if_neg (by omega), h1, h2, ofNat_toNat,
        ih f (by simpa using hf) (fun d hd => hc d (by simp [hd])), List.reverse_append]
      rfl

theorem decode_code {x : String} (h : Plain x) : decode (code x) = x := by
  unfold decode code
  rw [decodeAux_encode _ _ h.short h.ascii, List.reverse_reverse, String.ofList_toList]

/-! ## Families of names -/

theorem mem_cat {ps qs : List String} {x : String} : x ∈ cat ps qs ↔ ∃ p ∈ ps, ∃ q ∈ qs, x = p ++ q := by
  simp only [cat, List.mem_flatMap, List.mem_map]
  constructor
  · rintro ⟨p, hp, q, hq, h⟩; exact ⟨p, hp, q, hq, h.symm⟩
  · rintro ⟨p, hp, q, hq, h⟩; exact ⟨p, hp, q, hq, h.symm⟩

/-- the codes of the characters -/
def nats (x : String) : List ℕ := x.toList.map Char.toNat

/-- append characters to a string -/
noncomputable def extend (n : ℕ) : List ℕ → ℕ
  | [] => n
  | c :: l => forceN (Nat.add (Nat.mul n 256) c) fun m => extend m l

theorem code_append (p q : String) : code (p ++ q) = extend (code p) (nats q) := by
  unfold code nats encode
  rw [String.toList_append, List.foldl_append]
  generalize List.foldl _ 1 p.toList = n
  generalize q.toList = l
  induction l generalizing n with
  | nil => rfl
  | cons c l ih => simp only [List.foldl_cons, List.map_cons, extend, forceN_eq]; exact ih _

def shortAscii (m : ℕ) (l : List ℕ) : Bool := Nat.ble l.length m && l.all fun c => Nat.blt c 256

theorem shortAscii_sound {m : ℕ} {x : String} (h : shortAscii m (nats x) = true) :
    x.toList.length ≤ m ∧ ∀ c ∈ x.toList, c.toNat < 256 := by
  rw [shortAscii, Bool.and_eq_true] at h
  refine ⟨by simpa [nats] using Nat.le_of_ble_eq_true h.1, fun c hc => ?_⟩
  have := List.all_eq_true.1 h.2 c.toNat (List.mem_map.2 ⟨c, hc, rfl⟩)
  exact Nat.le_of_ble_eq_true this

theorem plain_append {p q : String} (hp : shortAscii 32 (nats p) = true) (hq : shortAscii 32 (nats q) = true) :
    Plain (p ++ q) := by
  have h1 := shortAscii_sound hp
  have h2 := shortAscii_sound hq
  refine ⟨?_, ?_⟩
  · rw [String.toList_append, List.length_append]; have := h1.1; have := h2.1; omega
  · intro c hc
    rw [String.toList_append, List.mem_append] at hc
    exact hc.elim (h1.2 c) (h2.2 c)

/-- evaluates the numbers of a list before they are used -/
noncomputable def forceNs {α : Type} : List ℕ → (List ℕ → α) → α
  | [], k => k []
  | n :: l, k => forceN n fun n => forceNs l fun l => k (n :: l)

theorem forceNs_eq {α : Type} : ∀ (l : List ℕ) (k : List ℕ → α), forceNs l k = k l
  | [], _ => rfl
  | n :: l, k => by rw [forceNs, forceN_eq, forceNs_eq l]

noncomputable def forceNss {α : Type} : List (List ℕ) → (List (List ℕ) → α) → α
  | [], k => k []
  | n :: l, k => forceNs n fun n => forceNss l fun l => k (n :: l)

theorem forceNss_eq {α : Type} : ∀ (l : List (List ℕ)) (k : List (List ℕ) → α), forceNss l k = k l
  | [], _ => rfl
  | n :: l, k => by rw [forceNss, forceNs_eq, forceNss_eq l]

/-- a property of codes holds for a whole family of names -/
noncomputable def checkCat (ok : ℕ → Bool) (ps qs : List String) : Bool :=
  forceNss (ps.map nats) fun ps => forceNss (qs.map nats) fun qs =>
    ps.all (shortAscii 32) && (qs.all (shortAscii 32) &&
      ps.all fun p => forceN (extend 1 p) fun n => qs.all fun q => forceN (extend n q) ok)

theorem code_eq_extend (p : String) : code p = extend 1 (nats p) := by
  have := code_append "" p
  rwa [String.empty_append] at this

theorem checkCat_sound {ok : ℕ → Bool} {ps qs : List String} (h : checkCat ok ps qs = true) {x : String}
    (hx : x ∈ cat ps qs) : Plain x ∧ ok (code x) = true := by
  obtain ⟨p, hp, q, hq, rfl⟩ := mem_cat.1 hx
  rw [checkCat, forceNss_eq, forceNss_eq, Bool.and_eq_true, Bool.and_eq_true] at h
  obtain ⟨h1, h2, h3⟩ := h
  have hp' : nats p ∈ ps.map nats := List.mem_map.2 ⟨p, hp, rfl⟩
  have hq' : nats q ∈ qs.map nats := List.mem_map.2 ⟨q, hq, rfl⟩
  refine ⟨plain_append (List.all_eq_true.1 h1 _ hp') (List.all_eq_true.1 h2 _ hq'), ?_⟩
  have := List.all_eq_true.1 h3 _ hp'
  rw [forceN_eq] at this
  have := List.all_eq_true.1 this _ hq'
  rwa [forceN_eq, ← code_eq_extend, ← code_append] at this

end Verif.Py
