import Verif.Spec.FlavorKit
import Verif.Lemmas.WetBack
import Mathlib.Tactic.Positivity
import Mathlib.Tactic.FieldSimp
import Mathlib.Tactic.Push

/-!
# FlavorKit ↔ JMS
-/

set_option autoImplicit false

namespace Verif.FlavorKit
open Verif Verif.Py Verif.WetNames

/-! ## The names are distinct -/

def fresh (n : ℕ) : List ℕ → Bool
  | [] => true
  | m :: l => bif Nat.beq n m then false else fresh n l

def distinct : List ℕ → Bool
  | [] => true
  | n :: l => bif fresh n l then distinct l else false

/-- a binary digit of a hash value -/
def digitOf (k n : ℕ) : Bool := Nat.beq (Nat.mod (Nat.div (Nat.mod n 1048573) k) 2) 0

def select (b : Bool) (k : ℕ) : List ℕ → List ℕ
  | [] => []
  | n :: l => bif (bif digitOf k n then b else !b) then n :: select b k l else select b k l

/-- no number occurs twice; the list is split according to the digits of a hash value first -/
noncomputable def distinctBy : ℕ → ℕ → List ℕ → Bool
  | 0, _, l => distinct l
  | f + 1, k, l => forceN (Nat.mul k 2) fun k2 =>
    bif forceNs (select true k l) (distinctBy f k2) then forceNs (select false k l) (distinctBy f k2) else false

theorem fresh_iff (n : ℕ) : ∀ l : List ℕ, fresh n l = true → n ∉ l
  | [], _ => by simp
  | m :: l, h => by
    unfold fresh at h
    cases hb : Nat.beq n m
    · rw [hb] at h
      have hm : n ≠ m := fun e => by rw [e, Nat.beq_refl] at hb; exact Bool.noConfusion hb
      simp only [List.mem_cons, not_or]
      exact ⟨hm, fresh_iff n l h⟩
    · rw [hb] at h
      exact Bool.noConfusion h

theorem distinct_sound : ∀ l : List ℕ, distinct l = true → l.Nodup
  | [], _ => List.nodup_nil
  | n :: l, h => by
    unfold distinct at h
    cases hb : fresh n l
    · rw [hb] at h
      exact Bool.noConfusion h
    · rw [hb] at h
      exact List.nodup_cons.2 ⟨fresh_iff n l hb, distinct_sound l h⟩

theorem select_eq (b : Bool) (k : ℕ) (l : List ℕ) : select b k l = l.filter (fun n => digitOf k n == b) := by
  induction l with
  | nil => rfl
  | cons n l ih =>
    unfold select
    rw [ih, List.filter_cons]
    cases digitOf k n <;> cases b <;> rfl

theorem distinctBy_sound : ∀ (f k : ℕ) (l : List ℕ), distinctBy f k l = true → l.Nodup
  | 0, _, l, h => distinct_sound l h
  | f + 1, k, l, h => by
    unfold distinctBy at h
    rw [forceN_eq, forceNs_eq, forceNs_eq] at h
    cases hb : distinctBy f (Nat.mul k 2) (select true k l)
    · rw [hb] at h
      exact Bool.noConfusion h
    · rw [hb] at h
      have h1 := distinctBy_sound f _ _ hb
      have h2 := distinctBy_sound f _ _ h
      rw [select_eq] at h1 h2
      rw [List.nodup_iff_count_le_one] at h1 h2 ⊢
      intro a
      cases hd : digitOf k a
      · have := h2 a
        rwa [List.count_filter (by rw [hd]; rfl)] at this
      · have := h1 a
        rwa [List.count_filter (by rw [hd]; rfl)] at this

theorem map_decode_nodup' {l : List ℕ} (hl : l.Nodup) (hv : l.all validN = true) : (l.map decode).Nodup :=
  List.Nodup.map_on (fun a ha b hb e => decode_inj (List.all_eq_true.1 hv a ha) (List.all_eq_true.1 hv b hb) e) hl

/-- the codes of the names of the FlavorKit basis -/
def fkCodes : List ℕ :=
  Gen.WetPy.tableFlavorkit.map Prod.fst ++ Gen.WetPy.tableFlavorkitConj.map Prod.fst ++
    [n!"AVLL_2231", n!"AVRR_2231", n!"K2R_12", n!"K2R_13", n!"K2R_21", n!"K2R_23", n!"K2R_31", n!"K2R_32"]

def jmsCodes : List ℕ :=
  Gen.WetPy.tableFlavorkit.map Prod.snd ++ Gen.WetPy.tableFlavorkitConj.map Prod.snd ++
    [n!"VeeLL_1223", n!"VeeRR_1223", n!"egamma_21", n!"egamma_31", n!"egamma_12", n!"egamma_32", n!"egamma_13",
      n!"egamma_23"]

theorem fk_distinct : forceNs fkCodes (distinctBy 7 1) = true := by decide +kernel
theorem jms_distinct : forceNs jmsCodes (distinctBy 7 1) = true := by decide +kernel
theorem fk_valid : fkCodes.all validN = true := by decide +kernel
theorem jms_valid : jmsCodes.all validN = true := by decide +kernel

theorem fk_nodup : flavorKitNames.Nodup := by
  have h := fk_distinct
  rw [forceNs_eq] at h
  have := map_decode_nodup' (distinctBy_sound _ _ _ h) fk_valid
  have e : [n!"AVLL_2231", n!"AVRR_2231", n!"K2R_12", n!"K2R_13", n!"K2R_21", n!"K2R_23", n!"K2R_31",
      n!"K2R_32"].map decode
      = ["AVLL_2231", "AVRR_2231", "K2R_12", "K2R_13", "K2R_21", "K2R_23", "K2R_31", "K2R_32"] := by decide +kernel
  simpa only [flavorKitNames, fkCodes, d, dConj, Dict.keys, List.map_append, List.map_map, e, Function.comp_def]
    using this

theorem jms_nodup : jmsNames.Nodup := by
  have h := jms_distinct
  rw [forceNs_eq] at h
  have := map_decode_nodup' (distinctBy_sound _ _ _ h) jms_valid
  have e : [n!"VeeLL_1223", n!"VeeRR_1223", n!"egamma_21", n!"egamma_31", n!"egamma_12", n!"egamma_32",
      n!"egamma_13", n!"egamma_23"].map decode
      = ["VeeLL_1223", "VeeRR_1223", "egamma_21", "egamma_31", "egamma_12", "egamma_32", "egamma_13", "egamma_23"] := by
    decide +kernel
  simpa only [jmsNames, jmsCodes, d, dConj, List.map_append, List.map_map, e, Function.comp_def] using this

/-! ## Reverted dictionaries -/

section
variable {d dConj : Dict String String}


theorem get_revert_aux (t : Dict String String) : ∀ (r : Dict String String), (t.map Prod.snd).Nodup → ∀ a b,
    (a, b) ∈ t → (t.foldl (fun r p => r.set p.2 p.1) r).get? b = some a := by
  induction t using List.reverseRecOn with
  | nil => intro r _ a b h; simp at h
  | append_singleton t p ih =>
    intro r hn a b h
    rw [List.foldl_append]
    simp only [List.foldl_cons, List.foldl_nil]
    rw [List.map_append, List.nodup_append] at hn
    rcases List.mem_append.1 h with h | h
    · have hne : p.2 ≠ b := by
        intro e
        exact hn.2.2 b (List.mem_map.2 ⟨_, h, rfl⟩) p.2 (by simp) e.symm
      rw [Dict.get?_set_ne _ _ hne]
      exact ih r hn.1 a b h
    · rw [List.mem_singleton] at h
      subst h
      simp

theorem get_revert {t : Dict String String} (hn : (t.map Prod.snd).Nodup) {a b : String} (h : (a, b) ∈ t) :
    (revert t).get? b = some a := get_revert_aux t [] hn a b h

theorem get_revert_none_aux (t : Dict String String) : ∀ (r : Dict String String) (b : String),
    b ∉ t.map Prod.snd → r.get? b = none → (t.foldl (fun r p => r.set p.2 p.1) r).get? b = none := by
  induction t with
  | nil => intro r b _ h; exact h
  | cons p t ih =>
    intro r b hb hr
    simp only [List.map_cons, List.mem_cons, not_or] at hb
    rw [List.foldl_cons]
    exact ih _ b hb.2 (by rw [Dict.get?_set_ne _ _ (Ne.symm hb.1)]; exact hr)

theorem get_revert_none {t : Dict String String} {b : String} (h : b ∉ t.map Prod.snd) : (revert t).get? b = none :=
  get_revert_none_aux t [] b h rfl

/-! ## The loop -/

theorem loop_spec {rule : String → Except Exc Rule} {t : String → Rule} (C : Dict String ℂ) :
    ∀ (out : Dict String ℂ), C.NodupKeys → (∀ k ∈ C.keys, rule k = .ok (t k)) →
      (∀ k ∈ C.keys, ∀ k' ∈ C.keys, ∀ j f f', t k = some (j, f) → t k' = some (j, f') → k = k') →
      out.NodupKeys →
      (∀ k ∈ C.keys, ∀ j f, t k = some (j, f) → out.get? j = none) →
      ∃ D, loop rule out C = .ok D ∧ D.NodupKeys ∧
        (∀ k v j f, C.get? k = some v → t k = some (j, f) → D.get? j = some (f v)) ∧
        (∀ y, (∀ k ∈ C.keys, ∀ f, t k ≠ some (y, f)) → D.get? y = out.get? y) := by
  induction C with
  | nil =>
    intro out _ _ _ ho _
    exact ⟨out, rfl, ho, by simp, fun y _ => rfl⟩
  | cons p C ih =>
    obtain ⟨k, v⟩ := p
    change Dict String ℂ at C
    intro out hn hr hi ho hd
    have hn' : k ∉ C.keys ∧ C.NodupKeys := List.nodup_cons.1 hn
    have hk : k ∈ Dict.keys ((k, v) :: C) := List.mem_cons_self
    have hsub : ∀ x ∈ C.keys, x ∈ Dict.keys ((k, v) :: C) := fun x hx => List.mem_cons_of_mem _ hx
    have h0 := hr k hk
    cases ht : t k with
    | none =>
      obtain ⟨D, h1, h2, h3, h4⟩ := ih out hn'.2 (fun x hx => hr x (hsub x hx))
        (fun x hx x' hx' => hi x (hsub x hx) x' (hsub x' hx')) ho (fun x hx => hd x (hsub x hx))
      refine ⟨D, ?_, h2, ?_, ?_⟩
      · unfold loop
        rw [h0, ht]
        exact h1
      · intro x w j f hx hxt
        rw [Dict.get?_cons] at hx
        by_cases e : k = x
        · subst e
          rw [ht] at hxt
          exact absurd hxt (by simp)
        · rw [if_neg e] at hx
          exact h3 x w j f hx hxt
      · intro y hy
        exact h4 y fun x hx f => hy x (hsub x hx) f
    | some jf =>
      obtain ⟨j, f⟩ := jf
      obtain ⟨D, h1, h2, h3, h4⟩ := ih (out.set j (f v)) hn'.2 (fun x hx => hr x (hsub x hx))
        (fun x hx x' hx' => hi x (hsub x hx) x' (hsub x' hx')) (Dict.nodupKeys_set _ _ _ ho) (by
          intro x hx j' f' hx'
          have hne : j ≠ j' := by
            intro e
            subst e
            have := hi k hk x (hsub x hx) j f f' ht hx'
            exact hn'.1 (this ▸ hx)
          rw [Dict.get?_set_ne _ _ hne]
          exact hd x (hsub x hx) j' f' hx')
      refine ⟨D, ?_, h2, ?_, ?_⟩
      · unfold loop
        rw [h0, ht]
        exact h1
      · intro x w j' f' hx hxt
        rw [Dict.get?_cons] at hx
        by_cases e : k = x
        · subst e
          rw [if_pos rfl] at hx
          rw [ht] at hxt
          obtain ⟨rfl, rfl⟩ := Prod.mk.inj (Option.some.inj hxt)
          obtain rfl := Option.some.inj hx
          rw [h4 j, Dict.get?_set_self]
          intro x hx f'' hx'
          have := hi k hk x (hsub x hx) j f f'' ht hx'
          exact hn'.1 (this ▸ hx)
        · rw [if_neg e] at hx
          exact h3 x w j' f' hx hxt
      · intro y hy
        rw [h4 y fun x hx f => hy x (hsub x hx) f]
        have hne : j ≠ y := fun e => hy k hk f (e ▸ ht)
        rw [Dict.get?_set_ne _ _ hne]

/-! ## The correspondence of names -/

def specials : List (String × String) :=
  [("AVLL_2231", "VeeLL_1223"), ("AVRR_2231", "VeeRR_1223"), ("K2R_12", "egamma_21"), ("K2R_13", "egamma_31"),
    ("K2R_21", "egamma_12"), ("K2R_23", "egamma_32"), ("K2R_31", "egamma_13"), ("K2R_32", "egamma_23")]

def pairs (d dConj : Dict String String) : List (String × String) := d ++ dConj ++ specials

/-- no name occurs twice -/
structure Distinct (d dConj : Dict String String) : Prop where
  left : (d.keys ++ dConj.keys ++ specials.map Prod.fst).Nodup
  right : (d.map Prod.snd ++ dConj.map Prod.snd ++ specials.map Prod.snd).Nodup

theorem nodup3 {α : Type} {a b c : List α} (h : (a ++ b ++ c).Nodup) :
    a.Nodup ∧ b.Nodup ∧ c.Nodup ∧ (∀ x ∈ b, x ∉ a) ∧ (∀ x ∈ c, x ∉ a) ∧ (∀ x ∈ c, x ∉ b) := by
  rw [List.nodup_append, List.nodup_append] at h
  obtain ⟨⟨ha, hb, hab⟩, hc, hc'⟩ := h
  refine ⟨ha, hb, hc, fun x hx hx' => hab x hx' x hx rfl, fun x hx hx' => ?_, fun x hx hx' => ?_⟩
  · exact hc' x (List.mem_append_left _ hx') x hx rfl
  · exact hc' x (List.mem_append_right _ hx') x hx rfl

theorem charge_ok {p : String → ℝ} (he : 0 < p "alpha_e") :
    charge p = .ok (Real.sqrt (4 * Real.pi * p "alpha_e")) ∧ Real.sqrt (4 * Real.pi * p "alpha_e") ≠ 0 := by
  have h : 0 < 4 * Real.pi * p "alpha_e" := by have := Real.pi_pos; positivity
  exact ⟨if_neg (not_lt.2 h.le), (Real.sqrt_pos.2 h).ne'⟩

structure Good (p : String → ℝ) : Prop where
  alpha : 0 < p "alpha_e"
  e : 0 < p "m_e"
  mu : 0 < p "m_mu"
  tau : 0 < p "m_tau"

theorem k2r {p : String → ℝ} (hp : Good p) {k j : String} {x y : Char} {m : ℝ}
    (hm : mass p x = .ok m) (hm0 : m ≠ 0) (hxy : x ≠ y)
    (d0 : d.get? k = none) (d1 : dConj.get? k = none) (d2 : (revert d).get? j = none)
    (d3 : (revert dConj).get? j = none)
    (h : (k ≠ "AVLL_2231" ∧ k ≠ "AVRR_2231" ∧ k.toList.take 4 = "K2R_".toList ∧ k.toList.drop 4 = [x, y]
      ∧ "egamma_" ++ String.ofList [y, x] = j) ∧ j ≠ "VeeLL_1223" ∧ j ≠ "VeeRR_1223" ∧
      split0 j = "egamma".toList ∧ split1 j = [y, x] ∧ "K2R_" ++ String.ofList [x, y] = k) :
    ∃ f g, ruleFrom d dConj p k = .ok (some (j, f)) ∧ ruleTo d dConj p j = .ok (some (k, g)) ∧ (∀ v, g (f v) = v) ∧
      ∀ v, f (g v) = v := by
  obtain ⟨⟨h1, h2, h3, h4, h5⟩, h6, h7, h8, h9, h10⟩ := h
  obtain ⟨hc, hc0⟩ := charge_ok hp.alpha
  refine ⟨fun v => 1 / 2 * (Real.sqrt (4 * Real.pi * p "alpha_e") : ℂ) * m * v,
    fun v => 2 / (Real.sqrt (4 * Real.pi * p "alpha_e") : ℂ) / m * v, ?_, ?_, ?_, ?_⟩
  · unfold ruleFrom
    rw [d0]
    simp only
    rw [d1]
    simp only
    rw [if_neg h1, if_neg h2, if_pos h3, h4, hc]
    simp only [List.reverse_cons, List.reverse_nil, List.nil_append, List.singleton_append, char,
      List.getElem?_cons_succ, List.getElem?_cons_zero]
    show (mass p x >>= _) = _
    rw [hm, h5]
    rfl
  · unfold ruleTo
    rw [d2]
    simp only
    rw [d3]
    simp only
    rw [if_neg h6, if_neg h7, if_pos h8, h9]
    simp only [List.reverse_cons, List.reverse_nil, List.nil_append, List.singleton_append, char,
      List.getElem?_cons_succ, List.getElem?_cons_zero]
    show (if x = y then _ else _) = _
    rw [if_neg hxy, hc]
    show (mass p x >>= _) = _
    rw [hm]
    show (if _ then _ else _) = _
    rw [if_neg (not_or.2 ⟨hc0, hm0⟩), h10]
  all_goals
    intro v
    have h0 : (Real.sqrt (4 * Real.pi * p "alpha_e") : ℂ) ≠ 0 := Complex.ofReal_ne_zero.2 hc0
    have h0' : (m : ℂ) ≠ 0 := Complex.ofReal_ne_zero.2 hm0
    field_simp

theorem rule_direct (p : String → ℝ) {k j : String} (h : d.get? k = some j) (h' : (revert d).get? j = some k) :
    ∃ f g, ruleFrom d dConj p k = .ok (some (j, f)) ∧ ruleTo d dConj p j = .ok (some (k, g)) ∧ (∀ v, g (f v) = v) ∧
      ∀ v, f (g v) = v := by
  refine ⟨fun v => v, fun v => v, ?_, ?_, fun _ => rfl, fun _ => rfl⟩
  · unfold ruleFrom
    rw [h]
  · unfold ruleTo
    rw [h']

theorem rule_conj (p : String → ℝ) {k j : String} (d0 : d.get? k = none) (d2 : (revert d).get? j = none)
    (h : dConj.get? k = some j) (h' : (revert dConj).get? j = some k) :
    ∃ f g, ruleFrom d dConj p k = .ok (some (j, f)) ∧ ruleTo d dConj p j = .ok (some (k, g)) ∧ (∀ v, g (f v) = v) ∧
      ∀ v, f (g v) = v := by
  refine ⟨fun v => star v, fun v => star v, ?_, ?_, fun v => star_star v, fun v => star_star v⟩
  · unfold ruleFrom
    rw [d0]
    simp only
    rw [h]
  · unfold ruleTo
    rw [d2]
    simp only
    rw [h']

theorem rule_LL (p : String → ℝ) {k j : String} (d0 : d.get? k = none) (d1 : dConj.get? k = none)
    (d2 : (revert d).get? j = none) (d3 : (revert dConj).get? j = none)
    (hk : k = "AVLL_2231") (hj : j = "VeeLL_1223") :
    ∃ f g, ruleFrom d dConj p k = .ok (some (j, f)) ∧ ruleTo d dConj p j = .ok (some (k, g)) ∧ (∀ v, g (f v) = v) ∧
      ∀ v, f (g v) = v := by
  refine ⟨fun v => v, fun v => v, ?_, ?_, fun _ => rfl, fun _ => rfl⟩
  · unfold ruleFrom
    rw [d0]
    simp only
    rw [d1]
    simp only
    rw [if_pos hk, hj]
  · unfold ruleTo
    rw [d2]
    simp only
    rw [d3]
    simp only
    rw [if_pos hj, hk]

theorem rule_RR (p : String → ℝ) {k j : String} (d0 : d.get? k = none) (d1 : dConj.get? k = none)
    (d2 : (revert d).get? j = none) (d3 : (revert dConj).get? j = none)
    (hk : k = "AVRR_2231") (hj : j = "VeeRR_1223") (hk' : k ≠ "AVLL_2231") (hj' : j ≠ "VeeLL_1223") :
    ∃ f g, ruleFrom d dConj p k = .ok (some (j, f)) ∧ ruleTo d dConj p j = .ok (some (k, g)) ∧ (∀ v, g (f v) = v) ∧
      ∀ v, f (g v) = v := by
  refine ⟨fun v => v, fun v => v, ?_, ?_, fun _ => rfl, fun _ => rfl⟩
  · unfold ruleFrom
    rw [d0]
    simp only
    rw [d1]
    simp only
    rw [if_neg hk', if_pos hk, hj]
  · unfold ruleTo
    rw [d2]
    simp only
    rw [d3]
    simp only
    rw [if_neg hj', if_pos hj, hk]

theorem rule_special {p : String → ℝ} (hp : Good p) {k j : String} (d0 : d.get? k = none)
    (d1 : dConj.get? k = none) (d2 : (revert d).get? j = none) (d3 : (revert dConj).get? j = none)
    (h : (k, j) ∈ specials) :
    ∃ f g, ruleFrom d dConj p k = .ok (some (j, f)) ∧ ruleTo d dConj p j = .ok (some (k, g)) ∧ (∀ v, g (f v) = v) ∧
      ∀ v, f (g v) = v := by
  have me : mass p '1' = .ok (p "m_e") := rfl
  have mm : mass p '2' = .ok (p "m_mu") := rfl
  have mt : mass p '3' = .ok (p "m_tau") := rfl
  simp only [specials, List.mem_cons, List.not_mem_nil, or_false, Prod.mk.injEq] at h
  rcases h with ⟨hk, hj⟩ | ⟨hk, hj⟩ | ⟨hk, hj⟩ | ⟨hk, hj⟩ | ⟨hk, hj⟩ | ⟨hk, hj⟩ | ⟨hk, hj⟩ | ⟨hk, hj⟩
  · exact rule_LL p d0 d1 d2 d3 hk hj
  · exact rule_RR p d0 d1 d2 d3 hk hj (hk ▸ by decide) (hj ▸ by decide)
  · exact k2r hp (x := '1') (y := '2') me hp.e.ne' (by decide) d0 d1 d2 d3 (hk ▸ hj ▸ by decide +kernel)
  · exact k2r hp (x := '1') (y := '3') me hp.e.ne' (by decide) d0 d1 d2 d3 (hk ▸ hj ▸ by decide +kernel)
  · exact k2r hp (x := '2') (y := '1') mm hp.mu.ne' (by decide) d0 d1 d2 d3 (hk ▸ hj ▸ by decide +kernel)
  · exact k2r hp (x := '2') (y := '3') mm hp.mu.ne' (by decide) d0 d1 d2 d3 (hk ▸ hj ▸ by decide +kernel)
  · exact k2r hp (x := '3') (y := '1') mt hp.tau.ne' (by decide) d0 d1 d2 d3 (hk ▸ hj ▸ by decide +kernel)
  · exact k2r hp (x := '3') (y := '2') mt hp.tau.ne' (by decide) d0 d1 d2 d3 (hk ▸ hj ▸ by decide +kernel)

theorem rules (hd : Distinct d dConj) {p : String → ℝ} (hp : Good p) {k j : String} (h : (k, j) ∈ pairs d dConj) :
    ∃ f g, ruleFrom d dConj p k = .ok (some (j, f)) ∧ ruleTo d dConj p j = .ok (some (k, g)) ∧ (∀ v, g (f v) = v) ∧
      ∀ v, f (g v) = v := by
  obtain ⟨n1, n2, n3, n4, n5, n6⟩ := nodup3 hd.left
  obtain ⟨m1, m2, m3, m4, m5, m6⟩ := nodup3 hd.right
  rcases List.mem_append.1 h with h | h
  · rcases List.mem_append.1 h with h | h
    · exact rule_direct p (Dict.get?_of_mem n1 h) (get_revert m1 h)
    · exact rule_conj p ((Dict.get?_eq_none_iff _ _).2 (n4 k (List.mem_map_of_mem (f := Prod.fst) h)))
        (get_revert_none (m4 j (List.mem_map_of_mem (f := Prod.snd) h))) (Dict.get?_of_mem n2 h) (get_revert m2 h)
  · have hk : k ∈ specials.map Prod.fst := List.mem_map_of_mem (f := Prod.fst) h
    have hj : j ∈ specials.map Prod.snd := List.mem_map_of_mem (f := Prod.snd) h
    exact rule_special hp ((Dict.get?_eq_none_iff _ _).2 (n5 k hk)) ((Dict.get?_eq_none_iff _ _).2 (n6 k hk))
      (get_revert_none (m5 j hj)) (get_revert_none (m6 j hj)) h

theorem snd_inj (hd : Distinct d dConj) {k k' j : String} (h : (k, j) ∈ pairs d dConj)
    (h' : (k', j) ∈ pairs d dConj) : k = k' := by
  have hn : ((pairs d dConj).map Prod.snd).Nodup := by
    rw [pairs, List.map_append, List.map_append]
    exact hd.right
  exact congrArg Prod.fst (List.inj_on_of_nodup_map hn h h' rfl)

theorem fst_inj (hd : Distinct d dConj) {k j j' : String} (h : (k, j) ∈ pairs d dConj)
    (h' : (k, j') ∈ pairs d dConj) : j = j' := by
  have hn : ((pairs d dConj).map Prod.fst).Nodup := by
    rw [pairs, List.map_append, List.map_append]
    exact hd.left
  exact congrArg Prod.snd (List.inj_on_of_nodup_map hn h h' rfl)

/-- the outcome of a rule that does not fail -/
noncomputable def result (rule : String → Except Exc Rule) (k : String) : Rule :=
  match rule k with
  | .ok r => r
  | .error _ => none

theorem result_of {rule : String → Except Exc Rule} {k : String} {r : Rule} (h : rule k = .ok r) :
    result rule k = r ∧ rule k = .ok (result rule k) := by
  unfold result
  rw [h]
  exact ⟨rfl, rfl⟩

/-- a translation that renames along a one-to-one relation and drops all other names -/
theorem loop_rel {rule : String → Except Exc Rule} {R : String → String → (ℂ → ℂ) → Prop} {C : Dict String ℂ}
    (hC : C.NodupKeys)
    (hrule : ∀ k ∈ C.keys, (∃ j f, rule k = .ok (some (j, f)) ∧ R k j f) ∨ rule k = .ok none)
    (hinj : ∀ k k' j f f', R k j f → R k' j f' → k = k') :
    ∃ D, loop rule [] C = .ok D ∧ D.NodupKeys ∧
      (∀ k v j f, C.get? k = some v → rule k = .ok (some (j, f)) → D.get? j = some (f v)) ∧
      (∀ y, (∀ k ∈ C.keys, ∀ f, ¬ R k y f) → D.get? y = none) := by
  obtain ⟨D, h1, h2, h3, h4⟩ := loop_spec (rule := rule) (t := result rule) C [] hC
    (fun k hk => by
      rcases hrule k hk with ⟨j, f, h, _⟩ | h
      · exact (result_of h).2
      · exact (result_of h).2)
    (fun k hk k' hk' j f f' h h' => by
      rcases hrule k hk with ⟨j1, f1, e, r⟩ | e
      · rcases hrule k' hk' with ⟨j2, f2, e', r'⟩ | e'
        · rw [(result_of e).1] at h
          rw [(result_of e').1] at h'
          obtain ⟨rfl, rfl⟩ := Prod.mk.inj (Option.some.inj h)
          obtain ⟨rfl, rfl⟩ := Prod.mk.inj (Option.some.inj h')
          exact hinj _ _ _ _ _ r r'
        · rw [(result_of e').1] at h'
          exact absurd h' (by simp)
      · rw [(result_of e).1] at h
        exact absurd h (by simp))
    List.nodup_nil (fun _ _ _ _ _ => rfl)
  refine ⟨D, h1, h2, fun k v j f hv hr => h3 k v j f hv (result_of hr).1, fun y hy => ?_⟩
  rw [h4 y]
  · rfl
  · intro k hk f hf
    rcases hrule k hk with ⟨j, f', e, r⟩ | e
    · rw [(result_of e).1] at hf
      obtain ⟨rfl, rfl⟩ := Prod.mk.inj (Option.some.inj hf)
      exact hy k hk _ r
    · rw [(result_of e).1] at hf
      exact absurd hf (by simp)

theorem mem_keys {C : Dict String ℂ} {k : String} (h : k ∈ C.keys) : ∃ v, C.get? k = some v := by
  cases hv : C.get? k with
  | none => exact absurd h ((Dict.get?_eq_none_iff _ _).1 hv)
  | some v => exact ⟨v, rfl⟩

theorem keys_mem {C : Dict String ℂ} {k : String} {v : ℂ} (h : C.get? k = some v) : k ∈ C.keys :=
  List.mem_map.2 ⟨_, Dict.mem_of_get? h, rfl⟩

/-- there and back along a one-to-one relation -/
theorem there_and_back {r1 r2 : String → Except Exc Rule} {P : String → String → Prop}
    (hP : ∀ k j, P k j → ∃ f g, r1 k = .ok (some (j, f)) ∧ r2 j = .ok (some (k, g)) ∧ ∀ v, g (f v) = v)
    (i1 : ∀ k k' j, P k j → P k' j → k = k') (i2 : ∀ k j j', P k j → P k j' → j = j')
    {C : Dict String ℂ} (hC : C.NodupKeys) (hk : ∀ k ∈ C.keys, (∃ j, P k j) ∨ ((∀ j, ¬ P k j) ∧ r1 k = .ok none)) :
    ∃ D E, loop r1 [] C = .ok D ∧ loop r2 [] D = .ok E ∧ D.NodupKeys ∧ E.NodupKeys ∧
      (∀ y ∈ D.keys, ∃ k ∈ C.keys, P k y) ∧
      (∀ k, (∃ j, P k j) → E.get? k = C.get? k) ∧ (∀ k, (∀ j, ¬ P k j) → E.get? k = none) := by
  obtain ⟨D, h1, h2, h3, h4⟩ := loop_rel (rule := r1) (R := fun k j _ => P k j) hC
    (fun k hk' => by
      rcases hk k hk' with ⟨j, hj⟩ | ⟨_, h⟩
      · obtain ⟨f, g, e, _⟩ := hP k j hj
        exact .inl ⟨j, f, e, hj⟩
      · exact .inr h)
    (fun k k' j _ _ a b => i1 k k' j a b)
  have hD : ∀ y ∈ D.keys, ∃ k ∈ C.keys, P k y := by
    intro y hy
    by_contra hc
    push Not at hc
    obtain ⟨v, hv⟩ := mem_keys hy
    rw [h4 y (fun k hk _ => hc k hk)] at hv
    exact absurd hv (by simp)
  obtain ⟨E, e1, e2, e3, e4⟩ := loop_rel (rule := r2) (R := fun j k _ => P k j) h2
    (fun j hj => by
      obtain ⟨k, _, hkj⟩ := hD j hj
      obtain ⟨f, g, _, e, _⟩ := hP k j hkj
      exact .inl ⟨k, g, e, hkj⟩)
    (fun j j' k _ _ a b => i2 k j j' a b)
  refine ⟨D, E, h1, e1, h2, e2, hD, ?_, ?_⟩
  · rintro k ⟨j, hj⟩
    obtain ⟨f, g, a1, a2, a3⟩ := hP k j hj
    cases hv : C.get? k with
    | none =>
      refine e4 k fun j' hj' _ h' => ?_
      obtain ⟨k', hk', hp'⟩ := hD j' hj'
      obtain rfl := i1 _ _ _ h' hp'
      exact (Dict.get?_eq_none_iff _ _).1 hv hk'
    | some v =>
      rw [e3 j (f v) k g (h3 k v j f hv a1) a2, a3]
  · intro k hk'
    exact e4 k fun j _ _ h => hk' j h

theorem mem_fst {d dConj : Dict String String} {k : String}
    (h : k ∈ d.keys ++ dConj.keys ++ specials.map Prod.fst) : ∃ j, (k, j) ∈ pairs d dConj := by
  have : k ∈ (pairs d dConj).map Prod.fst := by
    rw [pairs, List.map_append, List.map_append]
    exact h
  obtain ⟨⟨a, b⟩, hx, rfl⟩ := List.mem_map.1 this
  exact ⟨b, hx⟩

theorem mem_snd {d dConj : Dict String String} {j : String}
    (h : j ∈ d.map Prod.snd ++ dConj.map Prod.snd ++ specials.map Prod.snd) : ∃ k, (k, j) ∈ pairs d dConj := by
  have : j ∈ (pairs d dConj).map Prod.snd := by
    rw [pairs, List.map_append, List.map_append]
    exact h
  obtain ⟨⟨a, b⟩, hx, rfl⟩ := List.mem_map.1 this
  exact ⟨a, hx⟩

theorem of_mem_snd {d dConj : Dict String String} {k j : String} (h : (k, j) ∈ pairs d dConj) :
    j ∈ d.map Prod.snd ++ dConj.map Prod.snd ++ specials.map Prod.snd := by
  rw [← List.map_append, ← List.map_append]
  exact List.mem_map_of_mem (f := Prod.snd) h

theorem fk_jms_fk (hd : Distinct d dConj) {p : String → ℝ} (hp : Good p) {C : Dict String ℂ} (hC : C.NodupKeys)
    (hk : ∀ k ∈ C.keys, k ∈ d.keys ++ dConj.keys ++ specials.map Prod.fst) :
    ∃ D E, loop (ruleFrom d dConj p) [] C = .ok D ∧ loop (ruleTo d dConj p) [] D = .ok E ∧
      ∀ x, E.get? x = C.get? x := by
  obtain ⟨D, E, h1, h2, -, -, -, h3, h4⟩ := there_and_back (r1 := ruleFrom d dConj p) (r2 := ruleTo d dConj p)
    (P := fun k j => (k, j) ∈ pairs d dConj)
    (fun k j h => by
      obtain ⟨f, g, a, b, c, _⟩ := rules hd hp h
      exact ⟨f, g, a, b, c⟩)
    (fun k k' j => snd_inj hd) (fun k j j' => fst_inj hd) hC (fun k hk' => .inl (mem_fst (hk k hk')))
  refine ⟨D, E, h1, h2, fun x => ?_⟩
  by_cases hx : ∃ j, (x, j) ∈ pairs d dConj
  · exact h3 x hx
  · rw [h4 x (fun j hj => hx ⟨j, hj⟩)]
    symm
    rw [Dict.get?_eq_none_iff]
    exact fun h => hx (mem_fst (hk x h))

/-- the rule for the coefficients that FlavorKit does not have -/
theorem rule_none (p : String → ℝ) {j : String}
    (hj : j ∉ d.map Prod.snd ++ dConj.map Prod.snd ++ specials.map Prod.snd)
    (he : split0 j = "egamma".toList → j ∈ egammaNames) : ruleTo d dConj p j = .ok none := by
  simp only [List.mem_append, not_or] at hj
  obtain ⟨⟨j1, j2⟩, j3⟩ := hj
  unfold ruleTo
  rw [get_revert_none j1]
  simp only
  rw [get_revert_none j2]
  simp only
  have n1 : j ≠ "VeeLL_1223" := fun e => j3 (by rw [e]; decide +kernel)
  have n2 : j ≠ "VeeRR_1223" := fun e => j3 (by rw [e]; decide +kernel)
  rw [if_neg n1, if_neg n2]
  by_cases hs : split0 j = "egamma".toList
  · rw [if_pos hs]
    have := he hs
    have hdiag : j = "egamma_11" ∨ j = "egamma_22" ∨ j = "egamma_33" := by
      have hcov : ∀ x ∈ egammaNames, x ∈ specials.map Prod.snd ∨ x = "egamma_11" ∨ x = "egamma_22" ∨
          x = "egamma_33" := by decide +kernel
      rcases hcov j this with h | h
      · exact absurd h j3
      · exact h
    have hx : ∃ x, split1 j = [x, x] := by
      rcases hdiag with rfl | rfl | rfl
      · exact ⟨'1', by decide +kernel⟩
      · exact ⟨'2', by decide +kernel⟩
      · exact ⟨'3', by decide +kernel⟩
    obtain ⟨x, hx⟩ := hx
    rw [hx]
    simp only [List.reverse_cons, List.reverse_nil, List.nil_append, List.singleton_append, char,
      List.getElem?_cons_succ, List.getElem?_cons_zero]
    show (if x = x then _ else _) = _
    rw [if_pos rfl]
  · rw [if_neg hs]

theorem jms_fk_jms (hd : Distinct d dConj) {p : String → ℝ} (hp : Good p) {C : Dict String ℂ} (hC : C.NodupKeys)
    (he : ∀ k ∈ C.keys, split0 k = "egamma".toList → k ∈ egammaNames) :
    ∃ D E, loop (ruleTo d dConj p) [] C = .ok D ∧ loop (ruleFrom d dConj p) [] D = .ok E ∧
      (∀ x ∈ d.map Prod.snd ++ dConj.map Prod.snd ++ specials.map Prod.snd, E.get? x = C.get? x) ∧
      ∀ x ∉ d.map Prod.snd ++ dConj.map Prod.snd ++ specials.map Prod.snd, E.get? x = none := by
  obtain ⟨D, E, h1, h2, -, -, -, h3, h4⟩ := there_and_back (r1 := ruleTo d dConj p) (r2 := ruleFrom d dConj p)
    (P := fun j k => (k, j) ∈ pairs d dConj)
    (fun j k h => by
      obtain ⟨f, g, a, b, _, c⟩ := rules hd hp h
      exact ⟨g, f, b, a, c⟩)
    (fun k k' j => fst_inj hd) (fun k j j' => snd_inj hd) hC (fun j hj => by
      by_cases h : j ∈ d.map Prod.snd ++ dConj.map Prod.snd ++ specials.map Prod.snd
      · exact .inl (mem_snd h)
      · exact .inr ⟨fun k hk => h (of_mem_snd hk), rule_none p h (he j hj)⟩)
  exact ⟨D, E, h1, h2, fun x hx => h3 x (mem_snd hx), fun x hx => h4 x fun k hk => hx (of_mem_snd hk)⟩

theorem unknown (p : String → ℝ) {k : String} {v : ℂ} (h1 : k ∉ d.keys) (h2 : k ∉ dConj.keys)
    (h3 : k ≠ "AVLL_2231") (h4 : k ≠ "AVRR_2231") (h5 : k.toList.take 4 ≠ "K2R_".toList) :
    loop (ruleFrom d dConj p) [] [(k, v)] = .error .valueError := by
  have : ruleFrom d dConj p k = .error .valueError := by
    unfold ruleFrom
    rw [(Dict.get?_eq_none_iff _ _).2 h1]
    simp only
    rw [(Dict.get?_eq_none_iff _ _).2 h2]
    simp only
    rw [if_neg h3, if_neg h4, if_neg h5]
  unfold loop
  rw [this]
  rfl

end

end Verif.FlavorKit
