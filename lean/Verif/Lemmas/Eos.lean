import Verif.Model.Eos
import Verif.Spec.Eos

/-!
# Lemmas on the string functions of the EOS export
-/

set_option autoImplicit false

namespace Verif.Eos
open Verif Verif.EFT

lemma replaceAux_absent (old new : Str) :
    ∀ (n : ℕ) (s : Str), (∀ a b, s ≠ a ++ (old ++ b)) → replaceAux old new n s = s := by
  intro n
  induction n with
  | zero => intro s _; rfl
  | succ n ih =>
    intro s h
    cases s with
    | nil => rfl
    | cons c s =>
      unfold replaceAux
      rw [if_neg, ih s fun a b e => h (c :: a) b (by rw [e]; rfl)]
      intro hp
      rw [List.isPrefixOf_iff_prefix] at hp
      obtain ⟨t, ht⟩ := hp
      exact h [] t (by rw [← ht]; rfl)

lemma replaceAux_once (old new : Str) (ho : old ≠ []) (b : Str) :
    ∀ (n : ℕ) (a : Str), (a ++ (old ++ b)).length ≤ n →
      (∀ a' b', a ++ (old ++ b) = a' ++ (old ++ b') → a' = a) →
      replaceAux old new n (a ++ (old ++ b)) = a ++ (new ++ b) := by
  intro n
  induction n with
  | zero =>
    intro a h
    have : 0 < old.length := List.length_pos_iff.2 ho
    simp at h
    exact absurd h.2.1 ho
  | succ n ih =>
    intro a hl hu
    cases a with
    | nil =>
      obtain ⟨c, o, rfl⟩ := List.exists_cons_of_ne_nil ho
      show replaceAux (c :: o) new (n + 1) (c :: (o ++ b)) = _
      unfold replaceAux
      rw [if_pos (by rw [List.isPrefixOf_iff_prefix]; exact ⟨b, rfl⟩)]
      rw [show (c :: (o ++ b)).drop (c :: o).length = b by
        rw [← List.cons_append]; exact List.drop_left' rfl]
      rw [replaceAux_absent]
      · rfl
      · intro a' b' e
        have := hu ((c :: o) ++ a') b' (by rw [e]; simp)
        simp at this
    | cons x a =>
      show replaceAux old new (n + 1) (x :: (a ++ (old ++ b))) = x :: (a ++ (new ++ b))
      unfold replaceAux
      rw [if_neg, ih a (by simp at hl ⊢; omega)]
      · intro a' b' e
        have := hu (x :: a') b' (by rw [List.cons_append, e]; rfl)
        simpa using this
      · intro hp
        rw [List.isPrefixOf_iff_prefix] at hp
        obtain ⟨t, ht⟩ := hp
        have := hu [] t ht.symm
        simp at this

lemma replace_member {coeff lep k : Str} (h : Member coeff lep k) :
    replace "lnu".toList lep coeff = k := by
  obtain ⟨a, b, rfl, rfl, hu⟩ := h
  exact replaceAux_once _ _ (by decide) b _ a le_rfl hu

lemma prefix_brace {tag s : Str} (h : (tag ++ ['{']) <+: s) : '{' ∈ s := by
  obtain ⟨t, rfl⟩ := h
  simp

lemma contains_of {sub a b : Str} : contains sub (a ++ (sub ++ b)) = true := by
  induction a with
  | nil =>
    have : sub.isPrefixOf (sub ++ b) = true := by
      rw [List.isPrefixOf_iff_prefix]; exact ⟨b, rfl⟩
    show contains sub (sub ++ b) = true
    cases h : sub ++ b with
    | nil =>
      have : sub = [] := (List.append_eq_nil_iff.1 h).1
      subst this; rfl
    | cons c s => rw [h] at this; simp [contains, this]
  | cons x a ih => simp [contains, ih]

lemma of_contains {sub s : Str} (h : contains sub s = true) : ∃ a b, s = a ++ (sub ++ b) := by
  induction s with
  | nil =>
    cases sub with
    | nil => exact ⟨[], [], rfl⟩
    | cons c s => simp [contains] at h
  | cons x s ih =>
    simp only [contains, Bool.or_eq_true, List.isPrefixOf_iff_prefix] at h
    rcases h with ⟨t, ht⟩ | h
    · exact ⟨[], t, ht.symm⟩
    · obtain ⟨a, b, rfl⟩ := ih h
      exact ⟨x :: a, b, rfl⟩

lemma unwrapAux_none (tag : Str) :
    ∀ (n : ℕ) (s : Str), '{' ∉ s → unwrapAux (tag ++ ['{']) n s = s := by
  intro n
  induction n with
  | zero => intro s _; rfl
  | succ n ih =>
    intro s h
    cases s with
    | nil => rfl
    | cons c s =>
      unfold unwrapAux
      rw [if_neg, ih s fun hm => h (List.mem_cons_of_mem _ hm)]
      rw [List.isPrefixOf_iff_prefix]
      exact fun hp => h (prefix_brace hp)

/-- two lists with one brace each split at it in the same way -/
lemma split_brace {a b a' b' : Str} (ha : '{' ∉ a) (hb : '{' ∉ b)
    (h : a ++ '{' :: b = a' ++ '{' :: b') : a' = a ∧ b' = b := by
  induction a generalizing a' with
  | nil =>
    cases a' with
    | nil => simpa using h.symm
    | cons x a' =>
      simp only [List.nil_append, List.cons_append, List.cons.injEq] at h
      exact absurd (h.2 ▸ (by simp : '{' ∈ a' ++ '{' :: b')) hb
  | cons x a ih =>
    cases a' with
    | nil =>
      simp only [List.nil_append, List.cons_append, List.cons.injEq] at h
      exact absurd (by simp [h.1]) ha
    | cons y a' =>
      simp only [List.cons_append, List.cons.injEq] at h
      obtain ⟨rfl, h⟩ := h
      obtain ⟨r1, r2⟩ := ih (fun hm => ha (List.mem_cons_of_mem _ hm)) h
      exact ⟨by rw [r1], r2⟩

lemma unwrapAux_part (tag body post : Str) (ht : '{' ∉ tag) (hb : body ≠ [])
    (hbb : ∀ c ∈ body, c ≠ '{' ∧ c ≠ '}') (hpost : '{' ∉ post) :
    ∀ (n : ℕ) (pre : Str), (∀ c ∈ pre, c ≠ '{') →
      (pre ++ ((tag ++ ['{']) ++ (body ++ '}' :: post))).length ≤ n →
      unwrapAux (tag ++ ['{']) n (pre ++ ((tag ++ ['{']) ++ (body ++ '}' :: post))) =
        pre ++ (body ++ post) := by
  intro n
  induction n with
  | zero => intro pre _ h; simp at h
  | succ n ih =>
    intro pre hp hl
    obtain ⟨op, hop⟩ : ∃ op, op = tag ++ ['{'] := ⟨_, rfl⟩
    have hone : op ≠ [] := by rw [hop]; simp
    cases pre with
    | nil =>
      rw [← hop] at hl ⊢
      obtain ⟨c, o, hco⟩ := List.exists_cons_of_ne_nil hone
      have hcons : ([] : Str) ++ (op ++ (body ++ '}' :: post)) = c :: (o ++ (body ++ '}' :: post)) := by
        rw [hco]; rfl
      rw [hcons]
      unfold unwrapAux
      have hpre : op.isPrefixOf (c :: (o ++ (body ++ '}' :: post))) = true := by
        rw [List.isPrefixOf_iff_prefix]; exact ⟨_, by rw [hco]; rfl⟩
      rw [if_pos hpre]
      have hdrop : (c :: (o ++ (body ++ '}' :: post))).drop op.length = body ++ '}' :: post := by
        rw [← hcons, List.nil_append]; exact List.drop_left' rfl
      rw [hdrop]
      have htw : (body ++ '}' :: post).takeWhile (· ≠ '}') = body := by
        rw [List.takeWhile_append_of_pos (by intro c hc; simpa using (hbb c hc).2)]
        simp
      have hdw : (body ++ '}' :: post).dropWhile (· ≠ '}') = '}' :: post := by
        rw [List.dropWhile_append_of_pos (by intro c hc; simpa using (hbb c hc).2)]
        simp
      simp only [htw, hdw]
      have : body.isEmpty = false := by cases body with
        | nil => exact absurd rfl hb
        | cons _ _ => rfl
      rw [this, hop, unwrapAux_none tag n post hpost]
      simp
    | cons x pre =>
      show unwrapAux (tag ++ ['{']) (n + 1) (x :: (pre ++ ((tag ++ ['{']) ++ (body ++ '}' :: post)))) = _
      unfold unwrapAux
      rw [if_neg, ih pre (fun c hc => hp c (List.mem_cons_of_mem _ hc)) (by simp at hl ⊢; omega)]
      · rfl
      · rw [List.isPrefixOf_iff_prefix]
        rintro ⟨t, ht'⟩
        have e : (x :: pre ++ tag) ++ '{' :: (body ++ '}' :: post) = tag ++ '{' :: t := by
          simpa using ht'.symm
        have hnb : '{' ∉ body ++ '}' :: post := by
          simp only [List.mem_append, List.mem_cons]
          rintro (h | h | h)
          · exact (hbb _ h).1 rfl
          · exact absurd h (by decide)
          · exact hpost h
        have hna : '{' ∉ x :: pre ++ tag := by
          intro h
          rcases List.mem_append.1 h with h | h
          · exact hp _ h rfl
          · exact ht h
        have := (split_brace hna hnb e).1
        have := congrArg List.length this
        simp at this
        omega

lemma unwrap_part {tag name coeff : Str} (ht : '{' ∉ tag) (h : PartOf tag name coeff) :
    unwrap (tag ++ ['{']) name = coeff := by
  obtain ⟨pre, body, post, rfl, rfl, hb, hc⟩ := h
  have e : pre ++ (tag ++ '{' :: (body ++ '}' :: post)) =
      pre ++ ((tag ++ ['{']) ++ (body ++ '}' :: post)) := by simp
  rw [e]
  exact unwrapAux_part tag body post ht hb (fun c h => hc c (by simp [h]))
    (fun h => (hc _ (by simp [h])).1 rfl) _ pre (fun c h => (hc c (by simp [h])).1) le_rfl

lemma contains_part {tag name coeff : Str} (h : PartOf tag name coeff) :
    contains (tag ++ ['{']) name = true := by
  obtain ⟨pre, body, post, rfl, rfl, -, -⟩ := h
  have e : pre ++ (tag ++ '{' :: (body ++ '}' :: post)) =
      pre ++ ((tag ++ ['{']) ++ (body ++ '}' :: post)) := by simp
  rw [e]
  exact contains_of

lemma not_contains_re {name coeff : Str} (h : PartOf "Im".toList name coeff) :
    contains "Re{".toList name = false := by
  rw [Bool.eq_false_iff]
  intro hc
  obtain ⟨a, b, e⟩ := of_contains hc
  obtain ⟨pre, body, post, rfl, rfl, -, hx⟩ := h
  have e' : (pre ++ "Im".toList) ++ '{' :: (body ++ '}' :: post) = (a ++ "Re".toList) ++ '{' :: b := by
    simpa using e
  have hna : '{' ∉ pre ++ "Im".toList := by
    intro h
    rcases List.mem_append.1 h with h | h
    · exact (hx _ (by simp [h])).1 rfl
    · exact absurd h (by decide)
  have hnb : '{' ∉ body ++ '}' :: post := by
    simp only [List.mem_append, List.mem_cons]
    rintro (h | h | h)
    · exact (hx _ (by simp [h])).1 rfl
    · exact absurd h (by decide)
    · exact (hx _ (by simp [h])).1 rfl
  have := (split_brace hna hnb e').1
  have := congrArg (fun l : Str => l.getLast?) this
  simp at this

end Verif.Eos
