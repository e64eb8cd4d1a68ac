import Verif.Model.EFTUtil
import Mathlib.Algebra.BigOperators.Group.List.Lemmas
import Mathlib.Tactic.Ring
import Mathlib.Tactic.Linarith
import Mathlib.Data.List.Range

set_option autoImplicit false
set_option linter.unusedSimpArgs false

/-! Row-major index arithmetic (helper lemmas). -/

namespace Verif.EFT
open Verif

lemma length_indices (s : List ℕ) : (indices s).length = s.prod := by
  induction s with
  | nil => rfl
  | cons n ss ih =>
    simp only [indices, List.length_flatMap, List.length_map, ih, List.prod_cons]
    simp [List.map_const', List.sum_replicate]

lemma mem_indices {s idx : List ℕ} : idx ∈ indices s ↔ inRange s idx = true := by
  induction s generalizing idx with
  | nil => cases idx <;> simp [indices, inRange]
  | cons n ss ih =>
    cases idx with
    | nil => simp [indices, inRange]
    | cons i is =>
      simp only [indices, List.mem_flatMap, List.mem_range, List.mem_map, inRange,
        Bool.and_eq_true, decide_eq_true_eq]
      constructor
      · rintro ⟨a, ha, r, hr, h⟩
        simp only [List.cons.injEq] at h
        obtain ⟨rfl, rfl⟩ := h
        exact ⟨ha, ih.1 hr⟩
      · rintro ⟨h1, h2⟩
        exact ⟨i, h1, is, ih.2 h2, rfl⟩

lemma range_mul (n m : ℕ) :
    (List.range n).flatMap (fun i => (List.range m).map fun j => i * m + j) = List.range (n * m) := by
  induction n with
  | zero => simp
  | succ n ih =>
    rw [List.range_succ, List.flatMap_append, ih]
    simp only [List.flatMap_cons, List.flatMap_nil, List.append_nil]
    rw [Nat.succ_mul, List.range_add]

lemma map_pos_indices (s : List ℕ) : (indices s).map (pos s) = List.range s.prod := by
  induction s with
  | nil => rfl
  | cons n ss ih =>
    simp only [indices, List.map_flatMap, List.map_map, List.prod_cons]
    rw [← range_mul, ← ih]
    congr 1
    funext i
    rw [List.map_map]
    rfl

lemma nodup_indices (s : List ℕ) : (indices s).Nodup := by
  have h : ((indices s).map (pos s)).Nodup := by rw [map_pos_indices]; exact List.nodup_range
  exact List.Nodup.of_map _ h

lemma getElem?_indices {s idx : List ℕ} (h : inRange s idx = true) :
    (indices s)[pos s idx]? = some idx := by
  have hm := mem_indices.2 h
  obtain ⟨n, hn, e⟩ := List.mem_iff_getElem.1 hm
  have h1 : ((indices s).map (pos s))[n]'(by simpa using hn) = pos s idx := by simp [e]
  have h2 : pos s idx = n := by
    have h3 : ∀ (l : List ℕ) (_ : l = List.range s.prod) (hl : n < l.length), l[n] = n := by
      intro l hl' hl; subst hl'; simp
    rw [← h1]; exact h3 _ (map_pos_indices s) _
  rw [h2, List.getElem?_eq_getElem hn, e]

lemma range_map_getD (y : List ℂ) : (List.range y.length).map (fun i => y.getD i 0) = y := by
  apply List.ext_getElem (by simp)
  intro i h1 h2
  simp only [List.getElem_map, List.getElem_range]
  simp at h1
  simp [List.getD_eq_getElem?_getD, h1]

theorem ravel_reshape {s : List ℕ} {y : List ℂ} {a : NDArr} (h : reshape s y = .ok a) :
    ravel (.arr a) = y ∧ a.shape = s ∧ a.WF := by
  unfold reshape at h
  split_ifs at h with hl
  cases h
  refine ⟨?_, rfl, ?_⟩
  · simp only [ravel, NDArr.ofFn]
    have e1 : (indices s).map (fun idx => if inRange s idx = true then y.getD (pos s idx) 0 else 0)
        = ((indices s).map (pos s)).map (fun i => y.getD i 0) := by
      rw [List.map_map]
      apply List.map_congr_left
      intro i hi
      rw [if_pos (mem_indices.1 hi)]; rfl
    rw [e1, map_pos_indices, ← hl, range_map_getD]
  · intro idx hidx
    simp [NDArr.ofFn] at hidx ⊢
    simp [hidx]

theorem reshape_ravel {a : NDArr} (h : a.WF) : reshape a.shape (ravel (.arr a)) = .ok a := by
  unfold reshape
  rw [if_pos (by simp [ravel, length_indices])]
  congr 1
  obtain ⟨s, g⟩ := a
  simp only [NDArr.ofFn, NDArr.mk.injEq, true_and]
  funext idx
  by_cases hi : inRange s idx = true
  · rw [if_pos hi]
    simp [ravel, List.getD_eq_getElem?_getD, getElem?_indices hi]
  · rw [if_neg hi]
    exact (h idx (by simpa using hi)).symm

end Verif.EFT
