import Verif.Lemmas.WetSecs

/-!
# Relations between the components of the WET coefficients
-/

set_option autoImplicit false
set_option linter.unusedSimpArgs false
set_option linter.unusedTactic false
set_option linter.unreachableTactic false

namespace Verif.WetTab
open Verif Verif.Rotation

theorem Step.act_act (s : Step) (ix : List ℕ) : s.act (s.act ix) = ix := by
  rcases ix with _ | ⟨p, _ | ⟨r, _ | ⟨s', _ | ⟨t, _ | ⟨u, l⟩⟩⟩⟩⟩ <;> cases s <;> rfl

theorem Same.trans {k : WKey} {ix jx kx : List ℕ} {c n c' n' : Bool} (h : Same k ix jx c n)
    (h' : Same k jx kx c' n') : Same k ix kx (xor c c') (xor n n') := by
  induction h' with
  | refl => simpa using h
  | step s hs _ ih =>
    have := Same.step s hs ih
    simpa [Bool.xor_assoc] using this

theorem Same.one {k : WKey} {ix : List ℕ} (s : Step) (hs : allowed k s = true) :
    Same k ix (s.act ix) s.conj s.neg := by
  simpa using Same.step s hs (Same.refl (k := k) (ix := ix))

theorem Same.symm {k : WKey} {ix jx : List ℕ} {c n : Bool} (h : Same k ix jx c n) :
    Same k jx ix c n := by
  induction h with
  | refl => exact .refl
  | @step jx c n s hs _ ih =>
    have h1 : Same k (s.act jx) jx s.conj s.neg := by
      have := Same.one (k := k) (ix := s.act jx) s hs
      rwa [Step.act_act] at this
    have := h1.trans ih
    rwa [Bool.xor_comm, Bool.xor_comm s.neg] at this

/-- the table of the checker is the specification -/
theorem stepsOf_iff (k : WKey) (s : Step) : s ∈ stepsOf k ↔ allowed k s = true := by
  cases k <;> cases s <;> decide

/-- products of steps -/
def relOf (st : List Step) (ix : List ℕ) : List (List ℕ × Bool × Bool) :=
  st.foldl (fun l s =>
    l ++ l.map fun y => (s.act y.1, xor y.2.1 s.conj, xor y.2.2 s.neg)) [(ix, false, false)]

theorem relatives_eq (k : WKey) (ix : List ℕ) : relatives k ix = relOf (stepsOf k) ix := rfl

theorem foldl_sound (k : WKey) (ix : List ℕ) (st : List Step) (hst : ∀ s ∈ st, allowed k s = true)
    (l : List (List ℕ × Bool × Bool)) (hl : ∀ y ∈ l, Same k ix y.1 y.2.1 y.2.2) :
    ∀ y ∈ st.foldl (fun l s =>
      l ++ l.map fun y => (s.act y.1, xor y.2.1 s.conj, xor y.2.2 s.neg)) l,
      Same k ix y.1 y.2.1 y.2.2 := by
  induction st generalizing l with
  | nil => exact hl
  | cons s st ih =>
    refine ih (fun x hx => hst x (List.mem_cons_of_mem _ hx)) _ fun y hy => ?_
    rcases List.mem_append.1 hy with hy | hy
    · exact hl y hy
    · obtain ⟨z, hz, rfl⟩ := List.mem_map.1 hy
      exact Same.step s (hst s List.mem_cons_self) (hl z hz)

theorem relatives_sound {k : WKey} {ix : List ℕ} {y : List ℕ × Bool × Bool}
    (hy : y ∈ relatives k ix) : Same k ix y.1 y.2.1 y.2.2 :=
  foldl_sound k ix (stepsOf k) (fun s hs => (stepsOf_iff k s).1 hs) _
    (fun y hy => by rw [List.mem_singleton.1 hy]; exact .refl) y hy

theorem self_mem_relatives (k : WKey) (ix : List ℕ) : (ix, false, false) ∈ relatives k ix := by
  have : ∀ (st : List Step) (l : List (List ℕ × Bool × Bool)), (ix, false, false) ∈ l →
      (ix, false, false) ∈ st.foldl (fun l s =>
      l ++ l.map fun y => (s.act y.1, xor y.2.1 s.conj, xor y.2.2 s.neg)) l := by
    intro st
    induction st with
    | nil => exact fun l h => h
    | cons s st ih => exact fun l h => ih _ (List.mem_append_left _ h)
  exact this _ _ (List.mem_singleton.2 rfl)

/-- the possible sets of relations -/
theorem stepsOf_cases (k : WKey) :
    stepsOf k = [] ∨ stepsOf k = [.swap] ∨ stepsOf k = [.adj] ∨ stepsOf k = [.swap, .adj] ∨
      stepsOf k = [.swap, .adj, .fierz] ∨ stepsOf k = [.anti] ∨ stepsOf k = [.real] := by
  cases k <;> decide

theorem relOf_closed (st : List Step)
    (hst : st = [] ∨ st = [.swap] ∨ st = [.adj] ∨ st = [.swap, .adj] ∨
      st = [.swap, .adj, .fierz] ∨ st = [.anti] ∨ st = [.real]) (ix : List ℕ) (s : Step)
    (hs : s ∈ st) (y : List ℕ × Bool × Bool) (hy : y ∈ relOf st ix) :
    (s.act y.1, xor y.2.1 s.conj, xor y.2.2 s.neg) ∈ relOf st ix := by
  rcases ix with _ | ⟨p, _ | ⟨r, _ | ⟨s', _ | ⟨t, _ | ⟨u, l⟩⟩⟩⟩⟩ <;>
  rcases hst with rfl | rfl | rfl | rfl | rfl | rfl | rfl <;>
  simp only [List.mem_cons, List.not_mem_nil, or_false] at hs <;>
  first
  | exact hs.elim
  | (subst hs
     simp only [relOf, List.foldl, List.map, List.append_eq, List.cons_append, List.nil_append,
       List.mem_cons, List.not_mem_nil, or_false, Step.act, Step.conj, Step.neg, Bool.xor_false,
       Bool.xor_true, Bool.not_false, Bool.not_true] at hy ⊢
     (repeat' rcases hy with rfl | hy) <;> (try subst hy) <;> simp [Step.act])
  | (rcases hs with rfl | rfl | rfl <;>
     simp only [relOf, List.foldl, List.map, List.append_eq, List.cons_append, List.nil_append,
       List.mem_cons, List.not_mem_nil, or_false, Step.act, Step.conj, Step.neg, Bool.xor_false,
       Bool.xor_true, Bool.not_false, Bool.not_true] at hy ⊢ <;>
     (repeat' rcases hy with rfl | hy) <;> (try subst hy) <;> simp [Step.act])
  | (rcases hs with rfl | rfl <;>
     simp only [relOf, List.foldl, List.map, List.append_eq, List.cons_append, List.nil_append,
       List.mem_cons, List.not_mem_nil, or_false, Step.act, Step.conj, Step.neg, Bool.xor_false,
       Bool.xor_true, Bool.not_false, Bool.not_true] at hy ⊢ <;>
     (repeat' rcases hy with rfl | hy) <;> (try subst hy) <;> simp [Step.act])

/-- all related components are found -/
theorem relatives_complete {k : WKey} {ix jx : List ℕ} {c n : Bool} (h : Same k ix jx c n) :
    (jx, c, n) ∈ relatives k ix := by
  induction h with
  | refl => exact self_mem_relatives k ix
  | step s hs _ ih =>
    exact relOf_closed _ (stepsOf_cases k) ix s ((stepsOf_iff k s).2 hs) _ ih

theorem same_iff {k : WKey} {ix jx : List ℕ} {c n : Bool} :
    Same k ix jx c n ↔ (jx, c, n) ∈ relatives k ix :=
  ⟨relatives_complete, fun h => relatives_sound h⟩

end Verif.WetTab
