import Verif.Lemmas.TreeExchange
import Verif.Props.Match

/-!
# C84: tree-level matching is contact terms plus exchange of W and Z
-/

set_option autoImplicit false
set_option linter.unusedTactic false

namespace Verif.Exchange
open Verif Verif.Spec Verif.Tens Verif.Beta Verif.Rotation Verif.Match Verif.Flavour

/-- C84: every WET coefficient computed from SMEFT coefficients (before the Standard Model part is
subtracted) is the sum of its contact term and of W and Z exchange, to first order. -/
theorem C84_raw (C : Dict Key Ten) (p : Dict String ℝ) (m : Dict WKey Ten) (h : matchRaw C p = .ok m) :
    ∃ s, scalars C p = .ok s ∧ ∀ (K : WKey) (A : Ten), m.get? K = some A →
      ∀ (ix : Ix) (x : Lin), coefficient (inp C s) (Real.sqrt 2 : ℝ) K ix = some x → A ix = total x := by
  obtain ⟨s, hs, _, rfl⟩ := raw_ok h
  refine ⟨s, hs, fun K A hA ix x hx => ?_⟩
  obtain ⟨hW, hZ, hv⟩ := scalars_ne hs
  obtain ⟨⟨k, e⟩, hm, he⟩ := List.mem_map.1 (Dict.mem_of_get? hA)
  injection he with h1 h2
  subst h1 h2
  exact prog_spec C s hW hZ hv _ e hm ix x hx

/-- C84: every WET coefficient returned by tree-level matching is the exchange amplitude with the
SMEFT coefficients minus the one without, each with the masses and couplings computed with and
without SMEFT coefficients. -/
theorem C84_tree (C : Dict Key Ten) (p : Dict String ℝ) (D : Dict WKey Ten) (h : matchTree C p = .ok D) :
    ∃ s s0, scalars C p = .ok s ∧ scalars (zeroed C) p = .ok s0 ∧
      ∀ (K : WKey) (A : Ten), D.get? K = some A → ∀ (ix : Ix) (x x0 : Lin),
        coefficient (inp C s) (Real.sqrt 2 : ℝ) K ix = some x →
        coefficient (inp (zeroed C) s0) (Real.sqrt 2 : ℝ) K ix = some x0 → A ix = total x - total x0 := by
  obtain ⟨s, s0, hs, hs0, _, rfl⟩ := tree_ok h
  refine ⟨s, s0, hs, hs0, fun K A hA ix x x0 hx hx0 => ?_⟩
  obtain ⟨hW, hZ, hv⟩ := scalars_ne hs
  obtain ⟨hW0, hZ0, hv0⟩ := scalars_ne hs0
  obtain ⟨e, hm, rfl⟩ := tree_get hA
  unfold diffE
  rw [prog_spec C s hW hZ hv _ e hm ix x hx, prog_spec _ s0 hW0 hZ0 hv0 _ e hm ix x0 hx0]

/-- number of flavour indices of a WET coefficient -/
theorem C84_complete (P : Inp) (q : ℂ) (K : WKey) (ix : Ix) (h : ix.length = (wetTy K).length) :
    ∃ x, coefficient P q K ix = some x := by
  match ix, h with
  | [], h => cases K <;> first | (exfalso; simp [wetTy] at h; done) | exact ⟨_, rfl⟩
  | [_], h => cases K <;> (exfalso; simp [wetTy] at h; done)
  | [_, _], h => cases K <;> first | (exfalso; simp [wetTy] at h; done) | exact ⟨_, rfl⟩
  | [_, _, _], h => cases K <;> (exfalso; simp [wetTy] at h; done)
  | [_, _, _, _], h => cases K <;> first | (exfalso; simp [wetTy] at h; done) | exact ⟨_, rfl⟩
  | _ :: _ :: _ :: _ :: _ :: _, h => cases K <;> (exfalso; simp [wetTy] at h; done)

end Verif.Exchange
