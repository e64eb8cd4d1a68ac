import Verif.Lemmas.WetRelabel

/-!
# Parity
-/

set_option autoImplicit false
set_option linter.unusedSimpArgs false
set_option linter.unusedTactic false
set_option linter.unreachableTactic false

namespace Verif.WetTab
open Verif Verif.Rotation Verif.WetRun

theorem parity_step {k k' : WKey} {ix px : List ℕ} {c0 n0 : Bool} {st : Step}
    (hl : (fields k).length = ix.length) (hp : parity k ix = some (k', px, c0, n0))
    (hs : allowed k st = true) :
    parity k (st.act ix) = some (k', st.act px, c0, n0) ∧ allowed k' st = true := by
  rcases ix with _ | ⟨p, _ | ⟨r, _ | ⟨s, _ | ⟨t, _ | ⟨u, l⟩⟩⟩⟩⟩
  · have hl' : (fields k).length = 0 := hl
    cases k <;> first
      | exact absurd hl' (by decide)
      | (cases hp
         cases st <;> first | exact Bool.noConfusion hs | exact ⟨rfl, rfl⟩)
  · rcases fields_length k with h | h | h <;> rw [h] at hl <;> simp at hl
  · have hl' : (fields k).length = 2 := hl
    cases k <;> first
      | exact absurd hl' (by decide)
      | (cases hp
         cases st <;> first | exact Bool.noConfusion hs | exact ⟨rfl, rfl⟩)
  · rcases fields_length k with h | h | h <;> rw [h] at hl <;> simp at hl
  · have hl' : (fields k).length = 4 := hl
    cases k <;> first
      | exact absurd hl' (by decide)
      | (cases hp; done)
      | (cases hp
         cases st <;> first | exact Bool.noConfusion hs | exact ⟨rfl, rfl⟩)
  · rcases fields_length k with h | h | h <;> rw [h] at hl <;> simp at hl

theorem parity_invol {k k' : WKey} {ix px : List ℕ} {c0 n0 : Bool} (hv : Valid k ix)
    (hp : parity k ix = some (k', px, c0, n0)) :
    parity k' px = some (k, ix, c0, n0) ∧ Valid k' px ∧ ∀ p, gfac k' p = gfac k p := by
  have hl := hv.length_eq
  unfold Valid at *
  rcases ix with _ | ⟨p, _ | ⟨r, _ | ⟨s, _ | ⟨t, _ | ⟨u, l⟩⟩⟩⟩⟩
  · have hl' : (fields k).length = 0 := hl
    cases k <;> first
      | exact absurd hl' (by decide)
      | (cases hp
         exact ⟨rfl, hv, fun _ => rfl⟩)
  · rcases fields_length k with h | h | h <;> rw [h] at hl <;> simp at hl
  · have hl' : (fields k).length = 2 := hl
    cases k <;> first
      | exact absurd hl' (by decide)
      | (cases hp
         refine ⟨rfl, ?_, fun _ => rfl⟩
         rcases hv with _ | ⟨h1, _ | ⟨h2, _ | _⟩⟩
         exact .cons h2 (.cons h1 .nil))
  · rcases fields_length k with h | h | h <;> rw [h] at hl <;> simp at hl
  · have hl' : (fields k).length = 4 := hl
    cases k <;> first
      | exact absurd hl' (by decide)
      | (cases hp; done)
      | (cases hp
         refine ⟨rfl, ?_, fun _ => rfl⟩
         rcases hv with _ | ⟨h1, _ | ⟨h2, _ | ⟨h3, _ | ⟨h4, _ | _⟩⟩⟩⟩
         first
         | exact .cons h1 (.cons h2 (.cons h3 (.cons h4 .nil)))
         | exact .cons h2 (.cons h1 (.cons h4 (.cons h3 .nil)))
         | exact .cons h3 (.cons h4 (.cons h1 (.cons h2 .nil)))
         | exact .cons h4 (.cons h3 (.cons h2 (.cons h1 .nil))))
  · rcases fields_length k with h | h | h <;> rw [h] at hl <;> simp at hl

theorem parity_same {k k' : WKey} {ix px : List ℕ} {c0 n0 : Bool} (hv : Valid k ix)
    (hp : parity k ix = some (k', px, c0, n0)) {jx : List ℕ} {c n : Bool} (h : Same k ix jx c n) :
    ∃ qx, parity k jx = some (k', qx, c0, n0) ∧ Same k' px qx c n := by
  induction h with
  | refl => exact ⟨px, hp, .refl⟩
  | @step jx c n st hs h ih =>
    obtain ⟨qx, h1, h2⟩ := ih
    have := parity_step (h.valid hv).length_eq h1 hs
    exact ⟨_, this.1, .step st this.2 h2⟩

theorem parity_imgs {a : Coef} {y : WKey × List ℕ × Bool × Bool} (hy : y ∈ parityImgs a (ixOf a)) :
    ∃ ix c0 n0, parity a.1 (ixOf a) = some (y.1, ix, c0, n0) ∧
      ∃ c1 n1, Same y.1 ix y.2.1 c1 n1 ∧ y.2.2.1 = xor c1 c0 ∧ y.2.2.2 = xor n1 n0 := by
  rw [parityImgs] at hy
  rcases hp : parity a.1 (ixOf a) with _ | ⟨k, ix, c0, n0⟩
  · rw [hp] at hy; cases hy
  · rw [hp] at hy
    obtain ⟨r, hr, rfl⟩ := List.mem_map.1 hy
    exact ⟨ix, c0, n0, rfl, r.2.1, r.2.2, relatives_sound hr, rfl, rfl⟩

theorem parity_imgs_ne {a : Coef} : parityImgs a (ixOf a) ≠ [] ↔ ∃ y, parity a.1 (ixOf a) = some y := by
  rw [parityImgs]
  rcases hp : parity a.1 (ixOf a) with _ | ⟨k, ix, c0, n0⟩
  · simp
  · simp only [ne_eq, List.map_eq_nil_iff, Option.some.injEq, exists_eq', iff_true]
    exact relatives_ne _ _

theorem parity_inj {a b a' : Coef} (ha : a ∈ allCoefs) (hb : b ∈ allCoefs) {c n c' n' : Bool}
    (h : paritySym a a' c n) (h' : paritySym b a' c' n') : a = b := by
  obtain ⟨k, ix, c0, n0, hp, hk, c1, n1, hs, -, -⟩ := h
  obtain ⟨k', ix', c0', n0', hp', hk', c1', n1', hs', -, -⟩ := h'
  obtain rfl : k = k' := hk.symm.trans hk'
  obtain ⟨e1, v1, -⟩ := parity_invol (coef_valid ha) hp
  obtain ⟨e2, v2, -⟩ := parity_invol (coef_valid hb) hp'
  obtain ⟨qx, e3, hs3⟩ := parity_same v1 e1 (hs.trans hs'.symm)
  rw [e2] at e3
  obtain ⟨e4, e5, -⟩ : b.1 = a.1 ∧ ixOf b = qx ∧ _ := by
    simpa only [Option.some.injEq, Prod.mk.injEq] using e3
  rw [← e5] at hs3
  exact coef_same_unique ha hb e4.symm hs3

/-- covariance under parity -/
theorem parity_cov {F : Force} {f : ℕ} {p : Par} {C C' : Coef → ℂ} (hm : NoMassless p)
    (hC : RealOnReal C) (hC' : RealOnReal C') (h : Transformed paritySym C C') :
    Transformed paritySym (rate F f p C) (rate F f p C') := by
  have hval : ∀ a y, y ∈ parityImgs a (ixOf a) → Valid a.1 (ixOf a) → Valid y.1 y.2.1 := by
    intro a y hy hv
    obtain ⟨ix, c0, n0, hp, c1, n1, hs, -⟩ := parity_imgs hy
    exact hs.valid (parity_invol hv hp).2.1
  refine check_covariance (img := img_parity) check_parity ?_ ?_ ?_ ?_ ?_ (masses_val p hm)
    (masses_val p hm) rfl rfl (fun q => rfl) (.inl conj_parity) hC hC' h
  · intro a y hy hw
    obtain ⟨ix, c0, n0, hp, c1, n1, hs, -⟩ := parity_imgs hy
    exact ⟨hval a y hy hw.1, (parity_invol hw.1 hp).2.2⟩
  · intro a ha y hy
    obtain ⟨ix, c0, n0, hp, c1, n1, hs, e1, e2⟩ := parity_imgs hy
    refine ⟨y.1, ix, c0, n0, hp, rfl, c1, n1, ?_, e1, e2⟩
    rw [ixOf_numOf (hval a y hy (coef_valid ha))]
    exact hs
  · rintro a ha a' ha' c n ⟨k, ix, c0, n0, hp, hk, c1, n1, hs, -, -⟩
    refine ⟨parity_imgs_ne.2 ⟨_, hp⟩, parity_imgs_ne.2 ?_⟩
    obtain ⟨e1, v1, -⟩ := parity_invol (coef_valid ha) hp
    obtain ⟨qx, e3, -⟩ := parity_same v1 e1 hs
    rw [hk]
    exact ⟨_, e3⟩
  · rintro a ha a' ha' b' hb' c n c' n' ⟨k, ix, c0, n0, hp, hk, c1, n1, hs, rfl, rfl⟩
      ⟨k', ix', c0', n0', hp', hk', c1', n1', hs', rfl, rfl⟩
    rw [hp] at hp'
    obtain ⟨rfl, rfl, rfl, rfl⟩ : k = k' ∧ ix = ix' ∧ c0 = c0' ∧ n0 = n0' := by
      simpa using hp'
    obtain ⟨e1, e2, e3⟩ := same_fun ha' hb' hk hk' hs hs'
    exact ⟨e1, by rw [e2], e3.imp (fun e => by rw [e]) id⟩
  · intro a ha b hb a' _ c n c' n' h1 h2
    exact parity_inj ha hb h1 h2

end Verif.WetTab
