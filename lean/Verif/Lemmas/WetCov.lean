import Verif.Lemmas.WetRate

/-!
# Covariance of the right-hand side from the symmetry checks
-/

set_option autoImplicit false
set_option linter.unusedSimpArgs false

namespace Verif.WetTab
open Verif Verif.Rotation Verif.WetRun

theorem check_covariance {T : Sym} {σ : Q → Q}
    {imgs : Coef → List ℕ → List (WKey × List ℕ × Bool × Bool)} {img : List (ℕ × ℕ)}
    (hchk : symOK σ imgs img 0 secs = true)
    (hg : ∀ a y, y ∈ imgs a (ixOf a) → WellNamed a → Valid y.1 y.2.1 ∧ ∀ p, gfac y.1 p = gfac a.1 p)
    (hTi : ∀ a ∈ allCoefs, ∀ y ∈ imgs a (ixOf a), T a (y.1, numOf y.2.1) y.2.2.1 y.2.2.2)
    (hT0 : ∀ a ∈ allCoefs, ∀ a' ∈ allCoefs, ∀ c n, T a a' c n →
      imgs a (ixOf a) ≠ [] ∧ imgs a' (ixOf a') ≠ [])
    (hfun : ∀ a ∈ allCoefs, ∀ a' ∈ allCoefs, ∀ b' ∈ allCoefs, ∀ c n c' n', T a a' c n → T a b' c' n' →
      a' = b' ∧ n = n' ∧ (c = c' ∨ IsReal a'.1 (ixOf a')))
    (hinj : ∀ a ∈ allCoefs, ∀ b ∈ allCoefs, ∀ a' ∈ allCoefs, ∀ c n c' n', T a a' c n → T b a' c' n' →
      a = b)
    {F : Force} {f : ℕ} {p p' : Par} (hm : Massive p.masses) (hm' : Massive p'.masses)
    (hs : p'.alpha_s = p.alpha_s) (he : p'.alpha_e = p.alpha_e)
    (hσ : ∀ q, (σ q).val p'.masses = q.val p.masses) {C C' : Coef → ℂ}
    (hcr : conjAll img 0 secs = true ∨ ∀ a, (C a).im = 0) (hC : RealOnReal C) (hC' : RealOnReal C')
    (h : Transformed T C C') : Transformed T (rate F f p C) (rate F f p' C') := by
  classical
  -- the images
  have hpair : ∀ a ∈ allCoefs, ∀ b ∈ allCoefs, imgs a (ixOf a) ≠ [] → imgs b (ixOf b) ≠ [] →
      ∃ ya ∈ imgs a (ixOf a), ∃ yb ∈ imgs b (ixOf b),
        (ya.1, numOf ya.2.1) ∈ allCoefs ∧ (yb.1, numOf yb.2.1) ∈ allCoefs ∧
        (∀ s i n S, At a s i n S → ya.2.2.1 = tconj (img.getD n (0, 0)).2 i) ∧
        (∀ s i n S, At b s i n S → yb.2.2.1 = tconj (img.getD n (0, 0)).2 i) ∧
        mix F f p' (ya.1, numOf ya.2.1) (yb.1, numOf yb.2.1) =
          sgn (xor ya.2.2.2 yb.2.2.2) * conjIf yb.2.2.1 (mix F f p a b) := by
    intro a ha b hb hna hnb
    obtain ⟨s, i, hla⟩ := mem_allCoefs.1 ha
    obtain ⟨t, j, hlb⟩ := mem_allCoefs.1 hb
    obtain ⟨ya, hya, yb, hyb, s', t', i', j', h1, h2, h3, h4, h5⟩ := symOK_sound hchk hg hla hlb hna hnb
    have ha' := mem_allCoefs.2 ⟨_, _, h1⟩
    have hb' := mem_allCoefs.2 ⟨_, _, h2⟩
    refine ⟨ya, hya, yb, hyb, ha', hb', ?_, ?_, ?_⟩
    · intro s1 i1 n S hat
      obtain ⟨rfl, rfl, -⟩ := listed_unique hat.listed hla rfl
      exact h3 n S hat
    · intro s1 i1 n S hat
      obtain ⟨rfl, rfl, -⟩ := listed_unique hat.listed hlb rfl
      exact h4 n S hat
    · exact (mix_iff ha' hb').1 (h5 F f p p' _ hm hm' hs he hσ ((mix_iff ha hb).2 rfl))
  have hself : ∀ a : Coef, ∃ y : Coef × Bool × Bool, a ∈ allCoefs → imgs a (ixOf a) ≠ [] →
      y.1 ∈ allCoefs ∧ T a y.1 y.2.1 y.2.2 ∧
        ∀ s i n S, At a s i n S → y.2.1 = tconj (img.getD n (0, 0)).2 i := by
    intro a
    by_cases ha : a ∈ allCoefs
    · by_cases hna : imgs a (ixOf a) = []
      · exact ⟨(a, false, false), fun _ h => absurd hna h⟩
      · obtain ⟨ya, hya, yb, hyb, h1, h2, h3, h4, h5⟩ := hpair a ha a ha hna hna
        exact ⟨((ya.1, numOf ya.2.1), ya.2.2), fun _ _ => ⟨h1, hTi a ha ya hya, h3⟩⟩
    · exact ⟨(a, false, false), fun h => absurd h ha⟩
  choose im him using hself
  -- the flag of the image of a pair is that of the image of the single coefficient
  have hsame : ∀ a ∈ allCoefs, imgs a (ixOf a) ≠ [] → ∀ y ∈ imgs a (ixOf a),
      (y.1, numOf y.2.1) ∈ allCoefs →
      (∀ s i n S, At a s i n S → y.2.2.1 = tconj (img.getD n (0, 0)).2 i) →
      (y.1, numOf y.2.1) = (im a).1 ∧ y.2.2 = (im a).2 := by
    intro a ha hna y hy hy' hc
    obtain ⟨h1, h2, h3⟩ := him a ha hna
    obtain ⟨e1, e2, -⟩ := hfun a ha _ hy' _ h1 _ _ _ _ (hTi a ha y hy) h2
    obtain ⟨s, i, hla⟩ := mem_allCoefs.1 ha
    obtain ⟨n, S, hA⟩ := hla.at
    exact ⟨e1, Prod.ext ((hc s i n S hA).trans (h3 s i n S hA).symm) e2⟩
  refine covariance (dom := fun a => imgs a (ixOf a) ≠ []) im ?_ ?_ ?_ ?_ ?_ ?_ ?_ hC' h
  · intro a ha hna
    obtain ⟨h1, h2, -⟩ := him a ha hna
    exact ⟨h1, (hT0 a ha _ h1 _ _ h2).2⟩
  · intro a ha hna
    exact (him a ha hna).2.1
  · intro a ha a' ha' c n hT
    have hna := (hT0 a ha a' ha' c n hT).1
    obtain ⟨h1, h2, -⟩ := him a ha hna
    obtain ⟨e1, e2, e3⟩ := hfun a ha a' ha' _ h1 _ _ _ _ hT h2
    exact ⟨hna, e1, e2, e3⟩
  · intro a ha b hb hna hnb e
    obtain ⟨h1, h2, -⟩ := him a ha hna
    obtain ⟨h1', h2', -⟩ := him b hb hnb
    rw [← e] at h2'
    exact hinj a ha b hb _ h1 _ _ _ _ h2 h2'
  · intro a ha b hb hna hnb
    obtain ⟨ya, hya, yb, hyb, h1, h2, h3, h4, h5⟩ := hpair a ha b hb hna hnb
    obtain ⟨e1, e2⟩ := hsame a ha hna ya hya h1 h3
    obtain ⟨e3, e4⟩ := hsame b hb hnb yb hyb h2 h4
    rw [e1, e3, e2, e4] at h5
    exact h5
  · intro a ha b hb hna hnb
    rcases hcr with hcr | hcr
    · rcases conj_entry hcr (F := F) (f := f) (p := p) ha hb with h0 | h0 | ⟨s, i, j, n, S, hA, hB, e⟩
      · exact .inl h0
      · exact .inr (.inl (hC a ha h0))
      · refine .inr (.inr ?_)
        rw [(him a ha hna).2.2 s i n S hA, (him b hb hnb).2.2 s j n S hB, e]
    · exact .inr (.inl (hcr a))
  · intro a ha b hb hna hnb
    obtain ⟨s, i, hla⟩ := mem_allCoefs.1 ha
    obtain ⟨t, j, hlb⟩ := mem_allCoefs.1 hb
    obtain ⟨n, S, hA⟩ := hla.at
    obtain ⟨m, S', hB⟩ := hlb.at
    have hnm : n ≠ m := by
      rintro rfl
      obtain rfl := hA.sec_eq hB
      rcases secOK_spec hchk hA.sec with h0 | ⟨n', T', cert, -, -, -, himg, -, -⟩
      · exact hnb (h0 b (List.mem_of_getElem? hB.coef))
      · obtain ⟨a', hI⟩ := himg i a hA.coef
        obtain ⟨y, hy, -⟩ := hI.img
        exact hna fun e => by rw [e] at hy; cases hy
    exact ⟨(mix_iff ha hb).1 ((mixing_other_iff hA hB hnm).2 rfl),
      (mix_iff ha hb).1 ((mixing_other_iff hA hB hnm).2 rfl)⟩

end Verif.WetTab
