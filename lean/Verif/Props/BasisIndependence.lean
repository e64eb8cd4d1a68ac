import Verif.Props.MatchRunTrace
import Verif.Gen.Registrations

/-! # Property C65: the outcome of `match_run` does not depend on how the input basis and scale
coincide with the matching scale (violated) -/

set_option autoImplicit false
open Classical

namespace Verif
open Spec

/-- The registries hold exactly the translators and matchers of the package. -/
def PackageRegistered (B : Backend) : Prop :=
  (∀ k, (B.ph.translators.get? k).isSome ↔ k ∈ registeredTranslators) ∧
  (∀ k, (B.ph.matchers.get? k).isSome ↔ k ∈ registeredMatchers)

/-- C65, violated: with the package's registrations, SMEFT coefficients in a basis that is
neither `Warsaw` nor `Warsaw up`, given exactly at the electroweak matching scale, cannot be
matched: every request for a lower EFT raises a ValueError, whatever the numerical backend.
(`Higgs-Warsaw up` is such a basis.) -/
theorem C65_at_matching_scale_violation (B : Backend) (hB : PackageRegistered B) (o : Opts) (wc : WC)
    (hS : wc.eft = "SMEFT") (hb : wc.basis ≠ "Warsaw" ∧ wc.basis ≠ "Warsaw up")
    (hs : wc.scale = o.scaleEw) (scale : ℝ) (eft basis : String) (sectors : Sectors)
    (he : eft ≠ "SMEFT") :
    fresh B o wc scale eft basis sectors = .error .valueError := by
  rw [fresh_smeft_wet hS he]
  have hnone : B.ph.matchers.get? ("SMEFT", wc.basis, "WET", "JMS") = none := by
    have h := (hB.2 ("SMEFT", wc.basis, "WET", "JMS")).not
    rw [Option.isSome_iff_ne_none, not_not] at h
    rw [h]
    simp [registeredMatchers, hb.1, hb.2]
  have : (smeftToWet B o wc).1 = .error .valueError := by
    unfold smeftToWet
    rw [if_pos hs]
    simp [Backend.match, WC.match, hS, hnone]
  rw [this]

/-- C65: the same coefficients at any other scale are matched successfully (here: to WET), if the
numerical calls succeed. -/
theorem C65_other_scales (B : Backend) (hB : PackageRegistered B) (o : Opts) (wc : WC)
    (hS : wc.eft = "SMEFT") (hb : wc.basis = "Higgs-Warsaw up") (hs : wc.scale ≠ o.scaleEw)
    (ht : ∀ k f, B.ph.translators.get? k = some f → ∀ d x p s, ∃ out, f d x p s = .ok out)
    (hm : ∀ k f, B.ph.matchers.get? k = some f → ∀ d x p, ∃ out, f d x p = .ok out)
    (h1 : ∀ d a b acc, ∃ out, B.smeftEvolve d a b acc = .ok out)
    (h2 : ∀ e d a b s q1 q2, ∃ out, B.wetEvolve e d a b s q1 q2 = .ok out)
    (scale : ℝ) (sectors : Sectors) :
    ∃ r, fresh B o wc scale "WET" "JMS" sectors = .ok r := by
  have hT : TransOK B "SMEFT" "Higgs-Warsaw up" "Warsaw" := by
    obtain ⟨f, hf⟩ := Option.isSome_iff_exists.1
      ((hB.1 ("SMEFT", "Higgs-Warsaw up", "Warsaw")).2 (by decide))
    exact Or.inr ⟨f, hf, ht _ f hf⟩
  have hM : MatchOK B "SMEFT" "Warsaw" "WET" := by
    obtain ⟨f, hf⟩ := Option.isSome_iff_exists.1
      ((hB.2 ("SMEFT", "Warsaw", "WET", "JMS")).2 (by decide))
    exact ⟨f, hf, hm _ f hf⟩
  rw [fresh_smeft_wet hS (by decide)]
  obtain ⟨w, hw⟩ := translate_ok (B := B) (w := wc) (toB := "Warsaw") (p := some (selfParams B o))
    (s := none) (by rw [hS, hb]; exact hT)
  obtain ⟨m1, m2, _⟩ := translate_meta hw
  obtain ⟨r, hr⟩ := smeftRun_ok (x := o.scaleEw) (acc := o.accuracy) (m1.trans hS) m2 h1
  obtain ⟨n1, n2, _⟩ := smeftRun_meta hr
  obtain ⟨r2, hr2⟩ := match_ok (B := B) (w := r) (toE := "WET") (p := some (selfMatchParams B o))
    (by rw [n1]; decide) (by rw [n1, n2]; exact hM)
  have hsw : (smeftToWet B o wc).1 = .ok r2 := by
    unfold smeftToWet
    rw [if_neg hs]
    exact andThen_intro hw (andThen_intro hr hr2)
  obtain ⟨k1, k2, _⟩ := smeftToWet_meta hsw
  rw [hsw]
  simp only
  unfold wetPart
  rw [if_neg (not_not.2 k2), if_pos k1.symm]
  exact wetRunTranslate_ok (by simp [k1]) k2 h2 (Or.inl rfl)

/-- Non-vacuity of C65: a backend with the package's registrations in which every call succeeds. -/
example : ∃ B : Backend, PackageRegistered B ∧
    (∀ k f, B.ph.translators.get? k = some f → ∀ d x p s, ∃ out, f d x p s = .ok out) := by
  have key : ∀ {κ α : Type} [DecidableEq κ] (l : List κ) (v : α) (k : κ),
      Dict.get? (l.map fun k => (k, v)) k = if k ∈ l then some v else none := by
    intro κ α _ l v k
    induction l with
    | nil => simp
    | cons a l ih =>
      simp only [List.map_cons, Dict.get?_cons, ih, List.mem_cons]
      by_cases h : a = k
      · simp [h]
      · simp [h, Ne.symm h]
  refine ⟨⟨⟨some (registeredTranslators.map fun k => (k, fun d _ _ _ => .ok d)),
    some (registeredMatchers.map fun k => (k, fun d _ _ => .ok d))⟩, [],
    fun d _ _ _ => .ok d, fun _ d _ _ _ _ _ => .ok d⟩, ⟨?_, ?_⟩, ?_⟩
  · intro k
    simp only [Registry.get?, Option.getD_some, key]
    split <;> simp [*]
  · intro k
    simp only [Registry.get?, Option.getD_some, key]
    split <;> simp [*]
  · intro k f hf d x p s
    simp only [Registry.get?, Option.getD_some, key] at hf
    split at hf
    · cases hf
      exact ⟨d, rfl⟩
    · cases hf

end Verif
