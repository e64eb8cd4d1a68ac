import Verif.Model.Wilson
import Mathlib.Tactic.Basic
import Mathlib.Data.List.Basic

/-! # Helper lemmas about `match_run` -/

set_option autoImplicit false
open Classical

namespace Verif

theorem Cache.set_eq (c : Cache) (s : Sectors) (x : ℝ) (e b : String) (w : WC) :
    c.set s x e b w =
      let c1 := (Dict.get? c e).getD []
      let c2 := (Dict.get? c1 x).getD []
      let c3 := (Dict.get? c2 b).getD []
      Dict.set c e (Dict.set c1 x (Dict.set c2 b (Dict.set c3 s w))) := by
  unfold Cache.set
  cases h1 : Dict.get? c e with
  | none => simp [Dict.set]
  | some c1 =>
    cases h2 : Dict.get? c1 x with
    | none => simp [h2, Dict.set]
    | some c2 => cases h3 : Dict.get? c2 b <;> simp [h2, h3, Dict.set]

theorem Cache.get_eq (c : Cache) (s : Sectors) (x : ℝ) (e b : String) :
    c.get s x e b =
      Dict.get? ((Dict.get? ((Dict.get? ((Dict.get? c e).getD []) x).getD []) b).getD []) s := by
  unfold Cache.get
  cases h1 : Dict.get? c e with
  | none => simp
  | some c1 =>
    cases h2 : Dict.get? c1 x with
    | none => simp [h2]
    | some c2 => cases h3 : Dict.get? c2 b <;> simp [h2, h3]

theorem Cache.get_set (c : Cache) (s s' : Sectors) (x x' : ℝ) (e e' b b' : String) (w : WC) :
    (c.set s x e b w).get s' x' e' b' =
      if s = s' ∧ x = x' ∧ e = e' ∧ b = b' then some w else c.get s' x' e' b' := by
  rw [Cache.set_eq, Cache.get_eq, Cache.get_eq]
  simp only
  rw [Dict.get?_set]
  by_cases he : e = e'
  · subst he
    simp only [if_true, Option.getD_some]
    rw [Dict.get?_set]
    by_cases hx : x = x'
    · subst hx
      simp only [if_true, Option.getD_some]
      rw [Dict.get?_set]
      by_cases hb : b = b'
      · subst hb
        simp only [if_true, Option.getD_some]
        rw [Dict.get?_set]
        by_cases hs : s = s' <;> simp [hs]
      · simp [hb]
    · simp [hx]
  · simp [he]

@[simp] theorem Cache.get_nil (s : Sectors) (x : ℝ) (e b : String) :
    Cache.get [] s x e b = none := rfl

/-! ## Results of the physics steps -/

theorem andThen_ok {α β : Type} {p : Phys α} {f : α → Phys β} {y : β}
    (h : (p.andThen f).1 = .ok y) : ∃ x, p.1 = .ok x ∧ (f x).1 = .ok y ∧
      (p.andThen f).2 = p.2 ++ (f x).2 := by
  obtain ⟨r, l⟩ := p
  cases r with
  | error e => simp [Phys.andThen] at h
  | ok x => exact ⟨x, rfl, h, rfl⟩

theorem translate_meta {B : Backend} {w r : WC} {toB : String} {p : Option Params}
    {s : Option (List String)} (h : (B.translate w toB p s).1 = .ok r) :
    r.eft = w.eft ∧ r.basis = toB ∧ r.scale = w.scale := by
  simp only [Backend.translate, WC.translate] at h
  split at h
  · rename_i hb
    cases h
    exact ⟨rfl, hb.symm, rfl⟩
  · split at h
    · cases h
    · unfold translatorApply at h
      split at h
      · cases h
      · cases h
        exact ⟨rfl, rfl, rfl⟩

theorem match_meta {B : Backend} {w r : WC} {toE toB : String} {p : Option Params}
    (h : (B.match w toE toB p).1 = .ok r) :
    r.eft = toE ∧ r.basis = toB ∧ r.scale = w.scale := by
  simp only [Backend.match, WC.match] at h
  split at h
  · rename_i hb
    cases h
    exact ⟨hb.1.symm, hb.2.symm, rfl⟩
  · split at h
    · cases h
    · unfold matcherApply at h
      split at h
      · cases h
      · cases h
        exact ⟨rfl, rfl, rfl⟩

theorem smeftRun_meta {B : Backend} {w r : WC} {scale : ℝ} {acc : String}
    (h : (B.smeftRun w scale acc).1 = .ok r) :
    r.eft = "SMEFT" ∧ r.basis = "Warsaw" ∧ r.scale = scale := by
  unfold Backend.smeftRun at h
  split at h
  · cases h
  · split at h
    · cases h
    · split at h
      · cases h
      · cases h
        exact ⟨rfl, rfl, rfl⟩

theorem wetRun_meta {B : Backend} {w r : WC} {scale : ℝ} {s : Sectors} {q1 q2 : ℝ}
    (h : (B.wetRun w scale s q1 q2).1 = .ok r) :
    r.eft = w.eft ∧ r.basis = "JMS" ∧ r.scale = scale := by
  unfold Backend.wetRun at h
  split at h
  · cases h
  · split at h
    · cases h
    · split at h
      · cases h
      · cases h
        exact ⟨rfl, rfl, rfl⟩

variable {B : Backend} {o : Opts}

theorem smeftToSmeft_meta {wc r : WC} {scale : ℝ} {basis : String} {s : Sectors}
    (h : (smeftToSmeft B o wc scale basis s).1 = .ok r) :
    r.eft = "SMEFT" ∧ r.basis = basis ∧ r.scale = scale := by
  obtain ⟨w, _, h2, _⟩ := andThen_ok h
  obtain ⟨w2, h3, h4, _⟩ := andThen_ok h2
  obtain ⟨e1, b1, s1⟩ := translate_meta h4
  obtain ⟨e2, b2, s2⟩ := smeftRun_meta h3
  exact ⟨e1.trans e2, b1, s1.trans s2⟩

theorem smeftToWet_meta {wc r : WC} (h : (smeftToWet B o wc).1 = .ok r) :
    r.eft = "WET" ∧ r.basis = "JMS" ∧ r.scale = o.scaleEw := by
  unfold smeftToWet at h
  split at h
  · rename_i hs
    obtain ⟨a, b, c⟩ := match_meta h
    exact ⟨a, b, c.trans hs⟩
  · obtain ⟨w, _, h2, _⟩ := andThen_ok h
    obtain ⟨w2, h3, h4, _⟩ := andThen_ok h2
    obtain ⟨a, b, c⟩ := match_meta h4
    exact ⟨a, b, c.trans (smeftRun_meta h3).2.2⟩

theorem wetRunTranslate_meta {w r : WC} {scale : ℝ} {basis : String} {s : Sectors}
    (h : (wetRunTranslate B o w scale basis s).1 = .ok r) :
    r.eft = w.eft ∧ r.basis = basis ∧ r.scale = scale := by
  obtain ⟨w2, h3, h4, _⟩ := andThen_ok h
  obtain ⟨e1, b1, s1⟩ := translate_meta h4
  obtain ⟨e2, b2, s2⟩ := wetRun_meta h3
  exact ⟨e1.trans e2, b1, s1.trans s2⟩

theorem wetRunMatch_meta {w r : WC} {thr : ℝ} {toE : String} {s : Sectors}
    (h : (wetRunMatch B o w thr toE s).1 = .ok r) :
    r.eft = toE ∧ r.basis = "JMS" ∧ r.scale = thr := by
  obtain ⟨w2, h3, h4, _⟩ := andThen_ok h
  obtain ⟨e1, b1, s1⟩ := match_meta h4
  exact ⟨e1, b1, s1.trans (wetRun_meta h3).2.2⟩

theorem wetPart_meta {w r : WC} {scale : ℝ} {eft basis : String} {s : Sectors}
    (h : (wetPart B o w scale eft basis s).1 = .ok r) :
    r.eft = eft ∧ r.basis = basis ∧ r.scale = scale := by
  unfold wetPart at h
  split at h
  · cases h
  · split at h
    · rename_i he
      obtain ⟨a, b, c⟩ := wetRunTranslate_meta h
      exact ⟨a.trans he.symm, b, c⟩
    · split at h
      · rename_i he
        obtain ⟨w4, h3, h4, _⟩ := andThen_ok h
        obtain ⟨a, b, c⟩ := wetRunTranslate_meta h4
        exact ⟨(a.trans (wetRunMatch_meta h3).1).trans he.1.symm, b, c⟩
      · split at h
        · rename_i he
          obtain ⟨w4, h3, h4, _⟩ := andThen_ok h
          obtain ⟨a, b, c⟩ := wetRunTranslate_meta h4
          exact ⟨(a.trans (wetRunMatch_meta h3).1).trans he.1.symm, b, c⟩
        · split at h
          · rename_i he
            obtain ⟨w4, h3, h4, _⟩ := andThen_ok h
            obtain ⟨w3, h5, h6, _⟩ := andThen_ok h4
            obtain ⟨a, b, c⟩ := wetRunTranslate_meta h6
            exact ⟨(a.trans (wetRunMatch_meta h5).1).trans he.1.symm, b, c⟩
          · cases h

theorem storing_fst (p : Phys WC) (c : Cache) (f : WC → Cache) : (storing p c f).1 = p := by
  obtain ⟨r, l⟩ := p
  cases r <;> rfl

theorem storing_snd (p : Phys WC) (c : Cache) (f : WC → Cache) :
    (∃ w, p.1 = .ok w ∧ (storing p c f).2 = f w) ∨ (storing p c f).2 = c := by
  obtain ⟨r, l⟩ := p
  cases r with
  | ok w => exact Or.inl ⟨w, rfl, rfl⟩
  | error e => exact Or.inr rfl

/-! ## Metadata invariant -/

/-- Every cache entry has the metadata of its key. -/
def MetaInv (c : Cache) : Prop :=
  ∀ s x e b w, Cache.get c s x e b = some w → w.eft = e ∧ w.basis = b ∧ w.scale = x

theorem metaInv_nil : MetaInv [] := by
  intro s x e b w h
  simp at h

theorem metaInv_set {c : Cache} (h : MetaInv c) {s : Sectors} {x : ℝ} {e b : String} {w : WC}
    (hw : w.eft = e ∧ w.basis = b ∧ w.scale = x) : MetaInv (c.set s x e b w) := by
  intro s' x' e' b' w' hg
  rw [Cache.get_set] at hg
  split at hg
  · rename_i hk
    obtain ⟨_, rfl, rfl, rfl⟩ := hk
    cases hg
    exact hw
  · exact h _ _ _ _ _ hg

theorem matchRun_meta {wc : WC} {c : Cache} (hc : MetaInv c) (scale : ℝ) (eft basis : String)
    (s : Sectors) :
    MetaInv (matchRun B o wc c scale eft basis s).2 ∧
    ∀ w, (matchRun B o wc c scale eft basis s).1.1 = .ok w →
      w.eft = eft ∧ w.basis = basis ∧ w.scale = scale := by
  have store : ∀ (p : Phys WC) (c : Cache) (f : WC → Cache), MetaInv c →
      (∀ w, p.1 = .ok w → w.eft = eft ∧ w.basis = basis ∧ w.scale = scale) →
      (∀ w, p.1 = .ok w → MetaInv (f w)) →
      MetaInv (storing p c f).2 ∧ ∀ w, (storing p c f).1.1 = .ok w →
        w.eft = eft ∧ w.basis = basis ∧ w.scale = scale := by
    intro p c f hc hp hf
    rw [storing_fst]
    refine ⟨?_, hp⟩
    rcases storing_snd p c f with ⟨w, hw, he⟩ | he
    · rw [he]; exact hf w hw
    · rw [he]; exact hc
  unfold matchRun
  split
  · rename_i w hw
    refine ⟨hc, fun w' h => ?_⟩
    cases h
    exact hc _ _ _ _ _ hw
  · split
    · rename_i h
      refine ⟨hc, fun w' hw => ?_⟩
      cases hw
      exact ⟨h.2.1, h.1, h.2.2.symm⟩
    · split
      · rename_i h
        have hm : ∀ w, (B.translate wc basis (some (selfParams B o)) s.forTranslate).1 = .ok w →
            w.eft = eft ∧ w.basis = basis ∧ w.scale = scale := by
          intro w hw
          obtain ⟨a, b, d⟩ := translate_meta hw
          exact ⟨a.trans h.1, b, d.trans h.2.symm⟩
        exact store _ _ _ hc hm (fun w hw => metaInv_set hc (hm w hw))
      · split
        · split
          · rename_i he
            have hm : ∀ w, (smeftToSmeft B o wc scale basis s).1 = .ok w →
                w.eft = eft ∧ w.basis = basis ∧ w.scale = scale := by
              intro w hw
              obtain ⟨a, b, d⟩ := smeftToSmeft_meta hw
              exact ⟨a.trans he.symm, b, d⟩
            refine store _ _ _ hc hm (fun w hw => metaInv_set hc ?_)
            obtain ⟨a, b, d⟩ := smeftToSmeft_meta hw
            exact ⟨a, rfl, d⟩
          · split
            · rename_i wcEw hew
              have hme := hc _ _ _ _ _ hew
              have hc1 : MetaInv (c.set .all o.scaleEw wcEw.eft wcEw.basis wcEw) :=
                metaInv_set hc ⟨rfl, rfl, hme.2.2⟩
              exact store _ _ _ hc1 (fun w hw => wetPart_meta hw)
                (fun w hw => metaInv_set hc1 (wetPart_meta hw))
            · split
              · refine ⟨hc, fun w hw => ?_⟩
                cases hw
              · rename_i wcEw l hew
                have hme := smeftToWet_meta (r := wcEw) (by rw [hew])
                have hc1 : MetaInv (c.set .all o.scaleEw wcEw.eft wcEw.basis wcEw) :=
                  metaInv_set hc ⟨rfl, rfl, hme.2.2⟩
                exact store _ _ _ hc1 (fun w hw => wetPart_meta hw)
                  (fun w hw => metaInv_set hc1 (wetPart_meta hw))
        · split
          · have hm : ∀ w, ((B.translate wc "JMS" (some (selfParams B o)) s.forTranslate).andThen
                fun w => wetPart B o w scale eft basis s).1 = .ok w →
                w.eft = eft ∧ w.basis = basis ∧ w.scale = scale := by
              intro w hw
              obtain ⟨w2, _, h2, _⟩ := andThen_ok hw
              exact wetPart_meta h2
            exact store _ _ _ hc hm (fun w hw => metaInv_set hc (hm w hw))
          · refine ⟨hc, fun w hw => ?_⟩
            cases hw

end Verif
