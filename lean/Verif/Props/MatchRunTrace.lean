import Verif.Props.MatchRun

/-! # Properties C15, C16, C17, C65: transitions, call trace, parameters of `match_run` -/

set_option autoImplicit false
set_option linter.unusedSimpArgs false
open Classical

namespace Verif
open Spec

/-! ## C15 -/

section C15
variable {B : Backend} {o : Opts}

theorem translate_ok {w : WC} {toB : String} {p : Option Params} {s : Option (List String)}
    (h : TransOK B w.eft w.basis toB) : ∃ r, (B.translate w toB p s).1 = .ok r := by
  unfold Backend.translate WC.translate
  by_cases hb : toB = w.basis
  · exact ⟨w, by simp [hb]⟩
  · rcases h with h | ⟨f, hf, hok⟩
    · exact absurd h hb
    · obtain ⟨out, hout⟩ := hok w.dict w.scale p s
      simp only [if_neg hb, hf, translatorApply, hout]
      exact ⟨_, rfl⟩

theorem match_ok {w : WC} {toE : String} {p : Option Params} (hne : toE ≠ w.eft)
    (h : MatchOK B w.eft w.basis toE) : ∃ r, (B.match w toE "JMS" p).1 = .ok r := by
  unfold Backend.match WC.match
  obtain ⟨f, hf, hok⟩ := h
  obtain ⟨out, hout⟩ := hok w.dict w.scale p
  simp only [hne, false_and, if_false, hf, matcherApply, hout]
  exact ⟨_, rfl⟩

theorem andThen_intro {α β : Type} {p : Phys α} {f : α → Phys β} {x : α} {y : β}
    (h1 : p.1 = .ok x) (h2 : (f x).1 = .ok y) : (p.andThen f).1 = .ok y := by
  obtain ⟨r, l⟩ := p
  simp only at h1
  subst h1
  exact h2

theorem smeftRun_ok {w : WC} {x : ℝ} {acc : String} (he : w.eft = "SMEFT") (hb : w.basis = "Warsaw")
    (h : ∀ d a b acc, ∃ out, B.smeftEvolve d a b acc = .ok out) :
    ∃ r, (B.smeftRun w x acc).1 = .ok r := by
  obtain ⟨out, hout⟩ := h w.dict w.scale x acc
  simp [Backend.smeftRun, he, hb, hout]

theorem wetRun_ok {w : WC} {x : ℝ} {s : Sectors} {q1 q2 : ℝ}
    (he : w.eft = "WET" ∨ w.eft = "WET-4" ∨ w.eft = "WET-3") (hb : w.basis = "JMS")
    (h : ∀ e d a b s q1 q2, ∃ out, B.wetEvolve e d a b s q1 q2 = .ok out) :
    ∃ r, (B.wetRun w x s q1 q2).1 = .ok r := by
  obtain ⟨out, hout⟩ := h w.eft w.dict w.scale x s q1 q2
  have : ¬ (w.eft ≠ "WET" ∧ w.eft ≠ "WET-4" ∧ w.eft ≠ "WET-3") := by
    rintro ⟨a, b, c⟩
    rcases he with h | h | h <;> contradiction
  simp only [Backend.wetRun, hb, ne_eq, not_true_eq_false, if_false, this, hout]
  exact ⟨_, rfl⟩

theorem wetRunTranslate_ok {w : WC} {x : ℝ} {b : String} {s : Sectors}
    (he : w.eft = "WET" ∨ w.eft = "WET-4" ∨ w.eft = "WET-3") (hb : w.basis = "JMS")
    (h : ∀ e d a b s q1 q2, ∃ out, B.wetEvolve e d a b s q1 q2 = .ok out)
    (ht : TransOK B w.eft "JMS" b) : ∃ r, (wetRunTranslate B o w x b s).1 = .ok r := by
  obtain ⟨r, hr⟩ := wetRun_ok (x := x) (s := s) (q1 := o.qed) (q2 := o.qcd) he hb h
  obtain ⟨m1, m2, _⟩ := wetRun_meta hr
  obtain ⟨r2, hr2⟩ := translate_ok (B := B) (w := r) (toB := b) (p := some (selfParams B o))
    (s := s.forTranslate) (by rw [m1, m2]; exact ht)
  exact ⟨r2, andThen_intro hr hr2⟩

theorem wetRunMatch_ok {w : WC} {x : ℝ} {toE : String} {s : Sectors}
    (he : w.eft = "WET" ∨ w.eft = "WET-4" ∨ w.eft = "WET-3") (hb : w.basis = "JMS")
    (h : ∀ e d a b s q1 q2, ∃ out, B.wetEvolve e d a b s q1 q2 = .ok out) (hne : toE ≠ w.eft)
    (ht : MatchOK B w.eft "JMS" toE) : ∃ r, (wetRunMatch B o w x toE s).1 = .ok r := by
  obtain ⟨r, hr⟩ := wetRun_ok (x := x) (s := s) (q1 := o.qed) (q2 := o.qcd) he hb h
  obtain ⟨m1, m2, _⟩ := wetRun_meta hr
  obtain ⟨r2, hr2⟩ := match_ok (B := B) (w := r) (toE := toE) (p := some (selfMatchParams B o))
    (by rw [m1]; exact hne) (by rw [m1, m2]; exact ht)
  exact ⟨r2, andThen_intro hr hr2⟩

theorem smeftToWet_ok {wc : WC} {eft basis : String} (hB : BackendOK B wc eft basis)
    (he : wc.eft = "SMEFT") : ∃ r, (smeftToWet B o wc).1 = .ok r := by
  unfold smeftToWet
  split
  · exact match_ok (by rw [he]; decide) (by rw [he]; exact hB.ewOwn he)
  · obtain ⟨w, hw⟩ := translate_ok (B := B) (w := wc) (toB := "Warsaw") (p := some (selfParams B o))
      (s := none) (by rw [he]; exact hB.warsaw he)
    obtain ⟨m1, m2, _⟩ := translate_meta hw
    obtain ⟨r, hr⟩ := smeftRun_ok (x := o.scaleEw) (acc := o.accuracy) (m1.trans he) m2 hB.smeft
    obtain ⟨n1, n2, _⟩ := smeftRun_meta hr
    obtain ⟨r2, hr2⟩ := match_ok (B := B) (w := r) (toE := "WET") (p := some (selfMatchParams B o))
      (by rw [n1]; decide) (by rw [n1, n2]; exact hB.ew)
    exact ⟨r2, andThen_intro hw (andThen_intro hr hr2)⟩

/-- The WET part succeeds exactly for targets at or below the runner's EFT. -/
theorem wetPart_outcome {wc w : WC} {x : ℝ} {eft basis : String} {s : Sectors}
    (hB : BackendOK B wc eft basis) (i : ℕ) (hi : level w.eft = some (i + 1)) (hb : w.basis = "JMS") :
    (∀ j, level eft = some j → i + 1 ≤ j → ∃ r, (wetPart B o w x eft basis s).1 = .ok r) ∧
    ((¬ ∃ j, level eft = some j ∧ i + 1 ≤ j) → (wetPart B o w x eft basis s).1 = .error .valueError) := by
  have hlev : ∀ e k, level e = some k → (e = "SMEFT" ∧ k = 0) ∨ (e = "WET" ∧ k = 1) ∨
      (e = "WET-4" ∧ k = 2) ∨ (e = "WET-3" ∧ k = 3) := by
    intro e k h
    unfold level at h
    split at h <;> simp_all
  have hw : (w.eft = "WET" ∧ i = 0) ∨ (w.eft = "WET-4" ∧ i = 1) ∨ (w.eft = "WET-3" ∧ i = 2) := by
    rcases hlev _ _ hi with h | h | h | h
    · omega
    · exact Or.inl ⟨h.1, by omega⟩
    · exact Or.inr (Or.inl ⟨h.1, by omega⟩)
    · exact Or.inr (Or.inr ⟨h.1, by omega⟩)
  have hwE : w.eft = "WET" ∨ w.eft = "WET-4" ∨ w.eft = "WET-3" := by
    rcases hw with h | h | h <;> simp [h.1]
  have hout : eft ≠ "SMEFT" → TransOK B eft "JMS" basis := by
    intro h
    have := hB.out
    rwa [if_neg h] at this
  have lev4 : level "WET-4" = some 2 := rfl
  have lev3 : level "WET-3" = some 3 := rfl
  have lev1 : level "WET" = some 1 := rfl
  constructor
  · intro j hj hij
    unfold wetPart
    rw [if_neg (by simp [hb])]
    by_cases hee : eft = w.eft
    · rw [if_pos hee]
      refine wetRunTranslate_ok hwE hb hB.wet ?_
      rw [← hee]
      apply hout
      rintro rfl
      rw [← hee] at hwE
      simp at hwE
    · rw [if_neg hee]
      rcases hlev _ _ hj with h | h | h | h
      · omega
      · obtain ⟨rfl, rfl⟩ := h
        rcases hw with h | h | h
        · exact absurd h.1.symm hee
        · omega
        · omega
      · obtain ⟨rfl, rfl⟩ := h
        rcases hw with h | h | h
        · rw [if_pos ⟨rfl, h.1⟩]
          obtain ⟨r, hr⟩ := wetRunMatch_ok (o := o) (x := o.mb) (toE := "WET-4") (s := s) hwE hb hB.wet
            (by rw [h.1]; decide) (by rw [h.1]; exact hB.mb)
          obtain ⟨m1, m2, _⟩ := wetRunMatch_meta hr
          obtain ⟨r2, hr2⟩ := wetRunTranslate_ok (o := o) (x := x) (b := basis) (s := s)
            (w := r) (by simp [m1]) m2 hB.wet (by rw [m1]; exact hout (by decide))
          exact ⟨r2, andThen_intro hr hr2⟩
        · exact absurd h.1.symm hee
        · omega
      · obtain ⟨rfl, rfl⟩ := h
        rcases hw with h | h | h
        · rw [if_neg (by simp), if_neg (by simp [h.1]), if_pos ⟨rfl, h.1⟩]
          obtain ⟨r, hr⟩ := wetRunMatch_ok (o := o) (x := o.mb) (toE := "WET-4") (s := s) hwE hb hB.wet
            (by rw [h.1]; decide) (by rw [h.1]; exact hB.mb)
          obtain ⟨m1, m2, _⟩ := wetRunMatch_meta hr
          obtain ⟨r', hr'⟩ := wetRunMatch_ok (o := o) (x := o.mc) (toE := "WET-3") (s := s) (w := r)
            (by simp [m1]) m2 hB.wet (by rw [m1]; decide) (by rw [m1]; exact hB.mc)
          obtain ⟨n1, n2, _⟩ := wetRunMatch_meta hr'
          obtain ⟨r2, hr2⟩ := wetRunTranslate_ok (o := o) (x := x) (b := basis) (s := s)
            (w := r') (by simp [n1]) n2 hB.wet (by rw [n1]; exact hout (by decide))
          exact ⟨r2, andThen_intro hr (andThen_intro hr' hr2)⟩
        · rw [if_neg (by simp), if_pos ⟨rfl, h.1⟩]
          obtain ⟨r', hr'⟩ := wetRunMatch_ok (o := o) (x := o.mc) (toE := "WET-3") (s := s) hwE hb hB.wet
            (by rw [h.1]; decide) (by rw [h.1]; exact hB.mc)
          obtain ⟨n1, n2, _⟩ := wetRunMatch_meta hr'
          obtain ⟨r2, hr2⟩ := wetRunTranslate_ok (o := o) (x := x) (b := basis) (s := s)
            (w := r') (by simp [n1]) n2 hB.wet (by rw [n1]; exact hout (by decide))
          exact ⟨r2, andThen_intro hr' hr2⟩
        · exact absurd h.1.symm hee
  · intro hno
    unfold wetPart
    rw [if_neg (by simp [hb])]
    have h0 : eft ≠ w.eft := by
      intro h
      exact hno ⟨i + 1, by rw [h]; exact hi, le_refl _⟩
    have h1 : ¬ (eft = "WET-4" ∧ w.eft = "WET") := by
      rintro ⟨rfl, h⟩
      rw [h, lev1] at hi
      exact hno ⟨2, rfl, by simp at hi; omega⟩
    have h2 : ¬ (eft = "WET-3" ∧ w.eft = "WET-4") := by
      rintro ⟨rfl, h⟩
      rw [h, lev4] at hi
      exact hno ⟨3, rfl, by simp at hi; omega⟩
    have h3 : ¬ (eft = "WET-3" ∧ w.eft = "WET") := by
      rintro ⟨rfl, h⟩
      rw [h, lev1] at hi
      exact hno ⟨3, rfl, by simp at hi; omega⟩
    rw [if_neg h0, if_neg h1, if_neg h2, if_neg h3]
    rfl

/-- C15: on a new instance with a backend whose calls succeed, `match_run` succeeds if only a
translation is needed or the target EFT is at or below the input EFT in the chain
SMEFT → WET → WET-4 → WET-3, and otherwise raises a ValueError. -/
theorem C15_transitions (B : Backend) (o : Opts) (wc : WC) (scale : ℝ) (eft basis : String)
    (sectors : Sectors) (hB : BackendOK B wc eft basis) :
    (Supported wc scale eft → ∃ r, fresh B o wc scale eft basis sectors = .ok r) ∧
    (¬ Supported wc scale eft → fresh B o wc scale eft basis sectors = .error .valueError) := by
  have hlev : ∀ e k, level e = some k → (e = "SMEFT" ∧ k = 0) ∨ (e = "WET" ∧ k = 1) ∨
      (e = "WET-4" ∧ k = 2) ∨ (e = "WET-3" ∧ k = 3) := by
    intro e k h
    unfold level at h
    split at h <;> simp_all
  by_cases hT : wc.eft = eft ∧ scale = wc.scale
  · refine ⟨fun _ => ?_, fun h => absurd (Or.inl hT) h⟩
    unfold fresh matchRun
    simp only [Cache.get_nil]
    by_cases hb : wc.basis = basis ∧ wc.eft = eft ∧ scale = wc.scale
    · rw [if_pos hb]; exact ⟨wc, rfl⟩
    · rw [if_neg hb, if_pos hT, storing_fst]
      exact translate_ok (hB.own hT.1.symm)
  · have hsup : Supported wc scale eft ↔ ∃ i j, level wc.eft = some i ∧ level eft = some j ∧ i ≤ j := by
      unfold Supported
      simp [hT]
    rw [hsup]
    by_cases hS : wc.eft = "SMEFT"
    · have hl : level wc.eft = some 0 := by rw [hS]; rfl
      by_cases he : eft = "SMEFT"
      · subst he
        have hx : scale ≠ wc.scale := fun h => hT ⟨hS, h⟩
        refine ⟨fun _ => ?_, fun h => absurd ⟨0, 0, hl, rfl, le_refl _⟩ h⟩
        rw [fresh_smeft_smeft hS hx]
        obtain ⟨w, hw⟩ := translate_ok (B := B) (w := wc) (toB := "Warsaw")
          (p := some (selfParams B o)) (s := sectors.forTranslate) (by rw [hS]; exact hB.warsaw hS)
        obtain ⟨m1, m2, _⟩ := translate_meta hw
        obtain ⟨r, hr⟩ := smeftRun_ok (x := scale) (acc := o.accuracy) (m1.trans hS) m2 hB.smeft
        obtain ⟨n1, n2, _⟩ := smeftRun_meta hr
        obtain ⟨r2, hr2⟩ := translate_ok (B := B) (w := r) (toB := basis) (p := none) (s := none)
          (by rw [n1, n2]; exact hB.out)
        exact ⟨r2, andThen_intro hw (andThen_intro hr hr2)⟩
      · obtain ⟨w, hw⟩ := smeftToWet_ok (o := o) hB hS
        obtain ⟨m1, m2, _⟩ := smeftToWet_meta hw
        obtain ⟨hp, hn⟩ := wetPart_outcome (o := o) (x := scale) (s := sectors) hB (w := w) 0
          (by rw [m1]; rfl) m2
        rw [fresh_smeft_wet hS he, hw]
        constructor
        · rintro ⟨i, j, _, hj, _⟩
          refine hp j hj ?_
          rcases hlev _ _ hj with h | h | h | h
          · exact absurd h.1 he
          all_goals omega
        · intro hno
          apply hn
          rintro ⟨j, hj, _⟩
          exact hno ⟨0, j, hl, hj, Nat.zero_le _⟩
    · by_cases hW : wc.eft = "WET" ∨ wc.eft = "WET-4" ∨ wc.eft = "WET-3"
      · have hl : ∃ i, level wc.eft = some (i + 1) := by
          rcases hW with h | h | h
          · exact ⟨0, by rw [h]; rfl⟩
          · exact ⟨1, by rw [h]; rfl⟩
          · exact ⟨2, by rw [h]; rfl⟩
        obtain ⟨i, hi⟩ := hl
        obtain ⟨w, hw⟩ := translate_ok (B := B) (w := wc) (toB := "JMS")
          (p := some (selfParams B o)) (s := sectors.forTranslate) (hB.jms hS)
        obtain ⟨m1, m2, _⟩ := translate_meta hw
        obtain ⟨hp, hn⟩ := wetPart_outcome (o := o) (x := scale) (s := sectors) hB (w := w) i
          (by rw [m1]; exact hi) m2
        have hf : fresh B o wc scale eft basis sectors = (wetPart B o w scale eft basis sectors).1 := by
          unfold fresh matchRun
          simp only [Cache.get_nil]
          rw [if_neg (fun h => hT h.2), if_neg hT, if_neg hS, if_pos hW, storing_fst]
          generalize B.translate wc "JMS" (some (selfParams B o)) sectors.forTranslate = q at hw
          obtain ⟨q1, q2⟩ := q
          simp only at hw
          subst hw
          rfl
        rw [hf]
        constructor
        · rintro ⟨i', j, hi', hj, hij⟩
          rw [hi] at hi'
          cases hi'
          exact hp j hj hij
        · intro hno
          apply hn
          rintro ⟨j, hj, hij⟩
          exact hno ⟨i + 1, j, hi, hj, hij⟩
      · constructor
        · rintro ⟨i, j, hi, _, _⟩
          exfalso
          rcases hlev _ _ hi with h | h | h | h
          · exact hS h.1
          · exact hW (Or.inl h.1)
          · exact hW (Or.inr (Or.inl h.1))
          · exact hW (Or.inr (Or.inr h.1))
        · intro _
          unfold fresh matchRun
          simp only [Cache.get_nil]
          rw [if_neg (fun h => hT h.2), if_neg hT, if_neg hS, if_neg hW]
          rfl

end C15

/-- A backend in which every call succeeds between the bases used below. -/
noncomputable def goodBackend : Backend where
  ph := { translators := none,
          matchers := some [(("SMEFT", "Warsaw", "WET", "JMS"), fun d _ _ => .ok d),
            (("WET", "JMS", "WET-4", "JMS"), fun d _ _ => .ok d),
            (("WET-4", "JMS", "WET-3", "JMS"), fun d _ _ => .ok d)] }
  defaultParams := []
  smeftEvolve := fun d _ _ _ => .ok d
  wetEvolve := fun _ d _ _ _ _ _ => .ok d

/-- Non-vacuity of C15: the hypotheses hold for SMEFT/Warsaw to WET-3/JMS (supported), and for
WET-4/JMS to WET/JMS (unsupported). -/
example : BackendOK goodBackend ⟨"SMEFT", "Warsaw", 1000, [("x", .num 1)], []⟩ "WET-3" "JMS" ∧
    Supported ⟨"SMEFT", "Warsaw", 1000, [("x", .num 1)], []⟩ 2 "WET-3" ∧
    BackendOK goodBackend ⟨"WET-4", "JMS", 3, [("x", .num 1)], []⟩ "WET" "JMS" ∧
    ¬ Supported ⟨"WET-4", "JMS", 3, [("x", .num 1)], []⟩ 2 "WET" := by
  have m : ∀ a b c, (a, b, c) ∈ [("SMEFT", "Warsaw", "WET"), ("WET", "JMS", "WET-4"), ("WET-4", "JMS", "WET-3")] →
      MatchOK goodBackend a b c := by
    intro a b c h
    simp only [List.mem_cons, Prod.mk.injEq, List.not_mem_nil, or_false] at h
    rcases h with ⟨rfl, rfl, rfl⟩ | ⟨rfl, rfl, rfl⟩ | ⟨rfl, rfl, rfl⟩ <;>
      exact ⟨fun d _ _ => .ok d, by simp [goodBackend, Registry.get?, Dict.get?], by simp⟩
  refine ⟨?_, ?_, ?_, ?_⟩
  · exact ⟨by simp, fun _ => Or.inl rfl, by simp, Or.inl rfl, m _ _ _ (by simp), fun _ => m _ _ _ (by simp),
      m _ _ _ (by simp), m _ _ _ (by simp), by simp [goodBackend], by simp [goodBackend]⟩
  · exact Or.inr ⟨0, 3, rfl, rfl, by omega⟩
  · exact ⟨by simp, by simp, fun _ => Or.inl rfl, Or.inl rfl, m _ _ _ (by simp), by simp,
      m _ _ _ (by simp), m _ _ _ (by simp), by simp [goodBackend], by simp [goodBackend]⟩
  · simp [Supported, level]

/-! ## C16 -/

section C16
variable {B : Backend} {o : Opts}

theorem translate_filter (w : WC) (toB : String) (p : Option Params) (s : Option (List String)) :
    (B.translate w toB p s).2.filter notTranslate = [] := by
  unfold Backend.translate
  split <;> simp [notTranslate]

theorem match_log {w r : WC} {toE toB : String} {p : Option Params} (hne : toE ≠ w.eft)
    (h : (B.match w toE toB p).1 = .ok r) :
    (B.match w toE toB p).2 = [.match w.eft w.basis toE toB w.scale p] := by
  simp only [Backend.match, WC.match, hne, false_and, if_false] at h
  simp only [Backend.match, hne, false_and, false_or]
  split at h
  · cases h
  · rename_i f hf
    simp [hf]

theorem smeftRun_log {w r : WC} {x : ℝ} {acc : String} (h : (B.smeftRun w x acc).1 = .ok r) :
    (B.smeftRun w x acc).2 = [.smeftRun w.scale x acc] := by
  unfold Backend.smeftRun at *
  split at h
  · cases h
  · split at h
    · cases h
    · rename_i h1 h2
      rw [if_neg h1, if_neg h2]
      split <;> rfl

theorem wetRun_log {w r : WC} {x : ℝ} {s : Sectors} {q1 q2 : ℝ}
    (h : (B.wetRun w x s q1 q2).1 = .ok r) :
    (B.wetRun w x s q1 q2).2 = [.wetRun w.eft w.scale x s q1 q2] := by
  unfold Backend.wetRun at *
  split at h
  · cases h
  · split at h
    · cases h
    · rename_i h1 h2
      rw [if_neg h1, if_neg h2]
      split <;> rfl

theorem wetRunTranslate_log {w r : WC} {x : ℝ} {b : String} {s : Sectors}
    (h : (wetRunTranslate B o w x b s).1 = .ok r) :
    (wetRunTranslate B o w x b s).2.filter notTranslate = [.wetRun w.eft w.scale x s o.qed o.qcd] := by
  obtain ⟨r1, h1, h2, h3⟩ := andThen_ok h
  unfold wetRunTranslate
  rw [h3, List.filter_append, translate_filter, wetRun_log h1]
  simp [notTranslate]

theorem wetRunMatch_log {w r : WC} {x : ℝ} {toE : String} {s : Sectors} (hne : toE ≠ w.eft)
    (h : (wetRunMatch B o w x toE s).1 = .ok r) :
    (wetRunMatch B o w x toE s).2.filter notTranslate =
      [.wetRun w.eft w.scale x s o.qed o.qcd,
       .match w.eft "JMS" toE "JMS" x (some (selfMatchParams B o))] := by
  obtain ⟨r1, h1, h2, h3⟩ := andThen_ok h
  obtain ⟨m1, m2, m3⟩ := wetRun_meta h1
  unfold wetRunMatch
  rw [h3, List.filter_append, match_log (by rw [m1]; exact hne) h2, wetRun_log h1, m1, m2, m3]
  rfl

theorem wetPart_log {w r : WC} {x : ℝ} {eft b : String} {s : Sectors} (i j : ℕ)
    (hi : level w.eft = some i) (hj : level eft = some j) (h1i : 1 ≤ i) (hij : i ≤ j)
    (h : (wetPart B o w x eft b s).1 = .ok r) :
    (wetPart B o w x eft b s).2.filter notTranslate =
      descend o (selfMatchParams B o) s (j - i) i w.scale x := by
  have hlev : ∀ e k, level e = some k → (e = "SMEFT" ∧ k = 0) ∨ (e = "WET" ∧ k = 1) ∨
      (e = "WET-4" ∧ k = 2) ∨ (e = "WET-3" ∧ k = 3) := by
    intro e k h
    unfold level at h
    split at h <;> simp_all
  have hb : w.basis = "JMS" := by
    by_contra hb
    unfold wetPart at h
    rw [if_pos hb] at h
    cases h
  unfold wetPart at h ⊢
  rw [if_neg (not_not.2 hb)] at h ⊢
  rcases hlev _ _ hi with ⟨hw, rfl⟩ | ⟨hw, rfl⟩ | ⟨hw, rfl⟩ | ⟨hw, rfl⟩
  · omega
  · rcases hlev _ _ hj with ⟨rfl, rfl⟩ | ⟨rfl, rfl⟩ | ⟨rfl, rfl⟩ | ⟨rfl, rfl⟩
    · omega
    · rw [if_pos hw.symm] at h ⊢
      rw [wetRunTranslate_log h, hw]
      simp [descend, runEv, eftName]
    · rw [if_neg (by rw [hw]; decide), if_pos ⟨rfl, hw⟩] at h ⊢
      obtain ⟨r1, h1, h2, h3⟩ := andThen_ok h
      obtain ⟨m1, m2, m3⟩ := wetRunMatch_meta h1
      rw [h3, List.filter_append, wetRunMatch_log (by rw [hw]; decide) h1, wetRunTranslate_log h2, hw, m1, m3]
      simp [descend, runEv, eftName, matchEv, threshold]
    · rw [if_neg (by rw [hw]; decide), if_neg (by simp), if_neg (by simp [hw]), if_pos ⟨rfl, hw⟩] at h ⊢
      obtain ⟨r1, h1, h2, h3⟩ := andThen_ok h
      obtain ⟨r2, h4, h5, h6⟩ := andThen_ok h2
      obtain ⟨m1, m2, m3⟩ := wetRunMatch_meta h1
      obtain ⟨n1, n2, n3⟩ := wetRunMatch_meta h4
      rw [h3, h6, List.filter_append, List.filter_append, wetRunMatch_log (by rw [hw]; decide) h1,
        wetRunMatch_log (by rw [m1]; decide) h4, wetRunTranslate_log h5, hw, m1, m3, n1, n3]
      simp [descend, runEv, eftName, matchEv, threshold]
  · rcases hlev _ _ hj with ⟨rfl, rfl⟩ | ⟨rfl, rfl⟩ | ⟨rfl, rfl⟩ | ⟨rfl, rfl⟩
    · omega
    · omega
    · rw [if_pos hw.symm] at h ⊢
      rw [wetRunTranslate_log h, hw]
      simp [descend, runEv, eftName]
    · rw [if_neg (by rw [hw]; decide), if_neg (by simp), if_pos ⟨rfl, hw⟩] at h ⊢
      obtain ⟨r1, h1, h2, h3⟩ := andThen_ok h
      obtain ⟨m1, m2, m3⟩ := wetRunMatch_meta h1
      rw [h3, List.filter_append, wetRunMatch_log (by rw [hw]; decide) h1, wetRunTranslate_log h2, hw, m1, m3]
      simp [descend, runEv, eftName, matchEv, threshold]
  · rcases hlev _ _ hj with ⟨rfl, rfl⟩ | ⟨rfl, rfl⟩ | ⟨rfl, rfl⟩ | ⟨rfl, rfl⟩
    · omega
    · omega
    · omega
    · rw [if_pos hw.symm] at h ⊢
      rw [wetRunTranslate_log h, hw]
      simp [descend, runEv, eftName]

theorem smeftToWet_log {wc r : WC} (hS : wc.eft = "SMEFT") (h : (smeftToWet B o wc).1 = .ok r) :
    (smeftToWet B o wc).2.filter notTranslate =
      if wc.scale = o.scaleEw then [matchEv o (selfMatchParams B o) 0 wc.basis]
      else [.smeftRun wc.scale o.scaleEw o.accuracy, matchEv o (selfMatchParams B o) 0 "Warsaw"] := by
  unfold smeftToWet at h ⊢
  split
  · rename_i hs
    rw [if_pos hs] at h
    rw [match_log (by rw [hS]; decide) h, hS, hs]
    simp [notTranslate, matchEv, eftName, threshold]
  · rename_i hs
    rw [if_neg hs] at h
    obtain ⟨r1, h1, h2, h3⟩ := andThen_ok h
    obtain ⟨r2, h4, h5, h6⟩ := andThen_ok h2
    obtain ⟨m1, m2, m3⟩ := translate_meta h1
    obtain ⟨n1, n2, n3⟩ := smeftRun_meta h4
    rw [h3, h6, List.filter_append, List.filter_append, translate_filter, smeftRun_log h4,
      match_log (by rw [n1]; decide) h5, n1, n2, n3, m3]
    rfl

/-- C16: whenever a `match_run` on a new instance between EFTs of the chain returns (and is not a
mere translation), the running and matching calls it made are exactly the expected ones, in
order: down the chain of EFTs between input and output, matching at `smeft_matchingscale`,
`mb_matchingscale`, `mc_matchingscale`, and finally running to the target scale. -/
theorem C16_call_trace (B : Backend) (o : Opts) (wc : WC) (scale : ℝ) (eft basis : String)
    (sectors : Sectors) (i j : ℕ) (hi : level wc.eft = some i) (hj : level eft = some j)
    (hT : ¬ (wc.eft = eft ∧ scale = wc.scale)) (r : WC)
    (hr : (matchRun B o wc [] scale eft basis sectors).1.1 = .ok r) :
    (matchRun B o wc [] scale eft basis sectors).1.2.filter notTranslate =
      expectedCalls o (selfMatchParams B o) wc sectors i j scale := by
  have hlev : ∀ e k, level e = some k → (e = "SMEFT" ∧ k = 0) ∨ (e = "WET" ∧ k = 1) ∨
      (e = "WET-4" ∧ k = 2) ∨ (e = "WET-3" ∧ k = 3) := by
    intro e k h
    unfold level at h
    split at h <;> simp_all
  have hjpos : eft ≠ "SMEFT" → 1 ≤ j := by
    intro h
    rcases hlev _ _ hj with h' | h' | h' | h'
    · exact absurd h'.1 h
    all_goals omega
  unfold matchRun at hr ⊢
  simp only [Cache.get_nil] at hr ⊢
  rw [if_neg (fun h => hT h.2), if_neg hT] at hr ⊢
  by_cases hS : wc.eft = "SMEFT"
  · have hi0 : i = 0 := by
      rw [hS] at hi
      simpa [level] using hi.symm
    subst hi0
    rw [if_pos hS] at hr ⊢
    by_cases he : eft = "SMEFT"
    · subst he
      have hj0 : j = 0 := by simpa [level] using hj.symm
      subst hj0
      rw [if_pos rfl, storing_fst] at hr ⊢
      obtain ⟨r1, h1, h2, h3⟩ := andThen_ok hr
      obtain ⟨r2, h4, h5, h6⟩ := andThen_ok h2
      obtain ⟨m1, m2, m3⟩ := translate_meta h1
      unfold smeftToSmeft
      rw [h3, h6, List.filter_append, List.filter_append, translate_filter, translate_filter, smeftRun_log h4, m3]
      simp [expectedCalls, descend, runEv, notTranslate]
    · rw [if_neg he] at hr ⊢
      have hsl : ∀ w, (smeftToWet B o wc).1 = .ok w → _ := fun w hw => smeftToWet_log hS hw
      have hsm : ∀ w, (smeftToWet B o wc).1 = .ok w → _ := fun w hw => smeftToWet_meta hw
      rcases hq : smeftToWet B o wc with ⟨q, l⟩
      rw [hq] at hr hsl hsm
      cases q with
      | error e => cases hr
      | ok w =>
        simp only [storing_fst] at hr ⊢
        obtain ⟨m1, m2, m3⟩ := hsm w rfl
        have hl := hsl w rfl
        simp only at hl
        rw [List.filter_append, hl, wetPart_log 1 j (by rw [m1]; rfl) hj (le_refl _) (hjpos he) hr, m3]
        unfold expectedCalls
        have hj1 := hjpos he
        by_cases hs : wc.scale = o.scaleEw
        · rw [if_pos hs, if_pos ⟨rfl, hj1, hs⟩]
          rfl
        · rw [if_neg hs, if_neg (fun h => hs h.2.2)]
          obtain ⟨k, rfl⟩ : ∃ k, j = k + 1 := ⟨j - 1, by omega⟩
          simp [descend, runEv, threshold]
  · rw [if_neg hS] at hr ⊢
    have hi1 : 1 ≤ i := by
      rcases hlev _ _ hi with h' | h' | h' | h'
      · exact absurd h'.1 hS
      all_goals omega
    have hW : wc.eft = "WET" ∨ wc.eft = "WET-4" ∨ wc.eft = "WET-3" := by
      rcases hlev _ _ hi with h' | h' | h' | h'
      · exact absurd h'.1 hS
      · exact Or.inl h'.1
      · exact Or.inr (Or.inl h'.1)
      · exact Or.inr (Or.inr h'.1)
    rw [if_pos hW, storing_fst] at hr ⊢
    obtain ⟨r1, h1, h2, h3⟩ := andThen_ok hr
    obtain ⟨m1, m2, m3⟩ := translate_meta h1
    have hl1 : level r1.eft = some i := by rw [m1]; exact hi
    have hij : i ≤ j := by
      -- otherwise the WET part raises
      by_contra hij
      unfold wetPart at h2
      rw [if_neg (not_not.2 m2)] at h2
      rcases hlev _ _ hl1 with ⟨hw, rfl⟩ | ⟨hw, rfl⟩ | ⟨hw, rfl⟩ | ⟨hw, rfl⟩ <;>
      rcases hlev _ _ hj with ⟨rfl, rfl⟩ | ⟨rfl, rfl⟩ | ⟨rfl, rfl⟩ | ⟨rfl, rfl⟩ <;>
      first
        | omega
        | (rw [hw] at h2
           simp [Phys.raise] at h2)
    rw [h3, List.filter_append, translate_filter, List.nil_append, wetPart_log i j hl1 hj hi1 hij h2, m3]
    unfold expectedCalls
    rw [if_neg (by omega)]

end C16

/-- Non-vacuity of C16: SMEFT at 1000 to WET-3 at 1 succeeds on `goodBackend`. -/
example : ∃ r, (matchRun goodBackend ⟨"integrate", 1, 1, 0, 91, 4, 1.3, []⟩
    ⟨"SMEFT", "Warsaw", 1000, [("x", .num 1)], []⟩ [] 1 "WET-3" "JMS" .all).1.1 = .ok r := by
  have m : ∀ a b c, (a, b, c) ∈ [("SMEFT", "Warsaw", "WET"), ("WET", "JMS", "WET-4"), ("WET-4", "JMS", "WET-3")] →
      MatchOK goodBackend a b c := by
    intro a b c h
    simp only [List.mem_cons, Prod.mk.injEq, List.not_mem_nil, or_false] at h
    rcases h with ⟨rfl, rfl, rfl⟩ | ⟨rfl, rfl, rfl⟩ | ⟨rfl, rfl, rfl⟩ <;>
      exact ⟨fun d _ _ => .ok d, by simp [goodBackend, Registry.get?, Dict.get?], by simp⟩
  exact (C15_transitions goodBackend _ _ 1 "WET-3" "JMS" .all
    ⟨by simp, fun _ => Or.inl rfl, by simp, Or.inl rfl, m _ _ _ (by simp), fun _ => m _ _ _ (by simp),
      m _ _ _ (by simp), m _ _ _ (by simp), by simp [goodBackend], by simp [goodBackend]⟩).1
    (Or.inr ⟨0, 3, rfl, rfl, by omega⟩)

/-! ## C17 -/

/-- Every translation in the log was given the parameters `p`, every matching `m`. -/
def ParamsReach (p m : Params) (l : List Ev) : Prop :=
  (∀ e f t x q s, Ev.translate e f t x q s ∈ l → q = some p) ∧
  (∀ a b c d x q, Ev.match a b c d x q ∈ l → q = some m)

section C17
variable {p m : Params}

theorem reach_nil : ParamsReach p m [] := by simp [ParamsReach]

theorem reach_append {l l' : List Ev} (h : ParamsReach p m l) (h' : ParamsReach p m l') :
    ParamsReach p m (l ++ l') := by
  constructor
  · intro e f t x q s hm
    rcases List.mem_append.1 hm with h1 | h1
    · exact h.1 _ _ _ _ _ _ h1
    · exact h'.1 _ _ _ _ _ _ h1
  · intro e f t x q s hm
    rcases List.mem_append.1 hm with h1 | h1
    · exact h.2 _ _ _ _ _ _ h1
    · exact h'.2 _ _ _ _ _ _ h1

theorem reach_andThen {α β : Type} {q : Phys α} {f : α → Phys β} (h : ParamsReach p m q.2)
    (hf : ∀ x, ParamsReach p m (f x).2) : ParamsReach p m (q.andThen f).2 := by
  obtain ⟨r, l⟩ := q
  cases r with
  | error e => exact h
  | ok x => exact reach_append h (hf x)

variable {B : Backend} {o : Opts}

theorem reach_translate (w : WC) (b : String) (s : Option (List String)) :
    ParamsReach p m (B.translate w b (some p) s).2 := by
  unfold Backend.translate
  simp only
  split
  · exact reach_nil
  · simp [ParamsReach]
    intros
    assumption

theorem reach_match (w : WC) (e b : String) : ParamsReach p m (B.match w e b (some m)).2 := by
  unfold Backend.match
  simp only
  split
  · exact reach_nil
  · simp [ParamsReach]

theorem reach_smeftRun (w : WC) (x : ℝ) (a : String) : ParamsReach p m (B.smeftRun w x a).2 := by
  unfold Backend.smeftRun
  split
  · exact reach_nil
  · split
    · exact reach_nil
    · split <;> simp [ParamsReach]

theorem reach_wetRun (w : WC) (x : ℝ) (s : Sectors) (a b : ℝ) : ParamsReach p m (B.wetRun w x s a b).2 := by
  unfold Backend.wetRun
  split
  · exact reach_nil
  · split
    · exact reach_nil
    · split <;> simp [ParamsReach]

theorem reach_wetPart (w : WC) (x : ℝ) (e b : String) (s : Sectors) :
    ParamsReach (selfParams B o) (selfMatchParams B o) (wetPart B o w x e b s).2 := by
  have h1 : ∀ w, ParamsReach (selfParams B o) (selfMatchParams B o) (wetRunTranslate B o w x b s).2 :=
    fun w => reach_andThen (reach_wetRun _ _ _ _ _) (fun r => reach_translate _ _ _)
  have h2 : ∀ w y e', ParamsReach (selfParams B o) (selfMatchParams B o) (wetRunMatch B o w y e' s).2 :=
    fun w y e' => reach_andThen (reach_wetRun _ _ _ _ _) (fun r => reach_match _ _ _)
  unfold wetPart
  split
  · exact reach_nil
  · split
    · exact h1 _
    · split
      · exact reach_andThen (h2 _ _ _) (fun r => h1 _)
      · split
        · exact reach_andThen (h2 _ _ _) (fun r => h1 _)
        · split
          · exact reach_andThen (h2 _ _ _) (fun r => reach_andThen (h2 _ _ _) (fun r => h1 _))
          · exact reach_nil

theorem reach_smeftToWet (wc : WC) :
    ParamsReach (selfParams B o) (selfMatchParams B o) (smeftToWet B o wc).2 := by
  unfold smeftToWet
  split
  · exact reach_match _ _ _
  · exact reach_andThen (reach_translate _ _ _)
      (fun r => reach_andThen (reach_smeftRun _ _ _) (fun r => reach_match _ _ _))

/-- C17 (partial): in every `match_run` (from any cache state, succeeding or not), except SMEFT to
SMEFT at a different scale, every basis translation is given the effective parameters and every
matching the effective parameters plus `loop_order`.  Missing: the SMEFT-to-SMEFT case, which
violates the property (`C17_smeft_violation`); and WET running takes no parameters at all
(`Ev.wetRun`). -/
theorem C17_parameters_reach_partial (B : Backend) (o : Opts) (wc : WC) (c : Cache) (scale : ℝ)
    (eft basis : String) (sectors : Sectors)
    (h : ¬ (wc.eft = "SMEFT" ∧ eft = "SMEFT" ∧ scale ≠ wc.scale)) :
    ParamsReach (effParameters B.defaultParams o.user)
      (matchingParameters B.defaultParams o.user o.matchingOrder)
      (matchRun B o wc c scale eft basis sectors).1.2 := by
  change ParamsReach (selfParams B o) (selfMatchParams B o) _
  unfold matchRun
  split
  · exact reach_nil
  · split
    · exact reach_nil
    · split
      · rw [storing_fst]
        exact reach_translate _ _ _
      · rename_i hB
        split
        · rename_i hS
          split
          · rename_i he
            exact absurd ⟨hS, he, fun hx => hB ⟨hS.trans he.symm, hx⟩⟩ h
          · split
            · rw [storing_fst]
              exact reach_wetPart _ _ _ _ _
            · have := reach_smeftToWet (B := B) (o := o) wc
              split
              · rename_i hq
                rw [hq] at this
                exact this
              · rename_i w l hq
                rw [hq] at this
                simp only [storing_fst]
                exact reach_append this (reach_wetPart _ _ _ _ _)
        · split
          · rw [storing_fst]
            exact reach_andThen (reach_translate _ _ _) (fun r => reach_wetPart _ _ _ _ _)
          · exact reach_nil

/-- C17, violated: whenever a SMEFT-to-SMEFT run to another scale ends with an actual translation
(target basis other than Warsaw) and returns, that translation was given no parameters. -/
theorem C17_smeft_violation (B : Backend) (o : Opts) (wc r : WC) (scale : ℝ) (basis : String)
    (sectors : Sectors) (hS : wc.eft = "SMEFT") (hx : scale ≠ wc.scale) (hb : basis ≠ "Warsaw")
    (hr : (matchRun B o wc [] scale "SMEFT" basis sectors).1.1 = .ok r) :
    Ev.translate "SMEFT" "Warsaw" basis scale none none ∈
      (matchRun B o wc [] scale "SMEFT" basis sectors).1.2 := by
  unfold matchRun at hr ⊢
  simp only [Cache.get_nil] at hr ⊢
  rw [if_neg (fun h => hx h.2.2), if_neg (fun h => hx h.2), if_pos hS, if_pos trivial, storing_fst] at hr ⊢
  obtain ⟨r1, h1, h2, h3⟩ := andThen_ok hr
  obtain ⟨r2, h4, h5, h6⟩ := andThen_ok h2
  obtain ⟨n1, n2, n3⟩ := smeftRun_meta h4
  unfold smeftToSmeft
  rw [h3, h6]
  apply List.mem_append_right
  apply List.mem_append_right
  unfold Backend.translate at h5 ⊢
  unfold WC.translate at h5
  simp only [n1, n2, n3, hb, if_false, false_or] at h5 ⊢
  split at h5
  · cases h5
  · rename_i f hf
    simp [hf]

end C17

/-- Non-vacuity of the C17 violation: a user-set parameter and a target basis `Warsaw up`. -/
example : ∃ (B : Backend) (o : Opts) (wc r : WC), o.user = [("Vub", 1)] ∧ wc.eft = "SMEFT" ∧
    (2 : ℝ) ≠ wc.scale ∧ (matchRun B o wc [] 2 "SMEFT" "Warsaw up" .all).1.1 = .ok r := by
  refine ⟨⟨⟨some [(("SMEFT", "Warsaw", "Warsaw up"), fun d _ _ _ => .ok d)], none⟩, [],
    fun d _ _ _ => .ok d, fun _ d _ _ _ _ _ => .ok d⟩, ⟨"integrate", 1, 1, 0, 91, 4, 1, [("Vub", 1)]⟩,
    ⟨"SMEFT", "Warsaw", 1000, [], []⟩, ⟨"SMEFT", "Warsaw up", 2, [], []⟩, rfl, rfl, by norm_num, ?_⟩
  have : ¬ ((2 : ℝ) = 1000) := by norm_num
  simp [matchRun, this, storing, smeftToSmeft, Backend.translate, WC.translate, Phys.andThen,
    Backend.smeftRun, Registry.get?, Dict.get?, translatorApply, WC.dict, Dict.mapVal, dict2values,
    dropZeros, Dict.filterKV]

end Verif
