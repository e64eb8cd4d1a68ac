import Verif.Lemmas.Bridge
import Verif.Model.TranslateSmeft

/-! Lemmas for the basis changes within SMEFT: complete sets of symmetric arrays. -/

set_option autoImplicit false
set_option linter.unusedSimpArgs false

namespace Verif.Bridge
open Verif Verif.EFT Verif.Tens Verif.Beta Verif.Rotation Verif.Spec Verif.Flavour Verif.EFT.Util Verif.Props
  Verif.RotationProps

variable {U : Util}

section sym
variable {k : Str} {c : ℕ} {l : List ℕ}

/-- the symmetrized arrays have the symmetry of their class -/
theorem symVal_read {s : Shape} (hK : KeyOK U k s c) (h3 : ∀ l, s = some l → l = List.replicate l.length 3)
    (h71 : c ≠ 71) {v : AVal} (hf : Fits s v) : SymVal c (cutF s (symF c (padF v))) := by
  have hp := padded_padF (fun l e => (hK.hl l e).2) hf
  cases s with
  | none =>
    obtain rfl := hK.h0.1 rfl
    cases v with
    | arr a => simp [Fits] at hf
    | num z => simp [symF, padF, realVal, cutF, SymVal]
  | some l =>
    have e3 := h3 l rfl
    have hfit : Fits (some l) (cutF (some l) (symF c (padF v))) := fits_cutF (symm_step hK hp).2
    obtain ⟨a, ha⟩ : ∃ a, cutF (some l) (symF c (padF v)) = .arr a := by
      generalize cutF (some l) (symF c (padF v)) = w at hfit
      cases w with
      | num z => simp [Fits] at hfit
      | arr a => exact ⟨a, rfl⟩
    have hlen := (hK.hl l rfl).1
    have E2 : l.length = 2 → ∀ f, symF c = op2 f →
        (fun i => a.get (idx2 i)) = f (ent2 (padF v)) := by
      intro h2 f hs
      funext i
      have : ent2 (cutF (some l) (symF c (padF v))) i = a.get (idx2 i) := by rw [ha]; rfl
      rw [← this, ent2_cutF, hs, ent_op2 hp]
      rw [e3, h2]
      obtain ⟨p, q⟩ := i
      simp only [idx2, List.replicate, inRange, p.isLt, q.isLt, decide_true, Bool.and_self]
    have E4 : l.length = 4 → ∀ f, symF c = op4 f →
        (fun i => a.get (idx4 i)) = f (ent4 (padF v)) := by
      intro h4 f hs
      funext i
      have : ent4 (cutF (some l) (symF c (padF v))) i = a.get (idx4 i) := by rw [ha]; rfl
      rw [← this, ent4_cutF, hs, ent_op4 hp]
      rw [e3, h4]
      obtain ⟨p, q, r, t⟩ := i
      simp only [idx4, List.replicate, inRange, p.isLt, q.isLt, r.isLt, t.isLt, decide_true, Bool.and_self]
    rw [ha]
    refine ⟨?_, ?_, ?_, ?_, ?_, ?_, ?_, fun h => absurd h h71, ?_⟩
    · rintro rfl; rw [E2 hlen _ rfl]; exact C19_class2 _
    · rintro rfl; rw [E2 hlen _ rfl]; exact C19_class9 _
    · rintro rfl
      rw [E4 hlen (fun b i => runProg Gen.symmetrize_4 b i / d4 i) rfl]
      intro i j k l
      have := C19_class4 (ent4 (padF v)) i j k l
      simp only [(d4_sym i j k l).1, (d4_sym i j k l).2, this.1, this.2, map_div₀, map_natCast, and_self]
    · rintro rfl
      rw [E4 hlen (fun b i => runProg Gen.symmetrize_41 b i / d4 i) rfl]
      intro i j k l
      simp only [(d4_sym i j k l).1, C19_class41 (ent4 (padF v)) i j k l]
    · rintro rfl; rw [E4 hlen (runProg Gen.symmetrize_5) rfl]; exact C19_class5 _
    · rintro rfl
      rw [E4 hlen (fun b i => runProg Gen.symmetrize_6 b i / d6 i) rfl]
      intro i j k l
      have := C19_class6 (ent4 (padF v)) i j k l
      have hd := d6_sym i j k l
      simp only [hd.1, hd.2.1, hd.2.2, this.1, this.2.1, this.2.2, map_div₀, map_natCast, and_self]
    · rintro rfl
      rw [E4 hlen (fun b i => runProg Gen.symmetrize_7 b i / d7 i) rfl]
      intro i j k l
      simp only [d7_sym i j k l, C19_class7 (ent4 (padF v)) i j k l]
    · rintro rfl; rw [E4 hlen (fun b => runProg Gen.symmetrize_8 (runProg Gen.scale_8 b)) rfl]; exact C19_class8 _

end sym

/-- a complete set of Warsaw arrays with the symmetries of their classes -/
structure Good (C : Dict Str AVal) : Prop where
  nodup : C.NodupKeys
  have_ : ∀ k ∈ coeffKeys, ∃ v, C.get? (keyName k) = some v ∧ Fits (shapeK k) v ∧ SymVal (fullClass k) v
  only : ∀ s, (∀ k ∈ coeffKeys, s ≠ keyName k) → C.get? s = none

theorem keyOK_of (hS : IsSmeft U) {k : Key} (hk : k ∈ coeffKeys) :
    KeyOK U (keyName k) (shapeK k) (fullClass k) := by
  obtain ⟨c, hK⟩ := keyOK hS.regular (hS.shape k hk)
  rwa [InClass.unique hK.cls (hS.cls k hk)] at hK

theorem rank_c {k : Key} (hk : k ∈ coeffKeys) : rankOf k = 0 ∨ rankOf k = 2 ∨ rankOf k = 4 :=
  rank_cases k ((coeff_iff k).1 hk).1

theorem good_read (hS : IsSmeft U) (d : Dict Str ℂ) (hd : d.NodupKeys) (hk : ∀ n ∈ d.keys, n ∈ U.allWcs) :
    ∃ C, U.wcxf2arraysSymmetrized d = .ok C ∧ Good C := by
  obtain ⟨C, e, n, F, hno, hyes⟩ := readSym hS.regular hS.complete d hd hk
  refine ⟨C, e, n, fun k hk => ?_, fun s hs => hno s fun h => ?_⟩
  · have hK := keyOK_of hS hk
    have hg := hyes _ ((hS.wc _).2 ⟨k, hk, rfl⟩) _ _ hK
    obtain ⟨s, hs, hf⟩ := F _ _ hg
    rw [hS.shape k hk, Option.some.injEq] at hs
    subst hs
    refine ⟨_, hg, hf, symVal_read hK ?_ ?_ (fits_given _ _ _)⟩
    · intro l e
      unfold shapeK at e
      split at e
      · cases e
      · simp only [Option.some.injEq] at e
        rw [← e]; simp
    · have : ∀ k ∈ coeffKeys, fullClass k ≠ 71 := by decide +kernel
      exact this k hk
  · obtain ⟨k, hk, rfl⟩ := (hS.wc s).1 h
    exact hs k hk rfl

theorem good_nonred (hS : IsSmeft U) {C : Dict Str AVal} (hC : Good C) :
    ∃ d C', U.arrays2wcxfNonred C = .ok d ∧ d.NodupKeys ∧ (∀ n ∈ d.keys, n ∈ U.allWcs) ∧
      U.wcxf2arraysSymmetrized d = .ok C' ∧ C'.NodupKeys ∧ ∀ k, C'.get? k = C.get? k := by
  have hkey : ∀ s, s ∈ C.keys ↔ s ∈ U.wcKeys := by
    intro s
    rw [hS.wc]
    constructor
    · intro h
      by_contra hn
      rw [← Dict.isSome_get?_iff, hC.only s (fun k hk e => hn ⟨k, hk, e⟩)] at h
      cases h
    · rintro ⟨k, hk, rfl⟩
      obtain ⟨v, hv, -⟩ := hC.have_ k hk
      rw [← Dict.isSome_get?_iff, hv]; rfl
  refine C75_reverse hS.regular hS.complete C hC.nodup hkey fun s v hv => ?_
  obtain ⟨k, hk, rfl⟩ := (hS.wc s).1 ((hkey s).1 ((Dict.isSome_get?_iff _ _).1 (by rw [hv]; rfl)))
  obtain ⟨w, hw, hf, hs⟩ := hC.have_ k hk
  rw [hv, Option.some.injEq] at hw
  subst hw
  exact ⟨_, hS.shape k hk, hf, fun c hc => by rwa [InClass.unique hc (hS.cls k hk)]⟩

/-- entries of a value of the right shape -/
theorem toTen_ent {k : Key} {v : AVal} (hf : Fits (shapeK k) v) :
    (rankOf k = 0 → toTen v [] = numOf v) ∧ (rankOf k = 2 → ∀ i : I2, toTen v [i.1, i.2] = ent2 v i) ∧
    (rankOf k = 4 → ∀ i : I4, toTen v [i.1, i.2.1, i.2.2.1, i.2.2.2] = ent4 v i) := by
  unfold shapeK at hf
  cases v with
  | num z =>
    have h : rankOf k = 0 := by
      by_contra h
      rw [if_neg h] at hf; simp [Fits] at hf
    exact ⟨fun _ => rfl, fun h' => by omega, fun h' => by omega⟩
  | arr a =>
    have h : rankOf k ≠ 0 := by
      intro h
      rw [if_pos h] at hf; simp [Fits] at hf
    exact ⟨fun h' => absurd h' h, fun _ _ => rfl, fun _ _ => rfl⟩

/-- values of the right shape are equal if their arrays are -/
theorem val_ext {k : Key} (hk : k ∈ coeffKeys) {v w : AVal} (hv : Fits (shapeK k) v) (hw : Fits (shapeK k) w)
    (h : ∀ ix : Ix, ix.length = rankOf k → toTen v ix = toTen w ix) : v = w := by
  obtain ⟨v0, v2, v4⟩ := toTen_ent hv
  obtain ⟨w0, w2, w4⟩ := toTen_ent hw
  have hsl : ∀ l, shapeK k = some l → l.length = rankOf k := by
    intro l e
    unfold shapeK at e
    split at e
    · cases e
    · simp only [Option.some.injEq] at e
      rw [← e]; simp
  refine ext_val hv hw ?_ ?_ ?_ ?_
  · intro l e
    have hl := hsl l e
    unfold shapeK at e
    split at e
    · cases e
    · rename_i h0
      simp only [Option.some.injEq] at e
      refine ⟨?_, fun m hm => ?_⟩
      · rw [hl]; rcases rank_c hk with h | h | h
        · exact absurd h h0
        · exact Or.inl h
        · exact Or.inr h
      · rw [← e] at hm
        rw [List.eq_of_mem_replicate hm]; simp
  · intro e
    have h0 : rankOf k = 0 := by
      unfold shapeK at e; split at e
      · assumption
      · cases e
    rw [← v0 h0, ← w0 h0]; exact h [] h0.symm
  · intro l e hl i _
    have hr : rankOf k = 2 := by rw [← hsl l e, hl]
    rw [← v2 hr, ← w2 hr]; exact h _ hr.symm
  · intro l e hl i _
    have hr : rankOf k = 4 := by rw [← hsl l e, hl]
    rw [← v4 hr, ← w4 hr]; exact h _ hr.symm

theorem toTen_ofTen {k : Key} (hk : k ∈ coeffKeys) {v : AVal} (hf : Fits (shapeK k) v) (A : Ten) (ix : Ix)
    (hix : ix.length = rankOf k) : toTen (ofTen v A) ix = A ix := by
  obtain ⟨hf', h0, h2, h4⟩ := ent_ofTen hf A
  obtain ⟨t0, t2, t4⟩ := toTen_ent hf'
  rcases rank_c hk with h | h | h
  · obtain rfl : ix = [] := List.length_eq_zero_iff.1 (by rw [hix, h])
    rw [t0 h, h0 h]
  · obtain ⟨a, b, rfl⟩ := List.length_eq_two.1 (hix.trans h)
    exact (t2 h (a, b)).trans (h2 h (a, b))
  · obtain ⟨a, b, c, d, rfl⟩ : ∃ a b c d, ix = [a, b, c, d] := by
      match ix, hix.trans h with
      | [a, b, c, d], _ => exact ⟨a, b, c, d, rfl⟩
    exact (t4 h (a, b, c, d)).trans (h4 h (a, b, c, d))

theorem sm_eq : smParams = smKeys := by decide +kernel

theorem good_rot (W : Fl → Mat) {C : Dict Str AVal} (hC : Good C) :
    ∃ C', flavorRotationStr C (W .q) (W .u) (W .d) (W .l) (W .e) = .ok C' ∧ Good C' ∧
      ∀ k ∈ coeffKeys, ∀ τ, smeftTy k = some τ → ∀ v v', C.get? (keyName k) = some v →
        C'.get? (keyName k) = some v' → ∀ ix : Ix, ix.length = τ.length → toTen v' ix = rot W τ (toTen v) ix := by
  have hcl : ∀ k A, (typed C).get? k = some A → ObeysClass (smeftClass k) A := by
    intro k A hA
    rw [get?_typed] at hA
    by_cases hk : k ∈ keys
    · rw [if_pos hk] at hA
      by_cases hs : k ∈ smKeys
      · have : ∀ k ∈ smKeys, smeftClass k = 0 := by decide
        rw [this k hs]; simp [ObeysClass]
      · have hkc := (coeff_iff k).2 ⟨hk, hs⟩
        obtain ⟨v, hv, hf, hsv⟩ := hC.have_ k hkc
        rw [hv, Option.map_some, Option.some.injEq] at hA
        rw [← hA]
        exact ((symVal_iff hkc hf).1 hsv).1
    · rw [if_neg hk] at hA; cases hA
  obtain ⟨D, e1, e2⟩ := C28_symmetric W (typed C) hcl
  obtain ⟨D', e1', nD, hrot, hsm⟩ := C27_rotates W (typed C)
  obtain rfl : D' = D := Except.ok.inj (e1'.symm.trans e1)
  have hin : ∀ k, k ∉ coeffKeys → D'.get? k = none := by
    intro k hk
    by_cases hs : k ∈ smKeys
    · exact hsm k (sm_eq ▸ hs)
    have hkk : k ∉ keys := fun h => hk ((coeff_iff k).2 ⟨h, hs⟩)
    obtain ⟨D'', r1, -, -, r4⟩ := run_ok (args (W .q) (W .u) (W .d) (W .l) (W .e)) (typed C)
      flavorRotationProg nodup_prog (fun s hs => Or.inl (guarded_prog s hs)) []
    obtain rfl : D'' = D' := Except.ok.inj (r1.symm.trans e1')
    rw [r4 k fun s hs e => by rw [get?_typed, if_neg hkk]]; rfl
  have hget : ∀ k ∈ coeffKeys, ∀ v, C.get? (keyName k) = some v → Fits (shapeK k) v → ∃ τ B,
      smeftTy k = some τ ∧ (untyped C D').get? (keyName k) = some (ofTen v B) ∧ D'.get? k = some B ∧
      ∀ ix : Ix, ix.length = τ.length → B ix = rot W τ (toTen v) ix := by
    intro k hk v hv hf
    obtain ⟨hkk, hs⟩ := (coeff_iff k).1 hk
    obtain ⟨τ, hτ, -⟩ := smeftTy_some hkk
    obtain ⟨B, hB, hr⟩ := (hrot k τ (by rw [sm_eq]; exact hs) hτ).1 (toTen v) (by
      rw [get?_typed, if_pos hkk, hv]; rfl)
    refine ⟨τ, B, hτ, ?_, hB, hr⟩
    rw [get?_untyped, hB, hv]; rfl
  refine ⟨untyped C D', by rw [flavorRotationStr, e1]; rfl, ⟨nodup_untyped C D' nD, fun k hk => ?_, fun s hs => ?_⟩, ?_⟩
  · obtain ⟨v, hv, hf, hsv⟩ := hC.have_ k hk
    obtain ⟨τ, B, hτ, hg, hB, hr⟩ := hget k hk v hv hf
    have hf' := (ent_ofTen hf B).1
    refine ⟨_, hg, hf', (symVal_iff hk hf').2 ⟨?_, fun h0 => ?_⟩⟩
    · have hcl := e2 k B hB
      have e4 : ∀ ix : Ix, ix.length = rankOf k → toTen (ofTen v B) ix = B ix :=
        fun ix hix => toTen_ofTen hk hf B ix hix
      have hc2 : ∀ k ∈ coeffKeys, smeftClass k = 0 ∨ ((smeftClass k = 2 ∨ smeftClass k = 9) ∧ rankOf k = 2) ∨
        rankOf k = 4 := by decide +kernel
      rcases hc2 k hk with h | ⟨-, h⟩ | h
      · rw [h]; simp [ObeysClass]
      · have e2' : (fun i : I2 => toTen (ofTen v B) [i.1, i.2]) = fun i => B [i.1, i.2] :=
          funext fun i => e4 _ h.symm
        have hc4 : ∀ k ∈ coeffKeys, rankOf k = 2 → ∀ c ∈ [4, 41, 5, 6, 7, 71, 8], smeftClass k ≠ c := by
          decide +kernel
        have hc4 := hc4 k hk h
        refine ⟨fun hc => ?_, fun hc => ?_, ?_⟩
        · rw [e2']; exact hcl.1 hc
        · rw [e2']; exact hcl.2.1 hc
        · exact ⟨fun hc => absurd hc (hc4 _ (by simp)), fun hc => absurd hc (hc4 _ (by simp)),
            fun hc => absurd hc (hc4 _ (by simp)), fun hc => absurd hc (hc4 _ (by simp)),
            fun hc => absurd hc (hc4 _ (by simp)), fun hc => absurd hc (hc4 _ (by simp)),
            fun hc => absurd hc (hc4 _ (by simp))⟩
      · have e4' : (fun i : I4 => toTen (ofTen v B) [i.1, i.2.1, i.2.2.1, i.2.2.2]) =
            fun i => B [i.1, i.2.1, i.2.2.1, i.2.2.2] := funext fun i => e4 _ h.symm
        have hc4 : ∀ k ∈ coeffKeys, rankOf k = 4 → smeftClass k ≠ 2 ∧ smeftClass k ≠ 9 := by
          decide +kernel
        have hc4 := hc4 k hk h
        unfold ObeysClass at hcl ⊢
        rw [e4']
        exact ⟨fun hc => absurd hc hc4.1, fun hc => absurd hc hc4.2, hcl.2.2⟩
    · rw [toTen_ofTen hk hf B [] (by simp [h0])]
      have : τ.length = 0 := by simpa [rankOf, hτ] using h0
      obtain rfl := List.length_eq_zero_iff.1 this
      rw [hr [] rfl]
      exact ((symVal_iff hk hf).1 hsv).2 h0
  · refine get?_untyped_none C D' s fun k hk => ?_
    by_cases hkc : k ∈ coeffKeys
    · exact hs k hkc
    · rw [← Dict.isSome_get?_iff, hin k hkc] at hk; cases hk
  · intro k hk τ hτ v v' hv hv' ix hix
    obtain ⟨w, hw, hf, -⟩ := hC.have_ k hk
    rw [hv, Option.some.injEq] at hw
    subst hw
    obtain ⟨τ', B, hτ', hg, hB, hr⟩ := hget k hk v hv hf
    rw [hτ, Option.some.injEq] at hτ'
    subst hτ'
    rw [hg, Option.some.injEq] at hv'
    rw [← hv', toTen_ofTen hk hf B ix (by rw [hix]; simp [rankOf, hτ]), hr ix hix]

/-- two complete sets with the same arrays have the same values -/
theorem good_ext {C C' : Dict Str AVal} (hC : Good C) (hC' : Good C')
    (h : ∀ k ∈ coeffKeys, ∀ v v', C.get? (keyName k) = some v → C'.get? (keyName k) = some v' →
      ∀ ix : Ix, ix.length = rankOf k → toTen v ix = toTen v' ix) (s : Str) : C.get? s = C'.get? s := by
  by_cases hs : ∃ k ∈ coeffKeys, s = keyName k
  · obtain ⟨k, hk, rfl⟩ := hs
    obtain ⟨v, hv, hf, -⟩ := hC.have_ k hk
    obtain ⟨v', hv', hf', -⟩ := hC'.have_ k hk
    rw [hv, hv', val_ext hk hf hf' (h k hk v v' hv hv')]
  · push Not at hs
    rw [hC.only s hs, hC'.only s hs]

theorem good_congr {C C' : Dict Str AVal} (hC : Good C) (hn : C'.NodupKeys) (h : ∀ s, C'.get? s = C.get? s) :
    Good C' :=
  ⟨hn, fun k hk => by rw [h]; exact hC.have_ k hk, fun s hs => by rw [h]; exact hC.only s hs⟩

/-- the conversion to names depends only on the values of the arrays -/
theorem nonred_congr (hU : Regular U) (hB : Complete U) {C C' : Dict Str AVal} (hn : C.NodupKeys)
    (hn' : C'.NodupKeys) (hF : FitsAll U C) (h8 : ∀ k ∈ U.wcKeys, k ∈ C.keys) (he : ∀ s, C'.get? s = C.get? s)
    {d d' : Dict Str ℂ} (e : U.arrays2wcxfNonred C = .ok d) (e' : U.arrays2wcxfNonred C' = .ok d') (n : Str) :
    d'.get? n = d.get? n := by
  have hF' : FitsAll U C' := fun k v h => hF k v (by rw [← he]; exact h)
  obtain ⟨C3, e3, n3, g3⟩ := stage_unscale hU hn hF (fun k h => h8 k (hU.wc8 k h))
  obtain ⟨C3', e3', n3', g3'⟩ := stage_unscale hU hn' hF' (fun k h => by
    rw [← Dict.isSome_get?_iff, he, Dict.isSome_get?_iff]; exact h8 k (hU.wc8 k h))
  have g : ∀ k, C3'.get? k = C3.get? k := fun k => by rw [g3, g3', he]
  have fit : ∀ {C : Dict Str AVal} {C3 : Dict Str AVal}, FitsAll U C →
      (∀ k, C3.get? k = (C.get? k).map fun v => cutF (shapeOf U k) (u8F (clsOf U k) (scaF (clsOf U k) (padF v)))) →
      FitsAll U C3 := by
    intro C C3 hF g3 k v hv
    cases hc : C.get? k with
    | none => rw [g3, hc] at hv; simp at hv
    | some w =>
      obtain ⟨s, hs, hf⟩ := hF k w hc
      obtain ⟨c, hK⟩ := keyOK hU hs
      rw [g3, hc] at hv
      simp only [Option.map_some, shapeOf, hK.hs, Option.getD_some, clsOf_eq hK, Option.some.injEq] at hv
      exact ⟨s, hs, hv ▸ fits_unsc hK hf⟩
  have F3 := fit hF g3
  have F3' := fit hF' g3'
  have ng := nodup_arrays2wcxf (goodArrays_of hU n3 F3)
  have ng' := nodup_arrays2wcxf (goodArrays_of hU n3' F3')
  unfold arrays2wcxfNonred at e e'
  rw [e3] at e
  rw [e3'] at e'
  have e := Except.ok.inj e
  have e' := Except.ok.inj e'
  rw [← e, ← e', Dict.get?_filterKV _ _ ng, Dict.get?_filterKV _ _ ng']
  by_cases hw : n ∈ U.allWcs
  · obtain ⟨r, hr⟩ := hB.names n hw
    have : (arrays2wcxf C3').get? n = (arrays2wcxf C3).get? n := by
      cases hr with
      | scalar hs => rw [get_scalar hU n3 F3 hs, get_scalar hU n3' F3' hs, g]
      | two hs hc hi hn => rw [get_two hU n3 F3 hs hi, get_two hU n3' F3' hs hi, g]
      | four hs hc hi hn => rw [get_four hU n3 F3 hs hi, get_four hU n3' F3' hs hi, g]
    rw [this]
  · simp only [hw, decide_false, Bool.false_and]
    cases (arrays2wcxf C3').get? n <;> cases (arrays2wcxf C3).get? n <;> rfl

theorem good_fits (hS : IsSmeft U) {C : Dict Str AVal} (hC : Good C) : FitsAll U C := by
  intro s v hv
  by_cases hs : ∃ k ∈ coeffKeys, s = keyName k
  · obtain ⟨k, hk, rfl⟩ := hs
    obtain ⟨w, hw, hf, -⟩ := hC.have_ k hk
    rw [hv, Option.some.injEq] at hw
    subst hw
    exact ⟨_, hS.shape k hk, hf⟩
  · push Not at hs
    rw [hC.only s hs] at hv; cases hv

theorem good_all (hS : IsSmeft U) {C : Dict Str AVal} (hC : Good C) : ∀ k ∈ U.wcKeys, k ∈ C.keys := by
  intro s hs
  obtain ⟨k, hk, rfl⟩ := (hS.wc s).1 hs
  obtain ⟨v, hv, -⟩ := hC.have_ k hk
  rw [← Dict.isSome_get?_iff, hv]; rfl

end Verif.Bridge
