import Verif.Lemmas.WarsawUp

/-! Lemmas for C29: one translation as a function of the rotation matrix. -/

set_option autoImplicit false

namespace Verif.Props
open Verif Verif.EFT Verif.Tens Verif.Beta Verif.Rotation Verif.Spec Verif.Flavour Verif.Bridge
  Verif.TranslateSmeft Classical

variable {U : Util}

/-- one translation as a function of the rotation matrix of the quark doublets -/
noncomputable def translateQ (U : Util) (W : Mat) (d : Dict Str ℂ) : Except Exc (Dict Str ℂ) :=
  lift (U.wcxf2arraysSymmetrized d) >>= fun C => flavorRotationStr C W 1 1 1 1 >>= fun D =>
    lift (U.arrays2wcxfNonred D)

theorem up_eq {ckm : Ckm} {defaults : Dict String ℝ} {par : Option (Dict String ℝ)} {V : Mat}
    (hV : ckmOf ckm (params defaults par) = .ok V) (hS : IsSmeft U) (d : Dict Str ℂ) (hd : d.NodupKeys)
    (hk : ∀ n ∈ d.keys, n ∈ U.allWcs) :
    warsawToWarsawUp U ckm defaults d par = translateQ U V.conjTranspose d ∧
    warsawUpToWarsaw U ckm defaults d par = translateQ U V d := by
  obtain ⟨C, e, -⟩ := good_read hS d hd hk
  simp only [warsawToWarsawUp, warsawUpToWarsaw, translateQ, e, hV, lift]
  exact ⟨rfl, rfl⟩

theorem translate_ok (hS : IsSmeft U) (W : Mat) (d : Dict Str ℂ) (hd : d.NodupKeys)
    (hk : ∀ n ∈ d.keys, n ∈ U.allWcs) :
    ∃ d1 C C1, translateQ U W d = .ok d1 ∧ d1.NodupKeys ∧ (∀ n ∈ d1.keys, n ∈ U.allWcs) ∧
      U.wcxf2arraysSymmetrized d = .ok C ∧ U.wcxf2arraysSymmetrized d1 = .ok C1 ∧ Good C ∧ Good C1 ∧
      ∀ k ∈ coeffKeys, ∀ τ, smeftTy k = some τ → ∀ v v', C.get? (keyName k) = some v →
        C1.get? (keyName k) = some v' → ∀ ix : Ix, ix.length = τ.length →
          toTen v' ix = rot (onlyQ W) τ (toTen v) ix := by
  obtain ⟨C, e, hC⟩ := good_read hS d hd hk
  obtain ⟨D, eD, hD, hr⟩ := good_rot (onlyQ W) hC
  obtain ⟨d1, C1, e1, n1, k1, e2, n2, g⟩ := good_nonred hS hD
  refine ⟨d1, C, C1, ?_, n1, k1, e, e2, hC, good_congr hD n2 g, ?_⟩
  · simp only [translateQ, e, lift]
    have eD' : flavorRotationStr C W 1 1 1 1 = .ok D := by
      simpa [onlyQ] using eD
    show (flavorRotationStr C W 1 1 1 1 >>= fun D => lift (U.arrays2wcxfNonred D)) = .ok d1
    rw [eD']
    show lift (U.arrays2wcxfNonred D) = .ok d1
    rw [e1]; rfl
  · intro k hk τ hτ v v' hv hv' ix hix
    rw [g] at hv'
    exact hr k hk τ hτ v v' hv hv' ix hix

theorem translate_back (hS : IsSmeft U) (W W' : Mat) (hW : W * W' = 1) (d : Dict Str ℂ) (hd : d.NodupKeys)
    (hk : ∀ n ∈ d.keys, n ∈ U.allWcs) :
    ∃ d1 d2, translateQ U W d = .ok d1 ∧ d1.NodupKeys ∧ (∀ n ∈ d1.keys, n ∈ U.allWcs) ∧
      translateQ U W' d1 = .ok d2 ∧
      ∀ n, d2.get? n = ((d.get? n).map fun z => if RealName U n then (z.re : ℂ) else z).filter
        (fun z => decide (z ≠ 0)) := by
  obtain ⟨C, e, hC⟩ := good_read hS d hd hk
  obtain ⟨C', d', c1, c2, c3⟩ := C23_roundtrip hS.regular hS.complete.names d hd hk
  obtain rfl : C' = C := Except.ok.inj (c1.symm.trans e)
  obtain ⟨D, eD, hD, hr⟩ := good_rot (onlyQ W) hC
  obtain ⟨d1, C1, e1, n1, k1, e2, n2, g⟩ := good_nonred hS hD
  have hC1 := good_congr hD n2 g
  obtain ⟨E, eE, hE, hr'⟩ := good_rot (onlyQ W') hC1
  obtain ⟨d2, -, f1, -⟩ := good_nonred hS hE
  have eD' : flavorRotationStr C' W 1 1 1 1 = .ok D := by simpa [onlyQ] using eD
  have eE' : flavorRotationStr C1 W' 1 1 1 1 = .ok E := by simpa [onlyQ] using eE
  have same : ∀ s, E.get? s = C'.get? s := by
    refine good_ext hE hC fun k hk v'' v hv'' hv ix hix => ?_
    obtain ⟨τ, hτ, hl⟩ := smeftTy_some ((coeff_iff k).1 hk).1
    obtain ⟨v', hv', -⟩ := hC1.have_ k hk
    have hix' : ix.length = τ.length := by rw [hix, hl]
    have r1 := hr k hk τ hτ v v' hv (by rw [← g]; exact hv')
    rw [hr' k hk τ hτ v' v'' hv' hv'' ix hix', rot_congr _ τ _ (rot (onlyQ W) τ (toTen v)) ix
      (fun j hj => r1 j hj), rot_rot]
    have : (fun f => onlyQ W f * onlyQ W' f) = fun _ => (1 : Mat) := by
      funext f
      by_cases h : f = .q
      · simp [onlyQ, h, hW]
      · simp [onlyQ, h]
    rw [this, rot_one τ _ ix hix']
  refine ⟨d1, d2, ?_, n1, k1, ?_, fun n => ?_⟩
  · show (lift (U.wcxf2arraysSymmetrized d) >>= _) = _
    rw [e]
    show (flavorRotationStr C' W 1 1 1 1 >>= fun D => lift (U.arrays2wcxfNonred D)) = .ok d1
    rw [eD']
    show lift (U.arrays2wcxfNonred D) = .ok d1
    rw [e1]; rfl
  · show (lift (U.wcxf2arraysSymmetrized d1) >>= _) = _
    rw [e2]
    show (flavorRotationStr C1 W' 1 1 1 1 >>= fun D => lift (U.arrays2wcxfNonred D)) = .ok d2
    rw [eE']
    show lift (U.arrays2wcxfNonred E) = .ok d2
    rw [f1]; rfl
  · rw [← c3 n]
    exact nonred_congr hS.regular hS.complete hC.nodup hE.nodup (good_fits hS hC) (good_all hS hC) same c2 f1 n

end Verif.Props
