import Verif.Spec.Smeft
import Verif.Props.Rotation
import Verif.Props.Reverse
import Verif.Props.Roundtrip

/-! Lemmas connecting dictionaries by strings with dictionaries by constants. -/

set_option autoImplicit false
set_option linter.unusedSimpArgs false

namespace Verif.Bridge
open Verif Verif.EFT Verif.Tens Verif.Beta Verif.Rotation Verif.Spec Verif.Flavour Verif.EFT.Util Verif.Props

theorem nodup_keys : keys.Nodup := by decide +kernel

theorem coeff_iff (k : Key) : k ∈ coeffKeys ↔ k ∈ keys ∧ k ∉ smKeys := by
  simp [coeffKeys, List.mem_filter]

/-- all key constants -/
def allK : List Key := keys ++ [.Eta1, .Eta2, .Eta3, .Eta4, .Eta5, .GammaH, .Gammaq, .Gammau, .Gammad,
  .Gammal, .Gammae, .XiB, .Xie, .Xid, .Xiu, .HIGHSCALE]

theorem mem_allK (k : Key) : k ∈ allK := by cases k <;> decide

theorem keyName_inj {k k' : Key} (h : keyName k = keyName k') : k = k' := by
  have : ∀ k ∈ allK, ∀ k' ∈ allK, keyName k = keyName k' → k = k' := by decide +kernel
  exact this k (mem_allK k) k' (mem_allK k') h

theorem get?_filterMap {β : Type} (f : Key → Option β) (l : List Key) (hl : l.Nodup) (k : Key) :
    Dict.get? (l.filterMap fun k => (f k).map fun v => (k, v)) k = if k ∈ l then f k else none := by
  induction l with
  | nil => rfl
  | cons a l ih =>
    obtain ⟨h1, h2⟩ := List.nodup_cons.1 hl
    rw [List.filterMap_cons]
    cases hf : f a with
    | none =>
      simp only [Option.map_none]
      rw [ih h2]
      by_cases e : k = a
      · subst e; simp [h1, hf]
      · simp [e]
    | some v =>
      simp only [Option.map_some, Dict.get?]
      by_cases e : a = k
      · subst e; simp [hf]
      · rw [if_neg e, ih h2]; simp [Ne.symm e]

theorem get?_typed (C : Dict Str AVal) (k : Key) :
    (typed C).get? k = if k ∈ keys then (C.get? (keyName k)).map toTen else none := by
  have : typed C = keys.filterMap fun k => ((C.get? (keyName k)).map toTen).map fun v => (k, v) := by
    unfold typed
    congr 1
    funext k
    cases C.get? (keyName k) <;> rfl
  rw [this, get?_filterMap _ _ nodup_keys]

theorem get?_untyped (C : Dict Str AVal) (D : Dict Key Ten) (k : Key) :
    (untyped C D).get? (keyName k) =
      (D.get? k).map (ofTen ((C.get? (keyName k)).getD (.num 0))) := by
  unfold untyped
  induction D with
  | nil => rfl
  | cons p D ih =>
    obtain ⟨a, A⟩ := p
    simp only [List.map_cons, Dict.get?]
    by_cases e : a = k
    · subst e; simp
    · rw [if_neg (fun h => e (keyName_inj h)), if_neg e, ih]

theorem get?_untyped_none (C : Dict Str AVal) (D : Dict Key Ten) (s : Str)
    (h : ∀ k ∈ D.keys, s ≠ keyName k) : (untyped C D).get? s = none := by
  rw [Dict.get?_eq_none_iff]
  intro hm
  simp only [Dict.keys, untyped, List.map_map, List.mem_map, Function.comp] at hm
  obtain ⟨kv, hkv, e⟩ := hm
  exact h kv.1 (List.mem_map.2 ⟨kv, hkv, rfl⟩) e.symm

theorem nodup_untyped (C : Dict Str AVal) (D : Dict Key Ten) (h : D.NodupKeys) :
    (untyped C D).NodupKeys := by
  unfold Dict.NodupKeys Dict.keys untyped
  rw [List.map_map]
  have : (Prod.fst ∘ fun kv : Key × Ten => (keyName kv.1, ofTen ((C.get? (keyName kv.1)).getD (.num 0)) kv.2))
      = keyName ∘ Prod.fst := rfl
  rw [this, ← List.map_map]
  exact List.Nodup.map (fun _ _ => keyName_inj) h

theorem rank_cases : ∀ k ∈ keys, rankOf k = 0 ∨ rankOf k = 2 ∨ rankOf k = 4 := by decide +kernel

theorem smeftTy_some {k : Key} (h : k ∈ keys) : ∃ τ, smeftTy k = some τ ∧ τ.length = rankOf k := by
  have : ∀ k ∈ keys, (smeftTy k).isSome = true := by decide +kernel
  obtain ⟨τ, hτ⟩ := Option.isSome_iff_exists.1 (this k h)
  exact ⟨τ, hτ, by simp [rankOf, hτ]⟩

/-- values with the shape of a coefficient: entries of `ofTen` -/
theorem ent_ofTen {k : Key} {v : AVal} (hf : Fits (shapeK k) v) (A : Ten) :
    Fits (shapeK k) (ofTen v A) ∧
    (rankOf k = 0 → numOf (ofTen v A) = A []) ∧
    (rankOf k = 2 → ∀ i : I2, ent2 (ofTen v A) i = A [i.1, i.2]) ∧
    (rankOf k = 4 → ∀ i : I4, ent4 (ofTen v A) i = A [i.1, i.2.1, i.2.2.1, i.2.2.2]) := by
  unfold shapeK at hf ⊢
  by_cases h0 : rankOf k = 0
  · rw [if_pos h0] at hf ⊢
    cases v with
    | arr a => simp [Fits] at hf
    | num z =>
      refine ⟨trivial, fun _ => rfl, fun h => ?_, fun h => ?_⟩ <;> rw [h0] at h <;> cases h
  · rw [if_neg h0] at hf ⊢
    cases v with
    | num z => simp [Fits] at hf
    | arr a =>
      obtain ⟨hs, hw⟩ := hf
      refine ⟨⟨hs, fun idx hi => ?_⟩, fun h => absurd h h0, fun h i => ?_, fun h i => ?_⟩
      · simp only [NDArr.ofFn] at hi ⊢
        simp [hi]
      · obtain ⟨p, q⟩ := i
        rw [h] at hs
        simp only [ofTen, ent2, NDArr.ofFn, hs, idx2, List.replicate, inRange, p.isLt, q.isLt, decide_true,
          Bool.and_self, if_true, List.map_cons, List.map_nil, Fin.ofNat_eq_cast, Fin.cast_val_eq_self]
      · obtain ⟨p, q, r, t⟩ := i
        rw [h] at hs
        simp only [ofTen, ent4, NDArr.ofFn, hs, idx4, List.replicate, inRange, p.isLt, q.isLt, r.isLt, t.isLt,
          decide_true, Bool.and_self, if_true, List.map_cons, List.map_nil, Fin.ofNat_eq_cast,
          Fin.cast_val_eq_self]

/-- the relations of the class, read on the array -/
theorem symVal_iff {k : Key} (hk : k ∈ coeffKeys) {v : AVal} (hf : Fits (shapeK k) v) :
    SymVal (fullClass k) v ↔ ObeysClass (smeftClass k) (toTen v) ∧ (rankOf k = 0 → (toTen v []).im = 0) := by
  have hcl : ∀ k ∈ coeffKeys, (rankOf k = 0 → smeftClass k = 0) ∧
      ∀ c ∈ [2, 9, 4, 41, 5, 6, 7, 71, 8], (fullClass k = c ↔ smeftClass k = c) := by decide +kernel
  obtain ⟨h0, hc⟩ := hcl k hk
  unfold shapeK at hf
  cases v with
  | num z =>
    have hr : rankOf k = 0 := by
      by_contra h
      rw [if_neg h] at hf
      simp [Fits] at hf
    simp only [SymVal, ObeysClass, h0 hr, toTen, hr, true_imp_iff]
    constructor
    · intro h; exact ⟨by simp, h⟩
    · intro h; exact h.2
  | arr a =>
    have hr : rankOf k ≠ 0 := by
      intro h
      rw [if_pos h] at hf
      simp [Fits] at hf
    simp only [SymVal, ObeysClass, hr, false_imp_iff, and_true]
    rw [hc 2 (by simp), hc 9 (by simp), hc 4 (by simp), hc 41 (by simp), hc 5 (by simp), hc 6 (by simp),
      hc 7 (by simp), hc 71 (by simp), hc 8 (by simp)]
    rfl

end Verif.Bridge
