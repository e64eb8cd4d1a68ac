import Verif.Model.MatchAll
import Verif.Props.Match
import Verif.Lemmas.WarsawUp

/-! Lemmas on the SMEFT → WET matcher. -/

set_option autoImplicit false
set_option linter.unusedSimpArgs false

namespace Verif.Match
open Verif Verif.EFT Verif.Tens Verif.Beta Verif.Rotation Verif.Bridge Verif.TranslateSmeft Verif.Flavour
  Verif.EFT.Util Verif.Spec

theorem mapM_item {l : List (WKey × Ten)} {m : Dict WKey Ten} {f : Ten → Ten → Ten} {r : Dict WKey Ten}
    (h : (l.mapM fun kv => (item m kv.1).map fun B => (kv.1, f kv.2 B)) = .ok r) :
    r = l.map (fun kv => (kv.1, f kv.2 ((m.get? kv.1).getD fun _ => 0))) ∧
      ∀ kv ∈ l, (m.get? kv.1).isSome = true := by
  induction l generalizing r with
  | nil => simp only [List.mapM_nil] at h; cases h; exact ⟨rfl, by simp⟩
  | cons a l ih =>
    rw [List.mapM_cons] at h
    cases hm : m.get? a.1 with
    | none => simp [item, hm, bind, Except.bind, Except.map] at h
    | some B =>
      simp only [item, hm, bind, Except.bind, Except.map] at h
      cases hl : (l.mapM fun kv => (item m kv.1).map fun B => (kv.1, f kv.2 B)) with
      | error e => simp only [item, Except.map] at hl; rw [hl] at h; cases h
      | ok r' =>
        obtain ⟨h1, h2⟩ := ih hl
        simp only [item, Except.map] at hl
        rw [hl] at h
        have h := Except.ok.inj h
        refine ⟨?_, ?_⟩
        · rw [← h, h1]; simp [hm]
        · intro kv hkv
          rcases List.mem_cons.1 hkv with rfl | hkv
          · rw [hm]; rfl
          · exact h2 kv hkv

/-- all arrays vanish -/
def AllZero (W : Dict WKey Ten) : Prop := ∀ kv ∈ W, ∀ ix, kv.2 ix = 0

theorem loop_zero {raw : LoopRaw} {C : Dict Key Ten} {p : Dict String ℝ} {scale : ℝ} {L : Dict WKey Ten}
    (hraw : ∀ m, raw C p scale = .ok m → m.NodupKeys) (hz : ∀ kv ∈ C, ∀ ix, kv.2 ix = 0)
    (h : matchLoop raw C p scale = .ok L) : AllZero L := by
  unfold matchLoop at h
  obtain ⟨m, h1, h⟩ := WetRun.ok_bind h
  obtain ⟨m0, h2, h⟩ := WetRun.ok_bind h
  rw [zeroed_eq C hz, h1] at h2
  obtain rfl := Except.ok.inj h2
  obtain ⟨rfl, -⟩ := mapM_item (f := fun A B ix => A ix - B ix) h
  intro kv hkv ix
  obtain ⟨kv', hm, rfl⟩ := List.mem_map.1 hkv
  have : Dict.get? m kv'.1 = some kv'.2 := Dict.get?_of_mem (hraw m h1) hm
  simp only [this, Option.getD_some, sub_self]

theorem treeKeys_coeff : ∀ k ∈ treeKeys, k ∈ coeffKeys := by decide +kernel

theorem nodup_tree {β : Type} (f : E MV → β) : Dict.NodupKeys (treeProg.map fun ke => (ke.1, f ke.2)) := by
  unfold Dict.NodupKeys Dict.keys
  rw [List.map_map]
  exact prog_nodup

theorem keys_tree {β : Type} (f : E MV → β) (k : WKey) :
    k ∈ Dict.keys (treeProg.map fun ke => (ke.1, f ke.2)) := by
  unfold Dict.keys
  rw [List.map_map]
  exact prog_keys k (by cases k <;> decide)

/-- the result of the array stage vanishes, and contains every key once -/
theorem arrays_zero {raw : LoopRaw} {C : Dict Key Ten} {p : Dict String ℝ} {scale : ℝ} {W : Dict WKey Ten}
    (hraw : ∀ m, raw C p scale = .ok m → m.NodupKeys) (hz : ∀ kv ∈ C, ∀ ix, kv.2 ix = 0)
    (h : matchArrays raw C p scale = .ok W) : AllZero W ∧ W.NodupKeys ∧ ∀ k, k ∈ W.keys := by
  unfold matchArrays at h
  obtain ⟨T, h1, h⟩ := WetRun.ok_bind h
  have hT : AllZero T ∧ T.NodupKeys ∧ ∀ k, k ∈ T.keys := by
    obtain ⟨s, s0, -, -, -, rfl⟩ := tree_ok h1
    refine ⟨?_, nodup_tree _, keys_tree _⟩
    intro kv hkv ix
    obtain ⟨B, hB, hb⟩ := C54_tree_zero C hz p _ h1 kv.1
    have := Dict.get?_of_mem (nodup_tree (diffE C s s0)) hkv
    rw [hB, Option.some.injEq] at this
    rw [← this]; exact hb ix
  by_cases hl : p.get? "loop_order" = some 1
  · rw [if_pos hl] at h
    obtain ⟨L, h2, h⟩ := WetRun.ok_bind h
    have hL := loop_zero hraw hz h2
    unfold addLoop at h
    obtain ⟨rfl, h4⟩ := mapM_item (f := fun A B ix => A ix + B ix) h
    have hk : Dict.keys (T.map fun kv => (kv.1, fun ix => kv.2 ix + ((L.get? kv.1).getD fun _ => 0) ix)) = T.keys := by
      simp [Dict.keys, Function.comp_def]
    refine ⟨?_, ?_, ?_⟩
    · intro kv hkv ix
      obtain ⟨kv', hm, rfl⟩ := List.mem_map.1 hkv
      obtain ⟨B, hB⟩ := Option.isSome_iff_exists.1 (h4 kv' hm)
      simp only [hB, Option.getD_some]
      have hb : B ix = 0 := hL _ (Dict.mem_of_get? hB) ix
      rw [hT.1 kv' hm ix, hb, add_zero]
    · unfold Dict.NodupKeys; rw [hk]; exact hT.2.1
    · rw [hk]; exact hT.2.2
  · rw [if_neg hl] at h
    rw [← Except.ok.inj h]; exact hT

theorem foldl_set_val {l : List (Str × ℂ)} {d : Dict Str ℂ} {n : Str} {z : ℂ}
    (h : (l.foldl (fun d e => d.set e.1 e.2) d).get? n = some z) : (n, z) ∈ l ∨ d.get? n = some z := by
  induction l generalizing d with
  | nil => exact Or.inr h
  | cons a l ih =>
    rcases ih h with h | h
    · exact Or.inl (List.mem_cons_of_mem _ h)
    · by_cases e : a.1 = n
      · subst e
        rw [Dict.get?_set_self, Option.some.injEq] at h
        exact Or.inl (by rw [← h]; exact List.mem_cons_self ..)
      · rw [Dict.get?_set_ne _ _ e] at h
        exact Or.inr h

theorem nodup_foldl_set (l : List (Str × ℂ)) (d : Dict Str ℂ) (h : d.NodupKeys) :
    (l.foldl (fun d e => d.set e.1 e.2) d).NodupKeys := by
  induction l generalizing d with
  | nil => exact h
  | cons a l ih => exact ih _ (Dict.nodupKeys_set _ _ _ h)

/-- a value without non-zero entry -/
def zeroW : Jms.WVal → Prop
  | .num z => z = 0
  | .two a => ∀ i, a i = 0
  | .four a => ∀ i, a i = 0

theorem entries_zero {k : Str} {v : Jms.WVal} (h : zeroW v) {e : Str × ℂ} (he : e ∈ entries k (toAVal v)) :
    e.2 = 0 := by
  cases v with
  | num z =>
    simp only [toAVal, entries, List.mem_singleton] at he
    rw [he]; exact h
  | two a =>
    have hz : ∀ idx, (NDArr.ofFn [3, 3] fun idx => match idx with
        | [i, j] => a (Fin.ofNat 3 i, Fin.ofNat 3 j)
        | _ => 0).get idx = 0 := by
      intro idx
      unfold NDArr.ofFn
      simp only
      split
      · split
        · exact h _
        · rfl
      · rfl
    simp only [toAVal, entries, NDArr.ofFn, List.cons_ne_self, reduceCtorEq, if_false] at he
    rw [if_neg (by simp), ] at he
    obtain ⟨i, -, rfl⟩ := List.mem_map.1 he
    exact hz i
  | four a =>
    have hz : ∀ idx, (NDArr.ofFn [3, 3, 3, 3] fun idx => match idx with
        | [i, j, k, l] => a (Fin.ofNat 3 i, Fin.ofNat 3 j, Fin.ofNat 3 k, Fin.ofNat 3 l)
        | _ => 0).get idx = 0 := by
      intro idx
      unfold NDArr.ofFn
      simp only
      split
      · split
        · exact h _
        · rfl
      · rfl
    simp only [toAVal, entries, NDArr.ofFn, reduceCtorEq, if_false] at he
    rw [if_neg (by simp)] at he
    obtain ⟨i, -, rfl⟩ := List.mem_map.1 he
    exact hz i

/-- number of indices of a JMS coefficient, as the shapes of the arrays say -/
theorem wrank : ∀ k ∈ WKey.all, (wetTy k).length =
    (if Jms.isClass 0 (wkeyName k) then 0 else if Jms.isClass 1 (wkeyName k) then 2 else 4) := by
  decide +kernel

theorem wall (k : WKey) : k ∈ WKey.all := by cases k <;> decide

theorem wval_zero (k : WKey) (B : Ten) (h : ∀ ix : Ix, ix.length = (wetTy k).length → B ix = 0) :
    zeroW (wval k B) := by
  rw [wrank k (wall k)] at h
  unfold wval
  split
  · rename_i h0
    exact h [] (by simp [h0])
  · rename_i h0
    split
    · rename_i h1
      exact fun i => h _ (by simp [h0, h1])
    · rename_i h1
      exact fun i => h _ (by simp [h0, h1])

theorem scale_ok : ∀ k ∈ WKey.all,
    (Jms.isClass 0 (wkeyName k) = true → Jms.scaleDict (wkeyName k) matches some .one) ∧
    (Jms.isClass 0 (wkeyName k) = false → Jms.isClass 1 (wkeyName k) = true →
      Jms.scaleDict (wkeyName k) matches some .ones2) ∧
    (Jms.isClass 0 (wkeyName k) = false → Jms.isClass 1 (wkeyName k) = false →
      Jms.scaleDict (wkeyName k) matches some (.four _)) := by decide +kernel

theorem factor_ok (k : WKey) (B : Ten) : ∃ v, Jms.applyFactor (fun x n => n * x) (wkeyName k) (wval k B) = .ok v ∧
    (zeroW (wval k B) → zeroW v) := by
  obtain ⟨h1, h2, h3⟩ := scale_ok k (wall k)
  unfold wval Jms.applyFactor
  cases e0 : Jms.isClass 0 (wkeyName k) with
  | true =>
    have := h1 e0
    split at this
    · rename_i hs
      rw [hs]
      simp only [if_true]
      exact ⟨_, rfl, fun h => by simp only [zeroW] at h ⊢; rw [h, mul_zero]⟩
    · exact absurd this (by simp)
  | false =>
    cases e1 : Jms.isClass 1 (wkeyName k) with
    | true =>
      have := h2 e0 e1
      split at this
      · rename_i hs
        rw [hs]
        simp only [Bool.false_eq_true, if_false, if_true]
        exact ⟨_, rfl, fun h i => by simp only [zeroW] at h; simp only [h i, mul_zero]⟩
      · exact absurd this (by simp)
    | false =>
      have := h3 e0 e1
      split at this
      · rename_i d hs
        rw [hs]
        simp only [Bool.false_eq_true, if_false, if_true]
        exact ⟨_, rfl, fun h i => by simp only [zeroW] at h; simp only [h i, mul_zero]⟩
      · exact absurd this (by simp)

theorem unscale_ok (R : Dict WKey Ten) : ∃ S, Jms.unscaleDictWet (R.map fun kv => (wkeyName kv.1, wval kv.1 kv.2)) =
    .ok S ∧ ((∀ kv ∈ R, zeroW (wval kv.1 kv.2)) → ∀ kv ∈ S, zeroW kv.2) := by
  unfold Jms.unscaleDictWet
  induction R with
  | nil => exact ⟨[], rfl, by simp⟩
  | cons a R ih =>
    obtain ⟨S, h, hz⟩ := ih
    obtain ⟨v, hv, hvz⟩ := factor_ok a.1 a.2
    refine ⟨(wkeyName a.1, v) :: S, ?_, fun hall kv hkv => ?_⟩
    · rw [List.map_cons, List.mapM_cons, h, hv]; rfl
    · rcases List.mem_cons.1 hkv with rfl | hkv
      · exact hvz (hall a (by simp))
      · exact hz (fun kv h => hall kv (List.mem_cons_of_mem _ h)) kv hkv

/-- from vanishing arrays to vanishing named coefficients; nothing can fail -/
theorem names_zero (names : List Str) (V : Mat) {W : Dict WKey Ten} (hz : AllZero W) (hn : W.NodupKeys)
    (hk : ∀ k, k ∈ W.keys) : ∃ e, matchNames names V W = .ok e ∧ ∀ n z, e.get? n = some z → z = 0 := by
  obtain ⟨R, h1, hR, h2⟩ := RotationProps.C30_rotates V W hn (fun k _ => hk k)
  have hRz : ∀ kv ∈ R, zeroW (wval kv.1 kv.2) := by
    intro kv hkv
    have hg := Dict.get?_of_mem hR hkv
    obtain ⟨A, hA⟩ := Option.isSome_iff_exists.1 ((Dict.isSome_get?_iff _ _).2 (hk kv.1))
    obtain ⟨B, hB, hr⟩ := (h2 kv.1).2 A hA
    rw [hg, Option.some.injEq] at hB
    refine wval_zero _ _ fun ix hix => ?_
    rw [hB, hr ix hix, rot_congr _ _ A (fun _ => 0) ix (fun j _ => hz _ (Dict.mem_of_get? hA) j), rot_zero]
  obtain ⟨S, h3, h4⟩ := unscale_ok R
  have h4 := h4 hRz
  refine ⟨(arrays2wcxf (S.map fun kv => (kv.1, toAVal kv.2))).filterKV fun k _ => decide (k ∈ names), ?_, ?_⟩
  · unfold matchNames
    rw [h1]
    show (lift (Jms.unscaleDictWet (R.map fun kv => (wkeyName kv.1, wval kv.1 kv.2))) >>= _) = _
    rw [h3]
    rfl
  · intro n z h
    unfold arrays2wcxf at h
    rw [Dict.get?_filterKV _ _ (nodup_foldl_set _ _ (by simp [Dict.NodupKeys, Dict.keys]))] at h
    have h := (Option.filter_eq_some_iff.1 h).1
    rcases foldl_set_val h with h | h
    · obtain ⟨kv, hkv, he⟩ := List.mem_flatMap.1 h
      obtain ⟨kv', hm, rfl⟩ := List.mem_map.1 hkv
      exact entries_zero (h4 kv' hm) he
    · cases h

end Verif.Match
