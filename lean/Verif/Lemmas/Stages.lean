import Verif.Lemmas.Roundtrip

/-!
# Stages of the conversions between WCxf names and symmetrized arrays

Totals of the modelled dictionary operations (`symmetrize_nonred`, `add_missing`,
`unscale_dict`) and their effect on single entries.
-/

set_option autoImplicit false
set_option linter.unusedSimpArgs false

namespace Verif.EFT.Util
open Verif Verif.Spec Verif.EFT Verif.Props Classical

variable {U : Util}

/-! ### zero arrays -/

lemma evalLF_zero {ι : Type} (l : Reflect.LF ι) : Reflect.evalLF (fun _ : ι => (0:ℂ)) l = 0 := by
  induction l with
  | nil => rfl
  | cons t l ih =>
    simp only [Reflect.evalLF, List.map_cons, List.sum_cons] at ih ⊢
    rw [ih]; simp [Reflect.slotVal]

lemma run_zero {ι : Type} [DecidableEq ι] (p : List (Instr ι)) :
    runProg p (fun _ => 0) = fun _ => 0 := by
  funext i
  rw [Reflect.symRun_sound]
  simp only [Reflect.evalSV, evalLF_zero]
  rfl

/-! ### one entry through the whole pipeline -/

/-- the value of key `k` after both conversions -/
noncomputable def pipe (s : Shape) (c : ℕ) (v : AVal) : AVal :=
  cutF s (u8F c (scaF c (padF (cutF s (symF c (padF v))))))

lemma d4_ne (i : I4) : (d4 i : ℂ) ≠ 0 := by
  obtain ⟨i, j, k, l⟩ := i
  simp [d4]
lemma d6_ne (i : I4) : (d6 i : ℂ) ≠ 0 := by
  obtain ⟨i, j, k, l⟩ := i
  simp [d6]
lemma d7_ne (i : I4) : (d7 i : ℂ) ≠ 0 := by
  obtain ⟨i, j, k, l⟩ := i
  simp [d7]

lemma exists_arr {l : List ℕ} {v : AVal} (h : Padded (some l) v) : ∃ a, v = .arr a := by
  cases v with
  | num z => simp [Padded] at h
  | arr a => exact ⟨a, rfl⟩

lemma ent_op4 {f : (I4 → ℂ) → I4 → ℂ} {l : List ℕ} {v : AVal} (h : Padded (some l) v) (i : I4) :
    ent4 (op4 f v) i = f (ent4 v) i := by
  obtain ⟨a, rfl⟩ := exists_arr h
  exact ent4_op4 a i
lemma ent_op2 {f : (I2 → ℂ) → I2 → ℂ} {l : List ℕ} {v : AVal} (h : Padded (some l) v) (i : I2) :
    ent2 (op2 f v) i = f (ent2 v) i := by
  obtain ⟨a, rfl⟩ := exists_arr h
  exact ent2_op2 a i

lemma pipe_entry4 {k : Str} {l : List ℕ} {c : ℕ} (hk : KeyOK U k (some l) c) {v : AVal}
    (hv : Fits (some l) v) (hl4 : l.length = 4) {i : I4} (hi : inRange l (idx4 i) = true)
    (hn : NonRedOf4 c i) :
    ent4 (pipe (some l) c v) i = if RealOf4 c i then ((ent4 v i).re : ℂ) else ent4 v i := by
  have hP := padded_padF (fun l e => (hk.hl l e).2) hv
  have hS := (symm_step hk hP).2
  have hP2 := padded_padF (fun l e => (hk.hl l e).2) (fits_cutF hS)
  have hS2 := (scale_step hk hP2).2
  unfold pipe
  rw [ent4_cutF _ _ _ hi]
  obtain ⟨-, hc, -, h0, hl, h8⟩ := hk
  have hr := (hl l rfl).1
  rw [hl4] at hr
  obtain ⟨n4, n41, n5, n6, n7, n71, n8⟩ := hn
  simp only [classIds, List.mem_cons, List.not_mem_nil, or_false] at hc
  rcases hc with rfl | rfl | rfl | rfl | rfl | rfl | rfl | rfl | rfl | rfl | rfl | rfl
  · simp [rank] at hr
  · simp [rank] at hr
  · simp [rank] at hr
  · rw [show u8F 3 = id from rfl, show scaF 3 = id from rfl, show symF 3 = id from rfl]
    simp [ent4_padF, ent4_cutF _ _ _ hi, RealOf4]
  · have e1 := ent_op4 (f := fun b i => (d4 i : ℂ) * b i) hP2 i
    have e2 := ent_op4 (f := fun b i => runProg Gen.symmetrize_4 b i / d4 i) hP i
    refine Eq.trans e1 ?_
    simp only [ent4_padF, ent4_cutF _ _ _ hi]
    refine Eq.trans (congrArg _ e2) ?_
    rw [mul_div_cancel₀ _ (d4_ne i), ent4_padF, C20_nonred_class4 _ i (n4 rfl)]
    simp [RealOf4]
  · have e1 := ent_op4 (f := fun b i => (d4 i : ℂ) * b i) hP2 i
    have e2 := ent_op4 (f := fun b i => runProg Gen.symmetrize_41 b i / d4 i) hP i
    refine Eq.trans e1 ?_
    simp only [ent4_padF, ent4_cutF _ _ _ hi]
    refine Eq.trans (congrArg _ e2) ?_
    rw [mul_div_cancel₀ _ (d4_ne i), ent4_padF, C20_nonred_class41 _ i (n41 rfl), if_neg, if_neg]
    · simp [RealOf4]
    · rintro ⟨g, hg, hcc, -⟩
      simp only [rels41, List.mem_cons, List.not_mem_nil, or_false] at hg
      rcases hg with rfl | rfl <;> simp at hcc
  · have e2 := ent_op4 (f := runProg Gen.symmetrize_5) hP i
    rw [show u8F 5 = id from rfl, show scaF 5 = id from rfl]
    simp only [ent4_padF, ent4_cutF _ _ _ hi, id]
    refine Eq.trans e2 ?_
    rw [ent4_padF, C20_nonred_class5 _ i (n5 rfl)]
    simp [RealOf4]
  · have e1 := ent_op4 (f := fun b i => (d6 i : ℂ) * b i) hP2 i
    have e2 := ent_op4 (f := fun b i => runProg Gen.symmetrize_6 b i / d6 i) hP i
    refine Eq.trans e1 ?_
    simp only [ent4_padF, ent4_cutF _ _ _ hi]
    refine Eq.trans (congrArg _ e2) ?_
    rw [mul_div_cancel₀ _ (d6_ne i), ent4_padF, C20_nonred_class6 _ i (n6 rfl)]
    simp [RealOf4]
  · have e1 := ent_op4 (f := fun b i => (d7 i : ℂ) * b i) hP2 i
    have e2 := ent_op4 (f := fun b i => runProg Gen.symmetrize_7 b i / d7 i) hP i
    refine Eq.trans e1 ?_
    simp only [ent4_padF, ent4_cutF _ _ _ hi]
    refine Eq.trans (congrArg _ e2) ?_
    rw [mul_div_cancel₀ _ (d7_ne i), ent4_padF, C20_nonred_class7 _ i (n7 rfl), if_neg, if_neg]
    · simp [RealOf4]
    · rintro ⟨g, hg, hcc, -⟩
      simp only [rels7, List.mem_cons, List.not_mem_nil, or_false] at hg
      rcases hg with rfl | rfl <;> simp at hcc
  · have e1 := ent_op4 (f := fun b i => (d7 i : ℂ) * b i) hP2 i
    have e2 := ent_op4 (f := fun b i => runProg Gen.symmetrize_71 b i / d7 i) hP i
    refine Eq.trans e1 ?_
    simp only [ent4_padF, ent4_cutF _ _ _ hi]
    refine Eq.trans (congrArg _ e2) ?_
    rw [mul_div_cancel₀ _ (d7_ne i), ent4_padF, C20_nonred_class71 _ i (n71 rfl), if_neg]
    simp [RealOf4]
  · obtain rfl : l = [3, 3, 3, 3] := by simpa using h8 rfl
    have e1 := ent_op4 (f := runProg Gen.unscale_8) hS2 i
    refine Eq.trans e1 ?_
    have e2 : ent4 (scaF 8 (padF (cutF (some [3, 3, 3, 3]) (symF 8 (padF v)))))
        = runProg Gen.symmetrize_8 (runProg Gen.scale_8 (ent4 v)) := by
      funext j
      rw [show scaF 8 = id from rfl, id, ent4_padF, ent4_cutF _ _ _ (by
        obtain ⟨a, b, c, d⟩ := j
        simp only [idx4, inRange, a.isLt, b.isLt, c.isLt, d.isLt, decide_true, Bool.and_self])]
      have := ent_op4 (f := fun b => runProg Gen.symmetrize_8 (runProg Gen.scale_8 b)) hP j
      rw [ent4_padF] at this
      exact this
    rw [e2, C22_roundtrip _ _ (n8 rfl), if_neg]
    simp [RealOf4]
  · simp [rank] at hr

lemma pipe_entry2 {k : Str} {l : List ℕ} {c : ℕ} (hk : KeyOK U k (some l) c) {v : AVal}
    (hv : Fits (some l) v) (hl2 : l.length = 2) {i : I2} (hi : inRange l (idx2 i) = true)
    (hn : NonRedOf2 c i) :
    ent2 (pipe (some l) c v) i = if RealOf2 c i then ((ent2 v i).re : ℂ) else ent2 v i := by
  have hP := padded_padF (fun l e => (hk.hl l e).2) hv
  unfold pipe
  rw [ent2_cutF _ _ _ hi]
  obtain ⟨-, hc, -, h0, hl, h8⟩ := hk
  have hr := (hl l rfl).1
  rw [hl2] at hr
  obtain ⟨n2, n9⟩ := hn
  simp only [classIds, List.mem_cons, List.not_mem_nil, or_false] at hc
  rcases hc with rfl | rfl | rfl | rfl | rfl | rfl | rfl | rfl | rfl | rfl | rfl | rfl
  · simp [rank] at hr
  · rw [show u8F 1 = id from rfl, show scaF 1 = id from rfl, show symF 1 = id from rfl]
    simp [ent2_padF, ent2_cutF _ _ _ hi, RealOf2]
  · have e2 := ent_op2 (f := runProg Gen.symmetrize_2) hP i
    rw [show u8F 2 = id from rfl, show scaF 2 = id from rfl]
    simp only [ent2_padF, ent2_cutF _ _ _ hi, id]
    refine Eq.trans e2 ?_
    rw [ent2_padF, C20_nonred_class2 _ i (n2 rfl)]
    simp [RealOf2]
  all_goals try (simp [rank] at hr; done)
  · have e2 := ent_op2 (f := runProg Gen.symmetrize_9) hP i
    rw [show u8F 9 = id from rfl, show scaF 9 = id from rfl]
    simp only [ent2_padF, ent2_cutF _ _ _ hi, id]
    refine Eq.trans e2 ?_
    rw [ent2_padF, C20_nonred_class9 _ i (n9 rfl), if_neg, if_neg]
    · simp [RealOf2]
    · rintro ⟨g, hg, hcc, -⟩
      simp only [rels9, List.mem_cons, List.not_mem_nil, or_false] at hg
      rcases hg with rfl | rfl <;> simp at hcc

/-! ### adding the missing arrays -/

lemma stage_add (ks : List Str) : ∀ C : Dict Str AVal, C.NodupKeys →
    (∀ k ∈ ks, ∃ s, U.keysShape.get? k = some s) →
    ∃ D, U.addMissingOf C ks = .ok D ∧ D.NodupKeys ∧
      ∀ k, D.get? k = (C.get? k).or (if k ∈ ks then some (zeroVal (shapeOf U k)) else none) := by
  induction ks with
  | nil => intro C hn _; exact ⟨C, rfl, hn, fun k => by simp⟩
  | cons k ks ih =>
    intro C hn h
    by_cases hm : C.mem k = true
    · obtain ⟨D, hD, h1, h2⟩ := ih C hn fun k hk => h k (by simp [hk])
      refine ⟨D, by simp only [addMissingOf, hm, if_true, hD], h1, fun k' => ?_⟩
      rw [h2 k']
      by_cases e : k' = k
      · subst e
        have : (C.get? k').isSome := hm
        cases hg : C.get? k' with
        | none => rw [hg] at this; simp at this
        | some v => rfl
      · simp [e]
    · obtain ⟨s, hs⟩ := h k (by simp)
      obtain ⟨D, hD, h1, h2⟩ := ih (C.set k (zeroVal s)) (Dict.nodupKeys_set _ _ _ hn)
        fun k hk => h k (by simp [hk])
      refine ⟨D, by simp only [addMissingOf, hm, hs]; exact hD, h1, fun k' => ?_⟩
      rw [h2 k', Dict.get?_set]
      have hnone : C.get? k = none := by
        cases hg : C.get? k with
        | none => rfl
        | some v => exact absurd (by simp [Dict.mem, hg]) hm
      by_cases e : k = k'
      · subst e; simp [hnone, shapeOf, hs]
      · simp only [e, if_false, List.mem_cons, Ne.symm e, false_or]

lemma realVal_zero (s : Shape) : realVal (zeroVal s) = zeroVal s := by
  cases s with
  | none => simp [zeroVal, realVal]
  | some s => simp [zeroVal, realVal, zeros]

lemma fits_zero (s : Shape) : Fits s (zeroVal s) := by
  cases s with
  | none => trivial
  | some s => exact ⟨rfl, fun _ _ => rfl⟩

lemma op4_zero {f : (I4 → ℂ) → I4 → ℂ} (hf : f (fun _ => 0) = fun _ => 0) :
    op4 f (.arr (zeros [3, 3, 3, 3])) = .arr (zeros [3, 3, 3, 3]) := by
  simp only [op4, zeros, AVal.arr.injEq, NDArr.mk.injEq, true_and]
  funext idx
  split
  · split
    · rw [hf]
    · rfl
  · rfl
lemma op2_zero {f : (I2 → ℂ) → I2 → ℂ} (hf : f (fun _ => 0) = fun _ => 0) :
    op2 f (.arr (zeros [3, 3])) = .arr (zeros [3, 3]) := by
  simp only [op2, zeros, AVal.arr.injEq, NDArr.mk.injEq, true_and]
  funext idx
  split
  · split
    · rw [hf]
    · rfl
  · rfl

/-- symmetrizing zeros gives zeros -/
lemma sym_zero {k : Str} {s : Shape} {c : ℕ} (hk : KeyOK U k s c) :
    cutF s (symF c (padF (zeroVal s))) = zeroVal s := by
  obtain ⟨-, hc, -, h0, hl, -⟩ := hk
  cases s with
  | none =>
    have : c = 0 := h0.1 rfl
    subst this
    show cutF none (realVal (.num 0)) = .num 0
    simp [realVal, cutF]
  | some l =>
    have hr := (hl l rfl).1
    have cut : ∀ n, cutF (some l) (.arr (zeros (List.replicate n 3))) = zeroVal (some l) := by
      intro n
      simp [cutF, zeros, zeroVal, NDArr.ofFn]
    have h4 : ∀ f : (I4 → ℂ) → I4 → ℂ, f (fun _ => 0) = (fun _ => 0) → l.length = 4 →
        cutF (some l) (op4 f (padF (zeroVal (some l)))) = zeroVal (some l) := by
      intro f hf hl4
      have : padF (zeroVal (some l)) = .arr (zeros [3, 3, 3, 3]) := by
        simp only [zeroVal, padF, zeros, hl4]; rfl
      rw [this, op4_zero hf]
      exact cut 4
    have h2 : ∀ f : (I2 → ℂ) → I2 → ℂ, f (fun _ => 0) = (fun _ => 0) → l.length = 2 →
        cutF (some l) (op2 f (padF (zeroVal (some l)))) = zeroVal (some l) := by
      intro f hf hl4
      have : padF (zeroVal (some l)) = .arr (zeros [3, 3]) := by
        simp only [zeroVal, padF, zeros, hl4]; rfl
      rw [this, op2_zero hf]
      exact cut 2
    have hid : cutF (some l) (padF (zeroVal (some l))) = zeroVal (some l) := by
      simp [zeroVal, padF, cutF, zeros, NDArr.ofFn]
    have hdiv : ∀ (p : List (Instr I4)) (d : I4 → ℕ),
        (fun i => runProg p (fun _ => (0:ℂ)) i / (d i : ℂ)) = fun _ => 0 := by
      intro p d; funext i; rw [run_zero]; simp
    have h00 : (0 : ℕ) ≠ c := fun e => by simpa using h0.2 e.symm
    simp only [classIds, List.mem_cons, List.not_mem_nil, or_false] at hc
    rcases hc with rfl | rfl | rfl | rfl | rfl | rfl | rfl | rfl | rfl | rfl | rfl | rfl
    · exact absurd rfl h00
    · exact hid
    · exact h2 _ (run_zero _) hr
    · exact hid
    · exact h4 (fun b i => runProg Gen.symmetrize_4 b i / d4 i) (hdiv _ _) hr
    · exact h4 (fun b i => runProg Gen.symmetrize_41 b i / d4 i) (hdiv _ _) hr
    · exact h4 _ (run_zero _) hr
    · exact h4 (fun b i => runProg Gen.symmetrize_6 b i / d6 i) (hdiv _ _) hr
    · exact h4 (fun b i => runProg Gen.symmetrize_7 b i / d7 i) (hdiv _ _) hr
    · exact h4 (fun b i => runProg Gen.symmetrize_71 b i / d7 i) (hdiv _ _) hr
    · exact h4 (fun b => runProg Gen.symmetrize_8 (runProg Gen.scale_8 b))
        (by rw [run_zero, run_zero]) hr
    · exact h2 _ (run_zero _) hr

/-! ### the dictionary-level stages -/

noncomputable def clsOf (U : Util) (k : Str) : ℕ :=
  if h : ∃ c, c ∈ classIds ∧ InClass U c k then h.choose else 0

lemma clsOf_eq {k : Str} {s : Shape} {c : ℕ} (hk : KeyOK U k s c) : clsOf U k = c := by
  have h : ∃ c, c ∈ classIds ∧ InClass U c k := ⟨c, hk.hc, hk.cls⟩
  unfold clsOf
  rw [dif_pos h]
  exact InClass.unique h.choose_spec.2 hk.cls

lemma stage_symm (hU : Regular U) {C : Dict Str AVal} (hn : C.NodupKeys)
    (h : ∀ k v, C.get? k = some v → ∃ s, U.keysShape.get? k = some s ∧ Fits s v) :
    ∃ D, U.symmetrizeNonred C = .ok D ∧ D.NodupKeys ∧ D.keys = C.keys ∧
      ∀ k, D.get? k = (C.get? k).map fun v => cutF (shapeOf U k) (symF (clsOf U k) (padF v)) := by
  obtain ⟨C1, e1, n1, k1, g1⟩ := stage_pad hU hn h
  have P1 : ∀ k v, C1.get? k = some v → ∃ s, U.keysShape.get? k = some s ∧ Padded s v := by
    intro k v hv
    rw [g1] at hv
    cases hc : C.get? k with
    | none => simp [hc] at hv
    | some w =>
      rw [hc] at hv
      simp only [Option.map_some, Option.some.injEq] at hv
      obtain ⟨s, hs, hf⟩ := h k w hc
      exact ⟨s, hs, hv ▸ padded_padF (fun l e => le3_of_regular hU (by rw [hs, e])) hf⟩
  obtain ⟨C2, e2, n2, k2, g2⟩ := stage_map (f := fun k v =>
    match U.classOf k with
    | none => .ok none
    | some c => (symmNonredVal c v).map some) (g := fun k => symF (clsOf U k)) n1 (by
      intro k v hv
      obtain ⟨s, hs, hp⟩ := P1 k v hv
      obtain ⟨c, hk⟩ := keyOK hU hs
      rw [classOf_eq hk.hc hk.cls, clsOf_eq hk]
      simp only [(symm_step hk hp).1, Except.map])
  have P2 : ∀ k v, C2.get? k = some v → ∃ s, U.keysShape.get? k = some s ∧ Padded s v := by
    intro k v hv
    rw [g2] at hv
    cases hc : C1.get? k with
    | none => simp [hc] at hv
    | some w =>
      rw [hc] at hv
      simp only [Option.map_some, Option.some.injEq] at hv
      obtain ⟨s, hs, hf⟩ := P1 k w hc
      obtain ⟨c, hk⟩ := keyOK hU hs
      rw [clsOf_eq hk] at hv
      exact ⟨s, hs, hv ▸ (symm_step hk hf).2⟩
  obtain ⟨C3, e3, n3, k3, g3⟩ := stage_unpad hU n2 P2
  refine ⟨C3, ?_, n3, by rw [k3, k2, k1], fun k => ?_⟩
  · have e2' : U.symmLoop symmNonredVal C1 = .ok C2 := e2
    unfold symmetrizeNonred
    rw [e1]
    simp only [Except.bind]
    simp only [e2', e3]
  · rw [g3, g2, g1]
    cases C.get? k <;> rfl

lemma stage_unscale (hU : Regular U) {C : Dict Str AVal} (hn : C.NodupKeys)
    (h : ∀ k v, C.get? k = some v → ∃ s, U.keysShape.get? k = some s ∧ Fits s v)
    (h8 : ∀ k ∈ U.symm 8, k ∈ C.keys) :
    ∃ D, U.unscaleDict C = .ok D ∧ D.NodupKeys ∧
      ∀ k, D.get? k = (C.get? k).map fun v =>
        cutF (shapeOf U k) (u8F (clsOf U k) (scaF (clsOf U k) (padF v))) := by
  obtain ⟨C1, e1, n1, k1, g1⟩ := stage_pad hU hn h
  have P1 : ∀ k v, C1.get? k = some v → ∃ s, U.keysShape.get? k = some s ∧ Padded s v := by
    intro k v hv
    rw [g1] at hv
    cases hc : C.get? k with
    | none => simp [hc] at hv
    | some w =>
      rw [hc] at hv
      simp only [Option.map_some, Option.some.injEq] at hv
      obtain ⟨s, hs, hf⟩ := h k w hc
      exact ⟨s, hs, hv ▸ padded_padF (fun l e => le3_of_regular hU (by rw [hs, e])) hf⟩
  obtain ⟨C2, e2, n2, k2, g2⟩ := stage_map (f := fun k v =>
    if k ∈ U.cKeys then (U.scaleVal k v).map some else .error .keyError)
    (g := fun k => scaF (clsOf U k)) n1 (by
      intro k v hv
      obtain ⟨s, hs, hp⟩ := P1 k v hv
      obtain ⟨c, hk⟩ := keyOK hU hs
      have : k ∈ U.cKeys := (Dict.isSome_get?_iff _ _).1 (by rw [hs]; rfl)
      rw [if_pos this, clsOf_eq hk, (scale_step hk hp).1]
      rfl)
  have P2 : ∀ k v, C2.get? k = some v → ∃ s, U.keysShape.get? k = some s ∧ Padded s v := by
    intro k v hv
    rw [g2] at hv
    cases hc : C1.get? k with
    | none => simp [hc] at hv
    | some w =>
      rw [hc] at hv
      simp only [Option.map_some, Option.some.injEq] at hv
      obtain ⟨s, hs, hf⟩ := P1 k w hc
      obtain ⟨c, hk⟩ := keyOK hU hs
      rw [clsOf_eq hk] at hv
      exact ⟨s, hs, hv ▸ (scale_step hk hf).2⟩
  have in8 : ∀ {k s c}, KeyOK U k s c → (k ∈ U.symm 8 ↔ c = 8) := by
    intro k s c hk
    constructor
    · intro hm
      by_contra e
      exact hk.cls.2 8 (Ne.symm e) hm
    · rintro rfl; exact hk.cls.1
  obtain ⟨C3, e3, n3, k3, g3⟩ := stage_unscale8 (U.symm 8) C2 n2 hU.nodup8 (by
    intro k hk8
    have hkC : k ∈ C2.keys := by rw [k2, k1]; exact h8 k hk8
    obtain ⟨v, hv⟩ := Option.isSome_iff_exists.1 ((Dict.isSome_get?_iff _ _).2 hkC)
    obtain ⟨s, hs, hp⟩ := P2 k v hv
    obtain ⟨c, hk⟩ := keyOK hU hs
    have hc8 := (in8 hk).1 hk8
    exact ⟨v, hv, (hk.h8 hc8) ▸ hp⟩)
  have P3 : ∀ k v, C3.get? k = some v → ∃ s, U.keysShape.get? k = some s ∧ Padded s v := by
    intro k v hv
    rw [g3] at hv
    cases hc : C2.get? k with
    | none => simp [hc] at hv
    | some w =>
      rw [hc] at hv
      simp only [Option.map_some, Option.some.injEq] at hv
      obtain ⟨s, hs, hf⟩ := P2 k w hc
      obtain ⟨c, hk⟩ := keyOK hU hs
      refine ⟨s, hs, hv ▸ ?_⟩
      by_cases hm : k ∈ U.symm 8
      · rw [if_pos hm]
        have := hk.h8 ((in8 hk).1 hm)
        subst this
        exact padded_op4 rfl hf
      · rw [if_neg hm]; exact hf
  obtain ⟨C4, e4, n4, k4, g4⟩ := stage_unpad hU n3 P3
  refine ⟨C4, ?_, n4, fun k => ?_⟩
  · unfold unscaleDict
    rw [e1]
    simp only [Except.bind]
    rw [e2]
    simp only
    rw [e3]
    exact e4
  · rw [g4, g3, g2, g1]
    cases hc : C.get? k with
    | none => rfl
    | some v =>
      obtain ⟨s, hs, -⟩ := h k v hc
      obtain ⟨c, hk⟩ := keyOK hU hs
      simp only [Option.map_some, u8F, clsOf_eq hk]
      by_cases h8' : c = 8
      · rw [if_pos h8', if_pos ((in8 hk).2 h8')]
      · rw [if_neg h8', if_neg (fun hm => h8' ((in8 hk).1 hm))]

lemma small3 {l : List ℕ} (h : Le3 l) : Small l := fun n hn => by
  have := (h.2 n hn).2; omega

/-- a name has only one reading -/
lemma name_unique (hU : Regular U) {n : Str} {r r' : Prop} (h : NonRedName U n r)
    (h' : NonRedName U n r') : r ↔ r' := by
  have us : ∀ {k s}, U.keysShape.get? k = some s → '_' ∉ k := fun hk => (hU.good _ _ hk).1
  have inj : ∀ {k k' : Str} {s s' idx idx' : List ℕ}, U.keysShape.get? k = some (some s) →
      U.keysShape.get? k' = some (some s') → inRange s idx = true → inRange s' idx' = true →
      wcName k idx = wcName k' idx' → k = k' ∧ idx = idx' := by
    intro k k' s s' idx idx' h1 h2 hi hi' e
    obtain ⟨e1, e2⟩ := wcName_inj (us h1) (us h2) hi hi' (small3 (le3_of_regular hU h1))
      (small3 (le3_of_regular hU h2)) e
    subst e1
    rw [h1] at h2
    exact ⟨rfl, e2 (by simpa using h2)⟩
  cases h with
  | scalar hs =>
    generalize hm : n = m at h'
    cases h' with
    | scalar => exact Iff.rfl
    | two h2 => exact absurd hm.symm (wcName_ne_scalar (us hs))
    | four h2 => exact absurd hm.symm (wcName_ne_scalar (us hs))
  | @two k s c i hs hc hi hn =>
    generalize hm : wcName k (idx2 i) = m at h'
    cases h' with
    | scalar h2 => exact absurd hm (wcName_ne_scalar (us h2))
    | @two k' s' c' i' h2 hc' hi' hn' =>
      obtain ⟨rfl, e⟩ := inj hs h2 hi hi' hm
      obtain rfl := InClass.unique hc hc'
      have : i = i' := by
        obtain ⟨a, b⟩ := i; obtain ⟨a', b'⟩ := i'
        simp only [idx2, List.cons.injEq, Fin.val_inj, and_true] at e
        rw [e.1, e.2]
      subst this; exact Iff.rfl
    | @four k' s' c' i' h2 hc' hi' hn' =>
      obtain ⟨-, e⟩ := inj hs h2 hi hi' hm
      exact absurd (congrArg List.length e) (by obtain ⟨a, b⟩ := i; obtain ⟨_, _, _, _⟩ := i'; simp [idx2, idx4])
  | @four k s c i hs hc hi hn =>
    generalize hm : wcName k (idx4 i) = m at h'
    cases h' with
    | scalar h2 => exact absurd hm (wcName_ne_scalar (us h2))
    | @two k' s' c' i' h2 hc' hi' hn' =>
      obtain ⟨-, e⟩ := inj hs h2 hi hi' hm
      exact absurd (congrArg List.length e) (by obtain ⟨a, b⟩ := i'; obtain ⟨_, _, _, _⟩ := i; simp [idx2, idx4])
    | @four k' s' c' i' h2 hc' hi' hn' =>
      obtain ⟨rfl, e⟩ := inj hs h2 hi hi' hm
      obtain rfl := InClass.unique hc hc'
      have : i = i' := by
        obtain ⟨a, b, c, d⟩ := i; obtain ⟨a', b', c', d'⟩ := i'
        simp only [idx4, List.cons.injEq, Fin.val_inj, and_true] at e
        rw [e.1, e.2.1, e.2.2.1, e.2.2.2]
      subst this; exact Iff.rfl

lemma length_of_inRange : ∀ {s idx : List ℕ}, inRange s idx = true → s.length = idx.length
  | [], [], _ => rfl
  | _ :: _, _ :: _, h => by
    simp only [inRange, Bool.and_eq_true] at h
    simp [length_of_inRange h.2]


end Verif.EFT.Util
