import Verif.Props.MatchLoop

/-!
# Property C88: CP symmetry of the matching at one loop
-/

set_option autoImplicit false
set_option linter.unusedSimpArgs false

namespace Verif.Loop
open Verif Verif.Spec Verif.Tens Verif.Beta Verif.Rotation Verif.Match Verif.BetaSym Verif.Flavour Verif.TranslateSmeft
open Verif.CP
open Verif.WetRun (ok_bind)

/-- the number of CP-odd bosonic coefficients is odd -/
def scOdd : List Key → Bool
  | [] => false
  | k :: l => xor (smeftOdd k) (scOdd l)

/-- no CP-odd coefficient among the operands of `einsum` -/
def opEven : Op → Bool
  | .c k | .dag k | .c22 k | .dag22 k => !smeftOdd k
  | _ => true

theorem tens_even : ∀ t ∈ tens, t.ops.all (fun o => opEven o.2) = true := by decide +kernel

set_option maxRecDepth 100000 in
theorem cp_ok : ∀ wf ∈ loopProg, ∀ x ∈ wf.2,
    xor (scOdd (tn x.1).sc) (decide (x.2 ∈ imCoefs)) = wetOdd wf.1 := by decide +kernel

attribute [local irreducible] loopProg tens coefTab prog2

/-- `-1` for odd quantities -/
noncomputable def sgn (b : Bool) : ℂ := if b then -1 else 1

theorem sgn_xor (a b : Bool) : sgn (xor a b) = sgn a * sgn b := by cases a <;> cases b <;> simp [sgn]
theorem sgn_sq (a : Bool) : sgn a * sgn a = 1 := by cases a <;> simp [sgn]

section
variable (C C' : Key → Ten) (S : LEnv) (hC : ∀ k, C' k = cpConj (smeftOdd k) (C k))
include hC

theorem sc_cp (l : List Key) : (l.map fun k => C' k []).prod =
    sgn (scOdd l) * (starRingEnd ℂ) (l.map fun k => C k []).prod := by
  induction l with
  | nil => simp [scOdd, sgn]
  | cons k l ih =>
    simp only [List.map_cons, List.prod_cons, map_mul, ih, scOdd, sgn_xor, hC k, cpConj]
    unfold sgn
    ring

theorem op_cp (o : Op) (ho : opEven o = true) (ix : Ix) :
    opVal C' S.cp o ix = (starRingEnd ℂ) (opVal C S o ix) := by
  have ev : ∀ k, opEven (.c k) = true → ∀ ix, C' k ix = (starRingEnd ℂ) (C k ix) := by
    intro k hk ix
    have : smeftOdd k = false := by simpa [opEven] using hk
    rw [hC k]; simp [cpConj, this]
  cases o with
  | c k => exact ev k ho ix
  | dag k => simp only [opVal, dagT]; split <;> simp [ev k ho]
  | kd => simp only [opVal, eyeT]; split <;> (try split) <;> simp
  | kdt => simp only [opVal, kdtT]; split <;> (try split) <;> simp
  | V => simp only [opVal, matrixT]; split <;> simp [LEnv.cp]
  | Vdag => simp only [opVal, matrixT]; split <;> simp [LEnv.cp]
  | diagU => simp only [opVal, diagT]; split <;> (try split) <;> simp [LEnv.cp]
  | diagD => simp only [opVal, diagT]; split <;> (try split) <;> simp [LEnv.cp]
  | diagE => simp only [opVal, diagT]; split <;> (try split) <;> simp [LEnv.cp]
  | mu => simp only [opVal, vecT]; split <;> simp [LEnv.cp]
  | md => simp only [opVal, vecT]; split <;> simp [LEnv.cp]
  | me => simp only [opVal, vecT]; split <;> simp [LEnv.cp]
  | c22 k => exact ev k ho _
  | dag22 k => simp only [opVal, dagT, ev k ho]

omit hC in
theorem sumOver_conj (l : List ℕ) (F G : (ℕ → Fin 3) → ℂ) (h : ∀ ρ, G ρ = (starRingEnd ℂ) (F ρ)) (ρ : ℕ → Fin 3) :
    sumOver l G ρ = (starRingEnd ℂ) (sumOver l F ρ) := by
  induction l generalizing ρ with
  | nil => exact h ρ
  | cons a l ih => simp only [sumOver, map_sum, ih]

theorem tn_cp (t : Tn) (ht : t.ops.all (fun o => opEven o.2) = true) (ix : Ix) :
    tnVal C' S.cp t ix = sgn (scOdd t.sc) * (starRingEnd ℂ) (tnVal C S t ix) := by
  unfold tnVal
  rw [sc_cp C C' hC, map_mul, mul_assoc]
  congr 2
  refine sumOver_conj _ _ _ (fun ρ => ?_) _
  rw [map_list_prod, List.map_map]
  congr 1
  apply List.map_congr_left
  intro o ho
  exact op_cp C C' S hC o.2 (List.all_eq_true.1 ht o ho) _

theorem form_cp {w : WKey} {f : List (ℕ × ℕ)} (hm : (w, f) ∈ loopProg) (ix : Ix) :
    formVal C' S.cp f ix = sgn (wetOdd w) * (starRingEnd ℂ) (formVal C S f ix) := by
  unfold formVal
  rw [map_list_sum, List.map_map, ← List.sum_map_mul_left]
  congr 1
  apply List.map_congr_left
  intro x hx
  have hpar := cp_ok _ hm x hx
  have ht : (tn x.1).ops.all (fun o => opEven o.2) = true := by
    unfold tn
    rw [List.getD_eq_getElem?_getD]
    cases hg : tens[x.1]? with
    | none => rfl
    | some t => exact tens_even t (List.mem_of_getElem? hg)
  rw [tn_cp C C' S hC _ ht]
  simp only at hpar
  simp only [Function.comp, map_mul, ← hpar, sgn_xor, ← coefVal_cp]
  have : (if x.2 ∈ imCoefs then (-1 : ℂ) else 1) = sgn (decide (x.2 ∈ imCoefs)) := by
    unfold sgn; split <;> simp_all
  rw [this]
  linear_combination (-(coefVal S.cp x.2 * sgn (scOdd (tn x.1).sc) * (starRingEnd ℂ) (tnVal C S (tn x.1) ix))) *
    sgn_sq (decide (x.2 ∈ imCoefs))

theorem loopVal_cp {w : WKey} {f : List (ℕ × ℕ)} (hm : (w, f) ∈ loopProg) (ix : Ix) :
    loopVal C' S.cp w f ix = sgn (wetOdd w) * (starRingEnd ℂ) (loopVal C S w f ix) := by
  unfold loopVal
  by_cases h : w ∈ rotated
  · rw [if_pos h, if_pos h]
    unfold matT
    split
    · rw [map_sum, Finset.mul_sum]
      refine Finset.sum_congr rfl fun q _ => ?_
      rw [form_cp C C' S hC hm, map_mul]
      simp only [matrixT, LEnv.cp]
      ring
    · simp
  · rw [if_neg h, if_neg h]
    exact form_cp C C' S hC hm ix

end

theorem fine_cp {S : LEnv} (h : Fine S) : Fine S.cp :=
  ⟨h.1, h.2.1, fun n hn => by rw [atomR_cp]; exact h.2.2 n hn⟩

theorem env_cp {ckm ckm' : Ckm} {C C' : Dict Key Ten} {p : Dict String ℝ} {scale : ℝ} {S : LEnv}
    (hV : ∀ a b c d, ckm' a b c d = (ckm a b c d).map (starRingEnd ℂ))
    (hC : ∀ k, C'.get? k = (C.get? k).map (cpConj (smeftOdd k)))
    (h : loopEnv ckm C p scale = .ok S) : loopEnv ckm' C' p scale = .ok S.cp := by
  obtain ⟨s, mu, md, me, al, g3, V, h1, h2, h3, h4, h5, h6, h7, rfl⟩ := env_ok h
  have h7' : ckmOf ckm' p = .ok (V.map (starRingEnd ℂ)) := by
    unfold ckmOf at h7 ⊢
    obtain ⟨a, e1, h7⟩ := ok_bind h7
    obtain ⟨b, e2, h7⟩ := ok_bind h7
    obtain ⟨c, e3, h7⟩ := ok_bind h7
    obtain ⟨d, e4, h7⟩ := ok_bind h7
    rw [e1, e2, e3, e4]
    show Except.ok (ckm' a b c d) = _
    rw [hV, Except.ok.inj h7]
  exact env_of (scalars_cp C C' p s (fun k _ => hC k) h1) h2 h3 h4 h5 h6 h7'

theorem zeroed_cp {C C' : Dict Key Ten} (hC : ∀ k, C'.get? k = (C.get? k).map (cpConj (smeftOdd k))) (k : Key) :
    (zeroed C').get? k = ((zeroed C).get? k).map (cpConj (smeftOdd k)) := by
  unfold zeroed
  rw [Dict.get?_mapVal, Dict.get?_mapVal, hC k]
  cases C.get? k with
  | none => rfl
  | some A =>
    simp only [Option.map_some]
    congr 1
    funext ix
    simp [cpConj]

theorem cval_cp {C C' : Dict Key Ten} (hC : ∀ k, C'.get? k = (C.get? k).map (cpConj (smeftOdd k))) (k : Key) :
    cval C' k = cpConj (smeftOdd k) (cval C k) := by
  unfold cval
  rw [hC k]
  cases C.get? k with
  | none => funext ix; simp [cpConj]
  | some A => rfl

/-- **C88.** CP symmetry of the matching at tree level and at one loop: the WET coefficients
obtained from the CP-conjugate SMEFT coefficients with the complex-conjugate CKM matrix are
the CP conjugates of those obtained from the original ones, for all parameters and scales. -/
theorem C88_match (ckm ckm' : Ckm) (hV : ∀ a b c d, ckm' a b c d = (ckm a b c d).map (starRingEnd ℂ))
    (C C' : Dict Key Ten) (hC : ∀ k, C'.get? k = (C.get? k).map (cpConj (smeftOdd k)))
    (p : Dict String ℝ) (scale : ℝ) (D : Dict WKey Ten) (h : matchArrays (loopRaw ckm) C p scale = .ok D) :
    ∃ D', matchArrays (loopRaw ckm') C' p scale = .ok D' ∧
      ∀ k, ∃ B, D.get? k = some B ∧ D'.get? k = some (cpConj (wetOdd k) B) := by
  obtain ⟨D', hD', hR⟩ := arrays_rel (ckm' := ckm') (C' := C') (scale' := scale) h rfl
    (fun k A A' => A' = cpConj (wetOdd k) A)
    (fun k A A' B B' hA hB => by subst hA; subst hB; funext ix; simp only [cpConj, map_add]; ring)
    (fun T hT => by
      obtain ⟨T', hT', hR⟩ := C74_match C C' p T hC hT
      exact ⟨T', hT', fun k => by obtain ⟨B, h1, h2⟩ := hR k; exact ⟨B, _, h1, h2, rfl⟩⟩)
    (fun L hL => by
      obtain ⟨S, S0, hS, hS0, hk, hF, hF0, rfl⟩ := loop_ok hL
      have hk' : ∀ k ∈ loopKeys, C'.mem k = true := by
        intro k hm
        have := hk k hm
        unfold Dict.mem at this ⊢
        rw [hC k, Option.isSome_map]
        exact this
      refine ⟨_, loop_of (env_cp hV hC hS) (env_cp hV (zeroed_cp hC) hS0) hk' (fine_cp hF) (fine_cp hF0), fun k => ?_⟩
      obtain ⟨f, hf⟩ := exists_form k
      refine ⟨_, _, get?_lprog (fun w f => ldiff C S S0 w f) k f hf,
        get?_lprog (fun w f => ldiff C' S.cp S0.cp w f) k f hf, ?_⟩
      funext ix
      unfold ldiff
      rw [loopVal_cp (cval C) (cval C') S (cval_cp hC) hf,
        loopVal_cp (cval (zeroed C)) (cval (zeroed C')) S0 (cval_cp (zeroed_cp hC)) hf]
      simp only [cpConj, map_sub, sgn]
      ring)
  exact ⟨D', hD', fun k => by obtain ⟨B, B', h1, h2, rfl⟩ := hR k; exact ⟨B, h1, h2⟩⟩

/-- **C88, CP conservation.** If all SMEFT coefficients and the CKM matrix are real and the CP-odd
bosonic coefficients vanish, all WET coefficients are real and that of the CP-odd three-gluon
operator vanishes, at tree level and at one loop. -/
theorem C88_conserving (ckm : Ckm) (hV : ∀ a b c d i j, (ckm a b c d i j).im = 0) (C : Dict Key Ten)
    (hr : ∀ k A, C.get? k = some A → ∀ ix, (A ix).im = 0)
    (ho : ∀ k A, C.get? k = some A → smeftOdd k = true → ∀ ix, A ix = 0)
    (hC : ∀ k A, C.get? k = some A → Has (clNoFierz k) A)
    (p : Dict String ℝ) (scale : ℝ) (D : Dict WKey Ten) (h : matchArrays (loopRaw ckm) C p scale = .ok D)
    (k : WKey) : ∃ B, D.get? k = some B ∧ (wetOdd k = false → ∀ ix, (B ix).im = 0) ∧ (wetOdd k = true → B [] = 0) := by
  have hC' : ∀ k, C.get? k = (C.get? k).map (cpConj (smeftOdd k)) := by
    intro k
    cases hk : C.get? k with
    | none => rfl
    | some A =>
      simp only [Option.map_some]
      congr 1
      funext ix
      have e := Complex.conj_eq_iff_im.2 (hr k A hk ix)
      cases hs : smeftOdd k
      · simp [cpConj, e]
      · simp [ho k A hk hs ix, cpConj]
  obtain ⟨D', hD', hR⟩ := C88_match ckm ckm (fun a b c d => by
    ext i j; simp [Matrix.map_apply, Complex.conj_eq_iff_im.2 (hV a b c d i j)]) C C hC' p scale D h
  rw [h] at hD'
  obtain rfl := Except.ok.inj hD'
  obtain ⟨B, h1, h2⟩ := hR k
  have e : B = cpConj (wetOdd k) B := Option.some.inj (h1.symm.trans h2)
  refine ⟨B, h1, fun hs ix => ?_, fun hs => ?_⟩
  · have e := congrFun e ix
    simp only [cpConj, hs, Bool.false_eq_true, if_false, one_mul] at e
    exact Complex.conj_eq_iff_im.1 e.symm
  · have e := congrFun e []
    simp only [cpConj, hs, if_true] at e
    obtain ⟨B₁, h4, -, h5⟩ := C87_symmetric ckm C hC p scale D h k
    obtain rfl := Option.some.inj (h1.symm.trans h4)
    have hty : wetTy k = [] := by revert hs; cases k <;> decide
    rw [Complex.conj_eq_iff_im.2 (h5 hty)] at e
    have : (2 : ℂ) * B [] = 0 := by linear_combination e
    simpa using this

/-- the hypotheses are met by the coefficients used for C87 (for the CP symmetry), a CKM matrix
and its complex conjugate -/
example (ckm : Ckm) : ∃ p, p.get? "loop_order" = some 1 ∧ (∃ D, matchArrays (loopRaw ckm) exC p 160 = .ok D) ∧
    ∃ C', ∀ k, Dict.get? C' k = (exC.get? k).map (cpConj (smeftOdd k)) := by
  refine ⟨_, rfl, C87_succeeds ckm exC ?_ ?_ _ (physical_ex ckm) 160 (by norm_num),
    exC.map fun kv => (kv.1, cpConj (smeftOdd kv.1) kv.2), ?_⟩
  · intro k hk
    rw [Dict.mem_iff]
    simpa [Dict.keys, exC, Function.comp_def] using hk
  · intro k hk
    rw [exC_get k (by revert hk; revert k; decide)]
    simp only [List.mem_cons, List.not_mem_nil, or_false] at hk
    rcases hk with rfl | rfl | rfl | rfl <;> simp
  · intro k
    generalize exC = C
    induction C with
    | nil => rfl
    | cons x C ih =>
      simp only [List.map_cons, Dict.get?]
      by_cases h : x.1 = k
      · subst h; simp
      · simp only [h, if_false]; exact ih

end Verif.Loop
