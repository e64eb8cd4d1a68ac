import Verif.Lemmas.LoopSym
import Verif.Props.Match
import Verif.Props.CP
import Verif.Lemmas.MatchAll

/-!
# Lemmas: one-loop matching
-/

set_option autoImplicit false

namespace Verif.Loop
open Verif Verif.Spec Verif.Tens Verif.Beta Verif.Rotation Verif.Match Verif.BetaSym Verif.Flavour Verif.TranslateSmeft
open Verif.WetRun (ok_bind)

attribute [local irreducible] loopProg tens coefTab prog2

theorem lprog_nodup : (loopProg.map Prod.fst).Nodup := by decide +kernel
theorem lprog_keys : ∀ k ∈ WKey.all, k ∈ loopProg.map Prod.fst := by decide +kernel

theorem exists_form (w : WKey) : ∃ f, (w, f) ∈ loopProg := by
  obtain ⟨⟨w, f⟩, hm, rfl⟩ := List.mem_map.1 (lprog_keys w (by cases w <;> decide))
  exact ⟨f, hm⟩

theorem get?_lprog {β : Type} (F : WKey → List (ℕ × ℕ) → β) (w : WKey) (f : List (ℕ × ℕ)) (h : (w, f) ∈ loopProg) :
    Dict.get? (loopProg.map fun wf => (wf.1, F wf.1 wf.2)) w = some (F w f) := by
  refine Dict.get?_of_mem ?_ (List.mem_map.2 ⟨_, h, rfl⟩)
  unfold Dict.NodupKeys Dict.keys
  rw [List.map_map]
  exact lprog_nodup

/-- the inputs with which the matching conditions can be evaluated -/
def Fine (S : LEnv) : Prop := S.scale ≠ 0 ∧ S.mW ≠ 0 ∧ ∀ n ∈ divAtoms, atomR S n ≠ 0

theorem lraw_ok {ckm : Ckm} {C : Dict Key Ten} {p : Dict String ℝ} {scale : ℝ} {m : Dict WKey Ten}
    (h : loopRaw ckm C p scale = .ok m) : ∃ S, loopEnv ckm C p scale = .ok S ∧
      (∀ k ∈ loopKeys, C.mem k = true) ∧ Fine S ∧ m = loopArrays (cval C) S := by
  obtain ⟨S, hS, h⟩ := ok_bind h
  refine ⟨S, hS, ?_⟩
  by_cases hk : loopKeys.all C.mem = true
  · rw [if_pos hk] at h
    by_cases h1 : S.scale = 0
    · rw [if_pos h1] at h; cases h
    · rw [if_neg h1] at h
      by_cases h2 : S.mW = 0 ∨ ∃ n ∈ divAtoms, atomR S n = 0
      · rw [if_pos h2] at h; cases h
      · rw [if_neg h2] at h
        injection h with h
        push Not at h2
        exact ⟨fun k hm => List.all_eq_true.1 hk k hm, ⟨h1, h2.1, h2.2⟩, h.symm⟩
  · rw [if_neg hk] at h; cases h

theorem lraw_of {ckm : Ckm} {C : Dict Key Ten} {p : Dict String ℝ} {scale : ℝ} {S : LEnv}
    (hS : loopEnv ckm C p scale = .ok S) (hk : ∀ k ∈ loopKeys, C.mem k = true) (hF : Fine S) :
    loopRaw ckm C p scale = .ok (loopArrays (cval C) S) := by
  unfold loopRaw
  rw [hS]
  show (if loopKeys.all C.mem = true then _ else _) = _
  rw [if_pos (List.all_eq_true.2 hk), if_neg hF.1, if_neg]
  push Not
  exact hF.2

/-- value of a matching condition, Standard Model part subtracted -/
noncomputable def ldiff (C : Dict Key Ten) (S S0 : LEnv) (w : WKey) (f : List (ℕ × ℕ)) : Ten := fun ix =>
  loopVal (cval C) S w f ix - loopVal (cval (zeroed C)) S0 w f ix

theorem lsub_loop {P : List (WKey × List (ℕ × ℕ))} (hP : (P.map Prod.fst).Nodup)
    (F G : WKey → List (ℕ × ℕ) → Ten) (l : List (WKey × List (ℕ × ℕ)))
    (hl : ∀ wf ∈ l, wf ∈ P) :
    (List.mapM (fun kv : WKey × Ten =>
        (Match.item (P.map fun wf => (wf.1, G wf.1 wf.2) : Dict WKey Ten) kv.1).map fun B =>
          (kv.1, fun ix => kv.2 ix - B ix)) (l.map fun wf => (wf.1, F wf.1 wf.2)) :
        Except Exc (List (WKey × Ten)))
      = .ok (l.map fun wf => (wf.1, fun ix => F wf.1 wf.2 ix - G wf.1 wf.2 ix)) := by
  induction l with
  | nil => rfl
  | cons wf l ih =>
    simp only [List.map_cons]
    rw [List.mapM_cons, ih fun x hx => hl x (by simp [hx])]
    have : Match.item (P.map fun wf => (wf.1, G wf.1 wf.2) : Dict WKey Ten) wf.1 = .ok (G wf.1 wf.2) := by
      unfold Match.item
      rw [Dict.get?_of_mem (v := G wf.1 wf.2) ?_ (List.mem_map.2 ⟨_, hl wf (by simp), rfl⟩)]
      unfold Dict.NodupKeys Dict.keys
      rw [List.map_map]
      exact hP
    rw [this]
    rfl

theorem matchLoop_of {P : List (WKey × List (ℕ × ℕ))} (hP : (P.map Prod.fst).Nodup) {raw : LoopRaw}
    {C : Dict Key Ten} {p : Dict String ℝ} {scale : ℝ} (F G : WKey → List (ℕ × ℕ) → Ten)
    (h1 : raw C p scale = .ok (P.map fun wf => (wf.1, F wf.1 wf.2)))
    (h2 : raw (zeroed C) p scale = .ok (P.map fun wf => (wf.1, G wf.1 wf.2))) :
    matchLoop raw C p scale = .ok (P.map fun wf => (wf.1, fun ix => F wf.1 wf.2 ix - G wf.1 wf.2 ix)) := by
  unfold matchLoop
  rw [h1, h2]
  exact lsub_loop hP F G P fun _ h => h

theorem loop_ok {ckm : Ckm} {C : Dict Key Ten} {p : Dict String ℝ} {scale : ℝ} {D : Dict WKey Ten}
    (h : matchLoop (loopRaw ckm) C p scale = .ok D) : ∃ S S0, loopEnv ckm C p scale = .ok S ∧
      loopEnv ckm (zeroed C) p scale = .ok S0 ∧ (∀ k ∈ loopKeys, C.mem k = true) ∧ Fine S ∧ Fine S0 ∧
      D = loopProg.map fun wf => (wf.1, ldiff C S S0 wf.1 wf.2) := by
  have h' := h
  unfold matchLoop at h
  obtain ⟨m, h1, h⟩ := ok_bind h
  obtain ⟨m0, h2, h⟩ := ok_bind h
  obtain ⟨S, hS, hk, hF, e⟩ := lraw_ok h1
  obtain ⟨S0, hS0, _, hF0, e0⟩ := lraw_ok h2
  refine ⟨S, S0, hS, hS0, hk, hF, hF0, ?_⟩
  rw [e] at h1
  rw [e0] at h2
  unfold loopArrays at h1 h2
  have := matchLoop_of lprog_nodup _ _ h1 h2
  rw [h'] at this
  unfold ldiff
  exact Except.ok.inj this

theorem loop_of {ckm : Ckm} {C : Dict Key Ten} {p : Dict String ℝ} {scale : ℝ} {S S0 : LEnv}
    (hS : loopEnv ckm C p scale = .ok S) (hS0 : loopEnv ckm (zeroed C) p scale = .ok S0)
    (hk : ∀ k ∈ loopKeys, C.mem k = true) (hF : Fine S) (hF0 : Fine S0) :
    matchLoop (loopRaw ckm) C p scale = .ok (loopProg.map fun wf => (wf.1, ldiff C S S0 wf.1 wf.2)) := by
  have hk0 : ∀ k ∈ loopKeys, (zeroed C).mem k = true := by
    intro k hm
    rw [Dict.mem_iff, zeroed, Dict.keys_mapVal, ← Dict.mem_iff]
    exact hk k hm
  have h1 := lraw_of hS hk hF
  have h2 := lraw_of hS0 hk0 hF0
  unfold loopArrays at h1 h2
  have := matchLoop_of lprog_nodup _ _ h1 h2
  unfold ldiff
  exact this

theorem env_ok {ckm : Ckm} {C : Dict Key Ten} {p : Dict String ℝ} {scale : ℝ} {S : LEnv}
    (h : loopEnv ckm C p scale = .ok S) : ∃ s mu md me al g3 V, scalars C p = .ok s ∧
      vec3 p "m_u" "m_c" "m_t" = .ok mu ∧ vec3 p "m_d" "m_s" "m_b" = .ok md ∧
      vec3 p "m_e" "m_mu" "m_tau" = .ok me ∧ Match.item p "alpha_s" = .ok al ∧
      pySqrt (4 * Real.pi * al) = .ok g3 ∧ ckmOf ckm p = .ok V ∧
      S = { mW := s.mW, mZ := s.mZ, vT := s.vT, g1bar := s.g1bar, g2bar := 2 * s.mW / s.vT, g3bar := g3,
            scale := scale, mu := mu, md := md, me := me, V := V } := by
  unfold loopEnv at h
  obtain ⟨s, h1, h⟩ := ok_bind h
  obtain ⟨mu, h2, h⟩ := ok_bind h
  obtain ⟨md, h3, h⟩ := ok_bind h
  obtain ⟨me, h4, h⟩ := ok_bind h
  obtain ⟨al, h5, h⟩ := ok_bind h
  obtain ⟨g3, h6, h⟩ := ok_bind h
  obtain ⟨V, h7, h⟩ := ok_bind h
  exact ⟨s, mu, md, me, al, g3, V, h1, h2, h3, h4, h5, h6, h7, (Except.ok.inj h).symm⟩

theorem env_of {ckm : Ckm} {C : Dict Key Ten} {p : Dict String ℝ} {scale : ℝ} {s : Scal} {mu md me : Fin 3 → ℝ}
    {al g3 : ℝ} {V : Mat} (h1 : scalars C p = .ok s)
    (h2 : vec3 p "m_u" "m_c" "m_t" = .ok mu) (h3 : vec3 p "m_d" "m_s" "m_b" = .ok md)
    (h4 : vec3 p "m_e" "m_mu" "m_tau" = .ok me) (h5 : Match.item p "alpha_s" = .ok al)
    (h6 : pySqrt (4 * Real.pi * al) = .ok g3) (h7 : ckmOf ckm p = .ok V) :
    loopEnv ckm C p scale = .ok ⟨s.mW, s.mZ, s.vT, s.g1bar, 2 * s.mW / s.vT, g3, scale, mu, md, me, V⟩ := by
  unfold loopEnv
  rw [h1, h2, h3, h4, h5]
  show (pySqrt (4 * Real.pi * al) >>= _) = _
  rw [h6]
  show (ckmOf ckm p >>= _) = _
  rw [h7]
  rfl

theorem cval_eq (C : Dict Key Ten) : cval C = val C := rfl

theorem cval_zeroed (C : Dict Key Ten) (k : Key) : cval (zeroed C) k = fun _ => 0 := funext (val_zeroed C k)

theorem env_real {ckm : Ckm} {C : Dict Key Ten} {p : Dict String ℝ} {scale : ℝ} {S : LEnv}
    (h : loopEnv ckm C p scale = .ok S) (hW : (cval C .phiWB []).im = 0) : S.g1bar.im = 0 := by
  obtain ⟨s, mu, md, me, al, g3, V, h1, _, _, _, _, _, _, rfl⟩ := env_ok h
  exact scalars_real h1 hW

/-! ### Symmetries -/

theorem not_rotated : ∀ wf ∈ prog2, wf.1 ∉ rotated := by decide +kernel

/-- all four-fermion conditions are compiled -/
theorem prog2_keys : ∀ w ∈ WKey.all, (wetTy w).length = 4 → w ∈ prog2.map Prod.fst := by decide +kernel

theorem im_prog2 : ∀ wf ∈ prog2, wetClass wf.1 = 4 ∨ wetClass wf.1 = 5 ∨ wetClass wf.1 = 6 →
    ∀ x ∈ wf.2, x.2 ∉ imCoefs := by decide +kernel

theorem mem_fItems {n : ℕ} {g : List (Cu × ℕ)} {it : FItem} (h : it ∈ fItems n g) : ∃ x ∈ g, it.coef = x.2 := by
  induction g with
  | nil => simp [fItems] at h
  | cons x g ih =>
    rw [fItems_cons] at h
    cases he : eqsOk n x.1.eqs
    · rw [he, cond_false] at h
      obtain ⟨y, hy, e⟩ := ih h
      exact ⟨y, by simp [hy], e⟩
    · rw [he, cond_true] at h
      rcases List.mem_cons.1 h with rfl | h
      · exact ⟨x, by simp, rfl⟩
      · obtain ⟨y, hy, e⟩ := ih h
        exact ⟨y, by simp [hy], e⟩

theorem sum_conj (C : Key → Ten) (S : LEnv) (hS : S.g1bar.im = 0) (n : ℕ) (g : List (Cu × ℕ))
    (hi : ∀ x ∈ g, x.2 ∉ imCoefs) :
    ((fItems n g).map (fitemVal' C S true)).sum = (starRingEnd ℂ) ((fItems n g).map (fitemVal C S)).sum := by
  rw [map_list_sum, List.map_map]
  congr 1
  apply List.map_congr_left
  intro it hit
  obtain ⟨x, hx, e⟩ := mem_fItems hit
  simp only [Function.comp, fitemVal, fitemVal', map_mul, conjIf, if_true]
  rw [coefVal_real S hS it.coef (e ▸ hi x hx)]

theorem sum_noconj (C : Key → Ten) (S : LEnv) (n : ℕ) (g : List (Cu × ℕ)) :
    ((fItems n g).map (fitemVal' C S false)).sum = ((fItems n g).map (fitemVal C S)).sum := rfl

section
variable (C : Key → Ten) (S : LEnv) (hC : ∀ k, Has (clNoFierz k) (C k)) (hS : S.g1bar.im = 0)
  {w : WKey} {f : List (ℕ × ℕ)} {g : List (Cu × ℕ)} (hg : (w, g) ∈ prog2) (hf : compileForm (w, f) = some (w, g))
include hC hg hf

include hS in
theorem form_herm (hw : wetClass w = 4 ∨ wetClass w = 5 ∨ wetClass w = 6) (i j k l : Fin 3) :
    formVal C S f [j, i, l, k] = (starRingEnd ℂ) (formVal C S f [i, j, k, l]) := by
  have hi := im_prog2 _ hg hw
  have key : ∀ i j k l : Fin 3, Nat.ble (pack i j k l) (pack j i l k) = true →
      formVal C S f [i, j, k, l] = (starRingEnd ℂ) (formVal C S f [j, i, l, k]) := by
    intro i j k l hb
    have := (all81_iff _).1 (herm_ok _ hg hw) i j k l
    rw [hb, cond_true] at this
    rw [form_fast C S w f g hf, form_fast C S w f g hf, rel_sum C S hC true _ _ g this, sum_conj C S hS _ g hi]
  rcases Nat.le_total (pack i j k l) (pack j i l k) with h | h
  · rw [key i j k l (Nat.ble_eq_true_of_le h), Complex.conj_conj]
  · exact key j i l k (Nat.ble_eq_true_of_le h)

theorem form_exch (hw : wetClass w = 4 ∨ wetClass w = 6) (i j k l : Fin 3) :
    formVal C S f [k, l, i, j] = formVal C S f [i, j, k, l] := by
  have key : ∀ i j k l : Fin 3, Nat.ble (pack i j k l) (pack k l i j) = true →
      formVal C S f [i, j, k, l] = formVal C S f [k, l, i, j] := by
    intro i j k l hb
    have := (all81_iff _).1 (exch_ok _ hg hw) i j k l
    rw [hb, cond_true] at this
    rw [form_fast C S w f g hf, form_fast C S w f g hf, rel_sum C S hC false _ _ g this, sum_noconj]
  rcases Nat.le_total (pack i j k l) (pack k l i j) with h | h
  · exact (key i j k l (Nat.ble_eq_true_of_le h)).symm
  · exact key k l i j (Nat.ble_eq_true_of_le h)

theorem form_fierz (hw : wetClass w = 6) (i j k l : Fin 3) :
    formVal C S f [i, l, k, j] = formVal C S f [i, j, k, l] := by
  have key : ∀ i j k l : Fin 3, Nat.ble (pack i j k l) (pack i l k j) = true →
      formVal C S f [i, j, k, l] = formVal C S f [i, l, k, j] := by
    intro i j k l hb
    have := (all81_iff _).1 (fierz_ok _ hg hw) i j k l
    rw [hb, cond_true] at this
    rw [form_fast C S w f g hf, form_fast C S w f g hf, rel_sum C S hC false _ _ g this, sum_noconj]
  rcases Nat.le_total (pack i j k l) (pack i l k j) with h | h
  · exact (key i j k l (Nat.ble_eq_true_of_le h)).symm
  · exact key i l k j (Nat.ble_eq_true_of_le h)

end

theorem zero_forms : ∀ wf ∈ loopProg, wetClass wf.1 = 41 ∨ wetClass wf.1 = 71 → wf.2 = [] := by decide +kernel

theorem class_len : ∀ w ∈ WKey.all, wetClass w ≠ 0 → (wetTy w).length = 4 := by decide +kernel

theorem nil_forms : ∀ wf ∈ loopProg, wetTy wf.1 = [] →
    wf = (.Gtilde, [(0, 0), (1, 1), (2, 2)]) ∨ wf = (.G, [(3, 3), (4, 0), (1, 4), (2, 4)]) := by decide +kernel

theorem coef2 (S : LEnv) : coefVal S 2 = -coefVal S 1 := by
  have e1 : coefTab.getD 1 [] = [[2, 1, 96, 94, 161, 351, 546, 607]] := by decide +kernel
  have e2 : coefTab.getD 2 [] = [[3, 1, 96, 94, 161, 351, 546, 607]] := by decide +kernel
  unfold coefVal
  rw [e1, e2]
  simp only [List.map_cons, List.map_nil, List.sum_cons, List.sum_nil, monoVal, flagVal]
  norm_num

theorem coef1_conj (S : LEnv) (hS : S.g1bar.im = 0) : (starRingEnd ℂ) (coefVal S 1) = -coefVal S 1 := by
  rw [← coefVal_cp, if_pos (by decide)]
  have : S.cp.g1bar = S.g1bar := Complex.conj_eq_iff_im.2 hS
  have e1 : coefTab.getD 1 [] = [[2, 1, 96, 94, 161, 351, 546, 607]] := by decide +kernel
  unfold coefVal
  rw [e1]
  simp only [List.map_cons, List.map_nil, monoVal, facVal, atomVal, this, atomR_cp]
  ring

theorem form_real (C : Key → Ten) (S : LEnv) (hC : ∀ k, Has (clNoFierz k) (C k)) (hS : S.g1bar.im = 0)
    {w : WKey} {f : List (ℕ × ℕ)} (hm : (w, f) ∈ loopProg) (hw : wetTy w = []) : (formVal C S f []).im = 0 := by
  rw [← Complex.conj_eq_iff_im]
  have t0 : tnVal C S (tn 0) [] = C .Gtilde [] := by
    rw [show tn 0 = ⟨[.Gtilde], [], none⟩ by decide +kernel]
    show (List.map (fun k => C k []) _).prod * sumOver [] _ _ = _
    simp [sumOver]
  have t1 : tnVal C S (tn 1) [] = C .uG [2, 2] := by
    rw [show tn 1 = ⟨[], [([], .c22 .uG)], none⟩ by decide +kernel]
    show (List.map (fun k => C k []) _).prod * sumOver [] _ _ = _
    simp [sumOver, opVal]
  have t2 : tnVal C S (tn 2) [] = (starRingEnd ℂ) (C .uG [2, 2]) := by
    rw [show tn 2 = ⟨[], [([], .dag22 .uG)], none⟩ by decide +kernel]
    show (List.map (fun k => C k []) _).prod * sumOver [] _ _ = _
    simp [sumOver, opVal, dagT]
  have t3 : tnVal C S (tn 3) [] = 1 := by
    rw [show tn 3 = ⟨[], [], none⟩ by decide +kernel]
    show (List.map (fun k => C k []) _).prod * sumOver [] _ _ = _
    simp [sumOver]
  have t4 : tnVal C S (tn 4) [] = C .G [] := by
    rw [show tn 4 = ⟨[.G], [], none⟩ by decide +kernel]
    show (List.map (fun k => C k []) _).prod * sumOver [] _ _ = _
    simp [sumOver]
  have r1 : (starRingEnd ℂ) (C .Gtilde []) = C .Gtilde [] := Complex.conj_eq_iff_im.2 (hC .Gtilde)
  have r2 : (starRingEnd ℂ) (C .G []) = C .G [] := Complex.conj_eq_iff_im.2 (hC .G)
  rcases nil_forms _ hm hw with e | e
  · obtain ⟨rfl, rfl⟩ := Prod.ext_iff.1 e
    simp only [formVal, List.map_cons, List.map_nil, List.sum_cons, List.sum_nil, t0, t1, t2, coef2, map_add, map_mul,
      map_neg, Complex.conj_conj, r1, coef1_conj S hS, coefVal_real S hS 0 (by decide), map_zero]
    ring
  · obtain ⟨rfl, rfl⟩ := Prod.ext_iff.1 e
    simp only [formVal, List.map_cons, List.map_nil, List.sum_cons, List.sum_nil, t1, t2, t3, t4, map_add, map_mul,
      Complex.conj_conj, r2, coefVal_real S hS 0 (by decide), coefVal_real S hS 3 (by decide),
      coefVal_real S hS 4 (by decide), map_zero, map_one]
    ring

theorem nil_not_rotated : ∀ w ∈ rotated, wetTy w ≠ [] ∧ wetClass w = 0 := by decide

/-- all symmetries of a matching condition -/
theorem loop_class (C : Key → Ten) (S : LEnv) (hC : ∀ k, Has (clNoFierz k) (C k)) (hS : S.g1bar.im = 0)
    {w : WKey} {f : List (ℕ × ℕ)} (hm : (w, f) ∈ loopProg) :
    ObeysClass (wetClass w) (loopVal C S w f) ∧ (wetTy w = [] → (loopVal C S w f []).im = 0) := by
  have hnil : wetTy w = [] → (loopVal C S w f []).im = 0 := by
    intro hw
    unfold loopVal
    rw [if_neg fun h => (nil_not_rotated w h).1 hw]
    exact form_real C S hC hS hm hw
  refine ⟨?_, hnil⟩
  obtain ⟨c, hc⟩ : ∃ c, c = wetClass w := ⟨_, rfl⟩
  have hcases : c = 4 ∨ c = 41 ∨ c = 5 ∨ c = 6 ∨ c = 71 ∨ c = 0 := by
    rw [hc]; cases w <;> decide
  by_cases h0 : c = 0
  · rw [← hc, h0]
    refine ⟨?_, ?_, ?_, ?_, ?_, ?_, ?_, ?_, ?_⟩ <;> (intro h'; simp at h')
  have hrot : w ∉ rotated := fun h => h0 (hc.trans (nil_not_rotated w h).2)
  obtain ⟨⟨w', g⟩, hg, e⟩ := List.mem_map.1
    (prog2_keys w (by cases w <;> decide) (class_len w (by cases w <;> decide) (hc ▸ h0)))
  simp only at e
  subst e
  obtain ⟨f', hf', hcf⟩ := of_mem_prog2 hg
  have ef : f' = f := by
    have h1 := get?_lprog (fun _ f => f) w' f' hf'
    have h2 := get?_lprog (fun _ f => f) w' f hm
    exact Option.some.inj (h1.symm.trans h2)
  subst ef
  unfold loopVal
  rw [if_neg hrot, ← hc]
  rcases hcases with h | h | h | h | h | h
  · subst h
    refine ⟨?_, ?_, ?_, ?_, ?_, ?_, ?_, ?_, ?_⟩ <;> try (intro h'; simp at h')
    exact fun i j k l => ⟨form_exch C S hC hg hcf (Or.inl hc.symm) i j k l,
      form_herm C S hC hS hg hcf (Or.inl hc.symm) i j k l⟩
  · subst h
    have := zero_forms _ hm (Or.inl hc.symm)
    simp only at this
    subst this
    refine ⟨?_, ?_, ?_, ?_, ?_, ?_, ?_, ?_, ?_⟩ <;> try (intro h'; simp at h')
    intro i j k l
    simp [formVal]
  · subst h
    refine ⟨?_, ?_, ?_, ?_, ?_, ?_, ?_, ?_, ?_⟩ <;> try (intro h'; simp at h')
    exact fun i j k l => form_herm C S hC hS hg hcf (Or.inr (Or.inl hc.symm)) i j k l
  · subst h
    refine ⟨?_, ?_, ?_, ?_, ?_, ?_, ?_, ?_, ?_⟩ <;> try (intro h'; simp at h')
    exact fun i j k l => ⟨form_exch C S hC hg hcf (Or.inr hc.symm) i j k l,
      form_herm C S hC hS hg hcf (Or.inr (Or.inr hc.symm)) i j k l, form_fierz C S hC hg hcf hc.symm i j k l⟩
  · subst h
    have := zero_forms _ hm (Or.inr hc.symm)
    simp only at this
    subst this
    refine ⟨?_, ?_, ?_, ?_, ?_, ?_, ?_, ?_, ?_⟩ <;> try (intro h'; simp at h')
    intro i j k l
    simp [formVal]
  · exact absurd h h0

/-! ### The sum of both orders -/

theorem get?_map_add (T L : Dict WKey Ten) (k : WKey) :
    Dict.get? (T.map fun kv => (kv.1, fun ix => kv.2 ix + ((L.get? kv.1).getD fun _ => 0) ix) : Dict WKey Ten) k =
      (T.get? k).map fun A ix => A ix + ((L.get? k).getD fun _ => 0) ix := by
  induction T with
  | nil => rfl
  | cons x T ih =>
    simp only [List.map_cons, Dict.get?]
    by_cases h : x.1 = k
    · subst h; simp
    · simp only [h, if_false]; exact ih

theorem tree_get {C : Dict Key Ten} {p : Dict String ℝ} {T : Dict WKey Ten} (h : matchTree C p = .ok T) (k : WKey) :
    ∃ A, T.get? k = some A := by
  obtain ⟨s, s0, -, -, -, rfl⟩ := tree_ok h
  obtain ⟨⟨k, e⟩, hm, rfl⟩ := List.mem_map.1 (prog_keys k (by cases k <;> decide))
  exact ⟨_, get?_prog (diffE C s s0) k e hm⟩

theorem arrays_ok {ckm : Ckm} {C : Dict Key Ten} {p : Dict String ℝ} {scale : ℝ} {D : Dict WKey Ten}
    (h : matchArrays (loopRaw ckm) C p scale = .ok D) : ∃ T, matchTree C p = .ok T ∧
      ((p.get? "loop_order" ≠ some 1 ∧ D = T) ∨
        (p.get? "loop_order" = some 1 ∧ ∃ L, matchLoop (loopRaw ckm) C p scale = .ok L ∧
          ∀ k, ∃ A B, T.get? k = some A ∧ L.get? k = some B ∧ D.get? k = some fun ix => A ix + B ix)) := by
  unfold matchArrays at h
  obtain ⟨T, h1, h⟩ := ok_bind h
  refine ⟨T, h1, ?_⟩
  by_cases hl : p.get? "loop_order" = some 1
  · rw [if_pos hl] at h
    obtain ⟨L, h2, h⟩ := ok_bind h
    refine Or.inr ⟨hl, L, h2, fun k => ?_⟩
    unfold addLoop at h
    obtain ⟨rfl, -⟩ := mapM_item (f := fun A B ix => A ix + B ix) h
    obtain ⟨A, hA⟩ := tree_get h1 k
    obtain ⟨S, S0, -, -, -, -, -, rfl⟩ := loop_ok h2
    obtain ⟨f, hf⟩ := exists_form k
    refine ⟨A, _, hA, get?_lprog (fun w f => ldiff C S S0 w f) k f hf, ?_⟩
    rw [get?_map_add, hA, get?_lprog (fun w f => ldiff C S S0 w f) k f hf]
    rfl
  · rw [if_neg hl] at h
    exact Or.inl ⟨hl, (Except.ok.inj h).symm⟩

theorem addLoop_tot (L : Dict WKey Ten) (hL : ∀ k, ∃ B, L.get? k = some B) :
    ∀ T : Dict WKey Ten, ∃ D, addLoop T L = .ok D
  | [] => ⟨[], rfl⟩
  | x :: T => by
    obtain ⟨D, hD⟩ := addLoop_tot L hL T
    obtain ⟨B, hB⟩ := hL x.1
    unfold addLoop at hD ⊢
    rw [List.mapM_cons, hD, item_of_get hB]
    exact ⟨_, rfl⟩

theorem loop_get {ckm : Ckm} {C : Dict Key Ten} {p : Dict String ℝ} {scale : ℝ} {L : Dict WKey Ten}
    (h : matchLoop (loopRaw ckm) C p scale = .ok L) (k : WKey) : ∃ B, L.get? k = some B := by
  obtain ⟨S, S0, -, -, -, -, -, rfl⟩ := loop_ok h
  obtain ⟨f, hf⟩ := exists_form k
  exact ⟨_, get?_lprog (fun w f => ldiff C S S0 w f) k f hf⟩

theorem arrays_tot {ckm : Ckm} {C : Dict Key Ten} {p : Dict String ℝ} {scale : ℝ} {T : Dict WKey Ten}
    (hT : matchTree C p = .ok T)
    (hL : p.get? "loop_order" = some 1 → ∃ L, matchLoop (loopRaw ckm) C p scale = .ok L) :
    ∃ D, matchArrays (loopRaw ckm) C p scale = .ok D := by
  unfold matchArrays
  rw [hT]
  show ∃ D, (if p.get? "loop_order" = some 1 then _ else _) = _
  by_cases hl : p.get? "loop_order" = some 1
  · rw [if_pos hl]
    obtain ⟨L, h⟩ := hL hl
    rw [h]
    exact addLoop_tot L (loop_get h) T
  · rw [if_neg hl]; exact ⟨_, rfl⟩

/-- lifting of a relation between the results of the two orders to the sum -/
theorem arrays_rel {ckm ckm' : Ckm} {C C' : Dict Key Ten} {p p' : Dict String ℝ} {scale scale' : ℝ}
    {D : Dict WKey Ten} (h : matchArrays (loopRaw ckm) C p scale = .ok D)
    (hlo : p'.get? "loop_order" = p.get? "loop_order") (R : WKey → Ten → Ten → Prop)
    (hadd : ∀ k A A' B B', R k A A' → R k B B' → R k (fun ix => A ix + B ix) fun ix => A' ix + B' ix)
    (ht : ∀ T, matchTree C p = .ok T → ∃ T', matchTree C' p' = .ok T' ∧
      ∀ k, ∃ A A', T.get? k = some A ∧ T'.get? k = some A' ∧ R k A A')
    (hl : ∀ L, matchLoop (loopRaw ckm) C p scale = .ok L → ∃ L', matchLoop (loopRaw ckm') C' p' scale' = .ok L' ∧
      ∀ k, ∃ B B', L.get? k = some B ∧ L'.get? k = some B' ∧ R k B B') :
    ∃ D', matchArrays (loopRaw ckm') C' p' scale' = .ok D' ∧
      ∀ k, ∃ B B', D.get? k = some B ∧ D'.get? k = some B' ∧ R k B B' := by
  obtain ⟨T, hT, hD⟩ := arrays_ok h
  obtain ⟨T', hT', hR⟩ := ht T hT
  obtain ⟨D', hD'⟩ : ∃ D', matchArrays (loopRaw ckm') C' p' scale' = .ok D' := by
    refine arrays_tot hT' fun hl' => ?_
    rcases hD with ⟨hn, -⟩ | ⟨-, L, hL, -⟩
    · exact absurd (hlo ▸ hl') hn
    · obtain ⟨L', e, -⟩ := hl L hL
      exact ⟨L', e⟩
  refine ⟨D', hD', fun k => ?_⟩
  obtain ⟨T₂, hT₂, hD₂⟩ := arrays_ok hD'
  rw [hT'] at hT₂
  obtain rfl := Except.ok.inj hT₂
  obtain ⟨A, A', a1, a2, a3⟩ := hR k
  rcases hD with ⟨hn, rfl⟩ | ⟨hp, L, hL, hD⟩
  · rcases hD₂ with ⟨-, rfl⟩ | ⟨hp, -⟩
    · exact ⟨A, A', a1, a2, a3⟩
    · exact absurd (hlo ▸ hp) hn
  · rcases hD₂ with ⟨hn, -⟩ | ⟨-, L', hL', hD₂⟩
    · exact absurd (hlo ▸ hp) hn
    · obtain ⟨L₂, e, hR2⟩ := hl L hL
      rw [hL'] at e
      obtain rfl := Except.ok.inj e
      obtain ⟨B, B', b1, b2, b3⟩ := hR2 k
      obtain ⟨X, Y, x1, x2, x3⟩ := hD k
      obtain ⟨X', Y', y1, y2, y3⟩ := hD₂ k
      rw [a1] at x1; rw [b1] at x2; rw [a2] at y1; rw [b2] at y2
      obtain rfl := Option.some.inj x1
      obtain rfl := Option.some.inj x2
      obtain rfl := Option.some.inj y1
      obtain rfl := Option.some.inj y2
      exact ⟨_, _, x3, y3, hadd k _ _ _ _ a3 b3⟩

end Verif.Loop
