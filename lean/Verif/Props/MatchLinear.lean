import Verif.Props.MatchLoop
import Verif.Lemmas.Linearity
import Verif.Lemmas.MatchFlavour

/-!
# Property C90: superposition of SMEFT coefficients in the matching
-/

set_option autoImplicit false
set_option linter.unusedSimpArgs false

namespace Verif.Loop
open Verif Verif.Spec Verif.Tens Verif.Beta Verif.Rotation Verif.Match Verif.BetaSym Verif.Flavour Verif.TranslateSmeft
open Verif.WetRun (ok_bind)

/-! ### Tree level -/

/-- the variables holding SMEFT coefficients -/
def isC : MV → Bool
  | .c _ => true
  | _ => false

theorem tree_affine : ∀ ke ∈ treeProg, (deg true isC ke.2).isSome = true := by decide +kernel

/-! ### One loop -/

/-- an operand which is a SMEFT coefficient -/
def opC : Op → Bool
  | .c _ | .dag _ | .c22 _ | .dag22 _ => true
  | _ => false

/-- the number of SMEFT coefficients in an array -/
def nC (t : Tn) : ℕ := t.sc.length + (t.ops.filter fun o => opC o.2).length

theorem tens_nC : ∀ t ∈ tens, nC t ≤ 1 := by decide +kernel

attribute [local irreducible] loopProg tens coefTab prog2 treeProg

/-- the coefficients are `a` times the first plus `b` times the second set -/
def Combination (a b : ℝ) (C C₁ C₂ : Dict Key Ten) : Prop := ∀ k,
  (C.get? k = none ∧ C₁.get? k = none ∧ C₂.get? k = none) ∨
  ∃ A₁ A₂, C₁.get? k = some A₁ ∧ C₂.get? k = some A₂ ∧ C.get? k = some fun ix => a * A₁ ix + b * A₂ ix

/-- the coefficients on which the relations between the Lagrangian parameters and the inputs
`GF`, `m_W`, `alpha_e` depend vanish -/
def NoInputShift (C : Dict Key Ten) : Prop :=
  (∀ A, C.get? .ll = some A → A [1, 0, 0, 1] = 0 ∧ A [0, 1, 1, 0] = 0) ∧
  (∀ A, C.get? .phil3 = some A → A [0, 0] = 0 ∧ A [1, 1] = 0) ∧
  (∀ A, C.get? .phiWB = some A → A [] = 0) ∧ (∀ A, C.get? .phiD = some A → A [] = 0)

theorem comb_val {a b : ℝ} {C C₁ C₂ : Dict Key Ten} (h : Combination a b C C₁ C₂) (k : Key) (ix : Ix) :
    cval C k ix = a * cval C₁ k ix + b * cval C₂ k ix := by
  unfold cval
  rcases h k with ⟨h1, h2, h3⟩ | ⟨A₁, A₂, h1, h2, h3⟩
  · rw [h1, h2, h3]; simp
  · rw [h1, h2, h3]; rfl

theorem comb_mem {a b : ℝ} {C C₁ C₂ : Dict Key Ten} (h : Combination a b C C₁ C₂) (k : Key)
    (hk : C₁.mem k = true) : C.mem k = true := by
  unfold Dict.mem at hk ⊢
  rcases h k with ⟨h1, h2, h3⟩ | ⟨A₁, A₂, h1, h2, h3⟩
  · rw [h2] at hk; simp at hk
  · rw [h3]; rfl

theorem shift_val {C : Dict Key Ten} (h : NoInputShift C) : cval C .ll [1, 0, 0, 1] = 0 ∧ cval C .ll [0, 1, 1, 0] = 0 ∧
    cval C .phil3 [1, 1] = 0 ∧ cval C .phil3 [0, 0] = 0 ∧ cval C .phiWB [] = 0 ∧ cval C .phiD [] = 0 := by
  obtain ⟨h1, h2, h3, h4⟩ := h
  unfold cval
  refine ⟨?_, ?_, ?_, ?_, ?_, ?_⟩
  · cases e : C.get? .ll with
    | none => rfl
    | some A => exact (h1 A e).1
  · cases e : C.get? .ll with
    | none => rfl
    | some A => exact (h1 A e).2
  · cases e : C.get? .phil3 with
    | none => rfl
    | some A => exact (h2 A e).2
  · cases e : C.get? .phil3 with
    | none => rfl
    | some A => exact (h2 A e).1
  · cases e : C.get? .phiWB with
    | none => rfl
    | some A => exact h3 A e
  · cases e : C.get? .phiD with
    | none => rfl
    | some A => exact h4 A e

theorem zeroed_mem {C : Dict Key Ten} {k : Key} (h : C.mem k = true) : (zeroed C).mem k = true := by
  rw [Dict.mem_iff, zeroed, Dict.keys_mapVal, ← Dict.mem_iff]; exact h

/-- without a shift of the inputs, the parameters are those of the Standard Model -/
theorem scal_noshift {C C' : Dict Key Ten} (p : Dict String ℝ) (hm : ∀ k ∈ treeKeys, C.mem k = true)
    (hm' : ∀ k ∈ treeKeys, C'.mem k = true)
    (h : cval C .ll [1, 0, 0, 1] = 0 ∧ cval C .ll [0, 1, 1, 0] = 0 ∧ cval C .phil3 [1, 1] = 0 ∧
      cval C .phil3 [0, 0] = 0 ∧ cval C .phiWB [] = 0 ∧ cval C .phiD [] = 0) :
    scalars C p = scalars (zeroed C') p := by
  have z : ∀ k ix, val (zeroed C') k ix = 0 := fun k ix => val_zeroed C' k ix
  obtain ⟨h1, h2, h3, h4, h5, h6⟩ := h
  simp only [cval_eq] at h1 h2 h3 h4 h5 h6
  exact (scalars_congr p hm (fun k hk => zeroed_mem (hm' k hk)) (by rw [h1, z]) (by rw [h2, z]) (by rw [h3, z])
    (by rw [h4, z]) (by rw [h5, z]) (by rw [h6, z])).symm

section
variable (a b : ℝ) (C C₁ C₂ : Key → Ten) (hC : ∀ k ix, C k ix = a * C₁ k ix + b * C₂ k ix)

/-- the environment of the tree-level conditions with coefficients `X` -/
noncomputable def envX (X : Key → Ten) (s : Scal) : MV → Ten
  | .c k => X k
  | .mW => fun _ => s.mW
  | .mZ => fun _ => s.mZ
  | .vT => fun _ => s.vT
  | .g1bar => fun _ => s.g1bar
  | .sqrt2 => fun _ => (Real.sqrt 2 : ℝ)

theorem env_envX (C : Dict Key Ten) (s : Scal) : env C s = envX (cval C) s := by
  funext v; cases v <;> rfl

theorem eval_affine (e : E MV) (he : (deg true isC e).isSome = true) (s : Scal) (r t : ℝ) (hrt : r + t = 1)
    (X Y Z : Key → Ten) (hX : ∀ k ix, X k ix = r * Y k ix + t * Z k ix) (ix : Ix) :
    eval (envX X s) e ix = r * eval (envX Y s) e ix + t * eval (envX Z s) e ix := by
  obtain ⟨z, hz⟩ := Option.isSome_iff_exists.1 he
  have := deg_sound r t true (fun _ => hrt) isC (envX X s) (envX Y s) (envX Z s) (by
    intro v
    cases v with
    | c k => exact fun ix => hX k ix
    | _ => exact ⟨rfl, rfl⟩) e z hz
  cases z
  · exact comb_weaken hrt this ix
  · exact this ix

include hC in
theorem eval_linear (e : E MV) (he : (deg true isC e).isSome = true) (s : Scal) (ix : Ix) :
    eval (envX C s) e ix - eval (envX (fun _ _ => 0) s) e ix =
      a * (eval (envX C₁ s) e ix - eval (envX (fun _ _ => 0) s) e ix) +
      b * (eval (envX C₂ s) e ix - eval (envX (fun _ _ => 0) s) e ix) := by
  have e1 := eval_affine e he s (1 / 2) (1 / 2) (by norm_num) C (fun k ix => 2 * a * C₁ k ix)
    (fun k ix => 2 * b * C₂ k ix) (fun k ix => by rw [hC]; push_cast; ring) ix
  have e2 := eval_affine e he s (2 * a) (1 - 2 * a) (by ring) (fun k ix => 2 * a * C₁ k ix) C₁ (fun _ _ => 0)
    (fun k ix => by push_cast; ring) ix
  have e3 := eval_affine e he s (2 * b) (1 - 2 * b) (by ring) (fun k ix => 2 * b * C₂ k ix) C₂ (fun _ _ => 0)
    (fun k ix => by push_cast; ring) ix
  rw [e1, e2, e3]
  push_cast
  ring

variable (S : LEnv)

include hC in
theorem op_lin (o : Op) (ho : opC o = true) (ix : Ix) :
    opVal C S o ix = a * opVal C₁ S o ix + b * opVal C₂ S o ix := by
  cases o with
  | c k => exact hC k ix
  | dag k => simp only [opVal, dagT]; split <;> simp [hC, Complex.conj_ofReal]
  | c22 k => exact hC k _
  | dag22 k => simp [opVal, dagT, hC, Complex.conj_ofReal]
  | _ => simp [opC] at ho

theorem op_const (o : Op) (ho : opC o = false) (ix : Ix) : opVal C S o ix = opVal C₁ S o ix := by
  cases o with
  | c k => simp [opC] at ho
  | dag k => simp [opC] at ho
  | c22 k => simp [opC] at ho
  | dag22 k => simp [opC] at ho
  | _ => rfl

theorem prod_const (l : List (List ℕ × Op)) (hl : (l.filter fun o => opC o.2).length = 0) (ρ : ℕ → Fin 3) :
    (l.map fun o => opVal C S o.2 (o.1.map ρ)).prod = (l.map fun o => opVal C₁ S o.2 (o.1.map ρ)).prod := by
  congr 1
  refine List.map_congr_left fun o ho => op_const C C₁ S o.2 ?_ _
  cases h : opC o.2 with
  | false => rfl
  | true =>
    have : o ∈ l.filter fun o => opC o.2 := List.mem_filter.2 ⟨ho, h⟩
    rw [List.length_eq_zero_iff.1 hl] at this
    simp at this

include hC in
theorem prod_lin (l : List (List ℕ × Op)) (hl : (l.filter fun o => opC o.2).length = 1) (ρ : ℕ → Fin 3) :
    (l.map fun o => opVal C S o.2 (o.1.map ρ)).prod =
      a * (l.map fun o => opVal C₁ S o.2 (o.1.map ρ)).prod + b * (l.map fun o => opVal C₂ S o.2 (o.1.map ρ)).prod := by
  induction l with
  | nil => simp at hl
  | cons o l ih =>
    simp only [List.map_cons, List.prod_cons]
    cases h : opC o.2 with
    | true =>
      simp only [List.filter_cons, h, if_true, List.length_cons, Nat.add_eq_right] at hl
      rw [op_lin a b C C₁ C₂ hC S o.2 h, prod_const C C₁ S l hl, prod_const C₂ C₁ S l hl]
      ring
    | false =>
      simp only [List.filter_cons, h, Bool.false_eq_true, if_false] at hl
      rw [ih hl, op_const C C₁ S o.2 h, op_const C₂ C₁ S o.2 h]
      ring

theorem sumOver_lin (l : List ℕ) (F G H : (ℕ → Fin 3) → ℂ) (r t : ℂ) (h : ∀ ρ, F ρ = r * G ρ + t * H ρ) (ρ : ℕ → Fin 3) :
    sumOver l F ρ = r * sumOver l G ρ + t * sumOver l H ρ := by
  induction l generalizing ρ with
  | nil => exact h ρ
  | cons x l ih => simp only [sumOver, ih, Finset.sum_add_distrib, Finset.mul_sum]

theorem sumOver_congr (l : List ℕ) (F G : (ℕ → Fin 3) → ℂ) (h : ∀ ρ, F ρ = G ρ) (ρ : ℕ → Fin 3) :
    sumOver l F ρ = sumOver l G ρ := by rw [funext h]

theorem tn_const (t : Tn) (ht : nC t = 0) (ix : Ix) : tnVal C S t ix = tnVal C₁ S t ix := by
  unfold nC at ht
  have h1 : t.sc = [] := List.length_eq_zero_iff.1 (by omega)
  unfold tnVal
  rw [h1]
  congr 1
  exact sumOver_congr _ _ _ (prod_const C C₁ S t.ops (by omega)) _

include hC in
theorem tn_lin (t : Tn) (ht : nC t = 1) (ix : Ix) :
    tnVal C S t ix = a * tnVal C₁ S t ix + b * tnVal C₂ S t ix := by
  unfold nC at ht
  unfold tnVal
  rcases Nat.eq_zero_or_pos t.sc.length with h0 | h0
  · rw [List.length_eq_zero_iff.1 h0]
    rw [sumOver_lin _ _ _ _ a b (prod_lin a b C C₁ C₂ hC S t.ops (by omega))]
    simp
  · obtain ⟨k, hk⟩ : ∃ k, t.sc = [k] := List.length_eq_one_iff.1 (by omega)
    rw [hk, sumOver_congr _ _ _ (prod_const C C₁ S t.ops (by omega)),
      sumOver_congr _ (fun ρ => (t.ops.map fun o => opVal C₂ S o.2 (o.1.map ρ)).prod) _
        (prod_const C₂ C₁ S t.ops (by omega))]
    simp only [List.map_cons, List.map_nil, List.prod_cons, List.prod_nil, hC]
    ring

include hC in
theorem tn_diff (n : ℕ) (ix : Ix) : tnVal C S (tn n) ix - tnVal (fun _ _ => 0) S (tn n) ix =
    a * (tnVal C₁ S (tn n) ix - tnVal (fun _ _ => 0) S (tn n) ix) +
    b * (tnVal C₂ S (tn n) ix - tnVal (fun _ _ => 0) S (tn n) ix) := by
  have hn : nC (tn n) ≤ 1 := by
    unfold tn
    rw [List.getD_eq_getElem?_getD]
    cases hg : tens[n]? with
    | none => exact Nat.zero_le _
    | some t => exact tens_nC t (List.mem_of_getElem? hg)
  rcases Nat.lt_or_ge (nC (tn n)) 1 with h | h
  · have h : nC (tn n) = 0 := by omega
    rw [tn_const C (fun _ _ => 0) S _ h, tn_const C₁ (fun _ _ => 0) S _ h, tn_const C₂ (fun _ _ => 0) S _ h]
    ring
  · have h : nC (tn n) = 1 := by omega
    have z := tn_lin 0 0 (fun _ _ => 0) C₁ C₂ (fun _ _ => by simp) S _ h ix
    rw [tn_lin a b C C₁ C₂ hC S _ h, z]
    push_cast
    ring

include hC in
theorem form_diff (f : List (ℕ × ℕ)) (ix : Ix) : formVal C S f ix - formVal (fun _ _ => 0) S f ix =
    a * (formVal C₁ S f ix - formVal (fun _ _ => 0) S f ix) +
    b * (formVal C₂ S f ix - formVal (fun _ _ => 0) S f ix) := by
  unfold formVal
  induction f with
  | nil => simp
  | cons x f ih =>
    simp only [List.map_cons, List.sum_cons]
    linear_combination ih + coefVal S x.2 * tn_diff a b C C₁ C₂ hC S x.1 ix

include hC in
theorem loopVal_diff (w : WKey) (f : List (ℕ × ℕ)) (ix : Ix) :
    loopVal C S w f ix - loopVal (fun _ _ => 0) S w f ix =
    a * (loopVal C₁ S w f ix - loopVal (fun _ _ => 0) S w f ix) +
    b * (loopVal C₂ S w f ix - loopVal (fun _ _ => 0) S w f ix) := by
  unfold loopVal
  by_cases h : w ∈ rotated
  · simp only [if_pos h]
    unfold matT
    split
    · simp only [← Finset.sum_sub_distrib, Finset.mul_sum, ← Finset.sum_add_distrib]
      refine Finset.sum_congr rfl fun q _ => ?_
      rw [← mul_sub, form_diff a b C C₁ C₂ hC S f]
      ring
    · simp
  · simp only [if_neg h]
    exact form_diff a b C C₁ C₂ hC S f ix

end

/-- **C90.** Superposition: the WET arrays matched, at tree level or at one loop, from real
multiples `a C₁ + b C₂` of two sets of SMEFT coefficients are the same multiples of those
matched from `C₁` and `C₂`, for all parameters and scales, provided the coefficients that
modify the relations between the inputs and the Lagrangian parameters vanish. -/
theorem C90_superposition (ckm : Ckm) (a b : ℝ) (C C₁ C₂ : Dict Key Ten) (hC : Combination a b C C₁ C₂)
    (n₁ : NoInputShift C₁) (n₂ : NoInputShift C₂) (p : Dict String ℝ) (scale : ℝ) (D₁ D₂ : Dict WKey Ten)
    (h₁ : matchArrays (loopRaw ckm) C₁ p scale = .ok D₁) (h₂ : matchArrays (loopRaw ckm) C₂ p scale = .ok D₂) :
    ∃ D, matchArrays (loopRaw ckm) C p scale = .ok D ∧
      ∀ k, ∃ B₁ B₂, D₁.get? k = some B₁ ∧ D₂.get? k = some B₂ ∧ D.get? k = some fun ix => a * B₁ ix + b * B₂ ix := by
  obtain ⟨T₁, hT₁, e₁⟩ := arrays_ok h₁
  obtain ⟨T₂, hT₂, e₂⟩ := arrays_ok h₂
  obtain ⟨s, s0, q1, q2, hk1, t1⟩ := tree_ok hT₁
  obtain ⟨s', s0', q1', q2', hk2, t2⟩ := tree_ok hT₂
  have hk : ∀ k ∈ treeKeys, C.mem k = true := fun k hm => comb_mem hC k (hk1 k hm)
  have v1 := shift_val n₁
  have v2 := shift_val n₂
  have v : cval C .ll [1, 0, 0, 1] = 0 ∧ cval C .ll [0, 1, 1, 0] = 0 ∧ cval C .phil3 [1, 1] = 0 ∧
      cval C .phil3 [0, 0] = 0 ∧ cval C .phiWB [] = 0 ∧ cval C .phiD [] = 0 := by
    obtain ⟨x1, x2, x3, x4, x5, x6⟩ := v1
    obtain ⟨y1, y2, y3, y4, y5, y6⟩ := v2
    refine ⟨?_, ?_, ?_, ?_, ?_, ?_⟩ <;> rw [comb_val hC]
    · rw [x1, y1]; simp
    · rw [x2, y2]; simp
    · rw [x3, y3]; simp
    · rw [x4, y4]; simp
    · rw [x5, y5]; simp
    · rw [x6, y6]; simp
  -- all scalars agree
  have sz : ∀ X Y : Dict Key Ten, (∀ k ∈ treeKeys, X.mem k = true) → (∀ k ∈ treeKeys, Y.mem k = true) →
      scalars (zeroed X) p = scalars (zeroed Y) p := fun X Y hX hY =>
    scal_noshift p (fun k hm => zeroed_mem (hX k hm)) hY (by simp [cval_zeroed])
  have es : s = s0 := Except.ok.inj (q1.symm.trans ((scal_noshift p hk1 hk1 v1).trans q2))
  have es' : s' = s0 := Except.ok.inj (q1'.symm.trans ((scal_noshift p hk2 hk1 v2).trans q2))
  have es0' : s0' = s0 := Except.ok.inj (q2'.symm.trans ((sz C₂ C₁ hk2 hk1).trans q2))
  subst es; subst es'; subst es0'
  have r1 : scalars C p = .ok s0' := (scal_noshift p hk hk1 v).trans q2
  have r2 : scalars (zeroed C) p = .ok s0' := (sz C C₁ hk hk1).trans q2
  have hT := tree_of_scal r1 r2 hk
  obtain ⟨D, hD⟩ : ∃ D, matchArrays (loopRaw ckm) C p scale = .ok D := by
    refine arrays_tot hT fun hl => ?_
    rcases e₁ with ⟨hn, -⟩ | ⟨-, L, hL, -⟩
    · exact absurd hl hn
    · obtain ⟨S, S0, hS, hS0, hkL, hF, hF0, rfl⟩ := loop_ok hL
      obtain ⟨s, mu, md, me, al, g3, V, g1, g2, g4, g5, g6, g7, g8, rfl⟩ := env_ok hS
      rw [q1] at g1
      obtain rfl := Except.ok.inj g1
      exact ⟨_, loop_of (env_of r1 g2 g4 g5 g6 g7 g8) (env_of r2 g2 g4 g5 g6 g7 g8)
        (fun k hm => comb_mem hC k (hkL k hm)) hF hF⟩
  refine ⟨D, hD, fun k => ?_⟩
  obtain ⟨T, hT', e⟩ := arrays_ok hD
  rw [hT] at hT'
  obtain rfl := Except.ok.inj hT'
  obtain ⟨ke, hm, rfl⟩ := List.mem_map.1 (prog_keys k (by cases k <;> decide))
  have gT := get?_prog (diffE C s0' s0') ke.1 ke.2 hm
  have gT₁ := get?_prog (diffE C₁ s0' s0') ke.1 ke.2 hm
  have gT₂ := get?_prog (diffE C₂ s0' s0') ke.1 ke.2 hm
  rw [← t1] at gT₁
  rw [← t2] at gT₂
  have zz : ∀ X : Dict Key Ten, cval (zeroed X) = fun _ _ => 0 := fun X => funext fun k => cval_zeroed X k
  have tl : ∀ ix, diffE C s0' s0' ke.2 ix = a * diffE C₁ s0' s0' ke.2 ix + b * diffE C₂ s0' s0' ke.2 ix := by
    intro ix
    unfold diffE
    simp only [env_envX, zz]
    exact eval_linear a b (cval C) (cval C₁) (cval C₂) (comb_val hC) ke.2 (tree_affine ke hm) s0' ix
  by_cases hl : p.get? "loop_order" = some 1
  · rcases e₁ with ⟨hn, -⟩ | ⟨-, L₁, hL₁, e₁⟩
    · exact absurd hl hn
    rcases e₂ with ⟨hn, -⟩ | ⟨-, L₂, hL₂, e₂⟩
    · exact absurd hl hn
    rcases e with ⟨hn, -⟩ | ⟨-, L, hL, e⟩
    · exact absurd hl hn
    obtain ⟨A, B, x1, x2, x3⟩ := e ke.1
    obtain ⟨A₁, B₁, y1, y2, y3⟩ := e₁ ke.1
    obtain ⟨A₂, B₂, z1, z2, z3⟩ := e₂ ke.1
    rw [gT] at x1; rw [gT₁] at y1; rw [gT₂] at z1
    obtain rfl := Option.some.inj x1
    obtain rfl := Option.some.inj y1
    obtain rfl := Option.some.inj z1
    obtain ⟨f, hf⟩ := exists_form ke.1
    have envs : ∀ X : Dict Key Ten, scalars X p = .ok s0' → ∀ S S' S₀, loopEnv ckm X p scale = .ok S →
        loopEnv ckm C₁ p scale = .ok S' → loopEnv ckm (zeroed X) p scale = .ok S₀ →
        scalars (zeroed X) p = .ok s0' → S = S' ∧ S₀ = S' := by
      intro X hX S S' S₀ a1 a2 a3 hX0
      obtain ⟨s, mu, md, me, al, g3, V, g1, g2, g4, g5, g6, g7, g8, rfl⟩ := env_ok a2
      rw [q1] at g1
      obtain rfl := Except.ok.inj g1
      rw [env_of hX g2 g4 g5 g6 g7 g8] at a1
      rw [env_of hX0 g2 g4 g5 g6 g7 g8] at a3
      exact ⟨(Except.ok.inj a1).symm, (Except.ok.inj a3).symm⟩
    obtain ⟨S, S0, a1, a2, -, -, -, rfl⟩ := loop_ok hL
    obtain ⟨S₁, S0₁, b1, b2, -, -, -, rfl⟩ := loop_ok hL₁
    obtain ⟨S₂, S0₂, c1, c2, -, -, -, rfl⟩ := loop_ok hL₂
    obtain ⟨rfl, rfl⟩ := envs C r1 _ _ _ a1 b1 a2 r2
    obtain ⟨-, rfl⟩ := envs C₁ q1 _ _ _ b1 b1 b2 q2
    obtain ⟨rfl, rfl⟩ := envs C₂ q1' _ _ _ c1 b1 c2 q2'
    rw [get?_lprog (fun w f => ldiff C S0₂ S0₂ w f) _ f hf] at x2
    rw [get?_lprog (fun w f => ldiff C₁ S0₂ S0₂ w f) _ f hf] at y2
    rw [get?_lprog (fun w f => ldiff C₂ S0₂ S0₂ w f) _ f hf] at z2
    obtain rfl := Option.some.inj x2
    obtain rfl := Option.some.inj y2
    obtain rfl := Option.some.inj z2
    refine ⟨_, _, y3, z3, ?_⟩
    rw [x3]
    congr 1
    funext ix
    have ll := loopVal_diff a b (cval C) (cval C₁) (cval C₂) (comb_val hC) S0₂ ke.1 f ix
    rw [tl]
    unfold ldiff
    simp only [zz]
    linear_combination ll
  · rcases e₁ with ⟨-, rfl⟩ | ⟨hp, -⟩
    swap; · exact absurd hp hl
    rcases e₂ with ⟨-, rfl⟩ | ⟨hp, -⟩
    swap; · exact absurd hp hl
    rcases e with ⟨-, rfl⟩ | ⟨hp, -⟩
    swap; · exact absurd hp hl
    exact ⟨_, _, gT₁, gT₂, by rw [gT]; congr 1; funext ix; exact tl ix⟩

/-- the hypotheses are met by the coefficients used for C87 and twice the same coefficients -/
example (ckm : Ckm) : ∃ p C, p.get? "loop_order" = some 1 ∧ NoInputShift exC ∧ Combination 3 (-1) C exC exC ∧
    ∃ D, matchArrays (loopRaw ckm) exC p 160 = .ok D := by
  refine ⟨_, exC.mapVal fun A ix => ((3 : ℝ) : ℂ) * A ix + ((-1 : ℝ) : ℂ) * A ix, rfl, ?_, ?_,
    C87_succeeds ckm exC ?_ ?_ _ (physical_ex ckm) 160 (by norm_num)⟩
  · refine ⟨?_, ?_, ?_, ?_⟩ <;> intro A hA <;> rw [exC_get _ (by decide)] at hA <;>
      obtain rfl := Option.some.inj hA <;> simp
  · intro k
    rw [Dict.get?_mapVal]
    cases h : exC.get? k with
    | none => exact Or.inl ⟨rfl, rfl, rfl⟩
    | some A => exact Or.inr ⟨A, A, rfl, rfl, rfl⟩
  · intro k hk
    rw [Dict.mem_iff]
    simpa [Dict.keys, exC, Function.comp_def] using hk
  · intro k hk
    rw [exC_get k (by revert hk; revert k; decide)]
    simp only [List.mem_cons, List.not_mem_nil, or_false] at hk
    rcases hk with rfl | rfl | rfl | rfl <;> simp

end Verif.Loop
