import Verif.Lemmas.WetCov
import Verif.Lemmas.WetChk1
import Verif.Lemmas.WetChk2
import Verif.Lemmas.WetChk3
import Verif.Lemmas.WetChk4
import Mathlib.Tactic.IntervalCases
import Mathlib.Data.Fintype.Perm

/-!
# Relabelling the generations
-/

set_option autoImplicit false
set_option linter.unusedSimpArgs false

namespace Verif.WetTab
open Verif Verif.Rotation Verif.WetRun

/-! ## The group of relabellings -/

/-- first `τ`, then `σ` -/
def Relabel.mul (σ τ : Relabel) : Relabel where
  perm x := σ.perm x * τ.perm x
  top := by rw [Equiv.Perm.mul_apply, τ.top, σ.top]

/-- the opposite relabelling -/
def Relabel.inv (σ : Relabel) : Relabel where
  perm x := (σ.perm x)⁻¹
  top := by rw [Equiv.Perm.inv_eq_iff_eq, σ.top]

/-- no relabelling -/
def Relabel.one : Relabel where
  perm _ := 1
  top := rfl

theorem Relabel.ext' {σ τ : Relabel} (h : ∀ x, σ.perm x = τ.perm x) : σ = τ := by
  cases σ; cases τ
  simp only [Relabel.mk.injEq]
  exact funext h

theorem Relabel.ix_eq (σ : Relabel) (x : Sp) {i : ℕ} (h : 1 ≤ i) (h3 : i ≤ 3) :
    σ.ix x i = (σ.perm x ⟨i - 1, by omega⟩).val + 1 := by
  interval_cases i <;> rfl

theorem Relabel.ix_range (σ : Relabel) (x : Sp) {i : ℕ} (h : 1 ≤ i) (h3 : i ≤ x.gens) :
    1 ≤ σ.ix x i ∧ σ.ix x i ≤ x.gens := by
  have h3' : i ≤ 3 := by cases x <;> simp [Sp.gens] at h3 <;> omega
  rw [σ.ix_eq x h h3']
  refine ⟨by omega, ?_⟩
  have hlt := (σ.perm x ⟨i - 1, by omega⟩).isLt
  cases x
  · have hne : σ.perm .u ⟨i - 1, by omega⟩ ≠ 2 := by
      intro e
      have := (σ.perm .u).injective (e.trans σ.top.symm)
      have := congrArg Fin.val this
      simp [Sp.gens] at this h3
      omega
    have : (σ.perm .u ⟨i - 1, by omega⟩).val ≠ 2 := fun e => hne (Fin.ext e)
    simp only [Sp.gens]
    omega
  all_goals simp only [Sp.gens]; omega

theorem Relabel.mul_ix (σ τ : Relabel) (x : Sp) {i : ℕ} (h : 1 ≤ i) (h3 : i ≤ 3) :
    (σ.mul τ).ix x i = σ.ix x (τ.ix x i) := by
  have hlt := (τ.perm x ⟨i - 1, by omega⟩).isLt
  rw [ix_eq _ x h h3, ix_eq τ x h h3, ix_eq σ x (by omega) (by omega)]
  rfl

theorem gens_le (x : Sp) : x.gens ≤ 3 := by cases x <;> decide

theorem Relabel.act_valid (σ : Relabel) {k : WKey} {ix : List ℕ} (h : Valid k ix) :
    Valid k (σ.act k ix) := by
  unfold Valid Relabel.act at *
  generalize fields k = fs at h ⊢
  induction h with
  | nil => exact .nil
  | cons h _ ih => exact .cons (σ.ix_range _ h.1 h.2) ih

theorem Relabel.act_mul (σ τ : Relabel) {k : WKey} {ix : List ℕ} (h : Valid k ix) :
    (σ.mul τ).act k ix = σ.act k (τ.act k ix) := by
  unfold Valid Relabel.act at *
  generalize fields k = fs at h ⊢
  induction h with
  | nil => rfl
  | @cons F i fs ix h _ ih =>
    simp only [List.zipWith_cons_cons]
    rw [ih, σ.mul_ix τ _ h.1 (h.2.trans (gens_le _))]

theorem Relabel.act_one {k : WKey} {ix : List ℕ} (h : Valid k ix) : Relabel.one.act k ix = ix := by
  unfold Valid Relabel.act at *
  generalize fields k = fs at h ⊢
  induction h with
  | nil => rfl
  | @cons F i fs ix h _ ih =>
    simp only [List.zipWith_cons_cons]
    rw [ih, Relabel.ix_eq _ _ h.1 (h.2.trans (gens_le _))]
    congr 1
    change i - 1 + 1 = i
    omega

theorem Relabel.inv_mul (σ : Relabel) : σ.inv.mul σ = Relabel.one :=
  Relabel.ext' fun _ => inv_mul_cancel _

/-- relabelling respects the relations between components -/
theorem Relabel.act_step (σ : Relabel) {k : WKey} {ix : List ℕ} (h : Valid k ix) {st : Step}
    (hs : allowed k st = true) : σ.act k (st.act ix) = st.act (σ.act k ix) := by
  have l := h.length_eq
  unfold Relabel.act
  rcases hf : fields k with _ | ⟨a, _ | ⟨b, _ | ⟨c, _ | ⟨d, _ | ⟨e, fs⟩⟩⟩⟩⟩
  · rw [hf] at l
    rw [List.length_eq_zero_iff.1 l.symm]
    cases st <;> rfl
  · exfalso; rcases fields_length k with h | h | h <;> rw [hf] at h <;> simp at h
  · rw [hf] at l
    obtain ⟨p, r, rfl⟩ := List.length_eq_two.1 l.symm
    cases st <;> rfl
  · exfalso; rcases fields_length k with h | h | h <;> rw [hf] at h <;> simp at h
  · rw [hf] at l
    rcases ix with _ | ⟨p, _ | ⟨r, _ | ⟨s, _ | ⟨t, _ | ⟨u, l'⟩⟩⟩⟩⟩ <;> simp at l
    cases st <;> simp only [allowed, hf, Bool.and_eq_true, decide_eq_true_eq, reduceCtorEq,
      decide_false, Bool.false_eq_true] at hs <;>
      simp only [Step.act, List.zipWith_cons_cons, List.zipWith_nil_right]
    · obtain ⟨⟨_, rfl⟩, rfl⟩ := hs; rfl
    · obtain ⟨⟨_, e1⟩, e2⟩ := hs
      rw [e1, e2]
    · obtain ⟨⟨⟨_, rfl⟩, rfl⟩, e1⟩ := hs
      rfl
    · obtain ⟨_, rfl⟩ := hs
      rfl
  · exfalso; rcases fields_length k with h | h | h <;> rw [hf] at h <;> simp at h

theorem Relabel.act_same (σ : Relabel) {k : WKey} {ix jx : List ℕ} {c n : Bool} (hv : Valid k ix)
    (h : Same k ix jx c n) : Same k (σ.act k ix) (σ.act k jx) c n := by
  induction h with
  | refl => exact .refl
  | @step jx c n st hs h ih =>
    rw [σ.act_step (h.valid hv) hs]
    exact .step st hs ih

theorem Relabel.inv_act (σ : Relabel) {k : WKey} {ix : List ℕ} (h : Valid k ix) :
    σ.inv.act k (σ.act k ix) = ix := by
  rw [← Relabel.act_mul _ _ h, σ.inv_mul, Relabel.act_one h]

theorem Relabel.same_of_act (σ : Relabel) {k : WKey} {ix jx : List ℕ} {c n : Bool} (hv : Valid k ix)
    (hv' : Valid k jx) (h : Same k (σ.act k ix) (σ.act k jx) c n) : Same k ix jx c n := by
  have := σ.inv.act_same (σ.act_valid hv) h
  rwa [σ.inv_act hv, σ.inv_act hv'] at this

/-! ## The images of the coefficients -/

theorem coef_valid {a : Coef} (ha : a ∈ allCoefs) : Valid a.1 (ixOf a) := by
  obtain ⟨s, i, h⟩ := mem_allCoefs.1 ha
  exact h.wellNamed.1

theorem coef_not_vanishes {a : Coef} (ha : a ∈ allCoefs) : ¬Vanishes a.1 (ixOf a) := by
  obtain ⟨s, i, h⟩ := mem_allCoefs.1 ha
  exact listed_not_vanishes h

theorem coef_same_unique {a b : Coef} {c n : Bool} (ha : a ∈ allCoefs) (hb : b ∈ allCoefs) (hk : a.1 = b.1)
    (h : Same a.1 (ixOf a) (ixOf b) c n) : a = b := by
  obtain ⟨s, i, ha⟩ := mem_allCoefs.1 ha
  obtain ⟨t, j, hb⟩ := mem_allCoefs.1 hb
  exact (listed_same_unique ha hb hk h).2.2

/-- two images of the same component -/
theorem same_fun {k : WKey} {ix : List ℕ} {a b : Coef} (ha : a ∈ allCoefs) (hb : b ∈ allCoefs)
    (hka : a.1 = k) (hkb : b.1 = k) {c n c' n' : Bool} (h : Same k ix (ixOf a) c n)
    (h' : Same k ix (ixOf b) c' n') : a = b ∧ n = n' ∧ (c = c' ∨ IsReal a.1 (ixOf a)) := by
  subst hka
  have h1 := h.symm.trans h'
  have hab := coef_same_unique ha hb hkb.symm h1
  subst hab
  have hn : xor n n' = false := by
    by_contra hne
    have e : xor n n' = true := by simpa using hne
    rw [e] at h1
    exact coef_not_vanishes ha ⟨_, h1⟩
  refine ⟨rfl, ?_, ?_⟩
  · revert hn; cases n <;> cases n' <;> simp
  · rw [hn] at h1
    cases c <;> cases c' <;> first | exact .inl rfl | exact .inr h1

theorem Relabel.image (σ : Relabel) {a : Coef} (ha : a ∈ allCoefs) :
    ∃ a' ∈ allCoefs, ∃ c n, σ.sym a a' c n := by
  have hv := coef_valid ha
  obtain ⟨m, s, i, c, n, hl, hs⟩ := listed_complete (σ.act_valid hv) (by
    rintro ⟨c, hc⟩
    exact coef_not_vanishes ha ⟨c, σ.same_of_act hv hv hc⟩)
  exact ⟨(a.1, m), mem_allCoefs.2 ⟨_, _, hl⟩, c, n, rfl, hs⟩

theorem Relabel.sym_fun (σ : Relabel) {a a' b' : Coef} (ha' : a' ∈ allCoefs) (hb' : b' ∈ allCoefs)
    {c n c' n' : Bool} (h : σ.sym a a' c n) (h' : σ.sym a b' c' n') :
    a' = b' ∧ n = n' ∧ (c = c' ∨ IsReal a'.1 (ixOf a')) :=
  same_fun ha' hb' h.1 h'.1 h.2 h'.2

theorem Relabel.sym_inj (σ : Relabel) {a b a' : Coef} (ha : a ∈ allCoefs) (hb : b ∈ allCoefs)
    {c n c' n' : Bool} (h : σ.sym a a' c n) (h' : σ.sym b a' c' n') : a = b := by
  have hk : a.1 = b.1 := h.1.symm.trans h'.1
  have h1 := h.2
  have h2 := h'.2
  rw [← hk] at h2
  have hvb : Valid a.1 (ixOf b) := by rw [hk]; exact coef_valid hb
  exact coef_same_unique ha hb hk (σ.same_of_act (coef_valid ha) hvb (h1.trans h2.symm))

theorem Relabel.sym_mul {σ τ : Relabel} {a b d : Coef} (ha : a ∈ allCoefs) {c n c' n' : Bool}
    (h : τ.sym a b c n) (h' : σ.sym b d c' n') : (σ.mul τ).sym a d (xor c c') (xor n n') := by
  refine ⟨h'.1.trans h.1, ?_⟩
  have hv := coef_valid ha
  rw [Relabel.act_mul _ _ hv]
  have h2 := h'.2
  rw [h.1] at h2
  exact (σ.act_same (τ.act_valid hv) h.2).trans h2

theorem Relabel.inv_sym {σ : Relabel} {a b : Coef} (ha : a ∈ allCoefs) {c n : Bool}
    (h : σ.sym a b c n) : σ.inv.sym b a c n := by
  refine ⟨h.1.symm, ?_⟩
  have hv := coef_valid ha
  have := σ.inv.act_same (σ.act_valid hv) h.2
  rw [σ.inv_act hv] at this
  rw [h.1]
  exact this.symm

theorem Relabel.inv_inv (σ : Relabel) : σ.inv.inv = σ := Relabel.ext' fun _ => _root_.inv_inv _

theorem Relabel.preimage (σ : Relabel) {b : Coef} (hb : b ∈ allCoefs) :
    ∃ a ∈ allCoefs, ∃ c n, σ.sym a b c n := by
  obtain ⟨a, ha, c, n, h⟩ := σ.inv.image hb
  have := Relabel.inv_sym hb h
  rw [σ.inv_inv] at this
  exact ⟨a, ha, c, n, this⟩

theorem Relabel.sym_real (σ : Relabel) {a b : Coef} (ha : a ∈ allCoefs) {c n : Bool}
    (h : σ.sym a b c n) (hr : IsReal b.1 (ixOf b)) : IsReal a.1 (ixOf a) := by
  unfold IsReal at *
  have hv := coef_valid ha
  rw [h.1] at hr
  have h1 := (h.2.trans hr).trans h.2.symm
  refine σ.same_of_act hv hv ?_
  revert h1
  cases c <;> cases n <;> exact fun h => h

/-! ## Covariance is preserved by composition -/

/-- the right-hand side is covariant for all coefficients with a property -/
def Cov (P : (Coef → ℂ) → Prop) (σ : Relabel) : Prop :=
  ∀ (F : Force) (f : ℕ) (p p' : Par) (C C' : Coef → ℂ), NoMassless p → Relabelled σ p p' → P C →
    RealOnReal C → Transformed σ.sym C C' → Transformed σ.sym (rate F f p C) (rate F f p' C')

theorem Relabel.transformed_real {σ : Relabel} {C C' : Coef → ℂ} (h : Transformed σ.sym C C')
    (hC : RealOnReal C) : RealOnReal C' := by
  intro b hb hr
  obtain ⟨a, ha, c, n, hs⟩ := σ.preimage hb
  rw [h a ha b hb c n hs, conjIf_real (hC a ha (σ.sym_real ha hs hr))]
  have := hC a ha (σ.sym_real ha hs hr)
  cases n <;> simp [sgn, this]

theorem Relabel.exists_transformed (σ : Relabel) (C : Coef → ℂ) (hC : RealOnReal C) :
    ∃ C', Transformed σ.sym C C' ∧ ∀ b, (∀ a, (C a).im = 0) → (C' b).im = 0 := by
  classical
  have hex : ∀ b, ∃ z : ℂ, (b ∈ allCoefs → ∀ a ∈ allCoefs, ∀ c n, σ.sym a b c n →
      z = sgn n * conjIf c (C a)) ∧ ((∀ a, (C a).im = 0) → z.im = 0) := by
    intro b
    by_cases hb : b ∈ allCoefs
    · obtain ⟨a, ha, c, n, hs⟩ := σ.preimage hb
      refine ⟨sgn n * conjIf c (C a), fun _ a' ha' c' n' hs' => ?_, fun h => ?_⟩
      · obtain rfl := σ.sym_inj ha ha' hs hs'
        obtain ⟨-, rfl, rfl | hr⟩ := σ.sym_fun hb hb hs hs'
        · rfl
        · have := hC a ha (σ.sym_real ha hs hr)
          rw [conjIf_real this, conjIf_real this]
      · rw [conjIf_real (h a)]
        cases n <;> simp [sgn, h a]
    · exact ⟨0, fun h => absurd h hb, fun _ => rfl⟩
  choose C' hC' using hex
  exact ⟨C', fun a ha b hb c n hs => (hC' b).1 hb a ha c n hs, fun b => (hC' b).2⟩

theorem flavour_index {x : Sp × ℕ} (h : x ∈ flavours) : 1 ≤ x.2 ∧ x.2 ≤ x.1.gens ∧ x.1 ≠ .nu := by
  revert x
  decide

theorem mem_flavours {x : Sp} {i : ℕ} (hx : x ≠ .nu) (h : 1 ≤ i) (h' : i ≤ x.gens) :
    (x, i) ∈ flavours := by
  cases x <;> simp only [Sp.gens] at h' <;> first | (exact absurd rfl hx) | (interval_cases i <;> decide)

theorem Relabelled.noMassless {σ : Relabel} {p p' : Par} (h : Relabelled σ p p') (hp : NoMassless p) :
    NoMassless p' := by
  intro x hx
  obtain ⟨h1, h2, h3⟩ := flavour_index hx
  have hr := σ.inv.ix_range x.1 h1 h2
  have hm := mem_flavours h3 hr.1 hr.2
  have e := h.2.2 _ hm
  have e2 : σ.ix x.1 (σ.inv.ix x.1 x.2) = x.2 := by
    rw [← Relabel.mul_ix _ _ _ h1 (h2.trans (gens_le _))]
    have : σ.mul σ.inv = Relabel.one := Relabel.ext' fun _ => mul_inv_cancel _
    rw [this, Relabel.ix_eq _ _ h1 (h2.trans (gens_le _))]
    change x.2 - 1 + 1 = x.2
    omega
  simp only [e2] at e
  rw [show x = (x.1, x.2) from rfl, e]
  exact hp _ hm

theorem exists_par (v : Sp × ℕ → ℝ) (a b : ℝ) : ∃ p : Par, p.alpha_s = a ∧ p.alpha_e = b ∧
    ∀ x ∈ flavours, mass p x = v x := by
  refine ⟨{ alpha_s := a, alpha_e := b, m_u := v (.u, 1), m_c := v (.u, 2), m_d := v (.d, 1), m_s := v (.d, 2), m_b := v (.d, 3), m_e := v (.e, 1), m_mu := v (.e, 2), m_tau := v (.e, 3) }, rfl, rfl, ?_⟩
  intro x hx
  simp only [flavours, List.mem_cons, List.not_mem_nil, or_false] at hx
  rcases hx with rfl | rfl | rfl | rfl | rfl | rfl | rfl | rfl <;> rfl

theorem Cov.mul {P : (Coef → ℂ) → Prop} (hP : ∀ C C' : Coef → ℂ, P C → (∀ b, (∀ a, (C a).im = 0) → (C' b).im = 0) → P C')
    {σ τ : Relabel} (hσ : Cov P σ) (hτ : Cov P τ) : Cov P (σ.mul τ) := by
  intro F f p p' C C' hm hr hPC hC h
  -- the intermediate parameters and coefficients
  obtain ⟨q, hqs, hqe, hqm⟩ := exists_par (fun x => mass p (x.1, τ.inv.ix x.1 x.2)) p.alpha_s p.alpha_e
  have hτp : Relabelled τ p q := by
    refine ⟨hqs, hqe, fun x hx => ?_⟩
    obtain ⟨h1, h2, h3⟩ := flavour_index hx
    have hri := τ.ix_range x.1 h1 h2
    rw [hqm _ (mem_flavours h3 hri.1 hri.2)]
    simp only
    rw [← Relabel.mul_ix _ _ _ h1 (h2.trans (gens_le _)), τ.inv_mul,
      Relabel.ix_eq _ _ h1 (h2.trans (gens_le _))]
    have : ((Relabel.one.perm x.1 ⟨x.2 - 1, by have := gens_le x.1; omega⟩).val + 1) = x.2 := by
      change x.2 - 1 + 1 = x.2
      omega
    rw [this]
  have hσq : Relabelled σ q p' := by
    refine ⟨hr.1.trans hqs.symm, hr.2.1.trans hqe.symm, fun x hx => ?_⟩
    obtain ⟨h1, h2, h3⟩ := flavour_index hx
    have hri := τ.inv.ix_range x.1 h1 h2
    have e := hr.2.2 _ (mem_flavours h3 hri.1 hri.2)
    simp only at e
    rw [Relabel.mul_ix _ _ _ hri.1 (hri.2.trans (gens_le _))] at e
    have e2 : τ.ix x.1 (τ.inv.ix x.1 x.2) = x.2 := by
      rw [← Relabel.mul_ix _ _ _ h1 (h2.trans (gens_le _))]
      have : τ.mul τ.inv = Relabel.one := Relabel.ext' fun _ => mul_inv_cancel _
      rw [this, Relabel.ix_eq _ _ h1 (h2.trans (gens_le _))]
      change x.2 - 1 + 1 = x.2
      omega
    rw [e2] at e
    rw [e, hqm x hx]
  obtain ⟨D, hD, hDr⟩ := τ.exists_transformed C hC
  have hDreal := Relabel.transformed_real hD hC
  have hD' : Transformed σ.sym D C' := by
    intro b hb d hd c n hs
    obtain ⟨a, ha, c1, n1, hs1⟩ := τ.preimage hb
    rw [h a ha d hd _ _ (Relabel.sym_mul ha hs1 hs), hD a ha b hb c1 n1 hs1, sgn_xor, conjIf_mul, conjIf_sgn,
      conjIf_conjIf, Bool.xor_comm c1 c]
    ring
  have h1 := hτ F f p q C D hm hτp hPC hC hD
  have h2 := hσ F f q p' D C' (hτp.noMassless hm) hσq (hP C D hPC fun b => hDr b) hDreal hD'
  intro a ha d hd c n hs
  obtain ⟨b, hb, c1, n1, hs1⟩ := τ.image ha
  have hs2 : σ.sym b d (xor c1 c) (xor n1 n) := by
    have hi : τ.inv.sym b a c1 n1 := Relabel.inv_sym ha hs1
    have := Relabel.sym_mul hb hi hs
    have e : (σ.mul τ).mul τ.inv = σ := Relabel.ext' fun _ => by
      change _ * _ * _ = _
      rw [mul_assoc]
      exact (congrArg _ (mul_inv_cancel _)).trans (mul_one _)
    rwa [e] at this
  rw [h2 b hb d hd _ _ hs2, h1 a ha b hb c1 n1 hs1, sgn_xor, conjIf_mul, conjIf_sgn, conjIf_conjIf]
  have : xor (xor c1 c) c1 = c := by cases c <;> cases c1 <;> rfl
  rw [this]
  have := sgn_mul_self n1
  linear_combination sgn n * conjIf c (rate F f p C a) * this

/-! ## The exchanges of two generations -/

/-- exchange of two generations of a species -/
def Relabel.gen (s : Sp) (i j : Fin 3) (h : s = .u → i ≠ 2 ∧ j ≠ 2) : Relabel where
  perm x := if x = s then Equiv.swap i j else 1
  top := by
    split
    · next e =>
      have := h e.symm
      exact Equiv.swap_apply_of_ne_of_ne this.1.symm this.2.symm
    · rfl

theorem Relabel.gen_ix (s : Sp) (i j : Fin 3) (h : s = .u → i ≠ 2 ∧ j ≠ 2) (x : Sp) {m : ℕ} (h1 : 1 ≤ m)
    (h3 : m ≤ 3) : (Relabel.gen s i j h).ix x m = if x = s then exch (i.val + 1) (j.val + 1) m else m := by
  rw [Relabel.ix_eq _ _ h1 h3]
  by_cases hx : x = s
  · simp only [gen, if_pos hx, Equiv.swap_apply_def, exch, Fin.ext_iff]
    split_ifs <;> simp_all <;> omega
  · simp only [gen, if_neg hx]
    change m - 1 + 1 = m
    omega

theorem Relabel.gen_act (s : Sp) (i j : Fin 3) (h : s = .u → i ≠ 2 ∧ j ≠ 2) {k : WKey} {ix : List ℕ}
    (hv : Valid k ix) : exchIx s (i.val + 1) (j.val + 1) k ix = (Relabel.gen s i j h).act k ix := by
  unfold Valid Relabel.act exchIx at *
  generalize fields k = fs at hv ⊢
  induction hv with
  | nil => rfl
  | @cons F m fs ix h1 _ ih =>
    simp only [List.zipWith_cons_cons]
    rw [ih, Relabel.gen_ix _ _ _ _ _ h1.1 (h1.2.trans (gens_le _))]

theorem relatives_ne (k : WKey) (ix : List ℕ) : relatives k ix ≠ [] := fun e => by
  have := self_mem_relatives k ix
  rw [e] at this
  cases this

theorem masses_val (p : Par) (h : NoMassless p) : Massive p.masses := by
  intro q
  cases q
  · exact h (.u, 1) (by decide)
  · exact h (.d, 1) (by decide)
  · exact h (.d, 2) (by decide)
  · exact h (.u, 2) (by decide)
  · exact h (.d, 3) (by decide)
  · exact h (.e, 1) (by decide)
  · exact h (.e, 2) (by decide)
  · exact h (.e, 3) (by decide)

/-- covariance under an exchange, from its check -/
theorem gen_cov {s : Sp} {i j : Fin 3} {h : s = .u → i ≠ 2 ∧ j ≠ 2} {x y : ℕ} (hx : x = i.val + 1)
    (hy : y = j.val + 1) {σ : Q → Q} {img : List (ℕ × ℕ)}
    (hchk : symOK σ (exchImgs s x y) img 0 secs = true)
    (hσ : ∀ p p', Relabelled (Relabel.gen s i j h) p p' → ∀ q, (σ q).val p'.masses = q.val p.masses)
    {P : (Coef → ℂ) → Prop} (hP : ∀ C, P C → conjAll img 0 secs = true ∨ ∀ a, (C a).im = 0) :
    Cov P (Relabel.gen s i j h) := by
  subst hx hy
  intro F f p p' C C' hm hr hPC hC ht
  have himgs : ∀ a y, y ∈ exchImgs s (i.val + 1) (j.val + 1) a (ixOf a) → Valid a.1 (ixOf a) →
      y.1 = a.1 ∧ Same a.1 ((Relabel.gen s i j h).act a.1 (ixOf a)) y.2.1 y.2.2.1 y.2.2.2 := by
    intro a y hy hv
    rw [exchImgs, forceIx_eq, Relabel.gen_act s i j h hv] at hy
    obtain ⟨r, hr, rfl⟩ := List.mem_map.1 hy
    exact ⟨rfl, relatives_sound hr⟩
  have hne : ∀ a : Coef, exchImgs s (i.val + 1) (j.val + 1) a (ixOf a) ≠ [] := by
    intro a
    rw [exchImgs, forceIx_eq]
    exact fun e => relatives_ne _ _ (List.map_eq_nil_iff.1 e)
  have hval : ∀ a y, y ∈ exchImgs s (i.val + 1) (j.val + 1) a (ixOf a) → Valid a.1 (ixOf a) →
      Valid y.1 y.2.1 := by
    intro a y hy hv
    obtain ⟨h1, h2⟩ := himgs a y hy hv
    rw [h1]
    exact h2.valid ((Relabel.gen s i j h).act_valid hv)
  refine check_covariance hchk ?_ ?_ ?_ ?_ ?_ (masses_val p hm) (masses_val p' (hr.noMassless hm)) hr.1
    hr.2.1 (hσ p p' hr) (hP C hPC) hC (Relabel.transformed_real ht hC) ht
  · intro a y hy hw
    exact ⟨hval a y hy hw.1, fun p => by rw [(himgs a y hy hw.1).1]⟩
  · intro a ha y hy
    obtain ⟨h1, h2⟩ := himgs a y hy (coef_valid ha)
    refine ⟨h1, ?_⟩
    rw [ixOf_numOf (hval a y hy (coef_valid ha))]
    exact h2
  · intro a _ a' _ c n _
    exact ⟨hne a, hne a'⟩
  · intro a _ a' ha' b' hb' c n c' n' h1 h2
    exact Relabel.sym_fun _ ha' hb' h1 h2
  · intro a ha b hb a' _ c n c' n' h1 h2
    exact Relabel.sym_inj _ ha hb h1 h2

/-- real coefficients -/
def AllReal (C : Coef → ℂ) : Prop := ∀ a, (C a).im = 0

/-- no condition -/
def Any (_ : Coef → ℂ) : Prop := True

theorem AllReal.preserved (C C' : Coef → ℂ) (h : AllReal C)
    (h' : ∀ b, (∀ a, (C a).im = 0) → (C' b).im = 0) : AllReal C' := fun b => h' b h

theorem Any.preserved (C C' : Coef → ℂ) (_ : Any C)
    (_ : ∀ b, (∀ a, (C a).im = 0) → (C' b).im = 0) : Any C' := trivial

section
variable (P : (Coef → ℂ) → Prop)

theorem mass_u12 (p p' : Par) (hr : Relabelled (.gen .u 0 1 (fun _ => by decide)) p p') (q : Q) :
    ((qswap .u .c) q).val p'.masses = q.val p.masses := by
  cases q
  · exact hr.2.2 (.u, 1) (by decide)
  · exact hr.2.2 (.d, 1) (by decide)
  · exact hr.2.2 (.d, 2) (by decide)
  · exact hr.2.2 (.u, 2) (by decide)
  · exact hr.2.2 (.d, 3) (by decide)
  · exact hr.2.2 (.e, 1) (by decide)
  · exact hr.2.2 (.e, 2) (by decide)
  · exact hr.2.2 (.e, 3) (by decide)

theorem cov_u12 : Cov P (.gen .u 0 1 (fun _ => by decide)) :=
  gen_cov (img := img_u12) (x := 1) (y := 2) rfl rfl check_u12 mass_u12 (fun _ _ => .inl conj_u12)
theorem mass_d23 (p p' : Par) (hr : Relabelled (.gen .d 1 2 (fun h => by cases h)) p p') (q : Q) :
    ((qswap .s .b) q).val p'.masses = q.val p.masses := by
  cases q
  · exact hr.2.2 (.u, 1) (by decide)
  · exact hr.2.2 (.d, 1) (by decide)
  · exact hr.2.2 (.d, 2) (by decide)
  · exact hr.2.2 (.u, 2) (by decide)
  · exact hr.2.2 (.d, 3) (by decide)
  · exact hr.2.2 (.e, 1) (by decide)
  · exact hr.2.2 (.e, 2) (by decide)
  · exact hr.2.2 (.e, 3) (by decide)

theorem cov_d23 : Cov P (.gen .d 1 2 (fun h => by cases h)) :=
  gen_cov (img := img_d23) (x := 2) (y := 3) rfl rfl check_d23 mass_d23 (fun _ _ => .inl conj_d23)
theorem mass_e12 (p p' : Par) (hr : Relabelled (.gen .e 0 1 (fun h => by cases h)) p p') (q : Q) :
    ((qswap .e .mu) q).val p'.masses = q.val p.masses := by
  cases q
  · exact hr.2.2 (.u, 1) (by decide)
  · exact hr.2.2 (.d, 1) (by decide)
  · exact hr.2.2 (.d, 2) (by decide)
  · exact hr.2.2 (.u, 2) (by decide)
  · exact hr.2.2 (.d, 3) (by decide)
  · exact hr.2.2 (.e, 1) (by decide)
  · exact hr.2.2 (.e, 2) (by decide)
  · exact hr.2.2 (.e, 3) (by decide)

theorem cov_e12 : Cov P (.gen .e 0 1 (fun h => by cases h)) :=
  gen_cov (img := img_e12) (x := 1) (y := 2) rfl rfl check_e12 mass_e12 (fun _ _ => .inl conj_e12)
theorem mass_e23 (p p' : Par) (hr : Relabelled (.gen .e 1 2 (fun h => by cases h)) p p') (q : Q) :
    ((qswap .mu .tau) q).val p'.masses = q.val p.masses := by
  cases q
  · exact hr.2.2 (.u, 1) (by decide)
  · exact hr.2.2 (.d, 1) (by decide)
  · exact hr.2.2 (.d, 2) (by decide)
  · exact hr.2.2 (.u, 2) (by decide)
  · exact hr.2.2 (.d, 3) (by decide)
  · exact hr.2.2 (.e, 1) (by decide)
  · exact hr.2.2 (.e, 2) (by decide)
  · exact hr.2.2 (.e, 3) (by decide)

theorem cov_e23 : Cov P (.gen .e 1 2 (fun h => by cases h)) :=
  gen_cov (img := img_e23) (x := 2) (y := 3) rfl rfl check_e23 mass_e23 (fun _ _ => .inl conj_e23)
theorem mass_nu12 (p p' : Par) (hr : Relabelled (.gen .nu 0 1 (fun h => by cases h)) p p') (q : Q) :
    (id q).val p'.masses = q.val p.masses := by
  cases q
  · exact hr.2.2 (.u, 1) (by decide)
  · exact hr.2.2 (.d, 1) (by decide)
  · exact hr.2.2 (.d, 2) (by decide)
  · exact hr.2.2 (.u, 2) (by decide)
  · exact hr.2.2 (.d, 3) (by decide)
  · exact hr.2.2 (.e, 1) (by decide)
  · exact hr.2.2 (.e, 2) (by decide)
  · exact hr.2.2 (.e, 3) (by decide)

theorem cov_nu12 : Cov P (.gen .nu 0 1 (fun h => by cases h)) :=
  gen_cov (img := img_nu12) (x := 1) (y := 2) rfl rfl check_nu12 mass_nu12 (fun _ _ => .inl conj_nu12)
theorem mass_nu23 (p p' : Par) (hr : Relabelled (.gen .nu 1 2 (fun h => by cases h)) p p') (q : Q) :
    (id q).val p'.masses = q.val p.masses := by
  cases q
  · exact hr.2.2 (.u, 1) (by decide)
  · exact hr.2.2 (.d, 1) (by decide)
  · exact hr.2.2 (.d, 2) (by decide)
  · exact hr.2.2 (.u, 2) (by decide)
  · exact hr.2.2 (.d, 3) (by decide)
  · exact hr.2.2 (.e, 1) (by decide)
  · exact hr.2.2 (.e, 2) (by decide)
  · exact hr.2.2 (.e, 3) (by decide)

theorem cov_nu23 : Cov P (.gen .nu 1 2 (fun h => by cases h)) :=
  gen_cov (img := img_nu23) (x := 2) (y := 3) rfl rfl check_nu23 mass_nu23 (fun _ _ => .inl conj_nu23)
end

theorem mass_d12 (p p' : Par) (hr : Relabelled (.gen .d 0 1 (fun h => by cases h)) p p') (q : Q) :
    ((qswap .d .s) q).val p'.masses = q.val p.masses := by
  cases q
  · exact hr.2.2 (.u, 1) (by decide)
  · exact hr.2.2 (.d, 1) (by decide)
  · exact hr.2.2 (.d, 2) (by decide)
  · exact hr.2.2 (.u, 2) (by decide)
  · exact hr.2.2 (.d, 3) (by decide)
  · exact hr.2.2 (.e, 1) (by decide)
  · exact hr.2.2 (.e, 2) (by decide)
  · exact hr.2.2 (.e, 3) (by decide)

theorem cov_d12 : Cov AllReal (.gen .d 0 1 (fun h => by cases h)) :=
  gen_cov (img := img_d12) (x := 1) (y := 2) rfl rfl check_d12 mass_d12 (fun _ h => .inr h)
/-! ## All relabellings -/

/-- a relabelling of one species -/
def Relabel.only (s : Sp) (π : Equiv.Perm (Fin 3)) (h : s = .u → π 2 = 2) : Relabel where
  perm x := if x = s then π else 1
  top := by
    split
    · next e => exact h e.symm
    · rfl

theorem perm_three (π : Equiv.Perm (Fin 3)) :
    π = 1 ∨ π = Equiv.swap 0 1 ∨ π = Equiv.swap 1 2 ∨ π = Equiv.swap 0 1 * Equiv.swap 1 2 ∨
      π = Equiv.swap 1 2 * Equiv.swap 0 1 ∨ π = Equiv.swap 0 1 * (Equiv.swap 1 2 * Equiv.swap 0 1) := by
  revert π
  decide

theorem perm_fix_top (π : Equiv.Perm (Fin 3)) (h : π 2 = 2) : π = 1 ∨ π = Equiv.swap 0 1 := by
  revert π
  decide

theorem perm_fix_first (π : Equiv.Perm (Fin 3)) (h : π 0 = 0) : π = 1 ∨ π = Equiv.swap 1 2 := by
  revert π
  decide

section
variable {P : (Coef → ℂ) → Prop}
  (hP : ∀ C C' : Coef → ℂ, P C → (∀ b, (∀ a, (C a).im = 0) → (C' b).im = 0) → P C')
include hP

theorem Cov.one : Cov P Relabel.one := by
  have h := Cov.mul hP (cov_u12 P) (cov_u12 P)
  have e : (Relabel.gen .u 0 1 (fun _ => by decide)).mul (.gen .u 0 1 (fun _ => by decide)) = Relabel.one := by
    refine Relabel.ext' fun x => ?_
    cases x <;> decide
  rwa [e] at h

/-- all relabellings of a species from the exchanges of neighbouring generations -/
theorem Cov.only {s : Sp} (hs : s ≠ .u) (h12 : Cov P (.gen s 0 1 (fun h => absurd h hs)))
    (h23 : Cov P (.gen s 1 2 (fun h => absurd h hs))) (π : Equiv.Perm (Fin 3)) :
    Cov P (.only s π (fun h => absurd h hs)) := by
  have h21 := Cov.mul hP h23 h12
  have key : ∀ (τ : Relabel) (π : Equiv.Perm (Fin 3)), Cov P τ → (∀ x, τ.perm x = if x = s then π else 1) →
      Cov P (.only s π (fun h => absurd h hs)) := by
    intro τ π hτ e
    have : Relabel.only s π (fun h => absurd h hs) = τ := Relabel.ext' fun x => (e x).symm
    rw [this]
    exact hτ
  rcases perm_three π with rfl | rfl | rfl | rfl | rfl | rfl
  · exact key _ _ (Cov.one hP) fun x => by split <;> rfl
  · exact key _ _ h12 fun x => rfl
  · exact key _ _ h23 fun x => rfl
  · refine key _ _ (Cov.mul hP h12 h23) fun x => ?_
    simp only [Relabel.mul, Relabel.gen]; split <;> rfl
  · refine key _ _ h21 fun x => ?_
    simp only [Relabel.mul, Relabel.gen]; split <;> rfl
  · refine key _ _ (Cov.mul hP h12 h21) fun x => ?_
    simp only [Relabel.mul, Relabel.gen]; split <;> rfl

theorem Cov.all {σ : Relabel} (hd : Cov P (.only .d (σ.perm .d) (fun h => by cases h))) : Cov P σ := by
  have he := Cov.only hP (s := .e) (by decide) (cov_e12 P) (cov_e23 P) (σ.perm .e)
  have hn := Cov.only hP (s := .nu) (by decide) (cov_nu12 P) (cov_nu23 P) (σ.perm .nu)
  have hu : Cov P (.only .u (σ.perm .u) (fun _ => σ.top)) := by
    rcases perm_fix_top _ σ.top with e | e
    · have : Relabel.only .u (σ.perm .u) (fun _ => σ.top) = .one :=
        Relabel.ext' fun x => by simp only [Relabel.only, e]; split <;> rfl
      rw [this]; exact Cov.one hP
    · have : Relabel.only .u (σ.perm .u) (fun _ => σ.top) = .gen .u 0 1 (fun _ => by decide) :=
        Relabel.ext' fun x => by simp only [Relabel.only, e]; rfl
      rw [this]; exact cov_u12 P
  have h := Cov.mul hP hu (Cov.mul hP hd (Cov.mul hP he hn))
  have e : ((Relabel.only .u (σ.perm .u) (fun _ => σ.top)).mul
      ((Relabel.only .d (σ.perm .d) (fun h => by cases h)).mul
      ((Relabel.only .e (σ.perm .e) (fun h => by cases h)).mul
        (Relabel.only .nu (σ.perm .nu) (fun h => by cases h))))) = σ := by
    refine Relabel.ext' fun x => ?_
    cases x <;> simp [Relabel.mul, Relabel.only]
  rwa [e] at h

end

/-- covariance under all relabellings that leave the first generation of down quarks alone -/
theorem cov_fix {σ : Relabel} (h : σ.perm .d 0 = 0) : Cov Any σ := by
  refine Cov.all Any.preserved ?_
  rcases perm_fix_first _ h with e | e
  · have : Relabel.only .d (σ.perm .d) (fun h => by cases h) = .one :=
      Relabel.ext' fun x => by simp only [Relabel.only, e]; split <;> rfl
    rw [this]; exact Cov.one Any.preserved
  · have : Relabel.only .d (σ.perm .d) (fun h => by cases h) = .gen .d 1 2 (fun h => by cases h) :=
      Relabel.ext' fun x => by simp only [Relabel.only, e]; rfl
    rw [this]; exact cov_d23 Any

/-- covariance under all relabellings, for real coefficients -/
theorem cov_real (σ : Relabel) : Cov AllReal σ :=
  Cov.all AllReal.preserved (Cov.only AllReal.preserved (by decide) cov_d12 (cov_d23 AllReal) _)

end Verif.WetTab
