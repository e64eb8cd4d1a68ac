import Verif.Lemmas.Covariance

/-!
# Lemmas: an index-type checker for tensor expressions

`check T e τ` computes whether the indices of `e` have the flavours `τ`; soundness
(`check_sound`): then rotating all variables rotates the value of `e`.
-/

set_option autoImplicit false
set_option linter.unusedSectionVars false

namespace Verif.Flavour
open Verif.Tens BigOperators

variable {F κ : Type} [DecidableEq F]

/-! ### Distributing traces -/

/-- `trace (a + b) = trace a + trace b` applied to the top-level sum of the argument -/
def pushTr : E κ → E κ
  | .add a b => .add (pushTr a) (pushTr b)
  | e => .trace e

/-- apply `pushTr` everywhere -/
def distr : E κ → E κ
  | .add a b => .add (distr a) (distr b)
  | .sub a b => .sub (distr a) (distr b)
  | .neg a => .neg (distr a)
  | .mul a b => .mul (distr a) (distr b)
  | .div a b => .div (distr a) (distr b)
  | .pow a n => .pow (distr a) n
  | .mat a b => .mat (distr a) (distr b)
  | .conj a => .conj (distr a)
  | .tr a => .tr (distr a)
  | .trace a => pushTr (distr a)
  | .ein s1 a s2 b s3 c => .ein s1 (distr a) s2 (distr b) s3 (distr c)
  | e => e

theorem eval_pushTr (env : κ → Ten) (e : E κ) : eval env (pushTr e) = traceT (eval env e) := by
  induction e with
  | add a b iha ihb =>
    funext ix
    simp only [pushTr, eval, iha, ihb, traceT, ← Finset.sum_add_distrib]
  | _ => rfl

theorem eval_distr (env : κ → Ten) (e : E κ) : eval env (distr e) = eval env e := by
  induction e with
  | trace a ih => simp only [distr, eval_pushTr, ih, eval]
  | _ => simp_all only [distr, eval]

/-! ### The checker -/

/-- positions of a label -/
def positions (S : List Lbl) (l : Lbl) : List ℕ :=
  (List.range S.length).filter fun p => S[p]? = some l

/-- slot types `Ts` are consistent: an output label has its output type, a summed label
occurs exactly twice, with opposite types -/
def slotOK (S : List Lbl) (Ts τ : List (Ty F)) : Bool :=
  Ts.length == S.length && τ.length == (outLabels S).length &&
  Lbl.all.all fun l => match positions S l with
    | [] => true
    | [p] => decide (Ts[p]? = τ[(outLabels S).idxOf l]?)
    | [p, p'] => decide (Ts[p']? = (Ts[p]?).map Ty.flip)
    | _ => false

/-- guess of the index types (unknown for the identity matrix) -/
def infer (T : κ → List (Ty F)) : E κ → List (Option (Ty F))
  | .t k => (T k).map some
  | .eye => [none, none]
  | .add a _ => infer T a
  | .sub a _ => infer T a
  | .neg a => infer T a
  | .mul a b => match infer T a with
    | [] => infer T b
    | l => l
  | .div a _ => infer T a
  | .mat a b => match infer T a, infer T b with
    | [x, _], [_, y] => [x, y]
    | _, _ => []
  | .conj a => (infer T a).map (Option.map Ty.flip)
  | .tr a => (infer T a).reverse
  | .ein s1 a s2 b s3 c =>
    let S := s1 ++ s2 ++ s3
    let H := infer T a ++ infer T b ++ infer T c
    (outLabels S).map fun l => (H[S.idxOf l]?).join
  | _ => []

/-- the type of a label, from the guesses at its two positions -/
def hint (H : List (Option (Ty F))) : List ℕ → Option (Ty F)
  | [p, p'] => ((H[p]?).join).or (((H[p']?).join).map Ty.flip)
  | _ => none

/-- slot types from output types and guesses -/
def slots (S : List Lbl) (H : List (Option (Ty F))) (τ : List (Ty F)) : Option (List (Ty F)) :=
  (S.zipIdx).mapM fun lp =>
    match positions S lp.1 with
    | [_] => τ[(outLabels S).idxOf lp.1]?
    | [p, p'] => (hint H [p, p']).map fun t => if lp.2 = p then t else t.flip
    | _ => none

/-- `e` has index types `τ` -/
def check (T : κ → List (Ty F)) : E κ → List (Ty F) → Bool
  | .s k, τ => τ.isEmpty && (T k).isEmpty
  | .t k, τ => !τ.isEmpty && decide (τ = T k)
  | .num _, τ => τ.isEmpty
  | .i, τ => τ.isEmpty
  | .eye, τ => match τ with
    | [t, t'] => decide (t' = t.flip)
    | _ => false
  | .add a b, τ => check T a τ && check T b τ
  | .sub a b, τ => check T a τ && check T b τ
  | .neg a, τ => check T a τ
  | .mul a b, τ => (check T a [] && check T b τ) || (check T a τ && check T b [])
  | .div a b, τ => check T a τ && check T b []
  | .pow a _, τ => τ.isEmpty && check T a []
  | .mat a b, τ => match τ with
    | [t, t'] =>
      match (((infer T a)[1]?).join).or ((((infer T b)[0]?).join).map Ty.flip) with
      | some m => check T a [t, m] && check T b [m.flip, t']
      | none => false
    | _ => false
  | .conj a, τ => check T a (τ.map Ty.flip)
  | .tr a, τ => match τ with
    | [t, t'] => check T a [t', t]
    | _ => false
  | .trace a, τ => τ.isEmpty &&
      match (((infer T a)[0]?).join).or ((((infer T a)[1]?).join).map Ty.flip) with
      | some t => check T a [t, t.flip]
      | none => false
  | .ein s1 a s2 b s3 c, τ =>
    match slots (s1 ++ s2 ++ s3) (infer T a ++ infer T b ++ infer T c) τ with
    | some Ts =>
      slotOK (s1 ++ s2 ++ s3) Ts τ && check T a (Ts.take s1.length) &&
        check T b ((Ts.drop s1.length).take s2.length) &&
        check T c (Ts.drop (s1.length + s2.length))
    | none => false

/-! ### Soundness -/

theorem flip_flip (t : Ty F) : t.flip.flip = t := by cases t; simp [Ty.flip]

theorem outLabels_nodup (S : List Lbl) : (outLabels S).Nodup :=
  List.Nodup.filter _ (by decide)

theorem mem_outLabels (S : List Lbl) (l : Lbl) : l ∈ outLabels S ↔ S.count l = 1 := by
  simp only [outLabels, List.mem_filter, decide_eq_true_eq, and_iff_right_iff_imp]
  intro _; cases l <;> decide

theorem mem_positions (S : List Lbl) (l : Lbl) (p : ℕ) : p ∈ positions S l ↔ S[p]? = some l := by
  simp only [positions, List.mem_filter, List.mem_range, decide_eq_true_eq, and_iff_right_iff_imp]
  intro h
  exact (List.getElem?_eq_some_iff.1 h).1

theorem length_positions (S : List Lbl) (l : Lbl) : (positions S l).length = S.count l := by
  induction S using List.reverseRecOn with
  | nil => simp [positions]
  | append_singleton S a ih =>
    have e1 : positions (S ++ [a]) l = positions S l ++ if a = l then [S.length] else [] := by
      unfold positions
      rw [List.length_append, List.length_singleton, List.range_succ, List.filter_append]
      congr 1
      · refine List.filter_congr fun p hp => ?_
        rw [List.getElem?_append_left (List.mem_range.1 hp)]
      · by_cases h : a = l <;> simp [h]
    rw [e1, List.length_append, ih, List.count_append]
    by_cases h : a = l <;> simp [h]

/-- a scalar expression does not depend on the index -/
theorem check_const (T : κ → List (Ty F)) (env : κ → Ten) (e : E κ) (h : check T e [] = true)
    (ix : Ix) : eval env e ix = eval env e [] := by
  induction e generalizing ix with
  | s k => rfl
  | t k => simp [check] at h
  | num n => rfl
  | i => rfl
  | eye => simp [check] at h
  | add a b iha ihb =>
    simp only [check, Bool.and_eq_true] at h
    simp only [eval, iha h.1 ix, ihb h.2 ix]
  | sub a b iha ihb =>
    simp only [check, Bool.and_eq_true] at h
    simp only [eval, iha h.1 ix, ihb h.2 ix]
  | neg a iha => simp only [check] at h; simp only [eval, iha h ix]
  | mul a b iha ihb =>
    simp only [check, Bool.and_eq_true, Bool.or_self] at h
    simp only [eval, iha h.1 ix, ihb h.2 ix]
  | div a b iha ihb =>
    simp only [check, Bool.and_eq_true] at h
    simp only [eval, iha h.1 ix, ihb h.2 ix]
  | pow a n iha =>
    simp only [check, Bool.and_eq_true] at h
    simp only [eval, iha h.2 ix]
  | mat a b => simp [check] at h
  | conj a iha => simp only [check, List.map_nil] at h; simp only [eval, iha h ix]
  | tr a iha => simp [check] at h
  | trace a => rfl
  | ein s1 a s2 b s3 c =>
    simp only [check] at h
    split at h
    · rename_i Ts _
      simp only [Bool.and_eq_true, slotOK, beq_iff_eq] at h
      have h0 : outLabels (s1 ++ s2 ++ s3) = [] := by
        have := h.1.1.1.1.2
        simpa using this.symm
      have hd : ∀ ix, einDom (s1 ++ s2 ++ s3) ix = einDom (s1 ++ s2 ++ s3) [] := by
        intro ix; funext l
        have : (s1 ++ s2 ++ s3).count l ≠ 1 := by
          intro hc
          have := (mem_outLabels _ l).2 hc
          rw [h0] at this; simp at this
        simp only [einDom, this, if_false]
      simp only [eval, einT, hd ix]
    · simp at h

theorem rot_conj (U : F → Matrix (Fin 3) (Fin 3) ℂ) (τ : List (Ty F)) (A : Ten) (ix : Ix) :
    (starRingEnd ℂ) (rot U (τ.map Ty.flip) A ix) = rot U τ (fun j => (starRingEnd ℂ) (A j)) ix := by
  induction τ generalizing A ix with
  | nil => rfl
  | cons t τ ih =>
    cases ix with
    | nil => simp [rot]
    | cons i is =>
      simp only [List.map_cons, rot, map_sum, map_mul]
      refine Finset.sum_congr rfl fun j _ => ?_
      rw [ih]
      congr 1
      rcases t with ⟨f, b⟩
      cases b <;> simp [fac, Ty.flip]

theorem rot2 (U : F → Matrix (Fin 3) (Fin 3) ℂ) (t t' : Ty F) (A : Ten) (i i' : Fin 3) :
    rot U [t, t'] A [i, i'] = ∑ j, ∑ j', fac U t j i * fac U t' j' i' * A [j, j'] := by
  simp only [rot, Finset.mul_sum, mul_assoc]

omit [DecidableEq F] in
theorem slot_get {Ts : List (Ty F)} {p : ℕ} (h : p < Ts.length) : Ts[p]? = some Ts[p] :=
  List.getElem?_eq_getElem h

/-- `einsum` of a rotated array is the rotated `einsum` -/
theorem ein_rot (U : F → Matrix (Fin 3) (Fin 3) ℂ)
    (hU : ∀ f, U f ∈ Matrix.unitaryGroup (Fin 3) ℂ) (S : List Lbl) (Ts τ : List (Ty F))
    (h : slotOK S Ts τ = true) (A : Ten) (ix : Ix) (hix : ix.length = τ.length) :
    ∑ σ ∈ Fintype.piFinset (einDom S ix), rot U Ts A (S.map σ) =
      rot U τ (fun k => ∑ σ ∈ Fintype.piFinset (einDom S k), A (S.map σ)) ix := by
  simp only [slotOK, Bool.and_eq_true, beq_iff_eq] at h
  obtain ⟨⟨hT, hτ⟩, hl⟩ := h
  have hl : ∀ l, (match positions S l with
    | [] => true
    | [p] => decide (Ts[p]? = τ[(outLabels S).idxOf l]?)
    | [p, p'] => decide (Ts[p']? = (Ts[p]?).map Ty.flip)
    | _ => false) = true := fun l => by
      have := List.all_eq_true.1 hl l (by cases l <;> decide)
      exact this
  -- functional forms
  let Sf : Fin S.length → Lbl := fun p => S[p]
  let Tf : Fin S.length → Ty F := fun p => Ts[(p : ℕ)]'(by rw [hT]; exact p.2)
  let out : Fin τ.length → Lbl := fun o => (outLabels S)[(o : ℕ)]'(by rw [← hτ]; exact o.2)
  let ot : Fin τ.length → Ty F := fun o => τ[o]
  let x : Fin τ.length → Fin 3 := fun o => ix[(o : ℕ)]'(by rw [hix]; exact o.2)
  have eT : Ts = List.ofFn Tf := by
    refine List.ext_getElem (by simp [hT]) fun n h1 h2 => ?_
    simp [Tf]
  have eτ : τ = List.ofFn ot := by
    refine List.ext_getElem (by simp) fun n h1 h2 => ?_
    simp [ot]
  have eix : ix = List.ofFn x := by
    refine List.ext_getElem (by simp [hix]) fun n h1 h2 => ?_
    simp [x]
  have eS : ∀ σ : Lbl → Fin 3, S.map σ = List.ofFn fun p => σ (Sf p) := by
    intro σ
    refine List.ext_getElem (by simp) fun n h1 h2 => ?_
    simp [Sf]
  have hSget : ∀ (p : Fin S.length) (l : Lbl), Sf p = l ↔ (p : ℕ) ∈ positions S l := by
    intro p l
    rw [mem_positions]
    simp [Sf]
  have hposlt : ∀ l p, p ∈ positions S l → p < S.length := by
    intro l p hp
    rw [mem_positions] at hp
    exact (List.getElem?_eq_some_iff.1 hp).1
  have hout : ∀ o l, out o = l → (positions S l).length = 1 ∧ (outLabels S).idxOf l = o := by
    intro o l e
    constructor
    · rw [length_positions, ← mem_outLabels, ← e]; exact List.getElem_mem _
    · rw [← e]
      exact List.Nodup.idxOf_getElem (outLabels_nodup S) _ _
  have hcount : ∀ l, (positions S l).length = S.count l := length_positions S
  have hcases : ∀ l, (positions S l = [] ) ∨ (∃ p, positions S l = [p]) ∨
      (∃ p p', positions S l = [p, p'] ∧ p ≠ p') := by
    intro l
    have := hl l
    rcases hpos : positions S l with _ | ⟨p, _ | ⟨p', _ | ⟨p'', r⟩⟩⟩
    · exact Or.inl rfl
    · exact Or.inr (Or.inl ⟨p, rfl⟩)
    · refine Or.inr (Or.inr ⟨p, p', rfl, ?_⟩)
      have hn : (positions S l).Nodup := List.Nodup.filter _ List.nodup_range
      rw [hpos] at hn
      simpa using hn
    · rw [hpos] at this; simp at this
  have key := contract_core U hU Sf Tf out ot ?inj ?cases
    (fun y => einDom S (List.ofFn y)) ?d0 ?d1 ?d2 (fun j => A (List.ofFn j)) x
  · have e1 : rot U τ (fun k => ∑ σ ∈ Fintype.piFinset (einDom S k), A (S.map σ)) ix =
        rot U (List.ofFn ot) (fun k => ∑ σ ∈ Fintype.piFinset (einDom S k), A (S.map σ))
          (List.ofFn x) := by rw [← eτ, ← eix]
    rw [e1, rot_ofFn]
    have e3 : ∀ k : Fin τ.length → Fin 3,
        (∑ σ ∈ Fintype.piFinset (einDom S (List.ofFn k)), A (S.map σ)) =
        ∑ σ ∈ Fintype.piFinset (einDom S (List.ofFn k)), A (List.ofFn fun p => σ (Sf p)) :=
      fun k => Finset.sum_congr rfl fun σ _ => by rw [eS]
    simp only [e3]
    rw [← key]
    have e4 : einDom S ix = einDom S (List.ofFn x) := by rw [← eix]
    rw [e4]
    refine Finset.sum_congr rfl fun σ _ => ?_
    have e5 : rot U Ts A (S.map σ) = rot U (List.ofFn Tf) A (List.ofFn fun p => σ (Sf p)) := by
      rw [← eT, ← eS]
    rw [e5, rot_ofFn]
  case inj =>
    intro a b hab
    have := (List.Nodup.getElem_inj_iff (outLabels_nodup S)).1 hab
    exact Fin.ext this
  case cases =>
    intro l
    rcases hcases l with h0 | ⟨p, hp⟩ | ⟨p, p', hp, hne⟩
    · left
      refine ⟨fun p e => ?_, fun o e => ?_⟩
      · have := (hSget p l).1 e
        rw [h0] at this; simp at this
      · have := (hout o l e).1
        rw [h0] at this; simp at this
    · right; left
      have hplt := hposlt l p (by rw [hp]; simp)
      have hmem : l ∈ outLabels S := by rw [mem_outLabels, ← hcount, hp]; rfl
      have hidx := List.idxOf_lt_length_of_mem hmem
      refine ⟨⟨(outLabels S).idxOf l, by rw [hτ]; exact hidx⟩, ⟨p, hplt⟩, ?_, ?_, ?_, ?_⟩
      · simp [out]
      · exact (hSget ⟨p, hplt⟩ l).2 (by rw [hp]; simp)
      · intro p' e
        have := (hSget p' l).1 e
        rw [hp] at this
        exact Fin.ext (by simpa using this)
      · have := hl l
        rw [hp] at this
        simp only [decide_eq_true_eq] at this
        rw [List.getElem?_eq_getElem (by rw [hT]; exact hplt),
          List.getElem?_eq_getElem (by rw [hτ]; exact hidx)] at this
        simpa [Tf, ot] using this
    · right; right
      have hplt := hposlt l p (by rw [hp]; simp)
      have hplt' := hposlt l p' (by rw [hp]; simp)
      refine ⟨⟨p, hplt⟩, ⟨p', hplt'⟩, ?_, ?_, ?_, ?_, ?_, ?_⟩
      · intro e; exact hne (by simpa using e)
      · exact (hSget ⟨p, hplt⟩ l).2 (by rw [hp]; simp)
      · exact (hSget ⟨p', hplt'⟩ l).2 (by rw [hp]; simp)
      · intro p'' e
        have := (hSget p'' l).1 e
        rw [hp] at this
        simp only [List.mem_cons, List.not_mem_nil, or_false] at this
        rcases this with h | h
        · exact Or.inl (Fin.ext h)
        · exact Or.inr (Fin.ext h)
      · have := hl l
        rw [hp] at this
        simp only [decide_eq_true_eq] at this
        rw [List.getElem?_eq_getElem (by rw [hT]; exact hplt'),
          List.getElem?_eq_getElem (by rw [hT]; exact hplt)] at this
        simpa [Tf] using this
      · intro o e
        have := (hout o l e).1
        rw [hp] at this; simp at this
  case d0 =>
    intro y l h
    have : positions S l = [] := by
      rw [List.eq_nil_iff_forall_not_mem]
      intro p hp
      have hplt := hposlt l p hp
      exact h ⟨p, hplt⟩ ((hSget ⟨p, hplt⟩ l).2 hp)
    have hc : S.count l = 0 := by rw [← hcount, this]; rfl
    simp [einDom, hc]
  case d1 =>
    intro y o
    obtain ⟨h1, h2⟩ := hout o _ rfl
    rw [hcount] at h1
    simp only [einDom, h1, h2]
    simp
  case d2 =>
    intro y l ⟨p, hp⟩ ho
    have hmem := (hSget p l).1 hp
    have h1 : S.count l ≠ 1 := by
      intro hc
      have hm := (mem_outLabels S l).2 hc
      have hidx := List.idxOf_lt_length_of_mem hm
      exact ho ⟨(outLabels S).idxOf l, by rw [hτ]; exact hidx⟩ (by simp [out])
    have h0 : S.count l ≠ 0 := by
      rw [← hcount]
      intro e
      rw [List.length_eq_zero_iff.1 e] at hmem
      simp at hmem
    simp only [einDom]
    rw [if_pos (by omega)]

/-- Soundness of the index-type checker. -/
theorem check_sound (T : κ → List (Ty F)) (U : F → Matrix (Fin 3) (Fin 3) ℂ)
    (hU : ∀ f, U f ∈ Matrix.unitaryGroup (Fin 3) ℂ) (env env' : κ → Ten)
    (henv : ∀ k ix, ix.length = (T k).length → env' k ix = rot U (T k) (env k) ix)
    (e : E κ) (τ : List (Ty F)) (h : check T e τ = true) (ix : Ix) (hix : ix.length = τ.length) :
    eval env' e ix = rot U τ (eval env e) ix := by
  induction e generalizing τ ix with
  | s k =>
    simp only [check, Bool.and_eq_true, List.isEmpty_iff] at h
    obtain ⟨rfl, h2⟩ := h
    have := henv k [] (by rw [h2]; rfl)
    rw [h2] at this
    simpa [eval, rot] using this
  | t k =>
    simp only [check, Bool.and_eq_true, decide_eq_true_eq] at h
    obtain ⟨_, rfl⟩ := h
    exact henv k ix hix
  | num n =>
    simp only [check, List.isEmpty_iff] at h
    subst h; rfl
  | i =>
    simp only [check, List.isEmpty_iff] at h
    subst h; rfl
  | eye =>
    simp only [check] at h
    split at h
    · rename_i t t'
      have e : t' = t.flip := by simpa using h
      subst e
      obtain ⟨i, i', rfl⟩ : ∃ i i', ix = [i, i'] := by
        rcases ix with _ | ⟨i, _ | ⟨i', _ | ⟨_, _⟩⟩⟩ <;> simp_all
      rw [rot2]
      simp only [eval, eyeT]
      simp only [mul_ite, mul_one, mul_zero, Finset.sum_ite_eq, Finset.mem_univ, if_true]
      -- column unitarity
      have hcol : ∑ j, fac U t j i * fac U t.flip j i' = if i = i' then 1 else 0 := by
        have hu := hU t.f
        rw [Matrix.mem_unitaryGroup_iff'] at hu
        rcases t with ⟨f, b⟩
        cases b
        · have := congrFun (congrFun hu i') i
          simp only [Matrix.mul_apply, Matrix.star_apply, Matrix.one_apply] at this
          simp only [fac, Ty.flip, Bool.not_false, if_true, Bool.false_eq_true, if_false]
          rw [Finset.sum_congr rfl fun j _ => mul_comm _ _]
          simpa [eq_comm] using this
        · have := congrFun (congrFun hu i) i'
          simpa [Matrix.mul_apply, fac, Ty.flip, Matrix.one_apply, Matrix.star_apply] using this
      exact hcol.symm
    · simp at h
  | add a b iha ihb =>
    simp only [check, Bool.and_eq_true] at h
    simp only [eval]
    rw [rot_add, iha τ h.1 ix hix, ihb τ h.2 ix hix]
  | sub a b iha ihb =>
    simp only [check, Bool.and_eq_true] at h
    have e : eval env (.sub a b) = fun j => eval env a j + (-1) * eval env b j := by
      funext j; simp only [eval]; ring
    rw [e, rot_add, rot_const_mul, ← iha τ h.1 ix hix, ← ihb τ h.2 ix hix]
    simp only [eval]; ring
  | neg a iha =>
    simp only [check] at h
    have e : eval env (.neg a) = fun j => (-1) * eval env a j := by
      funext j; simp only [eval]; ring
    rw [e, rot_const_mul, ← iha τ h ix hix]
    simp only [eval]; ring
  | mul a b iha ihb =>
    simp only [check, Bool.or_eq_true, Bool.and_eq_true] at h
    rcases h with ⟨h1, h2⟩ | ⟨h1, h2⟩
    · have e : eval env (.mul a b) = fun j => eval env a [] * eval env b j := by
        funext j; simp only [eval]; rw [check_const T env a h1 j]
      rw [e, rot_const_mul, ← ihb τ h2 ix hix]
      simp only [eval]
      rw [check_const T env' a h1 ix, iha [] h1 [] rfl]
      rfl
    · have e : eval env (.mul a b) = fun j => eval env b [] * eval env a j := by
        funext j; simp only [eval]; rw [check_const T env b h2 j, mul_comm]
      rw [e, rot_const_mul, ← iha τ h1 ix hix]
      simp only [eval]
      rw [check_const T env' b h2 ix, ihb [] h2 [] rfl, mul_comm]
      rfl
  | div a b iha ihb =>
    simp only [check, Bool.and_eq_true] at h
    have e : eval env (.div a b) = fun j => (eval env b [])⁻¹ * eval env a j := by
      funext j; simp only [eval]
      rw [check_const T env b h.2 j, div_eq_mul_inv, mul_comm]
    rw [e, rot_const_mul, ← iha τ h.1 ix hix]
    simp only [eval]
    rw [check_const T env' b h.2 ix, ihb [] h.2 [] rfl, div_eq_mul_inv, mul_comm]
    rfl
  | pow a n iha =>
    simp only [check, Bool.and_eq_true, List.isEmpty_iff] at h
    obtain ⟨rfl, h⟩ := h
    simp only [eval, rot]
    rw [check_const T env' a h ix, iha [] h [] rfl]
    rfl
  | mat a b iha ihb =>
    simp only [check] at h
    split at h
    · rename_i t t'
      split at h
      · rename_i m _
        simp only [Bool.and_eq_true] at h
        obtain ⟨i, i', rfl⟩ : ∃ i i', ix = [i, i'] := by
          rcases ix with _ | ⟨i, _ | ⟨i', _ | ⟨_, _⟩⟩⟩ <;> simp_all
        rw [rot2]
        simp only [eval, matT]
        have ha : ∀ k, eval env' a [i, k] = _ := fun k => iha _ h.1 [i, k] rfl
        have hb : ∀ k, eval env' b [k, i'] = _ := fun k => ihb _ h.2 [k, i'] rfl
        simp only [ha, hb, rot2]
        have : ∀ k : Fin 3,
            (∑ j, ∑ j', fac U t j i * fac U m j' k * eval env a [j, j']) *
              (∑ l, ∑ l', fac U m.flip l k * fac U t' l' i' * eval env b [l, l']) =
            ∑ j, ∑ j', ∑ l, ∑ l', fac U t j i * fac U t' l' i' * eval env a [j, j'] *
              eval env b [l, l'] * (fac U m j' k * fac U m.flip l k) := by
          intro k
          rw [Finset.sum_mul]
          refine Finset.sum_congr rfl fun j _ => ?_
          rw [Finset.sum_mul]
          refine Finset.sum_congr rfl fun j' _ => ?_
          rw [Finset.mul_sum]
          refine Finset.sum_congr rfl fun l _ => ?_
          rw [Finset.mul_sum]
          refine Finset.sum_congr rfl fun l' _ => ?_
          ring
        simp only [this]
        rw [Finset.sum_comm]
        refine Finset.sum_congr rfl fun j _ => ?_
        have e2 : ∑ y, ∑ j', ∑ l, ∑ l', fac U t j i * fac U t' l' i' * eval env a [j, j'] *
              eval env b [l, l'] * (fac U m j' y * fac U m.flip l y) =
            ∑ j', ∑ l, ∑ l', fac U t j i * fac U t' l' i' * eval env a [j, j'] *
              eval env b [l, l'] * (if j' = l then 1 else 0) := by
          rw [Finset.sum_comm]
          refine Finset.sum_congr rfl fun j' _ => ?_
          rw [Finset.sum_comm]
          refine Finset.sum_congr rfl fun l _ => ?_
          rw [Finset.sum_comm]
          refine Finset.sum_congr rfl fun l' _ => ?_
          rw [← Finset.mul_sum, fac_contract U hU]
        rw [e2]
        have e3 : ∀ j' : Fin 3, (∑ l, ∑ l', fac U t j i * fac U t' l' i' * eval env a [j, j'] *
              eval env b [l, l'] * (if j' = l then (1 : ℂ) else 0)) =
            ∑ l', fac U t j i * fac U t' l' i' * (eval env a [j, j'] * eval env b [j', l']) := by
          intro j'
          rw [Finset.sum_comm]
          refine Finset.sum_congr rfl fun l' _ => ?_
          simp only [mul_ite, mul_one, mul_zero, Finset.sum_ite_eq, Finset.mem_univ, if_true]
          ring
        simp only [e3]
        rw [Finset.sum_comm]
        refine Finset.sum_congr rfl fun l' _ => ?_
        rw [Finset.mul_sum]
      · simp at h
    · simp at h
  | conj a iha =>
    simp only [check] at h
    simp only [eval]
    rw [iha _ h ix (by simpa using hix), rot_conj]
  | tr a iha =>
    simp only [check] at h
    split at h
    · rename_i t t'
      obtain ⟨i, i', rfl⟩ : ∃ i i', ix = [i, i'] := by
        rcases ix with _ | ⟨i, _ | ⟨i', _ | ⟨_, _⟩⟩⟩ <;> simp_all
      simp only [eval]
      rw [show [i, i'].reverse = [i', i] from rfl, iha _ h [i', i] rfl, rot2, rot2,
        Finset.sum_comm]
      refine Finset.sum_congr rfl fun j _ => ?_
      refine Finset.sum_congr rfl fun j' _ => ?_
      rw [show [j, j'].reverse = [j', j] from rfl]
      ring
    · simp at h
  | trace a iha =>
    simp only [check, Bool.and_eq_true, List.isEmpty_iff] at h
    obtain ⟨rfl, h⟩ := h
    split at h
    · rename_i t _
      simp only [eval, traceT, rot]
      have ha : ∀ k, eval env' a [k, k] = _ := fun k => iha _ h [k, k] rfl
      simp only [ha, rot2]
      rw [Finset.sum_comm]
      refine Finset.sum_congr rfl fun j _ => ?_
      rw [Finset.sum_comm]
      have : ∀ j' : Fin 3, (∑ k, fac U t j k * fac U t.flip j' k * eval env a [j, j']) =
          (if j = j' then 1 else 0) * eval env a [j, j'] := by
        intro j'
        rw [← Finset.sum_mul, fac_contract U hU]
      simp only [this]
      simp
    · simp at h
  | ein s1 a s2 b s3 c iha ihb ihc =>
    simp only [check] at h
    split at h
    · rename_i Ts _
      simp only [Bool.and_eq_true] at h
      obtain ⟨⟨⟨hs, ha⟩, hb⟩, hc⟩ := h
      have hT : Ts.length = (s1 ++ s2 ++ s3).length := by
        simp only [slotOK, Bool.and_eq_true, beq_iff_eq] at hs
        exact hs.1.1
      simp only [List.length_append] at hT
      have l1 : (Ts.take s1.length).length = s1.length := by simp; omega
      have l2 : ((Ts.drop s1.length).take s2.length).length = s2.length := by simp; omega
      have l3 : (Ts.drop (s1.length + s2.length)).length = s3.length := by simp; omega
      simp only [eval, einT]
      let A : Ten := fun j => eval env a (j.take s1.length) *
        eval env b ((j.drop s1.length).take s2.length) *
        eval env c (j.drop (s1.length + s2.length))
      have hTs : Ts = Ts.take s1.length ++ ((Ts.drop s1.length).take s2.length ++
          Ts.drop (s1.length + s2.length)) := by
        conv_lhs => rw [← List.take_append_drop s1.length Ts,
          ← List.take_append_drop s2.length (Ts.drop s1.length), List.drop_drop]
      have hA : ∀ σ : Lbl → Fin 3, eval env' a (s1.map σ) * eval env' b (s2.map σ) *
          eval env' c (s3.map σ) = rot U Ts A ((s1 ++ s2 ++ s3).map σ) := by
        intro σ
        rw [iha _ ha _ (by simpa using l1.symm), ihb _ hb _ (by simpa using l2.symm),
          ihc _ hc _ (by simpa using l3.symm)]
        conv_rhs => rw [hTs]
        rw [List.map_append, List.map_append, List.append_assoc, rot_append _ _ _ _ _ _ (by simpa using l1.symm)]
        refine Eq.trans ?_ (rot_congr U _ (fun j => (rot U ((Ts.drop s1.length).take s2.length) (eval env b) (s2.map σ) *
            rot U (Ts.drop (s1.length + s2.length)) (eval env c) (s3.map σ)) * eval env a j) _ _ ?_)
        · rw [rot_const_mul]; ring
        · intro j hj
          rw [rot_append _ _ _ _ _ _ (by simpa using l2.symm)]
          refine Eq.trans ?_ (rot_congr U _ (fun j' => (eval env a j *
            rot U (Ts.drop (s1.length + s2.length)) (eval env c) (s3.map σ)) * eval env b j') _ _ ?_)
          · rw [rot_const_mul]; ring
          · intro j' hj'
            refine Eq.trans ?_ (rot_congr U _
              (fun j'' => (eval env a j * eval env b j') * eval env c j'') _ _ ?_)
            · rw [rot_const_mul]; ring
            · intro j'' _
              have e1 : (j ++ (j' ++ j'')).take s1.length = j := by
                rw [List.take_append_of_le_length (by omega), List.take_of_length_le (by omega)]
              have e2 : (j ++ (j' ++ j'')).drop s1.length = j' ++ j'' := by
                rw [List.drop_append_of_le_length (by omega), List.drop_of_length_le (by omega),
                  List.nil_append]
              have e3 : (j' ++ j'').take s2.length = j' := by
                rw [List.take_append_of_le_length (by omega), List.take_of_length_le (by omega)]
              have e4 : (j' ++ j'').drop s2.length = j'' := by
                rw [List.drop_append_of_le_length (by omega), List.drop_of_length_le (by omega),
                  List.nil_append]
              simp only [A]
              rw [← List.drop_drop, e1, e2, e3, e4]
      simp only [hA]
      rw [ein_rot U hU _ Ts τ hs A ix hix]
      refine rot_congr U τ _ _ ix fun k _ => ?_
      refine Finset.sum_congr rfl fun σ _ => ?_
      have e2 : (s1 ++ s2 ++ s3).map σ = s1.map σ ++ (s2.map σ ++ s3.map σ) := by simp
      have f1 : (s1.map σ ++ (s2.map σ ++ s3.map σ)).take s1.length = s1.map σ := by
        rw [List.take_append_of_le_length (by simp), List.take_of_length_le (by simp)]
      have f2 : (s1.map σ ++ (s2.map σ ++ s3.map σ)).drop s1.length = s2.map σ ++ s3.map σ := by
        rw [List.drop_append_of_le_length (by simp), List.drop_of_length_le (by simp),
          List.nil_append]
      have f3 : (s2.map σ ++ s3.map σ).take s2.length = s2.map σ := by
        rw [List.take_append_of_le_length (by simp), List.take_of_length_le (by simp)]
      have f4 : (s2.map σ ++ s3.map σ).drop s2.length = s3.map σ := by
        rw [List.drop_append_of_le_length (by simp), List.drop_of_length_le (by simp),
          List.nil_append]
      simp only [A]
      rw [e2, ← List.drop_drop, f1, f2, f3, f4]
    · simp at h

end Verif.Flavour
