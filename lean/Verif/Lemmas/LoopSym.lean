import Verif.Lemmas.LoopFast
import Verif.Spec.Match
import Mathlib.Tactic.IntervalCases

/-!
# Symmetries of the one-loop matching conditions, checked term by term
-/

set_option autoImplicit false

namespace Verif.Loop
open Verif Verif.Spec Verif.Tens Verif.Beta Verif.Rotation Verif.Match Verif.BetaSym

/-- all entries known to be equal to a given one (conjugated if the flag is set) -/
def orb : Cl → Bool → List ℕ → List (Bool × List ℕ)
  | .real, f, [] => [(f, []), (!f, [])]
  | .herm, f, [i, j] => [(f, [i, j]), (!f, [j, i])]
  | .cl4, f, [i, j, k, l] => [(f, [i, j, k, l]), (f, [k, l, i, j]), (!f, [j, i, l, k]), (!f, [l, k, j, i])]
  | .cl5, f, [i, j, k, l] => [(f, [i, j, k, l]), (!f, [j, i, l, k])]
  | _, f, ix => [(f, ix)]

/-- equality of booleans -/
def bbeq : Bool → Bool → Bool
  | true, b => b
  | false, b => !b

/-- equality of index lists -/
def lbeq : List ℕ → List ℕ → Bool
  | [], [] => true
  | a :: as, b :: bs => Nat.beq a b && lbeq as bs
  | _, _ => false

/-- entries known to be equal (one of them conjugated if `cj`) -/
def entEqv (cj : Bool) (n n' : ℕ) (e e' : Var × Bool × List ℕ) : Bool :=
  match e.1, e'.1 with
  | .c k, .c k' => decide (k = k') && (orb (clNoFierz k) e.2.1 (e.2.2.map (dig n))).any fun x =>
      bbeq x.1 (xor cj e'.2.1) && lbeq x.2 (e'.2.2.map (dig n'))
  | _, _ => false

/-- products of entries known to be equal -/
def entsEqv (cj : Bool) (n n' : ℕ) : List (Var × Bool × List ℕ) → List (Var × Bool × List ℕ) → Bool
  | [], [] => true
  | e :: es, e' :: es' => entEqv cj n n' e e' && entsEqv cj n n' es es'
  | _, _ => false

/-- terms known to be equal -/
def itemEqv (cj : Bool) (a b : FItem) : Bool :=
  bif Nat.beq a.coef b.coef then entsEqv cj a.env b.env a.es b.es else false

/-- a relation between the entries of a condition -/
noncomputable def relOk (f : List (Cu × ℕ)) (cj : Bool) (n n' : ℕ) : Bool :=
  permB (itemEqv cj) (fItems n f) (fItems n' f)

/-- for all values of an index -/
noncomputable def all3 (p : ℕ → Bool) : Bool := bif p 0 then bif p 1 then p 2 else false else false

/-- for all values of four indices -/
noncomputable def all81 (p : ℕ → ℕ → ℕ → ℕ → Bool) : Bool :=
  all3 fun i => all3 fun j => all3 fun k => all3 fun l => p i j k l

/-- hermiticity (each pair of related entries is compared once) -/
noncomputable def hermOk (f : List (Cu × ℕ)) : Bool := all81 fun i j k l =>
  bif Nat.ble (pack i j k l) (pack j i l k) then relOk f true (pack i j k l) (pack j i l k) else true
/-- exchange of the two currents -/
noncomputable def exchOk (f : List (Cu × ℕ)) : Bool := all81 fun i j k l =>
  bif Nat.ble (pack i j k l) (pack k l i j) then relOk f false (pack i j k l) (pack k l i j) else true
/-- exchange of two fields -/
noncomputable def fierzOk (f : List (Cu × ℕ)) : Bool := all81 fun i j k l =>
  bif Nat.ble (pack i j k l) (pack i l k j) then relOk f false (pack i j k l) (pack i l k j) else true

theorem herm_ok : ∀ wf ∈ prog2, wetClass wf.1 = 4 ∨ wetClass wf.1 = 5 ∨ wetClass wf.1 = 6 →
    hermOk wf.2 = true := by decide +kernel
theorem exch_ok : ∀ wf ∈ prog2, wetClass wf.1 = 4 ∨ wetClass wf.1 = 6 → exchOk wf.2 = true := by decide +kernel
theorem fierz_ok : ∀ wf ∈ prog2, wetClass wf.1 = 6 → fierzOk wf.2 = true := by decide +kernel

/-! ### Soundness -/

theorem conjIf_not (f : Bool) (z : ℂ) : conjIf (!f) z = (starRingEnd ℂ) (conjIf f z) := by
  cases f <;> simp [conjIf]

theorem conjIf_xor (c f : Bool) (z : ℂ) : conjIf (xor c f) z = conjIf c (conjIf f z) := by
  cases c <;> cases f <;> simp [conjIf]

theorem bbeq_eq {a b : Bool} (h : bbeq a b = true) : a = b := by
  cases a <;> cases b <;> simp_all [bbeq]

theorem lbeq_eq {a b : List ℕ} (h : lbeq a b = true) : a = b := by
  induction a generalizing b with
  | nil => cases b <;> simp_all [lbeq]
  | cons x a ih =>
    cases b with
    | nil => simp [lbeq] at h
    | cons y b =>
      simp only [lbeq, Bool.and_eq_true] at h
      rw [Nat.eq_of_beq_eq_true h.1, ih h.2]

theorem orb_sound (c : Cl) (A : Ten) (hA : Has c A) (f : Bool) (ix : List ℕ) (x : Bool × List ℕ)
    (hx : x ∈ orb c f ix) : conjIf f (A (ix.map fin)) = conjIf x.1 (A (x.2.map fin)) := by
  have triv : x = (f, ix) → conjIf f (A (ix.map fin)) = conjIf x.1 (A (x.2.map fin)) := by rintro rfl; rfl
  cases c with
  | real =>
    match ix, hx with
    | [], hx =>
      simp only [orb, List.mem_cons, List.not_mem_nil, or_false] at hx
      rcases hx with rfl | rfl
      · rfl
      · have : (starRingEnd ℂ) (A []) = A [] := Complex.conj_eq_iff_im.2 hA
        cases f <;> simp [conjIf, this]
    | _ :: _, hx => exact triv (by simpa [orb] using hx)
  | herm =>
    match ix, hx with
    | [i, j], hx =>
      simp only [orb, List.mem_cons, List.not_mem_nil, or_false] at hx
      rcases hx with rfl | rfl
      · rfl
      · have := hA (fin i) (fin j)
        simp only at this
        simp only [List.map_cons, List.map_nil, this, conjIf_not]
        cases f <;> simp [conjIf]
    | [], hx => exact triv (by simpa [orb] using hx)
    | [_], hx => exact triv (by simpa [orb] using hx)
    | _ :: _ :: _ :: _, hx => exact triv (by simpa [orb] using hx)
  | cl4 =>
    match ix, hx with
    | [i, j, k, l], hx =>
      simp only [orb, List.mem_cons, List.not_mem_nil, or_false] at hx
      have h1 := (hA (fin i) (fin j) (fin k) (fin l)).1
      have h2 := (hA (fin i) (fin j) (fin k) (fin l)).2
      have h3 := (hA (fin j) (fin i) (fin l) (fin k)).1
      simp only at h1 h2 h3
      rcases hx with rfl | rfl | rfl | rfl
      · rfl
      · simp only [List.map_cons, List.map_nil, h1]
      · simp only [List.map_cons, List.map_nil, h2, conjIf_not]
        cases f <;> simp [conjIf]
      · simp only [List.map_cons, List.map_nil, h3, h2, conjIf_not]
        cases f <;> simp [conjIf]
    | [], hx => exact triv (by simpa [orb] using hx)
    | [_], hx => exact triv (by simpa [orb] using hx)
    | [_, _], hx => exact triv (by simpa [orb] using hx)
    | [_, _, _], hx => exact triv (by simpa [orb] using hx)
    | _ :: _ :: _ :: _ :: _ :: _, hx => exact triv (by simpa [orb] using hx)
  | cl5 =>
    match ix, hx with
    | [i, j, k, l], hx =>
      simp only [orb, List.mem_cons, List.not_mem_nil, or_false] at hx
      have h2 := hA (fin i) (fin j) (fin k) (fin l)
      simp only at h2
      rcases hx with rfl | rfl
      · rfl
      · simp only [List.map_cons, List.map_nil, h2, conjIf_not]
        cases f <;> simp [conjIf]
    | [], hx => exact triv (by simpa [orb] using hx)
    | [_], hx => exact triv (by simpa [orb] using hx)
    | [_, _], hx => exact triv (by simpa [orb] using hx)
    | [_, _, _], hx => exact triv (by simpa [orb] using hx)
    | _ :: _ :: _ :: _ :: _ :: _, hx => exact triv (by simpa [orb] using hx)
  | any => exact triv (by simpa [orb] using hx)
  | symm => exact triv (by simpa [orb] using hx)
  | cl6 => exact triv (by simpa [orb] using hx)
  | cl7 => exact triv (by simpa [orb] using hx)
  | cl8 => exact triv (by simpa [orb] using hx)

theorem entEqv_sound (C : Key → Ten) (S : LEnv) (hC : ∀ k, Has (clNoFierz k) (C k)) (cj : Bool) (n n' : ℕ)
    (e e' : Var × Bool × List ℕ) (h : entEqv cj n n' e e' = true) :
    fentVal C S n e = conjIf cj (fentVal C S n' e') := by
  obtain ⟨v, f, ix⟩ := e
  obtain ⟨v', f', ix'⟩ := e'
  cases v <;> cases v' <;> simp only [entEqv, Bool.false_eq_true] at h
  rename_i k k'
  rw [Bool.and_eq_true, decide_eq_true_iff, List.any_eq_true] at h
  obtain ⟨rfl, x, hx, hh⟩ := h
  rw [Bool.and_eq_true] at hh
  have e1 := bbeq_eq hh.1
  have e2 := lbeq_eq hh.2
  have := orb_sound (clNoFierz k) (C k) (hC k) f (ix.map (dig n)) x hx
  rw [e1, e2, conjIf_xor, List.map_map, List.map_map] at this
  exact this

theorem conjIf_mul (c : Bool) (a b : ℂ) : conjIf c (a * b) = conjIf c a * conjIf c b := by
  cases c <;> simp [conjIf]

theorem entsEqv_sound (C : Key → Ten) (S : LEnv) (hC : ∀ k, Has (clNoFierz k) (C k)) (cj : Bool) (n n' : ℕ)
    (es es' : List (Var × Bool × List ℕ)) (h : entsEqv cj n n' es es' = true) :
    (es.map (fentVal C S n)).prod = conjIf cj (es'.map (fentVal C S n')).prod := by
  induction es generalizing es' with
  | nil =>
    cases es' with
    | nil => cases cj <;> simp [conjIf]
    | cons => simp [entsEqv] at h
  | cons e es ih =>
    cases es' with
    | nil => simp [entsEqv] at h
    | cons e' es' =>
      simp only [entsEqv, Bool.and_eq_true] at h
      rw [List.map_cons, List.prod_cons, List.map_cons, List.prod_cons, conjIf_mul,
        entEqv_sound C S hC cj n n' e e' h.1, ih es' h.2]

/-- the value of a term with the entries conjugated but not the factor -/
noncomputable def fitemVal' (C : Key → Ten) (S : LEnv) (cj : Bool) (it : FItem) : ℂ :=
  coefVal S it.coef * conjIf cj (it.es.map (fentVal C S it.env)).prod

theorem rel_sum (C : Key → Ten) (S : LEnv) (hC : ∀ k, Has (clNoFierz k) (C k)) (cj : Bool) (n n' : ℕ)
    (f : List (Cu × ℕ)) (h : relOk f cj n n' = true) :
    ((fItems n f).map (fitemVal C S)).sum = ((fItems n' f).map (fitemVal' C S cj)).sum := by
  refine permB_sum (itemEqv cj) _ _ (fun a b hab => ?_) _ _ h
  unfold itemEqv at hab
  cases hb : Nat.beq a.coef b.coef
  · simp [hb] at hab
  · rw [hb, cond_true] at hab
    unfold fitemVal fitemVal'
    rw [Nat.eq_of_beq_eq_true hb, entsEqv_sound C S hC cj _ _ _ _ hab]

theorem all3_iff (p : ℕ → Bool) : all3 p = true ↔ ∀ i : Fin 3, p i = true := by
  unfold all3
  constructor
  · intro h i
    cases h0 : p 0
    · rw [h0] at h; simp at h
    cases h1 : p 1
    · rw [h0, h1] at h; simp at h
    rw [h0, h1, cond_true, cond_true] at h
    fin_cases i
    · exact h0
    · exact h1
    · exact h
  · intro h
    have h0 := h 0
    have h1 := h 1
    have h2 := h 2
    simp only [Fin.val_zero, Fin.val_one, Fin.val_two] at h0 h1 h2
    rw [h0, h1, h2]; rfl

theorem all81_iff (p : ℕ → ℕ → ℕ → ℕ → Bool) :
    all81 p = true ↔ ∀ i j k l : Fin 3, p i j k l = true := by
  unfold all81
  simp only [all3_iff]

/-! ### Complex conjugation of the scalar factors -/

/-- the factors with an imaginary unit -/
def imCoefs : List ℕ := [1, 2, 322, 861, 865, 866, 868, 879, 890, 894, 895, 897, 906, 910, 911, 921, 923]

theorem im_ok : ∀ x ∈ coefTab.zipIdx, ∀ m ∈ x.1,
    (decide (m.headD 0 = 2 ∨ m.headD 0 = 3) = decide (x.2 ∈ imCoefs)) ∧ m.headD 0 < 4 := by decide +kernel

/-- the complex conjugate of the scalars and the CKM matrix -/
noncomputable def LEnv.cp (S : LEnv) : LEnv :=
  { S with g1bar := (starRingEnd ℂ) S.g1bar, V := fun i j => (starRingEnd ℂ) (S.V i j) }

theorem atomR_cp (S : LEnv) (n : ℕ) : atomR S.cp n = atomR S n := by
  unfold atomR LEnv.cp
  rfl

theorem facVal_cp (S : LEnv) (n : ℕ) : facVal S.cp n = (starRingEnd ℂ) (facVal S n) := by
  unfold facVal
  rw [map_zpow₀]
  congr 1
  unfold atomVal
  split_ifs
  · rfl
  · rw [atomR_cp, Complex.conj_ofReal]

theorem monoVal_cp (S : LEnv) (m : List ℕ) (b : Bool) (hb : decide (m.headD 0 = 2 ∨ m.headD 0 = 3) = b)
    (h4 : m.headD 0 < 4) :
    (if b then -1 else 1) * monoVal S.cp m = (starRingEnd ℂ) (monoVal S m) := by
  match m with
  | f :: n :: d :: fs =>
    simp only [monoVal, map_mul, map_div₀, map_natCast, map_list_prod, List.map_map]
    have e : (fs.map (facVal S.cp)) = fs.map ((starRingEnd ℂ) ∘ facVal S) :=
      List.map_congr_left fun x _ => facVal_cp S x
    have hf : (if b then -1 else 1) * flagVal f = (starRingEnd ℂ) (flagVal f) := by
      simp only [List.headD_cons] at hb h4
      subst hb
      unfold flagVal
      interval_cases f <;> simp
    rw [← hf, e]
    ring
  | [] => simp [monoVal]
  | [_] => simp [monoVal]
  | [_, _] => simp [monoVal]

theorem coefVal_cp (S : LEnv) (n : ℕ) :
    (if n ∈ imCoefs then -1 else 1) * coefVal S.cp n = (starRingEnd ℂ) (coefVal S n) := by
  unfold coefVal
  rw [map_list_sum, List.map_map, ← List.sum_map_mul_left]
  congr 1
  apply List.map_congr_left
  intro m hm
  by_cases hn : n < coefTab.length
  · have hx : (coefTab[n], n) ∈ coefTab.zipIdx := List.mk_mem_zipIdx_iff_getElem?.2 (List.getElem?_eq_getElem hn)
    have hg : coefTab.getD n [] = coefTab[n] := by simp [List.getD, hn]
    rw [hg] at hm
    have := im_ok _ hx m hm
    have e := monoVal_cp S m (decide (n ∈ imCoefs)) this.1 this.2
    simpa using e
  · rw [List.getD, List.getElem?_eq_none (by omega)] at hm
    simp at hm

theorem coefVal_real (S : LEnv) (hS : S.g1bar.im = 0) (n : ℕ) (hn : n ∉ imCoefs) :
    (starRingEnd ℂ) (coefVal S n) = coefVal S n := by
  rw [← coefVal_cp, if_neg hn, one_mul]
  have hf : ∀ m, facVal S.cp m = facVal S m := by
    intro m
    unfold facVal atomVal
    have : S.cp.g1bar = S.g1bar := Complex.conj_eq_iff_im.2 hS
    rw [this, atomR_cp]
  have hm : monoVal S.cp = monoVal S := by
    funext m
    match m with
    | f :: n :: d :: fs => simp only [monoVal]; rw [show facVal S.cp = facVal S from funext hf]
    | [] => rfl
    | [_] => rfl
    | [_, _] => rfl
  unfold coefVal
  rw [hm]

end Verif.Loop
