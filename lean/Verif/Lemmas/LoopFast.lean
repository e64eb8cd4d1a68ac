import Verif.Lemmas.LoopExpand
import Verif.Gen.LoopCompiled

/-!
# Evaluation of the compiled four-fermion conditions

The functions evaluated by the kernel are written with recursors, which it reduces quickly.
-/

set_option autoImplicit false

namespace Verif.Loop
open Verif Verif.Tens Verif.Beta Verif.Rotation Verif.Match

/-- the value of a subscript -/
def dig (n w : ℕ) : ℕ := Nat.mod (Nat.div n w) 4

/-- the values of the subscripts `p r s t` and `T` in one number -/
def pack (i j k l : ℕ) : ℕ := i + 4 * j + 16 * k + 64 * l + 512

/-- the equations hold -/
noncomputable def eqsOk (n : ℕ) (l : List (ℕ × ℕ)) : Bool :=
  List.rec true (fun x _ ih => bif Nat.beq (dig n x.1) (dig n x.2) then ih else false) l

/-- a term: number of the scalar factor, entries, values of the subscripts -/
structure FItem where
  coef : ℕ
  es : List (Var × Bool × List ℕ)
  env : ℕ

/-- the nonvanishing terms of a condition -/
noncomputable def fItems (n : ℕ) (f : List (Cu × ℕ)) : List FItem :=
  List.rec [] (fun x _ ih => bif eqsOk n x.1.eqs then ⟨x.2, x.1.es, n⟩ :: ih else ih) f

/-- the value of an entry -/
noncomputable def fentVal (C : Key → Ten) (S : LEnv) (n : ℕ) (e : Var × Bool × List ℕ) : ℂ :=
  conjIf e.2.1 (varVal C S e.1 (e.2.2.map fun w => fin (dig n w)))

/-- the value of a term -/
noncomputable def fitemVal (C : Key → Ten) (S : LEnv) (it : FItem) : ℂ :=
  coefVal S it.coef * (it.es.map (fentVal C S it.env)).prod

theorem eqsOk_cons (n : ℕ) (x : ℕ × ℕ) (l : List (ℕ × ℕ)) :
    eqsOk n (x :: l) = bif Nat.beq (dig n x.1) (dig n x.2) then eqsOk n l else false := rfl

theorem eqsOk_iff (n : ℕ) (l : List (ℕ × ℕ)) : eqsOk n l = true ↔ ∀ x ∈ l, dig n x.1 = dig n x.2 := by
  induction l with
  | nil => simp only [List.not_mem_nil, false_imp_iff, implies_true, iff_true]; rfl
  | cons x l ih =>
    rw [eqsOk_cons]
    cases h : Nat.beq (dig n x.1) (dig n x.2)
    · have : dig n x.1 ≠ dig n x.2 := Nat.ne_of_beq_eq_false h
      simp [this]
    · have : dig n x.1 = dig n x.2 := Nat.eq_of_beq_eq_true h
      simp [this, ih]

theorem fItems_cons (n : ℕ) (x : Cu × ℕ) (f : List (Cu × ℕ)) :
    fItems n (x :: f) = bif eqsOk n x.1.eqs then ⟨x.2, x.1.es, n⟩ :: fItems n f else fItems n f := rfl

theorem dig_pack : ∀ i j k l : Fin 3, dig (pack i j k l) 1 = i ∧ dig (pack i j k l) 4 = j ∧
    dig (pack i j k l) 16 = k ∧ dig (pack i j k l) 64 = l ∧ dig (pack i j k l) 256 = 2 := by decide +kernel

theorem dig_lt (n w : ℕ) (h : dig n w ≠ 3) : dig n w < 3 := by
  have : dig n w < 4 := Nat.mod_lt _ (by norm_num)
  omega

/-- the subscript values of an array at given indices, with `T = 2` -/
def Good (ρ : ℕ → Fin 3) (n : ℕ) (a : ℕ) : Prop := (ρ a : ℕ) = dig n (wt a)

theorem good_fin {ρ : ℕ → Fin 3} {n a : ℕ} (h : Good ρ n a) : ρ a = fin (dig n (wt a)) := by
  unfold Good at h
  rw [← h]
  exact Fin.ext (Nat.mod_eq_of_lt (ρ a).2).symm

theorem good_map {ρ : ℕ → Fin 3} {n : ℕ} (l : List ℕ) (h : ∀ a ∈ l, Good ρ n a) :
    l.map ρ = (l.map wt).map fun w => fin (dig n w) := by
  rw [List.map_map]
  exact List.map_congr_left fun a ha => good_fin (h a ha)

theorem op_fast (C : Key → Ten) (S : LEnv) (o : Op) (l : List ℕ) (m : List (ℕ × ℕ)) (h : opEqs o l = some m)
    (ρ : ℕ → Fin 3) (n : ℕ) (hn : dig n 256 = 2) (hg : ∀ a ∈ l, Good ρ n a) :
    opVal C S o (l.map ρ) = if eqsOk n m = true then ((opEnts o l).map (fentVal C S n)).prod else 0 := by
  cases o with
  | c k =>
    simp only [opEqs, Option.some.injEq] at h
    subst h
    rw [if_pos ((eqsOk_iff n []).2 (by simp)), good_map l hg]
    simp [opEnts, opVal, fentVal, conjIf, varVal]
  | dag k =>
    match l, h, hg with
    | [p, r], h, hg =>
      simp only [opEqs, Option.some.injEq] at h
      subst h
      rw [if_pos ((eqsOk_iff n []).2 (by simp)), good_map _ hg]
      simp [opEnts, opVal, fentVal, conjIf, varVal, dagT]
    | [p, r, s, t], h, hg =>
      simp only [opEqs, Option.some.injEq] at h
      subst h
      rw [if_pos ((eqsOk_iff n []).2 (by simp)), good_map _ hg]
      simp [opEnts, opVal, fentVal, conjIf, varVal, dagT]
    | [], h, _ => simp [opEqs] at h
    | [_], h, _ => simp [opEqs] at h
    | [_, _, _], h, _ => simp [opEqs] at h
    | _ :: _ :: _ :: _ :: _ :: _, h, _ => simp [opEqs] at h
  | kd =>
    match l, h, hg with
    | [a, b], h, hg =>
      simp only [opEqs, Option.some.injEq] at h
      subst h
      have ha : (ρ a : ℕ) = dig n (wt a) := hg a (by simp)
      have hb : (ρ b : ℕ) = dig n (wt b) := hg b (by simp)
      simp only [opVal, List.map_cons, List.map_nil, eyeT, opEnts, List.prod_nil, eqsOk_iff,
        List.mem_singleton, forall_eq, ← ha, ← hb]
      by_cases hh : ρ a = ρ b
      · rw [if_pos hh, if_pos (congrArg _ hh)]
      · rw [if_neg hh, if_neg (fun h' => hh (Fin.ext h'))]
    | [], h, _ => simp [opEqs] at h
    | [_], h, _ => simp [opEqs] at h
    | _ :: _ :: _ :: _, h, _ => simp [opEqs] at h
  | kdt =>
    match l, h, hg with
    | [a, b], h, hg =>
      simp only [opEqs, Option.some.injEq] at h
      subst h
      have ha : (ρ a : ℕ) = dig n (wt a) := hg a (by simp)
      have hb : (ρ b : ℕ) = dig n (wt b) := hg b (by simp)
      simp only [opVal, List.map_cons, List.map_nil, kdtT, opEnts, List.prod_nil, eqsOk_iff,
        List.mem_cons, List.not_mem_nil, or_false, forall_eq_or_imp, forall_eq, ← ha, ← hb, hn]
      by_cases hh : ρ a = 2 ∧ ρ b = 2
      · rw [if_pos hh, if_pos ⟨by rw [hh.1]; rfl, by rw [hh.2]; rfl⟩]
      · rw [if_neg hh, if_neg (fun h' => hh ⟨Fin.ext h'.1, Fin.ext h'.2⟩)]
    | [], h, _ => simp [opEqs] at h
    | [_], h, _ => simp [opEqs] at h
    | _ :: _ :: _ :: _, h, _ => simp [opEqs] at h
  | _ => simp [opEqs] at h

theorem ops_fast (C : Key → Ten) (S : LEnv) (ops : List (List ℕ × Op)) (ρ : ℕ → Fin 3) (n : ℕ)
    (hn : dig n 256 = 2) (hg : ∀ o ∈ ops, ∀ a ∈ o.1, Good ρ n a) :
    ∀ m, opsEqs ops = some m → (ops.map fun o => opVal C S o.2 (o.1.map ρ)).prod =
      if eqsOk n m = true then ((ops.flatMap fun o => opEnts o.2 o.1).map (fentVal C S n)).prod else 0 := by
  induction ops with
  | nil =>
    intro m h
    simp only [opsEqs, Option.some.injEq] at h
    subst h
    rw [if_pos ((eqsOk_iff n []).2 (by simp))]
    simp
  | cons o ops ih =>
    intro m h
    simp only [opsEqs, Option.bind_eq_some_iff, Option.map_eq_some_iff] at h
    obtain ⟨a, ha, b, hb, rfl⟩ := h
    rw [List.map_cons, List.prod_cons, op_fast C S o.2 o.1 a ha ρ n hn (hg o (by simp)),
      ih (fun o' ho' => hg o' (by simp [ho'])) b hb, List.flatMap_cons, List.map_append, List.prod_append]
    have e : eqsOk n (a ++ b) = true ↔ eqsOk n a = true ∧ eqsOk n b = true := by
      simp only [eqsOk_iff, List.mem_append, or_imp, forall_and]
    by_cases h1 : eqsOk n a = true
    · by_cases h2 : eqsOk n b = true
      · rw [if_pos h1, if_pos h2, if_pos (e.2 ⟨h1, h2⟩)]
      · rw [if_neg h2, mul_zero, if_neg (fun h' => h2 (e.1 h').2)]
    · rw [if_neg h1, zero_mul, if_neg (fun h' => h1 (e.1 h').1)]

theorem eqsOk_filter (n : ℕ) (m : List (ℕ × ℕ)) :
    eqsOk n (m.filter fun x => x.1 ≠ x.2) = eqsOk n m := by
  rw [Bool.eq_iff_iff, eqsOk_iff, eqsOk_iff]
  simp only [List.mem_filter]
  constructor
  · intro h x hx
    by_cases e : x.1 = x.2
    · rw [e]
    · exact h x ⟨hx, by simpa using e⟩
  · intro h x hx
    exact h x hx.1

theorem tn_fast (C : Key → Ten) (S : LEnv) (t : Tn) (u : Cu) (h : compile t = some u) (i j k l : Fin 3) :
    tnVal C S t [i, j, k, l] =
      if eqsOk (pack i j k l) u.eqs = true then (u.es.map (fentVal C S (pack i j k l))).prod else 0 := by
  unfold compile at h
  split_ifs at h with hc
  obtain ⟨ho, hc⟩ := hc
  obtain ⟨m, hm, rfl⟩ := Option.map_eq_some_iff.1 h
  obtain ⟨d1, d2, d3, d4, d5⟩ := dig_pack i j k l
  have key : sumOver t.inner (fun ρ => (t.ops.map fun o => opVal C S o.2 (o.1.map ρ)).prod)
      (assign 0 t.outs [i, j, k, l]) =
      if eqsOk (pack i j k l) m = true then
        ((t.ops.flatMap fun o => opEnts o.2 o.1).map (fentVal C S (pack i j k l))).prod else 0 := by
    rw [ho]
    rcases hc with ⟨hi, hl⟩ | ⟨hi, hk, hl⟩
    · rw [hi]
      refine ops_fast C S t.ops _ _ d5 (fun o ho' a ha => ?_) m hm
      have := hl o ho' a ha
      simp only [List.mem_cons, List.not_mem_nil, or_false] at this
      rcases this with rfl | rfl | rfl | rfl
      · exact d1.symm
      · exact d2.symm
      · exact d3.symm
      · exact d4.symm
    · rw [hi]
      simp only [sumOver]
      have hz : ∀ x : Fin 3, x ≠ 2 → (t.ops.map fun o => opVal C S o.2
          (o.1.map (upd (assign 0 [4, 5, 6, 7] [i, j, k, l]) 0 x))).prod = 0 := by
        intro x hx
        apply List.prod_eq_zero
        refine List.mem_map.2 ⟨_, hk, ?_⟩
        have e : upd (assign 0 [4, 5, 6, 7] [i, j, k, l]) 0 x 0 = x := rfl
        simp only [List.map_cons, List.map_nil, e, opVal, kdtT]
        rw [if_neg (fun h' => hx h'.1)]
      rw [Fin.sum_univ_three, hz 0 (by decide), hz 1 (by decide), zero_add, zero_add]
      refine ops_fast C S t.ops _ _ d5 (fun o ho' a ha => ?_) m hm
      have := hl o ho' a ha
      simp only [List.mem_cons, List.not_mem_nil, or_false] at this
      rcases this with rfl | rfl | rfl | rfl | rfl
      · exact d5.symm
      · exact d1.symm
      · exact d2.symm
      · exact d3.symm
      · exact d4.symm
  unfold tnVal
  rw [key]
  show _ = if eqsOk _ (m.filter fun x => x.1 ≠ x.2) = true then _ else _
  rw [eqsOk_filter]
  simp only [List.map_append, List.prod_append, List.map_map]
  by_cases h1 : eqsOk (pack i j k l) m = true
  · rw [if_pos h1, if_pos h1]
    congr 1
  · rw [if_neg h1, if_neg h1, mul_zero]

theorem form_fast (C : Key → Ten) (S : LEnv) (w : WKey) (f : List (ℕ × ℕ)) (g : List (Cu × ℕ))
    (h : compileForm (w, f) = some (w, g)) (i j k l : Fin 3) :
    formVal C S f [i, j, k, l] = ((fItems (pack i j k l) g).map (fitemVal C S)).sum := by
  unfold compileForm at h
  obtain ⟨g', hg, e⟩ := Option.map_eq_some_iff.1 h
  obtain rfl := (Prod.ext_iff.1 e).2
  clear h e
  simp only [tnF_eq] at hg
  unfold formVal
  induction f generalizing g' with
  | nil =>
    simp only [List.mapM_nil] at hg
    obtain rfl := Option.some.inj hg
    rfl
  | cons x f ih =>
    simp only [List.mapM_cons, Option.bind_eq_bind, Option.bind_eq_some_iff, Option.map_eq_some_iff] at hg
    obtain ⟨y, ⟨u, hu, rfl⟩, g'', hg'', e⟩ := hg
    obtain rfl := Option.some.inj e
    simp only [List.map_cons, List.sum_cons]
    rw [ih g'' hg'', tn_fast C S _ u hu, fItems_cons]
    by_cases h1 : eqsOk (pack i j k l) u.eqs = true
    · rw [if_pos h1]
      simp only [h1, cond_true, List.map_cons, List.sum_cons]
      rfl
    · rw [if_neg h1]
      simp only [Bool.not_eq_true] at h1
      simp only [h1, cond_false, mul_zero, zero_add]

/-- every condition of the compiled program is one of the program -/
theorem of_mem_prog2 {w : WKey} {g : List (Cu × ℕ)} (h : (w, g) ∈ prog2) :
    ∃ f, (w, f) ∈ loopProg ∧ compileForm (w, f) = some (w, g) := by
  rw [← prog2_eq] at h
  obtain ⟨⟨w', f⟩, hf, e⟩ := List.mem_filterMap.1 h
  have : w' = w := by
    unfold compileForm at e
    obtain ⟨_, _, e⟩ := Option.map_eq_some_iff.1 e
    exact (Prod.ext_iff.1 e).1
  subst this
  exact ⟨f, hf, e⟩

/-! ### Comparing lists of terms up to order -/

/-- remove the first element satisfying a condition -/
noncomputable def remove {α : Type} (p : α → Bool) (l : List α) : Option (List α) :=
  List.rec none (fun a l ih => bif p a then some l else Option.rec none (fun m => some (a :: m)) ih) l

/-- the second list is a permutation of the first one up to a relation -/
noncomputable def permB {α : Type} (eqv : α → α → Bool) (l : List α) : List α → Bool :=
  List.rec (motive := fun _ => List α → Bool) (fun l => List.rec true (fun _ _ _ => false) l)
    (fun a _ ih l => Option.rec false (fun m => ih m) (remove (eqv a) l)) l

theorem remove_cons {α : Type} (p : α → Bool) (a : α) (l : List α) : remove p (a :: l) =
    bif p a then some l else Option.rec none (fun m => some (a :: m)) (remove p l) := rfl

theorem permB_cons {α : Type} (eqv : α → α → Bool) (a : α) (l l' : List α) : permB eqv (a :: l) l' =
    Option.rec false (fun m => permB eqv l m) (remove (eqv a) l') := rfl

theorem remove_sum {α : Type} (p : α → Bool) (v : α → ℂ) (l l' : List α) (h : remove p l = some l') :
    ∃ b, p b = true ∧ (l.map v).sum = v b + (l'.map v).sum := by
  induction l generalizing l' with
  | nil => simp [remove] at h
  | cons a l ih =>
    rw [remove_cons] at h
    cases hp : p a
    · rw [hp, cond_false] at h
      cases hr : remove p l with
      | none => rw [hr] at h; simp at h
      | some m =>
        rw [hr] at h
        obtain rfl := Option.some.inj h
        obtain ⟨b, hb, e⟩ := ih m hr
        exact ⟨b, hb, by simp only [List.map_cons, List.sum_cons, e]; ring⟩
    · rw [hp, cond_true] at h
      obtain rfl := Option.some.inj h
      exact ⟨a, hp, by simp⟩

theorem permB_sum {α : Type} (eqv : α → α → Bool) (v v' : α → ℂ) (he : ∀ a b, eqv a b = true → v a = v' b)
    (l l' : List α) (h : permB eqv l l' = true) : (l.map v).sum = (l'.map v').sum := by
  induction l generalizing l' with
  | nil =>
    cases l' with
    | nil => rfl
    | cons b l' => exact absurd h (by simp [permB])
  | cons a l ih =>
    rw [permB_cons] at h
    cases hr : remove (eqv a) l' with
    | none => rw [hr] at h; simp at h
    | some m =>
      rw [hr] at h
      obtain ⟨b, hb, e⟩ := remove_sum (eqv a) v' l' m hr
      rw [List.map_cons, List.sum_cons, e, ih m h, he a b hb]

end Verif.Loop
