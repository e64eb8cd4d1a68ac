import Verif.Lemmas.MatchLoop
import Verif.Model.LoopCompile

/-!
# Lemmas: charges of the terms of the one-loop matching conditions

Under rephasing of the fermion fields every index of an array carries a charge: a class of fields
(0: left-handed quark doublets and right-handed up-type quarks, 1: right-handed down-type quarks and
left-handed ones in their mass basis, 2: leptons), barred or not.
-/

set_option autoImplicit false
set_option linter.unusedSimpArgs false
set_option linter.unusedSectionVars false
set_option linter.unnecessarySeqFocus false

namespace Verif.Loop
open Verif Verif.Spec Verif.Tens Verif.Beta Verif.Rotation Verif.Match Verif.BetaSym Verif.Flavour

/-- class of a field -/
def cls : Fl → ℕ
  | .q | .u => 0
  | .d => 1
  | .l | .e => 2

/-- a charge: class, barred -/
abbrev Chg := ℕ × Bool

def tyChg (t : Ty Fl) : Chg := (cls t.f, t.bar)
def flipChg (c : Chg) : Chg := (c.1, !c.2)

def keyChg (k : Key) : List Chg := ((smeftTy k).getD []).map tyChg

def dagChg : List Chg → List Chg
  | [a, b] => [flipChg b, flipChg a]
  | [a, b, c, d] => [flipChg b, flipChg a, flipChg d, flipChg c]
  | _ => []

/-- charges of the indices of an operand; none for the operands that identify two indices -/
def opChg : Op → Option (List Chg)
  | .c k => some (keyChg k)
  | .dag k => some (dagChg (keyChg k))
  | .kd | .kdt | .diagU | .diagD | .diagE => none
  | .V => some [(0, true), (1, false)]
  | .Vdag => some [(1, true), (0, false)]
  | .mu | .md | .me => some [(0, true)]
  | .c22 _ | .dag22 _ => some []

/-- conditions on the operands -/
def opFine : List ℕ × Op → Bool
  | (ls, .c k) => (smeftTy k).isSome && ls.length == (keyChg k).length
  | (ls, .dag k) => (smeftTy k).isSome && ls.length == (keyChg k).length &&
      ((keyChg k).length == 2 || (keyChg k).length == 4)
  | (ls, .V) | (ls, .Vdag) => ls.length == 2
  | (ls, .kd) | (ls, .kdt) | (ls, .diagU) | (ls, .diagD) | (ls, .diagE) => ls.length == 2
  | (_, .mu) | (_, .md) | (_, .me) => true
  | (_, .c22 k) | (_, .dag22 k) => (smeftTy k).isSome && (keyChg k == [(0, true), (0, false)])

/-- charges of an operand with its subscripts; the mass vectors carry none -/
def opCh : List ℕ × Op → List (ℕ × Chg)
  | (_, .mu) | (_, .md) | (_, .me) => []
  | (ls, o) => match opChg o with
    | some cs => ls.zip cs
    | none => []

/-- pairs of equal subscripts -/
def opEq : List ℕ × Op → List (ℕ × ℕ)
  | ([a, b], .kd) | ([a, b], .kdt) | ([a, b], .diagU) | ([a, b], .diagD) | ([a, b], .diagE) => [(a, b)]
  | _ => []

/-- a representative of the subscripts equal to a given one -/
def ren : List (ℕ × ℕ) → ℕ → ℕ
  | [], x => x
  | (a, b) :: l, x => if ren l x = ren l b then ren l a else ren l x

/-- the charges of a term with respect to those of the result cancel -/
def tnFine (cs : List Chg) (t : Tn) : Bool :=
  t.sc.all (fun k => decide (smeftTy k = some [])) && t.ops.all opFine && t.outs.length == cs.length &&
  decide t.outs.Nodup &&
  let L := (t.ops.flatMap opCh ++ (t.outs.zip cs).map fun x => (x.1, flipChg x.2)).map fun x =>
    (ren (t.ops.flatMap opEq) x.1, x.2)
  ((L.filter fun x => x.2.2).map fun x => (x.1, x.2.1)).isPerm ((L.filter fun x => !x.2.2).map fun x => (x.1, x.2.1))

section
variable (φ : ℕ → Fin 3 → ℂ)

/-- phase of an index -/
noncomputable def chPh (c : Chg) (i : Fin 3) : ℂ := if c.2 then (starRingEnd ℂ) (φ c.1 i) else φ c.1 i

/-- phase of an index tuple -/
noncomputable def phs : List Chg → Ix → ℂ
  | c :: cs, i :: is => chPh φ c i * phs cs is
  | _, _ => 1

/-- phase of subscripts with charges -/
noncomputable def chProd (ρ : ℕ → Fin 3) (l : List (ℕ × Chg)) : ℂ := (l.map fun x => chPh φ x.2 (ρ x.1)).prod

theorem chProd_append (ρ : ℕ → Fin 3) (l l' : List (ℕ × Chg)) :
    chProd φ ρ (l ++ l') = chProd φ ρ l * chProd φ ρ l' := by
  simp [chProd]

theorem phs_zip (ρ : ℕ → Fin 3) (ls : List ℕ) (cs : List Chg) (h : ls.length = cs.length) :
    phs φ cs (ls.map ρ) = chProd φ ρ (ls.zip cs) := by
  induction ls generalizing cs with
  | nil =>
    cases cs with
    | nil => rfl
    | cons c cs => simp at h
  | cons a ls ih =>
    cases cs with
    | nil => simp at h
    | cons c cs =>
      simp only [List.map_cons, phs, List.zip_cons_cons, chProd, List.prod_cons]
      rw [ih cs (by simpa using h)]
      rfl

theorem chPh_flip (c : Chg) (i : Fin 3) : chPh φ (flipChg c) i = (starRingEnd ℂ) (chPh φ c i) := by
  obtain ⟨c, b⟩ := c
  cases b <;> simp [chPh, flipChg]

variable (hφ : ∀ c i, φ c i * (starRingEnd ℂ) (φ c i) = 1)
include hφ

theorem chPh_unit (c : Chg) (i : Fin 3) : chPh φ c i * (starRingEnd ℂ) (chPh φ c i) = 1 := by
  obtain ⟨c, b⟩ := c
  cases b
  · simpa [chPh] using hφ c i
  · simpa [chPh, mul_comm] using hφ c i

theorem chProd_flip (ρ : ℕ → Fin 3) (l : List (ℕ × Chg)) :
    chProd φ ρ l * chProd φ ρ (l.map fun x => (x.1, flipChg x.2)) = 1 := by
  induction l with
  | nil => simp [chProd]
  | cons x l ih =>
    simp only [chProd, List.map_cons, List.prod_cons, List.map_map] at ih ⊢
    rw [chPh_flip]
    calc _ = (chPh φ x.2 (ρ x.1) * (starRingEnd ℂ) (chPh φ x.2 (ρ x.1))) *
        ((l.map fun x => chPh φ x.2 (ρ x.1)).prod *
          (l.map ((fun x => chPh φ x.2 (ρ x.1)) ∘ fun x => (x.1, flipChg x.2))).prod) := by ring
      _ = 1 := by rw [chPh_unit φ hφ, ih, one_mul]

theorem chProd_balanced (ρ : ℕ → Fin 3) (L : List (ℕ × Chg))
    (h : ((L.filter fun x => x.2.2).map fun x => (x.1, x.2.1)).isPerm
      ((L.filter fun x => !x.2.2).map fun x => (x.1, x.2.1)) = true) : chProd φ ρ L = 1 := by
  have split : ∀ L : List (ℕ × Chg), chProd φ ρ L =
      (starRingEnd ℂ) (((L.filter fun x => x.2.2).map fun x => (x.1, x.2.1)).map fun y => φ y.2 (ρ y.1)).prod *
      (((L.filter fun x => !x.2.2).map fun x => (x.1, x.2.1)).map fun y => φ y.2 (ρ y.1)).prod := by
    intro L
    induction L with
    | nil => simp [chProd]
    | cons x L ih =>
      obtain ⟨a, c, b⟩ := x
      simp only [chProd, List.map_cons, List.prod_cons] at ih ⊢
      rw [ih]
      cases b
      · simp only [List.filter_cons, Bool.false_eq_true, if_false, Bool.not_false, if_true, List.map_cons,
          List.prod_cons, chPh]
        ring
      · simp only [List.filter_cons, Bool.not_true, Bool.false_eq_true, if_false, if_true, List.map_cons,
          List.prod_cons, chPh, map_mul]
        ring
  rw [split]
  rw [((List.isPerm_iff.1 h).map _).prod_eq]
  generalize ((L.filter fun x => !x.2.2).map fun x => (x.1, x.2.1)) = M
  induction M with
  | nil => simp
  | cons y M ih =>
    simp only [List.map_cons, List.prod_cons, map_mul]
    calc _ = (φ y.2 (ρ y.1) * (starRingEnd ℂ) (φ y.2 (ρ y.1))) * ((starRingEnd ℂ) (List.map (fun y => φ y.2 (ρ y.1)) M).prod *
        (List.map (fun y => φ y.2 (ρ y.1)) M).prod) := by ring
      _ = 1 := by rw [hφ, ih, one_mul]

end

theorem ren_val (ρ : ℕ → Fin 3) (l : List (ℕ × ℕ)) (h : ∀ e ∈ l, ρ e.1 = ρ e.2) (x : ℕ) : ρ (ren l x) = ρ x := by
  induction l generalizing x with
  | nil => rfl
  | cons e l ih =>
    obtain ⟨a, b⟩ := e
    have ih := ih fun e he => h e (by simp [he])
    have hab : ρ a = ρ b := h (a, b) (by simp)
    simp only [ren]
    split
    · rename_i hx
      rw [ih, hab, ← ih b, ← hx, ih]
    · exact ih x

/-- rephasing of the CKM matrix -/
noncomputable def LEnv.rephase (φ : ℕ → Fin 3 → ℂ) (S : LEnv) : LEnv :=
  { S with V := fun i j => (starRingEnd ℂ) (φ 0 i) * S.V i j * φ 1 j }

theorem coefVal_rephase (φ : ℕ → Fin 3 → ℂ) (S : LEnv) (n : ℕ) : coefVal (S.rephase φ) n = coefVal S n := rfl

section
variable (φ : ℕ → Fin 3 → ℂ) (hφ : ∀ c i, φ c i * (starRingEnd ℂ) (φ c i) = 1) (C C' : Key → Ten) (S : LEnv)
  (hC : ∀ k, (smeftTy k).isSome = true → ∀ ix : Ix, ix.length = (keyChg k).length → C' k ix = phs φ (keyChg k) ix * C k ix)
include hφ hC

omit hφ hC in
theorem op_eq_ne (o : List ℕ × Op) (ρ : ℕ → Fin 3) (h : opVal C S o.2 (o.1.map ρ) ≠ 0) :
    ∀ e ∈ opEq o, ρ e.1 = ρ e.2 := by
  obtain ⟨ls, o⟩ := o
  intro e he
  unfold opEq at he
  split at he <;> simp only [List.mem_singleton, List.not_mem_nil] at he <;> subst he <;>
    (rename_i hh; obtain ⟨rfl, rfl⟩ := Prod.ext_iff.1 hh) <;>
    (by_contra hne; apply h) <;>
    simp only [opVal, List.map_cons, List.map_nil, eyeT, kdtT, diagT, hne, if_false, ite_eq_right_iff] <;>
    (first | rfl | (rintro ⟨h1, h2⟩; exact absurd (h1.trans h2.symm) hne))

theorem op_ch (o : List ℕ × Op) (ho : opFine o = true) (ρ : ℕ → Fin 3) :
    opVal C' (S.rephase φ) o.2 (o.1.map ρ) = chProd φ ρ (opCh o) * opVal C S o.2 (o.1.map ρ) := by
  obtain ⟨ls, o⟩ := o
  cases o with
  | c k =>
    simp only [opFine, Bool.and_eq_true, beq_iff_eq] at ho
    simp only [opVal, opCh, opChg]
    rw [hC k ho.1 _ (by simpa using ho.2), phs_zip φ ρ ls _ ho.2]
  | dag k =>
    simp only [opFine, Bool.and_eq_true, beq_iff_eq, Bool.or_eq_true] at ho
    obtain ⟨⟨hs, hl⟩, h24⟩ := ho
    have hk := hC k hs
    simp only [opVal, opCh, opChg]
    generalize keyChg k = cs at *
    rcases h24 with h | h
    · match cs, ls, h, hl with
      | [c0, c1], [a, b], _, _ =>
        simp only [List.map_cons, List.map_nil, dagT, dagChg, List.zip_cons_cons, List.zip_nil_right, chProd, List.prod_cons,
          List.prod_nil, chPh_flip]
        rw [hk [ρ b, ρ a] rfl]
        simp only [phs, map_mul, map_one]
        ring
    · match cs, ls, h, hl with
      | [c0, c1, c2, c3], [a, b, c, d], _, _ =>
        simp only [List.map_cons, List.map_nil, dagT, dagChg, List.zip_cons_cons, List.zip_nil_right, chProd, List.prod_cons,
          List.prod_nil, chPh_flip]
        rw [hk [ρ b, ρ a, ρ d, ρ c] rfl]
        simp only [phs, map_mul, map_one]
        ring
  | kd => simp [opVal, opCh, opChg, chProd]
  | kdt => simp [opVal, opCh, opChg, chProd]
  | diagU => simp [opVal, opCh, opChg, chProd, LEnv.rephase]
  | diagD => simp [opVal, opCh, opChg, chProd, LEnv.rephase]
  | diagE => simp [opVal, opCh, opChg, chProd, LEnv.rephase]
  | mu => simp [opVal, opCh, chProd, LEnv.rephase]
  | md => simp [opVal, opCh, chProd, LEnv.rephase]
  | me => simp [opVal, opCh, chProd, LEnv.rephase]
  | V =>
    simp only [opFine, beq_iff_eq] at ho
    match ls, ho with
    | [a, b], _ => simp [opVal, opCh, opChg, chProd, chPh, matrixT, LEnv.rephase]; ring
  | Vdag =>
    simp only [opFine, beq_iff_eq] at ho
    match ls, ho with
    | [a, b], _ => simp [opVal, opCh, opChg, chProd, chPh, matrixT, LEnv.rephase]; ring
  | c22 k =>
    simp only [opFine, Bool.and_eq_true, beq_iff_eq] at ho
    simp only [opVal, opCh, opChg]
    rw [hC k ho.1 [2, 2] (by rw [ho.2]; rfl), ho.2]
    simp only [phs, chPh, if_true, Bool.false_eq_true, if_false, mul_one, mul_comm ((starRingEnd ℂ) (φ 0 2)), hφ, chProd]
    simp
  | dag22 k =>
    simp only [opFine, Bool.and_eq_true, beq_iff_eq] at ho
    simp only [opVal, opCh, opChg, dagT]
    rw [hC k ho.1 [2, 2] (by rw [ho.2]; rfl), ho.2]
    simp only [phs, chPh, if_true, Bool.false_eq_true, if_false, mul_one, mul_comm ((starRingEnd ℂ) (φ 0 2)), hφ, chProd]
    simp

omit hφ hC in
theorem prod_ops (ops : List (List ℕ × Op)) (ρ : ℕ → Fin 3)
    (h : ∀ o ∈ ops, opVal C' (S.rephase φ) o.2 (o.1.map ρ) = chProd φ ρ (opCh o) * opVal C S o.2 (o.1.map ρ)) :
    (ops.map fun o => opVal C' (S.rephase φ) o.2 (o.1.map ρ)).prod =
      chProd φ ρ (ops.flatMap opCh) * (ops.map fun o => opVal C S o.2 (o.1.map ρ)).prod := by
  induction ops with
  | nil => simp [chProd]
  | cons o ops ih =>
    simp only [List.map_cons, List.prod_cons, List.flatMap_cons, chProd_append]
    rw [h o (by simp), ih fun o' ho' => h o' (by simp [ho'])]
    ring

omit hφ hC in
theorem sumOver_ph (l : List ℕ) (F G : (ℕ → Fin 3) → ℂ) (z : ℂ) (ρ₀ : ℕ → Fin 3)
    (h : ∀ ρ, (∀ a, a ∉ l → ρ a = ρ₀ a) → F ρ = z * G ρ) : sumOver l F ρ₀ = z * sumOver l G ρ₀ := by
  induction l generalizing ρ₀ with
  | nil => exact h ρ₀ fun _ _ => rfl
  | cons a l ih =>
    simp only [sumOver, Finset.mul_sum]
    refine Finset.sum_congr rfl fun i _ => ih _ fun ρ hρ => h ρ fun b hb => ?_
    rw [hρ b fun h' => hb (by simp [h'])]
    have hne : b ≠ a := fun e => hb (by simp [e])
    unfold upd
    cases hbb : Nat.beq b a
    · rfl
    · exact absurd (Nat.eq_of_beq_eq_true hbb) hne

omit hφ hC in
theorem assign_map (outs : List ℕ) (hn : outs.Nodup) (ix : Ix) (h : ix.length = outs.length) :
    outs.map (assign 0 outs ix) = ix := by
  induction outs generalizing ix with
  | nil => cases ix with
    | nil => rfl
    | cons i is => simp at h
  | cons a outs ih =>
    cases ix with
    | nil => simp at h
    | cons i is =>
      simp only [List.map_cons, assign]
      have h1 : upd (assign 0 outs is) a i a = i := by simp [upd]
      have h2 : outs.map (upd (assign 0 outs is) a i) = outs.map (assign 0 outs is) := by
        apply List.map_congr_left
        intro b hb
        have hne : b ≠ a := fun e => (List.nodup_cons.1 hn).1 (e ▸ hb)
        unfold upd
        cases hbb : Nat.beq b a
        · rfl
        · exact absurd (Nat.eq_of_beq_eq_true hbb) hne
      rw [h1, h2, ih (List.nodup_cons.1 hn).2 is (by simpa using h)]

omit hφ hC in
theorem chProd_congr (ρ ρ' : ℕ → Fin 3) (l : List (ℕ × Chg)) (h : ∀ x ∈ l, ρ x.1 = ρ' x.1) :
    chProd φ ρ l = chProd φ ρ' l := by
  unfold chProd
  congr 1
  apply List.map_congr_left
  intro x hx
  rw [h x hx]

theorem tn_ch (cs : List Chg) (t : Tn) (ht : tnFine cs t = true) (ix : Ix) (hix : ix.length = cs.length) :
    tnVal C' (S.rephase φ) t ix = phs φ cs ix * tnVal C S t ix := by
  simp only [tnFine, Bool.and_eq_true, beq_iff_eq, decide_eq_true_eq] at ht
  obtain ⟨⟨⟨⟨hsc, hops⟩, hlen⟩, hnd⟩, hp⟩ := ht
  unfold tnVal
  have e1 : (t.sc.map fun k => C' k []).prod = (t.sc.map fun k => C k []).prod := by
    congr 1
    apply List.map_congr_left
    intro k hk
    have := List.all_eq_true.1 hsc k hk
    simp only [decide_eq_true_eq] at this
    rw [hC k (by rw [this]; rfl) [] (by simp [keyChg, this])]
    simp [keyChg, this, phs]
  rw [e1, mul_left_comm]
  congr 1
  refine sumOver_ph _ _ _ _ _ fun ρ hρ => ?_
  rw [prod_ops φ C C' S t.ops ρ fun o ho => op_ch φ hφ C C' S hC o (List.all_eq_true.1 hops o ho) ρ]
  by_cases h0 : (t.ops.map fun o => opVal C S o.2 (o.1.map ρ)).prod = 0
  · rw [h0]; simp
  congr 1
  have hout : ∀ a ∈ t.outs, ρ a = assign 0 t.outs ix a := by
    intro a ha
    refine hρ a fun hin => ?_
    unfold Tn.inner at hin
    have := (List.mem_filter.1 hin).2
    simp only [decide_eq_true_eq] at this
    exact this.2 ha
  have hl' : ix.length = t.outs.length := hix.trans hlen.symm
  have e2 : phs φ cs ix = chProd φ ρ (t.outs.zip cs) := by
    rw [← phs_zip φ ρ _ _ hlen]
    congr 1
    rw [← assign_map t.outs hnd ix hl']
    apply List.map_congr_left
    intro a ha
    rw [hout a ha]
  rw [e2]
  have heq : ∀ e ∈ t.ops.flatMap opEq, ρ e.1 = ρ e.2 := by
    intro e he
    obtain ⟨o, ho, he⟩ := List.mem_flatMap.1 he
    refine op_eq_ne C S o ρ (fun h => h0 ?_) e he
    exact List.prod_eq_zero (List.mem_map.2 ⟨o, ho, h⟩)
  have hb := chProd_balanced φ hφ ρ _ hp
  have hr : chProd φ ρ ((t.ops.flatMap opCh ++ (t.outs.zip cs).map fun x => (x.1, flipChg x.2)).map fun x =>
      (ren (t.ops.flatMap opEq) x.1, x.2)) =
      chProd φ ρ (t.ops.flatMap opCh ++ (t.outs.zip cs).map fun x => (x.1, flipChg x.2)) := by
    unfold chProd
    rw [List.map_map]
    congr 1
    apply List.map_congr_left
    intro x _
    simp only [Function.comp, ren_val ρ _ heq]
  rw [hr, chProd_append] at hb
  have hf := chProd_flip φ hφ ρ (t.outs.zip cs)
  linear_combination chProd φ ρ (t.outs.zip cs) * hb - chProd φ ρ (t.ops.flatMap opCh) * hf

end

/-- charges of the formula of a coefficient: the left-handed quarks of the down-type dipoles are in
their mass basis -/
def formChg (w : WKey) : List Chg :=
  if w ∈ rotated then [(1, true), (1, false)] else (wetTy w).map fun t => (cls (parent t.f), t.bar)

def chunkFine (n : ℕ) : Prop := ∀ wf ∈ (loopProg.drop (9 * n)).take 9, ∀ x ∈ wf.2, tnFine (formChg wf.1) (tnF x.1) = true

noncomputable instance (n : ℕ) : Decidable (chunkFine n) := by unfold chunkFine; infer_instance

set_option maxRecDepth 100000 in
theorem chunk0 : chunkFine 0 := by decide +kernel
set_option maxRecDepth 100000 in
theorem chunk1 : chunkFine 1 := by decide +kernel
set_option maxRecDepth 100000 in
theorem chunk2 : chunkFine 2 := by decide +kernel
set_option maxRecDepth 100000 in
theorem chunk3 : chunkFine 3 := by decide +kernel
set_option maxRecDepth 100000 in
theorem chunk4 : chunkFine 4 := by decide +kernel
set_option maxRecDepth 100000 in
theorem chunk5 : chunkFine 5 := by decide +kernel
set_option maxRecDepth 100000 in
theorem chunk6 : chunkFine 6 := by decide +kernel
set_option maxRecDepth 100000 in
theorem chunk7 : chunkFine 7 := by decide +kernel

set_option maxRecDepth 100000 in
theorem prog_split : loopProg = (List.range 8).flatMap fun n => (loopProg.drop (9 * n)).take 9 := by decide +kernel

theorem tens_fine : ∀ wf ∈ loopProg, ∀ x ∈ wf.2, tnFine (formChg wf.1) (tn x.1) = true := by
  intro wf hm
  rw [prog_split] at hm
  obtain ⟨n, hn, h⟩ := List.mem_flatMap.1 hm
  have : chunkFine n := by
    simp only [List.mem_range] at hn
    match n, hn with
    | 0, _ => exact chunk0
    | 1, _ => exact chunk1
    | 2, _ => exact chunk2
    | 3, _ => exact chunk3
    | 4, _ => exact chunk4
    | 5, _ => exact chunk5
    | 6, _ => exact chunk6
    | 7, _ => exact chunk7
  intro x hx
  rw [← tnF_eq]
  exact this wf h x hx

end Verif.Loop
