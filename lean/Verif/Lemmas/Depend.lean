import Verif.Props.SymmFactors

/-!
# Symmetrization reads the non-redundant entries only

A check on the symbolic result of an array program shows which input entries it depends on;
hence an array with the symmetry of its class is recovered from its non-redundant entries.
-/

set_option autoImplicit false
set_option linter.unusedSectionVars false

namespace Verif.Reflect
open Verif

variable {ι : Type} [DecidableEq ι]

/-- only entries in `S` occur -/
def onlyLF (S : ι → Bool) (l : LF ι) : Bool := l.all fun t => S t.2.1
def onlySV (S : ι → Bool) (v : SV ι) : Bool := onlyLF S v.1 && onlyLF S v.2

lemma evalLF_only {S : ι → Bool} {b b' : ι → ℂ} (hb : ∀ i, S i = true → b i = b' i) (l : LF ι)
    (h : onlyLF S l = true) : evalLF b l = evalLF b' l := by
  induction l with
  | nil => rfl
  | cons t l ih =>
    simp only [onlyLF, List.all_cons, Bool.and_eq_true] at h ih
    rw [evalLF_cons, evalLF_cons, ih h.2]
    simp only [slotVal, hb _ h.1]

theorem run_congr (p : List (Instr ι)) (S : ι → Bool) (dom : List ι)
    (h : (let s := symRun p; dom.all fun i => onlySV S (look s i)) = true)
    {b b' : ι → ℂ} (hb : ∀ i, S i = true → b i = b' i) {i : ι} (hi : i ∈ dom) :
    runProg p b i = runProg p b' i := by
  rw [symRun_sound, symRun_sound]
  simp only [List.all_eq_true] at h
  have := h i hi
  simp only [onlySV, Bool.and_eq_true] at this
  simp only [evalSV, evalLF_only hb _ this.1, evalLF_only hb _ this.2]

end Verif.Reflect

namespace Verif.EFT.Util
open Verif Verif.Spec Verif.EFT Verif.Props Verif.Reflect

variable {a m : I4 → ℂ}

lemma d4_sym (i j k l : Fin 3) : d4 (k, l, i, j) = d4 (i, j, k, l) ∧ d4 (j, i, l, k) = d4 (i, j, k, l) := by
  revert i j k l; decide
lemma d6_sym (i j k l : Fin 3) : d6 (k, l, i, j) = d6 (i, j, k, l) ∧ d6 (j, i, l, k) = d6 (i, j, k, l) ∧
    d6 (i, l, k, j) = d6 (i, j, k, l) := by
  revert i j k l; decide
lemma d7_sym (i j k l : Fin 3) : d7 (j, i, k, l) = d7 (i, j, k, l) := by
  revert i j k l; decide

lemma dne {d : I4 → ℕ} (h : ∀ i, d i ≠ 0) (i : I4) (z : ℂ) : (d i : ℂ) * z / d i = z := by
  have : (d i : ℂ) ≠ 0 := by exact_mod_cast h i
  exact mul_div_cancel_left₀ z this

lemma d4_ne' : ∀ i, d4 i ≠ 0 := by rintro ⟨i, j, k, l⟩; simp [d4]
lemma d6_ne' : ∀ i, d6 i ≠ 0 := by rintro ⟨i, j, k, l⟩; simp [d6]
lemma d7_ne' : ∀ i, d7 i ≠ 0 := by rintro ⟨i, j, k, l⟩; simp [d7]

lemma rec2 {a m : I2 → ℂ} (h : IsClass2 a) (hm : ∀ j, NonRed code2 rels2 j → m j = a j) (i : I2) :
    runProg Gen.symmetrize_2 m i = a i := by
  rw [run_congr Gen.symmetrize_2 (fun i => decide (NonRed code2 rels2 i)) all2I (by decide +kernel)
    (b' := a) (fun j hj => hm j (by simpa using hj)) (mem_all2I i), C20_fixed_class2 a h]

lemma rec9 {a m : I2 → ℂ} (h : IsClass9 a) (hm : ∀ j, NonRed code2 rels9 j → m j = a j) (i : I2) :
    runProg Gen.symmetrize_9 m i = a i := by
  rw [run_congr Gen.symmetrize_9 (fun i => decide (NonRed code2 rels9 i)) all2I (by decide +kernel)
    (b' := a) (fun j hj => hm j (by simpa using hj)) (mem_all2I i), C20_fixed_class9 a h]

lemma rec4 (h : IsClass4 a) (hm : ∀ j, NonRed code4 rels4 j → m j = d4 j * a j) (i : I4) :
    runProg Gen.symmetrize_4 m i / d4 i = a i := by
  rw [run_congr Gen.symmetrize_4 (fun i => decide (NonRed code4 rels4 i)) all4I (by decide +kernel)
    (b' := fun j => d4 j * a j) (fun j hj => hm j (by simpa using hj)) (mem_all4I i),
    C20_fixed_class4 _ (fun i j k l => ?_), dne d4_ne']
  simp only [(d4_sym i j k l).1, (d4_sym i j k l).2, (h i j k l).1, (h i j k l).2, map_mul, map_natCast,
    and_self]

lemma rec41 (h : IsClass41 a) (hm : ∀ j, NonRed code4 rels41 j → m j = d4 j * a j) (i : I4) :
    runProg Gen.symmetrize_41 m i / d4 i = a i := by
  rw [run_congr Gen.symmetrize_41 (fun i => decide (NonRed code4 rels41 i)) all4I (by decide +kernel)
    (b' := fun j => d4 j * a j) (fun j hj => hm j (by simpa using hj)) (mem_all4I i),
    C20_fixed_class41 _ (fun i j k l => ?_), dne d4_ne']
  simp only [(d4_sym i j k l).1, h i j k l]

lemma rec5 (h : IsClass5 a) (hm : ∀ j, NonRed code4 rels5 j → m j = a j) (i : I4) :
    runProg Gen.symmetrize_5 m i = a i := by
  rw [run_congr Gen.symmetrize_5 (fun i => decide (NonRed code4 rels5 i)) all4I (by decide +kernel)
    (b' := a) (fun j hj => hm j (by simpa using hj)) (mem_all4I i), C20_fixed_class5 a h]

lemma rec6 (h : IsClass6 a) (hm : ∀ j, NonRed code4 rels6 j → m j = d6 j * a j) (i : I4) :
    runProg Gen.symmetrize_6 m i / d6 i = a i := by
  rw [run_congr Gen.symmetrize_6 (fun i => decide (NonRed code4 rels6 i)) all4I (by decide +kernel)
    (b' := fun j => d6 j * a j) (fun j hj => hm j (by simpa using hj)) (mem_all4I i),
    C20_fixed_class6 _ (fun i j k l => ?_), dne d6_ne']
  simp only [(d6_sym i j k l).1, (d6_sym i j k l).2, (h i j k l).1, (h i j k l).2, map_mul, map_natCast,
    and_self]

lemma rec7 (h : IsClass7 a) (hm : ∀ j, NonRed code4 rels7 j → m j = d7 j * a j) (i : I4) :
    runProg Gen.symmetrize_7 m i / d7 i = a i := by
  rw [run_congr Gen.symmetrize_7 (fun i => decide (NonRed code4 rels7 i)) all4I (by decide +kernel)
    (b' := fun j => d7 j * a j) (fun j hj => hm j (by simpa using hj)) (mem_all4I i),
    C20_fixed_class7 _ (fun i j k l => ?_), dne d7_ne']
  simp only [d7_sym i j k l, h i j k l]

lemma rec71 (h : IsClass71 a) (hm : ∀ j, NonRed71 j → m j = d7 j * a j)
    (h0 : ∀ i k l, m (i, i, k, l) = 0) (i : I4) :
    runProg Gen.symmetrize_71 m i / d7 i = a i := by
  have ha : ∀ i k l, a (i, i, k, l) = 0 := fun i k l => by
    have := h i i k l
    linear_combination this / 2
  rw [run_congr Gen.symmetrize_71 (fun i => decide (i.1 ≤ i.2.1)) all4I (by decide +kernel)
    (b' := fun j => d7 j * a j) ?_ (mem_all4I i), C20_fixed_class71 _ (fun i j k l => ?_), dne d7_ne']
  · simp only [d7_sym i j k l, h i j k l, mul_neg]
  · rintro ⟨i, j, k, l⟩ hj
    have hj : i ≤ j := by simpa using hj
    rcases hj.lt_or_eq with hlt | rfl
    · exact hm _ hlt
    · simp only [h0, ha, mul_zero]

lemma rec8 (h : IsClass8 a) (hm : ∀ j, NonRed8 j → m j = runProg Gen.unscale_8 a j) (i : I4) :
    runProg Gen.symmetrize_8 (runProg Gen.scale_8 m) i = a i := by
  rw [run_congr Gen.symmetrize_8 (fun i => decide (NonRed8 i)) all4I (by decide +kernel)
    (b' := a) ?_ (mem_all4I i), C20_fixed_class8 a h]
  intro j hj
  rw [run_congr Gen.scale_8 (fun i => decide (NonRed8 i)) (all4I.filter fun i => decide (NonRed8 i))
    (by decide +kernel) (b' := runProg Gen.unscale_8 a) (fun j hj => hm j (by simpa using hj))
    (List.mem_filter.2 ⟨mem_all4I j, hj⟩), C22_scale_unscale]

end Verif.EFT.Util
