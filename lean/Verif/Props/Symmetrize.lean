import Verif.Lemmas.Symmetrize

/-!
# C19, C20: the symmetrization functions of `EFTutil`

The programs `Gen.symmetrize_*` are the assignment lists of
`/repo/wilson/util/common.py:323-888`; `runProg p b` is what the function returns
for input array `b`.  The symmetry relations are those of `Spec/Symmetry.lean`.
-/

set_option autoImplicit false
set_option linter.unnecessarySeqFocus false

namespace Verif.Props
open Verif Verif.Spec Verif.Reflect

/-! ## C19: the result has the symmetry of the operator class -/

theorem C19_class2 (b : I2 → ℂ) : IsClass2 (runProg Gen.symmetrize_2 b) := by
  intro i j
  have := rel_of_check Gen.symmetrize_2 (fun (i, j) => (j, i)) conjSV all2I (by decide +kernel) b
    (mem_all2I (i, j))
  rw [evalSV_conj, ← symRun_sound] at this; exact this

theorem C19_class9 (b : I2 → ℂ) : IsClass9 (runProg Gen.symmetrize_9 b) := by
  intro i j
  have := rel_of_check Gen.symmetrize_9 (fun (i, j) => (j, i)) id all2I (by decide +kernel) b
    (mem_all2I (i, j))
  rw [id, ← symRun_sound] at this; exact this

theorem C19_class4 (b : I4 → ℂ) : IsClass4 (runProg Gen.symmetrize_4 b) := by
  intro i j k l
  constructor
  · have := rel_of_check' fast4 Gen.symmetrize_4 (fun (i, j, k, l) => (k, l, i, j)) id all4I
      (by decide +kernel) b (mem_all4I (i, j, k, l))
    rw [id, ← symRun_sound] at this; exact this
  · have := rel_of_check' fast4 Gen.symmetrize_4 (fun (i, j, k, l) => (j, i, l, k)) conjSV all4I
      (by decide +kernel) b (mem_all4I (i, j, k, l))
    rw [evalSV_conj, ← symRun_sound] at this; exact this

theorem C19_class41 (b : I4 → ℂ) : IsClass41 (runProg Gen.symmetrize_41 b) := by
  intro i j k l
  have := rel_of_check' fast4 Gen.symmetrize_41 (fun (i, j, k, l) => (k, l, i, j)) id all4I
    (by decide +kernel) b (mem_all4I (i, j, k, l))
  rw [id, ← symRun_sound] at this; exact this

theorem C19_class5 (b : I4 → ℂ) : IsClass5 (runProg Gen.symmetrize_5 b) := by
  intro i j k l
  have := rel_of_check' fast4 Gen.symmetrize_5 (fun (i, j, k, l) => (j, i, l, k)) conjSV all4I
    (by decide +kernel) b (mem_all4I (i, j, k, l))
  rw [evalSV_conj, ← symRun_sound] at this; exact this

theorem C19_class6 (b : I4 → ℂ) : IsClass6 (runProg Gen.symmetrize_6 b) := by
  intro i j k l
  refine ⟨?_, ?_, ?_⟩
  · have := rel_of_check' fast4 Gen.symmetrize_6 (fun (i, j, k, l) => (k, l, i, j)) id all4I
      (by decide +kernel) b (mem_all4I (i, j, k, l))
    rw [id, ← symRun_sound] at this; exact this
  · have := rel_of_check' fast4 Gen.symmetrize_6 (fun (i, j, k, l) => (j, i, l, k)) conjSV all4I
      (by decide +kernel) b (mem_all4I (i, j, k, l))
    rw [evalSV_conj, ← symRun_sound] at this; exact this
  · have := rel_of_check' fast4 Gen.symmetrize_6 (fun (i, j, k, l) => (i, l, k, j)) id all4I
      (by decide +kernel) b (mem_all4I (i, j, k, l))
    rw [id, ← symRun_sound] at this; exact this

theorem C19_class7 (b : I4 → ℂ) : IsClass7 (runProg Gen.symmetrize_7 b) := by
  intro i j k l
  have := rel_of_check' fast4 Gen.symmetrize_7 (fun (i, j, k, l) => (j, i, k, l)) id all4I
    (by decide +kernel) b (mem_all4I (i, j, k, l))
  rw [id, ← symRun_sound] at this; exact this

theorem C19_class8 (b : I4 → ℂ) : IsClass8 (runProg Gen.symmetrize_8 b) := by
  have h : (let s := symRun Gen.symmetrize_8; all4I.all fun (p, r, q, t) =>
      sameSV (addSV (look s (p, r, q, t)) (look s (r, p, q, t)))
        (addSV (look s (q, p, r, t)) (look s (q, r, p, t)))) = true := by decide +kernel
  intro p r q t
  simp only [List.all_eq_true] at h
  have := sameSV_sound b (h (p, r, q, t) (mem_all4I _))
  rw [evalSV_add, evalSV_add] at this
  simpa only [symRun_sound] using this

/-- Class 71 (antisymmetric): the off-diagonal part becomes antisymmetric, the diagonal
`i = j` is returned as given; the result is antisymmetric for every input whose diagonal
vanishes (as it does for arrays made from WCxf names).  Missing for the full property:
inputs with a non-zero diagonal, see `C19_class71_violation`. -/
theorem C19_class71_partial (b : I4 → ℂ) :
    (∀ i j k l, i ≠ j → runProg Gen.symmetrize_71 b (j, i, k, l)
      = - runProg Gen.symmetrize_71 b (i, j, k, l)) ∧
    (∀ i k l, runProg Gen.symmetrize_71 b (i, i, k, l) = b (i, i, k, l)) ∧
    ((∀ i k l, b (i, i, k, l) = 0) → IsClass71 (runProg Gen.symmetrize_71 b)) := by
  have h1 : ∀ i j k l, i ≠ j → runProg Gen.symmetrize_71 b (j, i, k, l)
      = - runProg Gen.symmetrize_71 b (i, j, k, l) := by
    intro i j k l hij
    have := rel_of_check' fast4 Gen.symmetrize_71 (fun (i, j, k, l) => (j, i, k, l)) (scaleSV (-1))
      (all4I.filter fun (i, j, _, _) => decide (i ≠ j)) (by decide +kernel) b (i := (i, j, k, l))
      (List.mem_filter.2 ⟨mem_all4I _, by simpa using hij⟩)
    rw [evalSV_scale, ← symRun_sound] at this
    rw [this]; push_cast; ring
  have h2 : ∀ i k l, runProg Gen.symmetrize_71 b (i, i, k, l) = b (i, i, k, l) := by
    intro i k l
    rw [run_eq_of_check' fast4 Gen.symmetrize_71 svOf (all4I.filter fun (i, j, _, _) => decide (i = j))
      (by decide +kernel) b (i := (i, i, k, l)) (List.mem_filter.2 ⟨mem_all4I _, by simp⟩),
      evalSV_svOf]
  refine ⟨h1, h2, fun h0 i j k l => ?_⟩
  by_cases hij : i = j
  · subst hij; rw [h2, h0]; simp
  · exact h1 i j k l hij

/-- The full claim fails for class 71: an input with a diagonal entry is not made
antisymmetric (`util/common.py:746-776` never assigns the entries `[i, i, :, :]`). -/
theorem C19_class71_violation : ∃ b : I4 → ℂ, ¬ IsClass71 (runProg Gen.symmetrize_71 b) := by
  refine ⟨fun _ => 1, fun h => ?_⟩
  have := h 0 0 0 0
  rw [(C19_class71_partial _).2.1] at this
  norm_num at this

/-! ## C20: the given non-redundant entries survive, symmetric arrays are fixed points -/

theorem C20_nonred_class2 (b : I2 → ℂ) (i : I2) (h : NonRed code2 rels2 i) :
    runProg Gen.symmetrize_2 b i = if SelfConj rels2 i then ((b i).re : ℂ) else b i :=
  orbit_nonred _ _ _ all2I (by decide +kernel) b (mem_all2I i) h
theorem C20_nonred_class9 (b : I2 → ℂ) (i : I2) (h : NonRed code2 rels9 i) :
    runProg Gen.symmetrize_9 b i = if SelfConj rels9 i then ((b i).re : ℂ) else b i :=
  orbit_nonred _ _ _ all2I (by decide +kernel) b (mem_all2I i) h
theorem C20_nonred_class4 (b : I4 → ℂ) (i : I4) (h : NonRed code4 rels4 i) :
    runProg Gen.symmetrize_4 b i = if SelfConj rels4 i then ((b i).re : ℂ) else b i :=
  orbit_nonred' fast4 _ _ _ all4I (by decide +kernel) b (mem_all4I i) h
theorem C20_nonred_class41 (b : I4 → ℂ) (i : I4) (h : NonRed code4 rels41 i) :
    runProg Gen.symmetrize_41 b i = if SelfConj rels41 i then ((b i).re : ℂ) else b i :=
  orbit_nonred' fast4 _ _ _ all4I (by decide +kernel) b (mem_all4I i) h
theorem C20_nonred_class5 (b : I4 → ℂ) (i : I4) (h : NonRed code4 rels5 i) :
    runProg Gen.symmetrize_5 b i = if SelfConj rels5 i then ((b i).re : ℂ) else b i :=
  orbit_nonred' fast4 _ _ _ all4I (by decide +kernel) b (mem_all4I i) h
theorem C20_nonred_class6 (b : I4 → ℂ) (i : I4) (h : NonRed code4 rels6 i) :
    runProg Gen.symmetrize_6 b i = if SelfConj rels6 i then ((b i).re : ℂ) else b i :=
  orbit_nonred' fast4 _ _ _ all4I (by decide +kernel) b (mem_all4I i) h
theorem C20_nonred_class7 (b : I4 → ℂ) (i : I4) (h : NonRed code4 rels7 i) :
    runProg Gen.symmetrize_7 b i = if SelfConj rels7 i then ((b i).re : ℂ) else b i :=
  orbit_nonred' fast4 _ _ _ all4I (by decide +kernel) b (mem_all4I i) h
theorem C20_nonred_class71 (b : I4 → ℂ) (i : I4) (h : NonRed71 i) :
    runProg Gen.symmetrize_71 b i = b i := by
  rw [run_eq_of_check' fast4 Gen.symmetrize_71 svOf (all4I.filter fun i => decide (NonRed71 i))
    (by decide +kernel) b (List.mem_filter.2 ⟨mem_all4I i, by simpa using h⟩), evalSV_svOf]
theorem C20_nonred_class8 (b : I4 → ℂ) (i : I4) (h : NonRed8 i) :
    runProg Gen.symmetrize_8 b i = b i := by
  rw [run_eq_of_check' fast4 Gen.symmetrize_8 svOf (all4I.filter fun i => decide (NonRed8 i))
    (by decide +kernel) b (List.mem_filter.2 ⟨mem_all4I i, by simpa using h⟩), evalSV_svOf]

theorem C20_fixed_class2 (b : I2 → ℂ) (h : IsClass2 b) : runProg Gen.symmetrize_2 b = b := by
  refine orbit_fixed _ code2 rels2 all2I (by decide +kernel) mem_all2I b ?_
  rintro g hg ⟨i, j⟩
  simp only [rels2, List.mem_cons, List.not_mem_nil, or_false] at hg
  rcases hg with rfl | rfl
  · rfl
  · exact h j i
theorem C20_fixed_class9 (b : I2 → ℂ) (h : IsClass9 b) : runProg Gen.symmetrize_9 b = b := by
  refine orbit_fixed _ code2 rels9 all2I (by decide +kernel) mem_all2I b ?_
  rintro g hg ⟨i, j⟩
  simp only [rels9, List.mem_cons, List.not_mem_nil, or_false] at hg
  rcases hg with rfl | rfl
  · rfl
  · exact h j i
theorem C20_fixed_class4 (b : I4 → ℂ) (h : IsClass4 b) : runProg Gen.symmetrize_4 b = b := by
  refine orbit_fixed _ code4 rels4 all4I orbit_ok4 mem_all4I b ?_
  rintro g hg ⟨i, j, k, l⟩
  simp only [rels4, List.mem_cons, List.not_mem_nil, or_false] at hg
  rcases hg with rfl | rfl | rfl | rfl
  · rfl
  · exact (h k l i j).1
  · exact (h j i l k).2
  · show b (i, j, k, l) = starRingEnd ℂ (b (l, k, j, i))
    rw [← (h l k j i).2, (h i j k l).1]
theorem C20_fixed_class41 (b : I4 → ℂ) (h : IsClass41 b) : runProg Gen.symmetrize_41 b = b := by
  refine orbit_fixed _ code4 rels41 all4I orbit_ok41 mem_all4I b ?_
  rintro g hg ⟨i, j, k, l⟩
  simp only [rels41, List.mem_cons, List.not_mem_nil, or_false] at hg
  rcases hg with rfl | rfl
  · rfl
  · exact h k l i j
theorem C20_fixed_class5 (b : I4 → ℂ) (h : IsClass5 b) : runProg Gen.symmetrize_5 b = b := by
  refine orbit_fixed _ code4 rels5 all4I orbit_ok5 mem_all4I b ?_
  rintro g hg ⟨i, j, k, l⟩
  simp only [rels5, List.mem_cons, List.not_mem_nil, or_false] at hg
  rcases hg with rfl | rfl
  · rfl
  · exact h j i l k
theorem C20_fixed_class6 (b : I4 → ℂ) (h : IsClass6 b) : runProg Gen.symmetrize_6 b = b := by
  refine orbit_fixed _ code4 rels6 all4I orbit_ok6 mem_all4I b ?_
  rintro g hg ⟨i, j, k, l⟩
  simp only [rels6, List.mem_cons, List.not_mem_nil, or_false] at hg
  rcases hg with rfl | rfl | rfl | rfl | rfl | rfl | rfl | rfl
  · rfl
  · exact (h k l i j).1
  · exact (h i l k j).2.2
  · show b (i, j, k, l) = b (k, j, i, l)
    rw [← (h i j k l).2.2, ← (h i l k j).1]
  · exact (h j i l k).2.1
  · show b (i, j, k, l) = starRingEnd ℂ (b (l, k, j, i))
    rw [← (h l k j i).2.1, (h i j k l).1]
  · show b (i, j, k, l) = starRingEnd ℂ (b (l, i, j, k))
    rw [← (h l i j k).2.1, (h i j k l).2.2]
  · show b (i, j, k, l) = starRingEnd ℂ (b (j, k, l, i))
    rw [← (h j k l i).2.1, ← (h i j k l).1, (h k l i j).2.2]
theorem C20_fixed_class7 (b : I4 → ℂ) (h : IsClass7 b) : runProg Gen.symmetrize_7 b = b := by
  refine orbit_fixed _ code4 rels7 all4I orbit_ok7 mem_all4I b ?_
  rintro g hg ⟨i, j, k, l⟩
  simp only [rels7, List.mem_cons, List.not_mem_nil, or_false] at hg
  rcases hg with rfl | rfl
  · rfl
  · exact h j i k l
theorem C20_fixed_class71 (b : I4 → ℂ) (h : IsClass71 b) : runProg Gen.symmetrize_71 b = b := by
  funext ⟨i, j, k, l⟩
  obtain ⟨h1, h2, -⟩ := C19_class71_partial b
  rcases lt_trichotomy i j with hij | rfl | hij
  · exact C20_nonred_class71 b _ hij
  · exact h2 i k l
  · rw [h1 j i k l hij.ne, C20_nonred_class71 b (j, i, k, l) hij, h j i k l]
theorem C20_fixed_class8 (b : I4 → ℂ) (h : IsClass8 b) : runProg Gen.symmetrize_8 b = b := by
  have hn := C20_nonred_class8 b
  have hr := C19_class8 b
  funext ⟨i, j, k, l⟩
  by_cases hnr : NonRed8 (i, j, k, l)
  · exact hn _ hnr
  have h012 := hn (0, 1, 2, l) (show (0, 1, 2) ∉ redundant8 by decide)
  have h021 := hn (0, 2, 1, l) (show (0, 2, 1) ∉ redundant8 by decide)
  have h102 := hn (1, 0, 2, l) (show (1, 0, 2) ∉ redundant8 by decide)
  have h120 := hn (1, 2, 0, l) (show (1, 2, 0) ∉ redundant8 by decide)
  have hd : ∀ p s, NonRed8 (p, p, s, l) → runProg Gen.symmetrize_8 b (s, p, p, l) = b (s, p, p, l) := by
    intro p s hps
    have e1 := hr p p s l
    have e2 := h p p s l
    rw [hn _ hps] at e1
    linear_combination (e2 - e1) / 2
  have hd' : ∀ p s, NonRed8 (s, p, p, l) → runProg Gen.symmetrize_8 b (p, p, s, l) = b (p, p, s, l) := by
    intro p s hps
    have e1 := hr p p s l
    have e2 := h p p s l
    rw [hn _ hps] at e1
    linear_combination (e1 - e2) / 2
  simp only [NonRed8, redundant8, not_not, List.mem_cons, List.not_mem_nil, or_false,
    Prod.mk.injEq] at hnr
  rcases hnr with ⟨rfl, rfl, rfl⟩ | ⟨rfl, rfl, rfl⟩ | ⟨rfl, rfl, rfl⟩ | ⟨rfl, rfl, rfl⟩ |
    ⟨rfl, rfl, rfl⟩ | ⟨rfl, rfl, rfl⟩ | ⟨rfl, rfl, rfl⟩ | ⟨rfl, rfl, rfl⟩
  · exact hd 0 1 (show (0, 0, 1) ∉ redundant8 by decide)
  · exact hd' 1 0 (show (0, 1, 1) ∉ redundant8 by decide)
  · exact hd 0 2 (show (0, 0, 2) ∉ redundant8 by decide)
  · linear_combination hr 0 2 1 l - h 0 2 1 l + h102 + h120 - h021
  · linear_combination hr 1 2 0 l - h 1 2 0 l + h012 + h021 - h120
  · exact hd 1 2 (show (1, 1, 2) ∉ redundant8 by decide)
  · exact hd' 2 0 (show (0, 2, 2) ∉ redundant8 by decide)
  · exact hd' 2 1 (show (1, 2, 2) ∉ redundant8 by decide)

/-- Symmetrizing twice equals symmetrizing once, for every class and every input array. -/
theorem C20_idempotent :
    (∀ b, runProg Gen.symmetrize_2 (runProg Gen.symmetrize_2 b) = runProg Gen.symmetrize_2 b) ∧
    (∀ b, runProg Gen.symmetrize_4 (runProg Gen.symmetrize_4 b) = runProg Gen.symmetrize_4 b) ∧
    (∀ b, runProg Gen.symmetrize_41 (runProg Gen.symmetrize_41 b) = runProg Gen.symmetrize_41 b) ∧
    (∀ b, runProg Gen.symmetrize_5 (runProg Gen.symmetrize_5 b) = runProg Gen.symmetrize_5 b) ∧
    (∀ b, runProg Gen.symmetrize_6 (runProg Gen.symmetrize_6 b) = runProg Gen.symmetrize_6 b) ∧
    (∀ b, runProg Gen.symmetrize_7 (runProg Gen.symmetrize_7 b) = runProg Gen.symmetrize_7 b) ∧
    (∀ b, runProg Gen.symmetrize_71 (runProg Gen.symmetrize_71 b) = runProg Gen.symmetrize_71 b) ∧
    (∀ b, runProg Gen.symmetrize_8 (runProg Gen.symmetrize_8 b) = runProg Gen.symmetrize_8 b) ∧
    (∀ b, runProg Gen.symmetrize_9 (runProg Gen.symmetrize_9 b) = runProg Gen.symmetrize_9 b) := by
  refine ⟨fun b => C20_fixed_class2 _ (C19_class2 b), fun b => C20_fixed_class4 _ (C19_class4 b),
    fun b => C20_fixed_class41 _ (C19_class41 b), fun b => C20_fixed_class5 _ (C19_class5 b),
    fun b => C20_fixed_class6 _ (C19_class6 b), fun b => C20_fixed_class7 _ (C19_class7 b),
    fun b => ?_, fun b => C20_fixed_class8 _ (C19_class8 b), fun b => C20_fixed_class9 _ (C19_class9 b)⟩
  funext ⟨i, j, k, l⟩
  obtain ⟨h1, h2, -⟩ := C19_class71_partial b
  obtain ⟨h1', h2', -⟩ := C19_class71_partial (runProg Gen.symmetrize_71 b)
  rcases lt_trichotomy i j with hij | rfl | hij
  · exact C20_nonred_class71 _ _ hij
  · exact h2' i k l
  · rw [h1' j i k l hij.ne, C20_nonred_class71 _ (j, i, k, l) hij, h1 j i k l hij.ne]

/-! ## Non-vacuity -/

/-- a symmetric array with non-trivial complex entries -/
example : IsClass4 (fun (i, j, k, l) => ⟨1, (i : ℕ) - (j : ℕ) + (k : ℕ) - (l : ℕ)⟩) := by
  intro i j k l
  constructor <;> (apply Complex.ext <;> simp; try ring)
example : IsClass71 (fun (i, j, k, l) => ⟨(i : ℕ) - (j : ℕ), ((k : ℕ) + (l : ℕ)) * ((i : ℕ) - (j : ℕ))⟩) := by
  intro i j k l
  apply Complex.ext <;> simp <;> ring
example : NonRed code4 rels4 (0, 2, 1, 1) ∧ ¬ SelfConj rels4 (0, 2, 1, 1) ∧ SelfConj rels4 (0, 1, 1, 0) ∧
    ¬ NonRed code4 rels4 (1, 1, 0, 2) ∧ NonRed8 (1, 2, 0, 2) ∧ NonRed71 (0, 2, 1, 0) := by decide
/-- a class-8 array that is not totally symmetric in the first three indices -/
example : ∃ a : I4 → ℂ, IsClass8 a ∧ a (0, 1, 2, 0) ≠ a (1, 0, 2, 0) :=
  ⟨runProg Gen.symmetrize_8 (fun i => if i = (0, 1, 2, 0) then 1 else 0), C19_class8 _, by
    rw [C20_nonred_class8 _ _ (by decide), C20_nonred_class8 _ _ (by decide)]; simp⟩

end Verif.Props
