import Verif.Lemmas.Lagrangian
import Verif.Spec.EFTUtil
import Verif.Props.Symmetrize

/-!
# C21, C22, C66: symmetry factors

C21: the factors count index orbits.  C22: the class-8 translation is invertible.
C66: the symmetrized arrays, summed over *all* flavour indices, give the same Lagrangian as the
WCxf coefficients summed over the non-redundant operators only.
-/

set_option autoImplicit false
set_option linter.unusedSimpArgs false

namespace Verif.Props
open Verif Verif.Spec Verif.Reflect Verif.EFT

/-! ## C21 -/

private lemma orbit_card {gens : List (I4 → I4)} {i : I4} {S : Finset I4}
    (hi : i ∈ S) (hcl : ∀ g ∈ gens, ∀ j ∈ S, g j ∈ S) (hre : ∀ j ∈ S, j ∈ orbit gens i) :
    (orbit gens i).ncard = S.card := by
  have : orbit gens i = ↑S := by
    ext j
    constructor
    · intro h
      induction h with
      | refl => exact hi
      | tail _ hab ih => obtain ⟨g, hg, rfl⟩ := hab; exact hcl g hg _ ih
    · exact hre j
  rw [this, Set.ncard_coe_finset]

/-- exchange of the two currents -/
def exch : I4 → I4 | (i, j, k, l) => (k, l, i, j)
/-- Fierz exchange of the second and fourth index -/
def fierz : I4 → I4 | (i, j, k, l) => (i, l, k, j)
/-- exchange of the first two indices -/
def exch12 : I4 → I4 | (i, j, k, l) => (j, i, k, l)

private lemma mem1 {gens : List (I4 → I4)} {g : I4 → I4} (hg : g ∈ gens) (i : I4) : g i ∈ orbit gens i :=
  .tail .refl ⟨g, hg, rfl⟩

theorem C21_class4 (i : I4) : Util.d4 i = (orbit [exch] i).ncard := by
  obtain ⟨i, j, k, l⟩ := i
  refine (orbit_card (by simp) ?_ ?_).symm
  · intro g hg x hx
    simp only [List.mem_singleton] at hg; subst hg
    simp only [Finset.mem_insert, Finset.mem_singleton] at hx ⊢
    rcases hx with rfl | rfl <;> simp [exch]
  · intro x hx
    simp only [Finset.mem_insert, Finset.mem_singleton] at hx
    rcases hx with rfl | rfl
    · exact .refl
    · exact mem1 (g := exch) (by simp) (i, j, k, l)

theorem C21_class7 (i : I4) : Util.d7 i = (orbit [exch12] i).ncard := by
  obtain ⟨i, j, k, l⟩ := i
  refine (orbit_card (by simp) ?_ ?_).symm
  · intro g hg x hx
    simp only [List.mem_singleton] at hg; subst hg
    simp only [Finset.mem_insert, Finset.mem_singleton] at hx ⊢
    rcases hx with rfl | rfl <;> simp [exch12]
  · intro x hx
    simp only [Finset.mem_insert, Finset.mem_singleton] at hx
    rcases hx with rfl | rfl
    · exact .refl
    · exact mem1 (g := exch12) (by simp) (i, j, k, l)

theorem C21_class6 (i : I4) : Util.d6 i = (orbit [exch, fierz] i).ncard := by
  obtain ⟨i, j, k, l⟩ := i
  refine (orbit_card (by simp) ?_ ?_).symm
  · intro g hg x hx
    simp only [List.mem_cons, List.not_mem_nil, or_false] at hg
    simp only [Finset.mem_insert, Finset.mem_singleton] at hx ⊢
    rcases hg with rfl | rfl <;> rcases hx with rfl | rfl | rfl | rfl <;> simp [exch, fierz]
  · intro x hx
    simp only [Finset.mem_insert, Finset.mem_singleton] at hx
    rcases hx with rfl | rfl | rfl | rfl
    · exact .refl
    · exact mem1 (g := exch) (by simp) (i, j, k, l)
    · exact .tail (mem1 (g := exch) (gens := [exch, fierz]) (by simp) (i, j, k, l))
        ⟨fierz, by simp, rfl⟩
    · exact mem1 (g := fierz) (by simp) (i, j, k, l)

/-- Which factor a coefficient gets: the orbit size for the classes 4, 41, 6, 7, 71, and 1
(`none`) for all others. -/
theorem C21_scale_factor (U : Util) (c : ℕ) (k : Str) (h : InClass U c k) :
    U.scaleTable k =
      if c = 4 ∨ c = 41 then some Util.d4 else if c = 6 then some Util.d6
      else if c = 7 ∨ c = 71 then some Util.d7 else none := by
  obtain ⟨hm, hn⟩ := h
  have hno : ∀ c', c ≠ c' → k ∉ U.symm c' := fun c' e => hn c' (Ne.symm e)
  unfold Util.scaleTable
  simp only [List.mem_append]
  by_cases h7 : c = 7
  · subst h7; simp [hm]
  by_cases h71 : c = 71
  · subst h71; simp [hm]
  by_cases h6 : c = 6
  · subst h6; simp [hm, hno 7, hno 71]
  by_cases h4 : c = 4
  · subst h4; simp [hm, hno 7, hno 71, hno 6]
  by_cases h41 : c = 41
  · subst h41; simp [hm, hno 7, hno 71, hno 6]
  simp [hno 7 h7, hno 71 h71, hno 6 h6, hno 4 h4, hno 41 h41, h7, h71, h6, h4, h41]

/-- factors 1, 2, 4 do occur -/
example : Util.d6 (0, 0, 0, 0) = 1 ∧ Util.d6 (0, 0, 0, 1) = 2 ∧ Util.d6 (0, 1, 2, 0) = 4 := by decide

/-! ## C22 -/

theorem C22_unscale_scale (b : I4 → ℂ) : runProg Gen.unscale_8 (runProg Gen.scale_8 b) = b := by
  funext i
  rw [comp_eq_of_check Gen.scale_8 Gen.unscale_8 svOf all4I (by decide +kernel) b (mem_all4I i),
    evalSV_svOf]

theorem C22_scale_unscale (b : I4 → ℂ) : runProg Gen.scale_8 (runProg Gen.unscale_8 b) = b := by
  funext i
  rw [comp_eq_of_check Gen.unscale_8 Gen.scale_8 svOf all4I (by decide +kernel) b (mem_all4I i),
    evalSV_svOf]

/-- Going to the symmetrized class-8 array and back returns all non-redundant entries. -/
theorem C22_roundtrip (b : I4 → ℂ) (i : I4) (hi : NonRed8 i) :
    runProg Gen.unscale_8 (runProg Gen.symmetrize_8 (runProg Gen.scale_8 b)) i = b i := by
  have h : runProg Gen.unscale_8 (runProg Gen.symmetrize_8 (runProg Gen.scale_8 b)) i
      = runProg Gen.unscale_8 (runProg Gen.scale_8 b) i := by
    have key : ∀ x : I4 → ℂ, runProg Gen.unscale_8 (runProg Gen.symmetrize_8 x) i
        = runProg Gen.unscale_8 x i := by
      intro x
      rw [comp_eq_of_check Gen.symmetrize_8 Gen.unscale_8 (look (symRun Gen.unscale_8))
        (all4I.filter fun i => decide (NonRed8 i)) (by decide +kernel) x
        (List.mem_filter.2 ⟨mem_all4I i, by simpa using hi⟩), ← symRun_sound]
    exact key _
  rw [h, C22_unscale_scale]

/-! ## C66 -/

/-- Lagrangian contribution of hermitian operator classes in the WCxf convention: each
non-redundant operator once, plus the hermitian conjugate unless it is self-conjugate (then the
coefficient is real). -/
noncomputable def wcxfLagrangianHerm {ι : Type} [Fintype ι] [DecidableEq ι] (code : ι → Nat)
    (rels : List (Rel ι)) (C O : ι → ℂ) : ℂ :=
  ∑ r, if NonRed code rels r then
    (if SelfConj rels r then ((C r).re : ℂ) * O r else C r * O r + starRingEnd ℂ (C r * O r)) else 0

/-- the same for non-hermitian classes (the hermitian conjugate is added for the sum as a whole) -/
noncomputable def wcxfLagrangian {ι : Type} [Fintype ι] (code : ι → Nat)
    (rels : List (Rel ι)) (C O : ι → ℂ) : ℂ :=
  ∑ r, if NonRed code rels r then C r * O r else 0

private lemma nodup_all4I : all4I.Nodup := by decide +kernel
private lemma nodup_all2I : all2I.Nodup := by decide +kernel

theorem C66_class2 (C O : I2 → ℂ) (hO : IsClass2 O) :
    ∑ i, runProg Gen.symmetrize_2 C i * O i = wcxfLagrangianHerm code2 rels2 C O := by
  have := lagrangian_orbit Gen.symmetrize_2 code2 rels2 all2I (by decide +kernel) mem_all2I nodup_all2I
    (fun _ => 1) true (by decide +kernel) C O ?_
  · simpa [wcxfLagrangianHerm] using this
  · rintro g hg ⟨i, j⟩
    simp only [rels2, List.mem_cons, List.not_mem_nil, or_false] at hg
    rcases hg with rfl | rfl
    · rfl
    · exact hO j i

theorem C66_class4 (C O : I4 → ℂ) (hO : IsClass4 O) :
    ∑ i, runProg Gen.symmetrize_4 C i / Util.d4 i * O i = wcxfLagrangianHerm code4 rels4 C O := by
  have := lagrangian_orbit Gen.symmetrize_4 code4 rels4 all4I orbit_ok4 mem_all4I nodup_all4I
    Util.d4 true (by decide +kernel) C O ?_
  · simpa [wcxfLagrangianHerm] using this
  · rintro g hg ⟨i, j, k, l⟩
    simp only [rels4, List.mem_cons, List.not_mem_nil, or_false] at hg
    rcases hg with rfl | rfl | rfl | rfl
    · rfl
    · exact (hO k l i j).1
    · exact (hO j i l k).2
    · show O (i, j, k, l) = starRingEnd ℂ (O (l, k, j, i))
      rw [← (hO l k j i).2, (hO i j k l).1]

theorem C66_class41 (C O : I4 → ℂ) (hO : IsClass41 O) :
    ∑ i, runProg Gen.symmetrize_41 C i / Util.d4 i * O i = wcxfLagrangian code4 rels41 C O := by
  have := lagrangian_orbit Gen.symmetrize_41 code4 rels41 all4I orbit_ok41 mem_all4I nodup_all4I
    Util.d4 false (by decide +kernel) C O ?_
  · rw [this, wcxfLagrangian]
    have hno : ∀ r : I4, ¬ SelfConj rels41 r := by
      rintro r ⟨g, hg, hc, -⟩
      simp only [rels41, List.mem_cons, List.not_mem_nil, or_false] at hg
      rcases hg with rfl | rfl <;> simp at hc
    simp [hno]
  · rintro g hg ⟨i, j, k, l⟩
    simp only [rels41, List.mem_cons, List.not_mem_nil, or_false] at hg
    rcases hg with rfl | rfl
    · rfl
    · exact hO k l i j

theorem C66_class5 (C O : I4 → ℂ) (hO : IsClass5 O) :
    ∑ i, runProg Gen.symmetrize_5 C i * O i = wcxfLagrangianHerm code4 rels5 C O := by
  have := lagrangian_orbit Gen.symmetrize_5 code4 rels5 all4I orbit_ok5 mem_all4I nodup_all4I
    (fun _ => 1) true (by decide +kernel) C O ?_
  · simpa [wcxfLagrangianHerm] using this
  · rintro g hg ⟨i, j, k, l⟩
    simp only [rels5, List.mem_cons, List.not_mem_nil, or_false] at hg
    rcases hg with rfl | rfl
    · rfl
    · exact hO j i l k

theorem C66_class6 (C O : I4 → ℂ) (h : IsClass6 O) :
    ∑ i, runProg Gen.symmetrize_6 C i / Util.d6 i * O i = wcxfLagrangianHerm code4 rels6 C O := by
  have := lagrangian_orbit Gen.symmetrize_6 code4 rels6 all4I orbit_ok6 mem_all4I nodup_all4I
    Util.d6 true (by decide +kernel) C O ?_
  · simpa [wcxfLagrangianHerm] using this
  · rintro g hg ⟨i, j, k, l⟩
    simp only [rels6, List.mem_cons, List.not_mem_nil, or_false] at hg
    rcases hg with rfl | rfl | rfl | rfl | rfl | rfl | rfl | rfl
    · rfl
    · exact (h k l i j).1
    · exact (h i l k j).2.2
    · show O (i, j, k, l) = O (k, j, i, l)
      rw [← (h i j k l).2.2, ← (h i l k j).1]
    · exact (h j i l k).2.1
    · show O (i, j, k, l) = starRingEnd ℂ (O (l, k, j, i))
      rw [← (h l k j i).2.1, (h i j k l).1]
    · show O (i, j, k, l) = starRingEnd ℂ (O (l, i, j, k))
      rw [← (h l i j k).2.1, (h i j k l).2.2]
    · show O (i, j, k, l) = starRingEnd ℂ (O (j, k, l, i))
      rw [← (h j k l i).2.1, ← (h i j k l).1, (h k l i j).2.2]

theorem C66_class7 (C O : I4 → ℂ) (hO : IsClass7 O) :
    ∑ i, runProg Gen.symmetrize_7 C i / Util.d7 i * O i = wcxfLagrangian code4 rels7 C O := by
  have := lagrangian_orbit Gen.symmetrize_7 code4 rels7 all4I orbit_ok7 mem_all4I nodup_all4I
    Util.d7 false (by decide +kernel) C O ?_
  · rw [this, wcxfLagrangian]
    have hno : ∀ r : I4, ¬ SelfConj rels7 r := by
      rintro r ⟨g, hg, hc, -⟩
      simp only [rels7, List.mem_cons, List.not_mem_nil, or_false] at hg
      rcases hg with rfl | rfl <;> simp at hc
    simp [hno]
  · rintro g hg ⟨i, j, k, l⟩
    simp only [rels7, List.mem_cons, List.not_mem_nil, or_false] at hg
    rcases hg with rfl | rfl
    · rfl
    · exact hO j i k l

theorem C66_class71 (C O : I4 → ℂ) (hO : IsClass71 O) :
    ∑ i, runProg Gen.symmetrize_71 C i / Util.d7 i * O i = ∑ r, if NonRed71 r then C r * O r else 0 := by
  obtain ⟨h1, h2, -⟩ := C19_class71_partial C
  have hz : ∀ i k l, O (i, i, k, l) = 0 := fun i k l => by
    have := hO i i k l
    linear_combination this / 2
  have d2 : ∀ i j k l : Fin 3, i ≠ j → Util.d7 (i, j, k, l) = 2 := by decide
  have e : ∀ i j k l : Fin 3, i < j → runProg Gen.symmetrize_71 C (i, j, k, l) = C (i, j, k, l) :=
    fun i j k l h => C20_nonred_class71 C _ h
  have e' : ∀ i j k l : Fin 3, i < j → runProg Gen.symmetrize_71 C (j, i, k, l) = - C (i, j, k, l) :=
    fun i j k l h => by rw [h1 i j k l h.ne, e i j k l h]
  have lhs : ∀ k l : Fin 3, ∑ i, ∑ j, runProg Gen.symmetrize_71 C (i, j, k, l) / Util.d7 (i, j, k, l)
      * O (i, j, k, l) = ∑ i, ∑ j, if NonRed71 (i, j, k, l) then C (i, j, k, l) * O (i, j, k, l) else 0 := by
    intro k l
    simp only [Fin.sum_univ_three, hz, mul_zero, NonRed71]
    rw [e 0 1 k l (by decide), e 0 2 k l (by decide), e 1 2 k l (by decide),
      e' 0 1 k l (by decide), e' 0 2 k l (by decide), e' 1 2 k l (by decide),
      d2 0 1 k l (by decide), d2 0 2 k l (by decide), d2 1 2 k l (by decide),
      d2 1 0 k l (by decide), d2 2 0 k l (by decide), d2 2 1 k l (by decide),
      hO 0 1 k l, hO 0 2 k l, hO 1 2 k l]
    simp only [show ¬ ((1 : Fin 3) < 0) by decide, show ¬ ((2 : Fin 3) < 0) by decide,
      show ¬ ((2 : Fin 3) < 1) by decide, show (0 : Fin 3) < 1 by decide, show (0 : Fin 3) < 2 by decide,
      show (1 : Fin 3) < 2 by decide, lt_irrefl, if_true, if_false]
    push_cast; ring
  have swap : ∀ f : I4 → ℂ, ∑ i, f i = ∑ k, ∑ l, ∑ i, ∑ j, f (i, j, k, l) := by
    intro f
    simp only [Fintype.sum_prod_type]
    have a : ∀ i, ∑ j, ∑ k, ∑ l, f (i, j, k, l) = ∑ k, ∑ l, ∑ j, f (i, j, k, l) := by
      intro i
      rw [Finset.sum_comm]
      exact Finset.sum_congr rfl fun k _ => Finset.sum_comm
    simp only [a]
    rw [Finset.sum_comm]
    exact Finset.sum_congr rfl fun k _ => Finset.sum_comm
  rw [swap, swap]
  exact Finset.sum_congr rfl fun k _ => Finset.sum_congr rfl fun l _ => lhs k l

theorem C66_class8 (C O : I4 → ℂ) (hO : IsClass8 O) :
    ∑ i, runProg Gen.symmetrize_8 (runProg Gen.scale_8 C) i * O i
      = ∑ r, if NonRed8 r then C r * O r else 0 := by
  -- entries of the symmetrized array
  have hn := C20_nonred_class8 (runProg Gen.scale_8 C)
  have hr := C19_class8 (runProg Gen.scale_8 C)
  have sc : ∀ (i : I4), runProg Gen.scale_8 C i = evalSV C (look (symRun Gen.scale_8) i) :=
    fun i => symRun_sound _ _ _
  set S := runProg Gen.symmetrize_8 (runProg Gen.scale_8 C) with hS
  have hdiag : ∀ p s t, S (s, p, p, t) = S (p, p, s, t) := fun p s t => by
    linear_combination (-1/2 : ℂ) * hr p p s t
  have hOd : ∀ p s t, O (s, p, p, t) = O (p, p, s, t) := fun p s t => by
    linear_combination (-1/2 : ℂ) * hO p p s t
  -- scale_8 on the needed entries, as complex combinations
  have half : ∀ p s : Fin 3, (p, p, s) ∈ ([(0,0,1), (0,0,2), (1,1,2)] : List (Fin 3 × Fin 3 × Fin 3)) →
      ∀ t, runProg Gen.scale_8 C (p, p, s, t) = (1/2 : ℚ) * C (p, p, s, t) := by
    intro p s hps t
    rw [run_eq_of_check Gen.scale_8 (fun i => scaleSV (1/2) (svOf i))
      (all4I.filter fun (p, r, s, _) => decide ((p, r, s) ∈
        ([(0,0,1), (0,0,2), (1,1,2)] : List (Fin 3 × Fin 3 × Fin 3)))) (by decide +kernel) C
      (List.mem_filter.2 ⟨mem_all4I _, by simpa using hps⟩), evalSV_scale, evalSV_svOf]
  have half' : ∀ p s : Fin 3, (s, p, p) ∈ ([(0,1,1), (0,2,2), (1,2,2)] : List (Fin 3 × Fin 3 × Fin 3)) →
      ∀ t, runProg Gen.scale_8 C (s, p, p, t) = (1/2 : ℚ) * C (s, p, p, t) := by
    intro p s hps t
    rw [run_eq_of_check Gen.scale_8 (fun i => scaleSV (1/2) (svOf i))
      (all4I.filter fun (p, r, s, _) => decide ((p, r, s) ∈
        ([(0,1,1), (0,2,2), (1,2,2)] : List (Fin 3 × Fin 3 × Fin 3)))) (by decide +kernel) C
      (List.mem_filter.2 ⟨mem_all4I _, by simpa using hps⟩), evalSV_scale, evalSV_svOf]
  have same : ∀ p r s : Fin 3, (p, r, s) ∈ ([(0,0,0), (1,1,1), (2,2,2), (0,1,0), (0,2,0), (1,0,1), (1,2,1),
      (2,0,2), (2,1,2)] : List (Fin 3 × Fin 3 × Fin 3)) →
      ∀ t, runProg Gen.scale_8 C (p, r, s, t) = C (p, r, s, t) := by
    intro p r s hps t
    rw [run_eq_of_check Gen.scale_8 svOf
      (all4I.filter fun (p, r, s, _) => decide ((p, r, s) ∈ ([(0,0,0), (1,1,1), (2,2,2), (0,1,0), (0,2,0),
        (1,0,1), (1,2,1), (2,0,2), (2,1,2)] : List (Fin 3 × Fin 3 × Fin 3)))) (by decide +kernel) C
      (List.mem_filter.2 ⟨mem_all4I _, by simpa using hps⟩), evalSV_svOf]
  have four : ∀ (c : ℚ × ℚ × ℚ × ℚ) (p r s : Fin 3),
      ((all3.all fun t => sameSV (look (symRun Gen.scale_8) (p, r, s, t))
        (addSV (scaleSV c.1 (svOf (0,1,2,t))) (addSV (scaleSV c.2.1 (svOf (0,2,1,t)))
          (addSV (scaleSV c.2.2.1 (svOf (1,0,2,t))) (scaleSV c.2.2.2 (svOf (1,2,0,t))))))) = true) →
      ∀ t, runProg Gen.scale_8 C (p, r, s, t) = c.1 * C (0,1,2,t) + (c.2.1 * C (0,2,1,t)
        + (c.2.2.1 * C (1,0,2,t) + c.2.2.2 * C (1,2,0,t))) := by
    intro c p r s h t
    simp only [List.all_eq_true] at h
    rw [symRun_sound, sameSV_sound C (h t (mem_all3 t))]
    simp only [evalSV_add, evalSV_scale, evalSV_svOf]
  have s012 := four (2/3, -1/6, -1/6, 1/6) 0 1 2 (by decide +kernel)
  have s021 := four (-1/6, 2/3, 1/6, 1/3) 0 2 1 (by decide +kernel)
  have s102 := four (-1/6, 1/6, 2/3, -1/6) 1 0 2 (by decide +kernel)
  have s120 := four (1/6, 1/3, -1/6, 2/3) 1 2 0 (by decide +kernel)
  have swap : ∀ f : I4 → ℂ, ∑ i, f i = ∑ t, ∑ p, ∑ r, ∑ s, f (p, r, s, t) := by
    intro f
    simp only [Fintype.sum_prod_type]
    have a : ∀ p r, ∑ s, ∑ t, f (p, r, s, t) = ∑ t, ∑ s, f (p, r, s, t) := fun p r => Finset.sum_comm
    simp only [a]
    have a2 : ∀ p, ∑ r, ∑ t, ∑ s, f (p, r, s, t) = ∑ t, ∑ r, ∑ s, f (p, r, s, t) := fun p => Finset.sum_comm
    simp only [a2]
    exact Finset.sum_comm
  rw [swap, swap]
  refine Finset.sum_congr rfl fun t _ => ?_
  have q : ∀ p r s : Fin 3, (p, r, s) ∉ redundant8 → S (p, r, s, t) = runProg Gen.scale_8 C (p, r, s, t) :=
    fun p r s h => hn (p, r, s, t) h
  simp only [Fin.sum_univ_three, NonRed8]
  simp only [show ((0:Fin 3),(0:Fin 3),(0:Fin 3)) ∉ redundant8 by decide,
    show ((0:Fin 3),(0:Fin 3),(1:Fin 3)) ∉ redundant8 by decide,
    show ((0:Fin 3),(0:Fin 3),(2:Fin 3)) ∉ redundant8 by decide,
    show ((0:Fin 3),(1:Fin 3),(0:Fin 3)) ∉ redundant8 by decide,
    show ((0:Fin 3),(1:Fin 3),(1:Fin 3)) ∉ redundant8 by decide,
    show ((0:Fin 3),(1:Fin 3),(2:Fin 3)) ∉ redundant8 by decide,
    show ((0:Fin 3),(2:Fin 3),(0:Fin 3)) ∉ redundant8 by decide,
    show ((0:Fin 3),(2:Fin 3),(1:Fin 3)) ∉ redundant8 by decide,
    show ((0:Fin 3),(2:Fin 3),(2:Fin 3)) ∉ redundant8 by decide,
    show ¬ ((1:Fin 3),(0:Fin 3),(0:Fin 3)) ∉ redundant8 by decide,
    show ((1:Fin 3),(0:Fin 3),(1:Fin 3)) ∉ redundant8 by decide,
    show ((1:Fin 3),(0:Fin 3),(2:Fin 3)) ∉ redundant8 by decide,
    show ¬ ((1:Fin 3),(1:Fin 3),(0:Fin 3)) ∉ redundant8 by decide,
    show ((1:Fin 3),(1:Fin 3),(1:Fin 3)) ∉ redundant8 by decide,
    show ((1:Fin 3),(1:Fin 3),(2:Fin 3)) ∉ redundant8 by decide,
    show ((1:Fin 3),(2:Fin 3),(0:Fin 3)) ∉ redundant8 by decide,
    show ((1:Fin 3),(2:Fin 3),(1:Fin 3)) ∉ redundant8 by decide,
    show ((1:Fin 3),(2:Fin 3),(2:Fin 3)) ∉ redundant8 by decide,
    show ¬ ((2:Fin 3),(0:Fin 3),(0:Fin 3)) ∉ redundant8 by decide,
    show ¬ ((2:Fin 3),(0:Fin 3),(1:Fin 3)) ∉ redundant8 by decide,
    show ((2:Fin 3),(0:Fin 3),(2:Fin 3)) ∉ redundant8 by decide,
    show ¬ ((2:Fin 3),(1:Fin 3),(0:Fin 3)) ∉ redundant8 by decide,
    show ¬ ((2:Fin 3),(1:Fin 3),(1:Fin 3)) ∉ redundant8 by decide,
    show ((2:Fin 3),(1:Fin 3),(2:Fin 3)) ∉ redundant8 by decide,
    show ¬ ((2:Fin 3),(2:Fin 3),(0:Fin 3)) ∉ redundant8 by decide,
    show ¬ ((2:Fin 3),(2:Fin 3),(1:Fin 3)) ∉ redundant8 by decide,
    show ((2:Fin 3),(2:Fin 3),(2:Fin 3)) ∉ redundant8 by decide, if_true, if_false, not_true, not_false_iff]
  have E201 : S (2,0,1,t) = S (1,0,2,t) + S (1,2,0,t) - S (0,2,1,t) := by linear_combination hr 0 2 1 t
  have E210 : S (2,1,0,t) = S (0,1,2,t) + S (0,2,1,t) - S (1,2,0,t) := by linear_combination hr 1 2 0 t
  have O201 : O (2,0,1,t) = O (1,0,2,t) + O (1,2,0,t) - O (0,2,1,t) := by linear_combination hO 0 2 1 t
  have O210 : O (2,1,0,t) = O (0,1,2,t) + O (0,2,1,t) - O (1,2,0,t) := by linear_combination hO 1 2 0 t
  rw [E201, E210, O201, O210, hdiag 0 1 t, hdiag 0 2 t, hdiag 1 2 t,
    ← hdiag 1 0 t, ← hdiag 2 0 t, ← hdiag 2 1 t, hOd 0 1 t, hOd 0 2 t, hOd 1 2 t,
    ← hOd 1 0 t, ← hOd 2 0 t, ← hOd 2 1 t]
  rw [q 0 0 0 (by decide), q 1 1 1 (by decide), q 2 2 2 (by decide), q 0 0 1 (by decide), q 0 0 2 (by decide),
    q 1 1 2 (by decide), q 0 1 1 (by decide), q 0 2 2 (by decide), q 1 2 2 (by decide), q 0 1 0 (by decide),
    q 0 2 0 (by decide), q 1 0 1 (by decide), q 1 2 1 (by decide), q 2 0 2 (by decide), q 2 1 2 (by decide),
    q 0 1 2 (by decide), q 0 2 1 (by decide), q 1 0 2 (by decide), q 1 2 0 (by decide),
    half 0 1 (by decide), half 0 2 (by decide), half 1 2 (by decide), half' 1 0 (by decide),
    half' 2 0 (by decide), half' 2 1 (by decide), same 0 0 0 (by decide), same 1 1 1 (by decide),
    same 2 2 2 (by decide), same 0 1 0 (by decide), same 0 2 0 (by decide), same 1 0 1 (by decide),
    same 1 2 1 (by decide), same 2 0 2 (by decide), same 2 1 2 (by decide), s012, s021, s102, s120]
  push_cast
  ring

/-- Class 9 (`llphiphi`): here the symmetrized array does *not* reproduce the sum over
non-redundant operators; off-diagonal coefficients enter twice.  `symmetrize_nonred`
(`util/common.py:974`) does not divide class-9 entries by the orbit size, in contrast to the
classes 4, 41, 6, 7, 71, 8. -/
theorem C66_class9_partial (C O : I2 → ℂ) (hO : IsClass9 O) :
    ∑ i, runProg Gen.symmetrize_9 C i * O i
      = ∑ r, if NonRed code2 rels9 r then (if r.1 = r.2 then 1 else 2) * (C r * O r) else 0 := by
  have h := C19_class9 C
  have hn := C20_nonred_class9 C
  have hns : ∀ r : I2, ¬ SelfConj rels9 r := by
    rintro r ⟨g, hg, hc, -⟩
    simp only [rels9, List.mem_cons, List.not_mem_nil, or_false] at hg
    rcases hg with rfl | rfl <;> simp at hc
  have e : ∀ i j, i ≤ j → runProg Gen.symmetrize_9 C (i, j) = C (i, j) := by
    intro i j hij
    rw [hn (i, j) (by revert i j; decide), if_neg (hns _)]
  simp only [Fintype.sum_prod_type, Fin.sum_univ_three]
  rw [h 0 1, h 0 2, h 1 2, e 0 0 (by decide), e 0 1 (by decide), e 0 2 (by decide), e 1 1 (by decide),
    e 1 2 (by decide), e 2 2 (by decide), hO 0 1, hO 0 2, hO 1 2]
  simp only [show NonRed code2 rels9 (0, 0) by decide, show NonRed code2 rels9 (0, 1) by decide,
    show NonRed code2 rels9 (0, 2) by decide, show NonRed code2 rels9 (1, 1) by decide,
    show NonRed code2 rels9 (1, 2) by decide, show NonRed code2 rels9 (2, 2) by decide,
    show ¬ NonRed code2 rels9 (1, 0) by decide, show ¬ NonRed code2 rels9 (2, 0) by decide,
    show ¬ NonRed code2 rels9 (2, 1) by decide, if_true, if_false,
    show ¬ (0 : Fin 3) = 1 by decide, show ¬ (0 : Fin 3) = 2 by decide, show ¬ (1 : Fin 3) = 2 by decide]
  ring

theorem C66_class9_violation : ∃ C O : I2 → ℂ, IsClass9 O ∧
    ∑ i, runProg Gen.symmetrize_9 C i * O i ≠ wcxfLagrangian code2 rels9 C O := by
  refine ⟨fun i => if i = (0, 1) then 1 else 0, fun _ => 1, fun _ _ => rfl, ?_⟩
  rw [C66_class9_partial _ _ (fun _ _ => rfl), wcxfLagrangian]
  simp only [Fintype.sum_prod_type, Fin.sum_univ_three]
  simp [show NonRed code2 rels9 (0, 1) by decide]

end Verif.Props
