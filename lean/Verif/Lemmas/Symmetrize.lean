import Verif.Lemmas.ArrayReflect
import Verif.Gen.Symmetrize
import Verif.Spec.Symmetry

set_option autoImplicit false
set_option linter.unusedSectionVars false

/-! Symbolic results of the symmetrization programs (helper lemmas). -/

namespace Verif.Reflect
open Verif Verif.Spec

def all3 : List (Fin 3) := [0, 1, 2]
def all2I : List I2 := all3.flatMap fun i => all3.map fun j => (i, j)
def all4I : List I4 :=
  all3.flatMap fun i => all3.flatMap fun j => all3.flatMap fun k => all3.map fun l => (i, j, k, l)

lemma mem_all3 (i : Fin 3) : i ∈ all3 := by revert i; decide
lemma mem_all2I (i : I2) : i ∈ all2I := by
  obtain ⟨i, j⟩ := i
  simp only [all2I, List.mem_flatMap, List.mem_map]
  exact ⟨i, mem_all3 i, j, mem_all3 j, rfl⟩
lemma mem_all4I (i : I4) : i ∈ all4I := by
  obtain ⟨i, j, k, l⟩ := i
  simp only [all4I, List.mem_flatMap, List.mem_map]
  exact ⟨i, mem_all3 i, j, mem_all3 j, k, mem_all3 k, l, mem_all3 l, rfl⟩

section
variable {ι : Type} [DecidableEq ι]

/-- a relation between entries of the result, checked symbolically -/
theorem rel_of_check (p : List (Instr ι)) (σ : ι → ι) (act : SV ι → SV ι) (dom : List ι)
    (h : (let s := symRun p; dom.all fun i => sameSV (look s (σ i)) (act (look s i))) = true)
    (b : ι → ℂ) {i : ι} (hi : i ∈ dom) :
    runProg p b (σ i) = evalSV b (act (look (symRun p) i)) := by
  rw [symRun_sound]
  simp only [List.all_eq_true] at h
  exact sameSV_sound b (h i hi)

/-- first relation leading to a non-redundant index -/
def pick (code : ι → Nat) (rels : List (Rel ι)) (i : ι) : Rel ι :=
  (rels.find? fun g => decide (NonRed code rels (g.perm i))).getD ⟨id, false⟩

lemma pick_mem (code : ι → Nat) (rels : List (Rel ι)) (i : ι) :
    pick code rels i ∈ rels ∨ pick code rels i = ⟨id, false⟩ := by
  unfold pick
  cases h : rels.find? fun g => decide (NonRed code rels (g.perm i)) with
  | none => right; rfl
  | some g => left; exact List.mem_of_find?_eq_some h

/-- expected result of an orbit-type symmetrization at `i` -/
def expSV (code : ι → Nat) (rels : List (Rel ι)) (i : ι) : SV ι :=
  let g := pick code rels i
  let v := svOf (g.perm i)
  let w := if SelfConj rels (g.perm i) then reSV v else v
  if g.cc then conjSV w else w

def checkOrbit (p : List (Instr ι)) (code : ι → Nat) (rels : List (Rel ι)) (dom : List ι) : Bool :=
  let s := symRun p
  dom.all fun i => sameSV (look s i) (expSV code rels i)

theorem orbit_eq (p : List (Instr ι)) (code : ι → Nat) (rels : List (Rel ι)) (dom : List ι)
    (h : checkOrbit p code rels dom = true) (b : ι → ℂ) {i : ι} (hi : i ∈ dom) :
    runProg p b i = evalSV b (expSV code rels i) :=
  run_eq_of_check p (expSV code rels) dom h b hi

theorem orbit_fixed (p : List (Instr ι)) (code : ι → Nat) (rels : List (Rel ι)) (dom : List ι)
    (h : checkOrbit p code rels dom = true) (hd : ∀ i, i ∈ dom) (b : ι → ℂ)
    (hb : ∀ g ∈ rels, ∀ i, b i = if g.cc then starRingEnd ℂ (b (g.perm i)) else b (g.perm i)) :
    runProg p b = b := by
  funext i
  rw [orbit_eq p code rels dom h b (hd i)]
  set g := pick code rels i with hg
  have e : expSV code rels i = (let w := if SelfConj rels (g.perm i) then reSV (svOf (g.perm i)) else svOf (g.perm i)
    if g.cc then conjSV w else w) := rfl
  rw [e]
  have hw : evalSV b (if SelfConj rels (g.perm i) then reSV (svOf (g.perm i)) else svOf (g.perm i))
      = b (g.perm i) := by
    split_ifs with hs
    · rw [evalSV_re, evalSV_svOf]
      obtain ⟨g', hg', hc, hp⟩ := hs
      have := hb g' hg' (g.perm i)
      rw [hc, if_pos rfl, hp] at this
      exact (Complex.conj_eq_iff_re.mp this.symm)
    · rw [evalSV_svOf]
  have hgi : b i = if g.cc then starRingEnd ℂ (b (g.perm i)) else b (g.perm i) := by
    rcases pick_mem code rels i with hm | hm
    · exact hb g hm i
    · rw [← hg] at hm; rw [hm]; simp
  rw [hgi]
  dsimp only
  by_cases hc : g.cc = true
  · rw [if_pos hc, if_pos hc, evalSV_conj, hw]
  · rw [if_neg hc, if_neg hc, hw]

theorem orbit_nonred (p : List (Instr ι)) (code : ι → Nat) (rels : List (Rel ι)) (dom : List ι)
    (h : (let s := symRun p; dom.all fun i => !(decide (NonRed code rels i)) ||
      sameSV (look s i) (if SelfConj rels i then reSV (svOf i) else svOf i)) = true)
    (b : ι → ℂ) {i : ι} (hi : i ∈ dom) (hn : NonRed code rels i) :
    runProg p b i = if SelfConj rels i then ((b i).re : ℂ) else b i := by
  rw [symRun_sound]
  simp only [List.all_eq_true] at h
  have := h i hi
  simp only [hn, decide_true, Bool.not_true, Bool.false_or] at this
  rw [sameSV_sound b this]
  split_ifs
  · rw [evalSV_re, evalSV_svOf]
  · rw [evalSV_svOf]

end

/-! ### A faster comparison of indices

The checks do not depend on the instance by which equality of indices is decided. -/

section
variable {ι : Type} (J : DecidableEq ι) [I : DecidableEq ι]

theorem rel_of_check' (p : List (Instr ι)) (σ : ι → ι) (act : SV ι → SV ι) (dom : List ι)
    (h : (letI := J; let s := symRun p; dom.all fun i => sameSV (look s (σ i)) (act (look s i))) = true)
    (b : ι → ℂ) {i : ι} (hi : i ∈ dom) :
    runProg p b (σ i) = evalSV b (act (look (symRun p) i)) := by
  obtain rfl : I = J := Subsingleton.elim _ _
  exact rel_of_check p σ act dom h b hi

theorem run_eq_of_check' (p : List (Instr ι)) (f : ι → SV ι) (dom : List ι)
    (h : (letI := J; let s := symRun p; dom.all fun i => sameSV (look s i) (f i)) = true)
    (b : ι → ℂ) {i : ι} (hi : i ∈ dom) : runProg p b i = evalSV b (f i) := by
  obtain rfl : I = J := Subsingleton.elim _ _
  exact run_eq_of_check p f dom h b hi

theorem checkOrbit' (p : List (Instr ι)) (code : ι → Nat) (rels : List (Rel ι)) (dom : List ι)
    (h : @checkOrbit ι J p code rels dom = true) : checkOrbit p code rels dom = true := by
  obtain rfl : I = J := Subsingleton.elim _ _
  exact h

theorem orbit_nonred' (p : List (Instr ι)) (code : ι → Nat) (rels : List (Rel ι)) (dom : List ι)
    (h : (letI := J; let s := symRun p; dom.all fun i => !(decide (NonRed code rels i)) ||
      sameSV (look s i) (if SelfConj rels i then reSV (svOf i) else svOf i)) = true)
    (b : ι → ℂ) {i : ι} (hi : i ∈ dom) (hn : NonRed code rels i) :
    runProg p b i = if SelfConj rels i then ((b i).re : ℂ) else b i := by
  obtain rfl : I = J := Subsingleton.elim _ _
  exact orbit_nonred p code rels dom h b hi hn

end

/-- number of an index tuple, for the kernel -/
def num4 (p : I4) : ℕ :=
  Nat.add (Nat.mul 27 p.1.1) (Nat.add (Nat.mul 9 p.2.1.1) (Nat.add (Nat.mul 3 p.2.2.1.1) p.2.2.2.1))

theorem num4_inj {a b : I4} (h : num4 a = num4 b) : a = b := by
  obtain ⟨a1, a2, a3, a4⟩ := a
  obtain ⟨b1, b2, b3, b4⟩ := b
  have h' : 27 * a1.1 + (9 * a2.1 + (3 * a3.1 + a4.1)) = 27 * b1.1 + (9 * b2.1 + (3 * b3.1 + b4.1)) := h
  have : a1 = b1 ∧ a2 = b2 ∧ a3 = b3 ∧ a4 = b4 := by
    refine ⟨?_, ?_, ?_, ?_⟩ <;> ext <;> omega
  simp [this]

/-- equality of index tuples by their numbers -/
@[reducible] def fast4 : DecidableEq I4 := fun a b =>
  match h : Nat.beq (num4 a) (num4 b) with
  | true => isTrue (num4_inj (Nat.eq_of_beq_eq_true h))
  | false => isFalse (fun e => by rw [e, Nat.beq_refl] at h; cases h)

theorem orbit_fast4 : @checkOrbit I4 fast4 Gen.symmetrize_4 code4 rels4 all4I = true := by decide +kernel
theorem orbit_ok4 : checkOrbit Gen.symmetrize_4 code4 rels4 all4I = true :=
  checkOrbit' fast4 _ _ _ _ orbit_fast4
theorem orbit_fast41 : @checkOrbit I4 fast4 Gen.symmetrize_41 code4 rels41 all4I = true := by decide +kernel
theorem orbit_ok41 : checkOrbit Gen.symmetrize_41 code4 rels41 all4I = true :=
  checkOrbit' fast4 _ _ _ _ orbit_fast41
theorem orbit_fast5 : @checkOrbit I4 fast4 Gen.symmetrize_5 code4 rels5 all4I = true := by decide +kernel
theorem orbit_ok5 : checkOrbit Gen.symmetrize_5 code4 rels5 all4I = true :=
  checkOrbit' fast4 _ _ _ _ orbit_fast5
theorem orbit_fast6 : @checkOrbit I4 fast4 Gen.symmetrize_6 code4 rels6 all4I = true := by decide +kernel
theorem orbit_ok6 : checkOrbit Gen.symmetrize_6 code4 rels6 all4I = true :=
  checkOrbit' fast4 _ _ _ _ orbit_fast6
theorem orbit_fast7 : @checkOrbit I4 fast4 Gen.symmetrize_7 code4 rels7 all4I = true := by decide +kernel
theorem orbit_ok7 : checkOrbit Gen.symmetrize_7 code4 rels7 all4I = true :=
  checkOrbit' fast4 _ _ _ _ orbit_fast7

end Verif.Reflect
