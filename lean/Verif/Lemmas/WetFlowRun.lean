import Verif.Lemmas.WetFlow
import Verif.Lemmas.WetInert
import Verif.Spec.WetCP
import Verif.Lemmas.WetEntries
import Mathlib.Algebra.Module.Submodule.Basic
import Mathlib.Algebra.Module.Prod
import Mathlib.Algebra.Module.BigOperators
import Mathlib.Algebra.BigOperators.Pi
import Mathlib.Algebra.Module.Submodule.LinearMap

/-!
# The running of all coefficients as a polynomial in the right-hand sides of the RGE
-/

open Classical

set_option autoImplicit false

namespace Verif.WetTab
open Verif Verif.Rotation Verif.WetRun

variable (eig : (n : ℕ) → Matrix (Fin n) (Fin n) ℂ → (Fin n → ℂ) × Matrix (Fin n) (Fin n) ℂ)
  (basisKeys : ℕ → String → Except Exc (List String))

/-- the coefficients that exist -/
noncomputable def masked (f : ℕ) (C : Coef → ℂ) : Coef → ℂ := fun a => if Live eig basisKeys f a then C a else 0

/-- the right-hand side of the RGE for the coefficients that exist -/
noncomputable def step (F : Force) (f : ℕ) (p : Par) (C : Coef → ℂ) : Coef → ℂ :=
  masked eig basisKeys f (rate F f p (masked eig basisKeys f C))

/-- a polynomial in the right-hand sides of the RGE, linear in the one of QED -/
noncomputable def flow (N : ℕ) (cs : ℕ → ℝ) (ce : ℕ → ℕ → ℝ) (f : ℕ) (p : Par) (C : Coef → ℂ) : Coef → ℂ :=
  ∑ k ∈ Finset.range N, cs k • ((step eig basisKeys .qcd f p)^[k] (masked eig basisKeys f C)) +
    ∑ k ∈ Finset.range N, ∑ l ∈ Finset.range N, ce k l •
      ((step eig basisKeys .qcd f p)^[k] (step eig basisKeys .qed f p ((step eig basisKeys .qcd f p)^[l] (masked eig basisKeys f C))))

variable {eig basisKeys}

/-! ## Relations kept by the right-hand sides are kept by the flow -/

theorem flow_rel (R : Submodule ℝ ((Coef → ℂ) × (Coef → ℂ))) {f : ℕ} {p p' : Par}
    (hmask : ∀ C C', (C, C') ∈ R → (masked eig basisKeys f C, masked eig basisKeys f C') ∈ R)
    (hrate : ∀ F C C', (C, C') ∈ R → (rate F f p C, rate F f p' C') ∈ R)
    {C C' : Coef → ℂ} (h : (C, C') ∈ R) (N : ℕ) (cs : ℕ → ℝ) (ce : ℕ → ℕ → ℝ) :
    (flow eig basisKeys N cs ce f p C, flow eig basisKeys N cs ce f p' C') ∈ R := by
  have hstep : ∀ F C C', (C, C') ∈ R → (step eig basisKeys F f p C, step eig basisKeys F f p' C') ∈ R :=
    fun F C C' h => hmask _ _ (hrate F _ _ (hmask _ _ h))
  have hit : ∀ k C C', (C, C') ∈ R →
      ((step eig basisKeys .qcd f p)^[k] C, (step eig basisKeys .qcd f p')^[k] C') ∈ R := by
    intro k
    induction k with
    | zero => intro C C' h; exact h
    | succ k ih => intro C C' h; exact ih _ _ (hstep _ _ _ h)
  have hm := hmask _ _ h
  have e : (flow eig basisKeys N cs ce f p C, flow eig basisKeys N cs ce f p' C') =
      ∑ k ∈ Finset.range N, cs k • ((step eig basisKeys .qcd f p)^[k] (masked eig basisKeys f C),
        (step eig basisKeys .qcd f p')^[k] (masked eig basisKeys f C')) +
      ∑ k ∈ Finset.range N, ∑ l ∈ Finset.range N, ce k l •
        ((step eig basisKeys .qcd f p)^[k] (step eig basisKeys .qed f p ((step eig basisKeys .qcd f p)^[l] (masked eig basisKeys f C))),
         (step eig basisKeys .qcd f p')^[k] (step eig basisKeys .qed f p' ((step eig basisKeys .qcd f p')^[l] (masked eig basisKeys f C')))) := by
    apply Prod.ext
    · simp [flow, Prod.fst_sum]
    · simp [flow, Prod.snd_sum]
  rw [e]
  refine R.add_mem (R.sum_mem fun k _ => R.smul_mem _ (hit _ _ _ hm)) ?_
  exact R.sum_mem fun k _ => R.sum_mem fun l _ => R.smul_mem _ (hit _ _ _ (hstep _ _ _ (hit _ _ _ hm)))

/-! ## A sector -/

/-- the coefficients of a list of names -/
structure Names (s : String) (f : ℕ) (keys : List String) (co : Fin keys.length → Coef) : Prop where
  hkeys : keylist (backend eig basisKeys) s f = .ok keys
  listed : ∀ i, ∃ j, Listed (co i) s j
  name : ∀ i, nameOf (co i) = keys[i]

theorem names_exist {s : String} {f : ℕ} {keys : List String} (hk : keylist (backend eig basisKeys) s f = .ok keys) :
    ∃ co : Fin keys.length → Coef, Names (eig := eig) (basisKeys := basisKeys) s f keys co := by
  obtain ⟨all, h1, h2⟩ := keylist_sub (backend_tables eig basisKeys) hk
  obtain ⟨cs, hm, rfl⟩ := coeffs_get eig basisKeys h1
  have : ∀ i : Fin keys.length, ∃ c, (∃ j, Listed c s j) ∧ nameOf c = keys[i] := by
    intro i
    obtain ⟨c, hc, e⟩ := List.mem_map.1 (h2.subset (List.getElem_mem i.isLt))
    exact ⟨c, listed_of_mem hm hc, e⟩
  choose co hco using this
  exact ⟨co, hk, fun i => (hco i).1, fun i => (hco i).2⟩

section
variable {s : String} {f : ℕ} {keys : List String} {co : Fin keys.length → Coef}
  (hN : Names (eig := eig) (basisKeys := basisKeys) s f keys co)
include hN

theorem Names.mem (i : Fin keys.length) : co i ∈ allCoefs := by
  obtain ⟨j, h⟩ := hN.listed i
  exact mem_allCoefs.2 ⟨_, _, h⟩

theorem Names.live (i : Fin keys.length) : Live eig basisKeys f (co i) :=
  ⟨s, (keylist_kept (backend_tables eig basisKeys) hN.hkeys _).1 (by rw [hN.name]; exact List.getElem_mem _)⟩

theorem Names.inj : Function.Injective co := by
  intro i j h
  have hnd := keylist_nodup (backend_tables eig basisKeys) hN.hkeys
  have : keys[i] = keys[j] := by rw [← hN.name, ← hN.name, h]
  exact Fin.ext ((hnd.getElem_inj_iff).1 this)

/-- the coefficients of the sector that exist are those of the list -/
theorem Names.surj {a : Coef} {j : ℕ} (ha : Listed a s j) (hl : Live eig basisKeys f a) : ∃ i, co i = a := by
  have hT := backend_tables eig basisKeys
  obtain ⟨s', hs'⟩ := hl
  have hl' : ∃ l, (backend eig basisKeys).coeffs.get? s' = some l ∧ nameOf a ∈ l := by
    rcases hs' with ⟨l, h1, h2, -⟩ | ⟨l, b, h1, h2, -⟩ <;> exact ⟨l, h1, h2⟩
  obtain ⟨l, h1, h2⟩ := hl'
  obtain ⟨cs, hm, rfl⟩ := coeffs_get eig basisKeys h1
  obtain ⟨c, hc, e⟩ := List.mem_map.1 h2
  obtain ⟨j', hj'⟩ := listed_of_mem hm hc
  obtain rfl := nameOf_inj hj'.wellNamed ha.wellNamed e
  obtain rfl := (listed_unique ha hj' rfl).1
  have := (keylist_kept hT hN.hkeys _).2 hs'
  obtain ⟨i, hi, e⟩ := List.mem_iff_getElem.1 this
  obtain ⟨i', hi'⟩ := hN.listed ⟨i, hi⟩
  refine ⟨⟨i, hi⟩, nameOf_inj hi'.wellNamed ha.wellNamed ?_⟩
  rw [hN.name]; exact e

theorem rate_sector (F : Force) (p : Par) (C : Coef → ℂ) (i : Fin keys.length) :
    step eig basisKeys F f p C (co i) = ∑ j, C (co j) * mix F f p (co j) (co i) := by
  unfold step masked
  rw [if_pos (hN.live i), rate_eq]
  rw [← Finset.sum_subset (s₁ := Finset.univ.image co)]
  · rw [Finset.sum_image fun i _ j _ h => hN.inj h]
    refine Finset.sum_congr rfl fun j _ => ?_
    rw [if_pos (hN.live j)]
  · intro a ha
    obtain ⟨j, -, rfl⟩ := Finset.mem_image.1 ha
    exact List.mem_toFinset.2 (hN.mem j)
  · intro a ha hn
    have ha := List.mem_toFinset.1 ha
    by_cases hl : Live eig basisKeys f a
    · by_cases hz : mix F f p a (co i) = 0
      · rw [hz, mul_zero]
      · obtain ⟨t, k, j, n, S, e, hA, hB, -⟩ := mix_entry ha (hN.mem i) hz
        obtain ⟨j', hj'⟩ := hN.listed i
        obtain ⟨rfl, -⟩ := listed_unique hB.listed hj' rfl
        obtain ⟨i', rfl⟩ := hN.surj hA.listed hl
        exact absurd (Finset.mem_image.2 ⟨i', Finset.mem_univ _, rfl⟩) hn
    · rw [if_neg hl, zero_mul]

/-- the reduced matrix of the class of the sector -/
def RedAdm (F : Force) (s : String) (f : ℕ) (m : Masses) (n : ℕ) (M : Matrix (Fin n) (Fin n) ℂ) : Prop :=
  ∃ cls A, Dict.get? sectorTable s = some cls ∧ adm F cls f m = .ok A ∧ reduce (backend eig basisKeys) cls f A = .ok ⟨n, M⟩

theorem mix_red {F : Force} {p : Par} {M : Matrix (Fin keys.length) (Fin keys.length) ℂ}
    (hM : RedAdm (eig := eig) (basisKeys := basisKeys) F s f p.masses keys.length M) (i j : Fin keys.length) :
    mix F f p (co j) (co i) = M j i * (scale (co j) p / scale (co i) p : ℝ) := by
  obtain ⟨cls, A, hcls, hA, hred⟩ := hM
  obtain ⟨ki, hi⟩ := hN.listed i
  obtain ⟨kj, hj⟩ := hN.listed j
  obtain ⟨cs, hcs, hi'⟩ := id hi
  obtain ⟨cs', hcs', hj'⟩ := id hj
  obtain ⟨j', i', e1, e2, e3⟩ := reduce_entry hcs hcls hN.hkeys hred j i
  obtain ⟨n, S, hAi⟩ := hi.at
  obtain ⟨n', S', hAj⟩ := hj.at
  obtain rfl := (hAi.sector_iff hAj).1 rfl
  obtain rfl := hAi.sec_eq hAj
  rw [mix_of hAj hAi, e3]
  rw [adm_eq hAi (Dict.mem_of_get? hcls) F] at hA
  obtain rfl := Except.ok.inj hA
  have pos : ∀ {c : Coef} {k : ℕ} {i : Fin keys.length} {l : ℕ}, cs[k]? = some c → nameOf c = keys[i] →
      (cs.map nameOf)[l]? = some keys[i] → l = k := by
    intro c k i l h1 h2 h3
    have e4 : (cs.map nameOf)[k]? = some keys[i] := by rw [List.getElem?_map, h1, ← h2]; rfl
    obtain ⟨l1, l2⟩ := List.getElem?_eq_some_iff.1 h3
    obtain ⟨l3, l4⟩ := List.getElem?_eq_some_iff.1 e4
    exact ((names_nodup hcs).getElem_inj_iff).1 (l2.trans l4.symm)
  have hcc : cs' = cs := by
    have a1 := get_coeffs eig basisKeys hcs
    obtain ⟨n1, hn1⟩ := List.getElem?_of_mem hcs
    obtain ⟨n2, hn2⟩ := List.getElem?_of_mem hcs'
    obtain ⟨q1, q2⟩ := List.getElem?_eq_some_iff.1 hn1
    obtain ⟨q3, q4⟩ := List.getElem?_eq_some_iff.1 hn2
    have : n1 = n2 := (List.Nodup.getElem_inj_iff sector_names_nodup (hi := by simpa using q1)
      (hj := by simpa using q3)).1 (by simp [q2, q4])
    subst this
    rw [hn1] at hn2
    exact ((Prod.mk.inj (Option.some.inj hn2)).2).symm
  subst hcc
  have h1 := pos hi' (hN.name i) e2
  have h2 := pos hj' (hN.name j) e1
  dsimp only
  rw [h1, h2]

theorem step_mulVec {F : Force} {p : Par} (hp : p.Positive) {M : Matrix (Fin keys.length) (Fin keys.length) ℂ}
    (hM : RedAdm (eig := eig) (basisKeys := basisKeys) F s f p.masses keys.length M) (C : Coef → ℂ) :
    (fun i => (scale (co i) p : ℂ) * step eig basisKeys F f p C (co i))
      = M.transpose.mulVec (fun j => (scale (co j) p : ℂ) * C (co j)) := by
  funext i
  have hne : (scale (co i) p : ℂ) ≠ 0 := by
    obtain ⟨j, hj⟩ := hN.listed i
    have := scaleC_pos hp (scaleC_eq hj.wellNamed p)
    exact_mod_cast this.ne'
  rw [rate_sector hN, Finset.mul_sum]
  simp only [Matrix.mulVec, dotProduct, Matrix.transpose_apply]
  refine Finset.sum_congr rfl fun j _ => ?_
  rw [mix_red hN hM]
  push_cast
  field_simp

/-- the coefficients in the normalisation of the anomalous dimensions -/
noncomputable def nvec (p : Par) (co : Fin keys.length → Coef) (C : Coef → ℂ) : Fin keys.length → ℂ :=
  fun i => (scale (co i) p : ℂ) * C (co i)

theorem nvec_step {F : Force} {p : Par} (hp : p.Positive) {M : Matrix (Fin keys.length) (Fin keys.length) ℂ}
    (hM : RedAdm (eig := eig) (basisKeys := basisKeys) F s f p.masses keys.length M) (C : Coef → ℂ) :
    nvec p co (step eig basisKeys F f p C) = M.transpose.mulVec (nvec p co C) := step_mulVec hN hp hM C

theorem nvec_iter {F : Force} {p : Par} (hp : p.Positive) {M : Matrix (Fin keys.length) (Fin keys.length) ℂ}
    (hM : RedAdm (eig := eig) (basisKeys := basisKeys) F s f p.masses keys.length M) (k : ℕ) (C : Coef → ℂ) :
    nvec p co ((step eig basisKeys F f p)^[k] C) = (M.transpose ^ k).mulVec (nvec p co C) := by
  induction k generalizing C with
  | zero => simp
  | succ k ih =>
    rw [Function.iterate_succ_apply, ih, nvec_step hN hp hM, Matrix.mulVec_mulVec, pow_succ]

theorem nvec_masked (p : Par) (C : Coef → ℂ) : nvec p co (masked eig basisKeys f C) = nvec p co C := by
  funext i
  simp only [nvec, masked, if_pos (hN.live i)]

theorem nvec_flow {p : Par} (hp : p.Positive) {M E : Matrix (Fin keys.length) (Fin keys.length) ℂ}
    (hM : RedAdm (eig := eig) (basisKeys := basisKeys) .qcd s f p.masses keys.length M)
    (N : ℕ) (cs : ℕ → ℝ) (ce : ℕ → ℕ → ℝ)
    (hE : RedAdm (eig := eig) (basisKeys := basisKeys) .qed s f p.masses keys.length E ∨ ∀ k l, ce k l = 0)
    (C : Coef → ℂ) :
    nvec p co (flow eig basisKeys N cs ce f p C) =
      (∑ k ∈ Finset.range N, (cs k : ℂ) • M.transpose ^ k +
        ∑ k ∈ Finset.range N, ∑ l ∈ Finset.range N, (ce k l : ℂ) • (M.transpose ^ k * E.transpose * M.transpose ^ l)).mulVec
        (nvec p co C) := by
  have hadd : ∀ C C' : Coef → ℂ, nvec p co (C + C') = nvec p co C + nvec p co C' := by
    intro C C'; funext i; simp [nvec, mul_add]
  have hsm : ∀ (c : ℝ) (C : Coef → ℂ), nvec p co (c • C) = (c : ℂ) • nvec p co C := by
    intro c C; funext i; simp [nvec]; ring
  have hsum : ∀ (n : ℕ) (g : ℕ → Coef → ℂ), nvec p co (∑ k ∈ Finset.range n, g k) = ∑ k ∈ Finset.range n, nvec p co (g k) := by
    intro n g
    induction n with
    | zero => funext i; simp [nvec]
    | succ n ih => rw [Finset.sum_range_succ, Finset.sum_range_succ, hadd, ih]
  have hmv : ∀ (n : ℕ) (g : ℕ → Matrix (Fin keys.length) (Fin keys.length) ℂ) (x : Fin keys.length → ℂ),
      (∑ k ∈ Finset.range n, g k).mulVec x = ∑ k ∈ Finset.range n, (g k).mulVec x := by
    intro n g x
    induction n with
    | zero => simp
    | succ n ih => rw [Finset.sum_range_succ, Finset.sum_range_succ, Matrix.add_mulVec, ih]
  unfold flow
  rw [hadd, hsum, hsum, Matrix.add_mulVec, hmv, hmv]
  refine congrArg₂ _ (Finset.sum_congr rfl fun k _ => ?_) (Finset.sum_congr rfl fun k _ => ?_)
  · rw [hsm, nvec_iter hN hp hM, nvec_masked hN, Matrix.smul_mulVec]
  · rw [hsum, hmv]
    refine Finset.sum_congr rfl fun l _ => ?_
    rcases hE with hE | hE
    · rw [hsm, nvec_iter hN hp hM, nvec_step hN hp hE, nvec_iter hN hp hM, nvec_masked hN, Matrix.smul_mulVec,
        Matrix.mulVec_mulVec, Matrix.mulVec_mulVec, Matrix.mul_assoc]
    · rw [hsm, hE]
      simp
end

/-! ## Coefficients that do not run -/

theorem secs_inv : secs.all (fun S => !(S.rE.all List.isEmpty && S.rS.all List.isEmpty) ||
    S.coefs.all fun a => Nat.beq (fields a.1).length 4) = true := by decide +kernel

theorem entry_empty {R : Rows} (h : R.all List.isEmpty = true) (i j : ℕ) : entry R i j = none := by
  have : R.getD i [] = [] := by
    rw [List.getD_eq_getElem?_getD]
    cases e : R[i]? with
    | none => rfl
    | some r =>
      have := List.all_eq_true.1 h r (List.mem_of_getElem? e)
      simpa using this
  rw [entry, this]
  rfl

theorem inv_at {a : Coef} {s : String} {i n : ℕ} {S : Sec} (h : At a s i n S)
    (hc : Dict.get? sectorTable s = some "inv") : S.rE.all List.isEmpty = true ∧ S.rS.all List.isEmpty = true := by
  obtain ⟨cls, h1, h2, h3⟩ := h.cls
  obtain rfl : "inv" = cls := Option.some.inj (hc.symm.trans h1)
  rw [getE_inv] at h2
  rw [getS_inv] at h3
  rw [← Option.some.inj h2, ← Option.some.inj h3]
  exact ⟨by decide, by decide⟩

theorem inv_scale {a : Coef} {s : String} {i : ℕ} (h : Listed a s i)
    (hc : Dict.get? sectorTable s = some "inv") (p : Par) : scale a p = 1 := by
  obtain ⟨n, S, hA⟩ := h.at
  obtain ⟨h1, h2⟩ := inv_at hA hc
  have := List.all_eq_true.1 secs_inv S (List.mem_of_getElem? hA.sec)
  rw [h1, h2] at this
  simp only [Bool.and_self, Bool.not_true, Bool.false_or] at this
  have := List.all_eq_true.1 this a (List.mem_of_getElem? hA.coef)
  have h4 : (fields a.1).length = 4 := Nat.eq_of_beq_eq_true this
  obtain ⟨k, m⟩ := a
  unfold scale
  cases k <;> first
    | exact absurd h4 (by (try dsimp only); decide)
    | simp [gfac, massOf, mprod]

theorem inv_step {a : Coef} {s : String} {i : ℕ} (h : Listed a s i)
    (hc : Dict.get? sectorTable s = some "inv") (F : Force) (f : ℕ) (p : Par) (C : Coef → ℂ) :
    step eig basisKeys F f p C a = 0 := by
  unfold step masked
  split_ifs with hl
  · rw [rate_eq]
    refine Finset.sum_eq_zero fun b hb => ?_
    by_cases hz : mix F f p b a = 0
    · rw [hz, mul_zero]
    · obtain ⟨t, k, j, n, S, e, hA, hB, he, -⟩ := mix_entry (List.mem_toFinset.1 hb) (mem_allCoefs.2 ⟨_, _, h⟩) hz
      obtain ⟨rfl, -⟩ := listed_unique hB.listed h rfl
      obtain ⟨h1, h2⟩ := inv_at hB hc
      rw [entry_empty (by cases F <;> assumption)] at he
      exact absurd he (by simp)
  · rfl

/-! ## The eigenvalues -/

/-- a finite set of complex numbers, closed under conjugation, with 0 and all eigenvalues -/
structure Eigs (eig : (n : ℕ) → Matrix (Fin n) (Fin n) ℂ → (Fin n → ℂ) × Matrix (Fin n) (Fin n) ℂ)
    (basisKeys : ℕ → String → Except Exc (List String)) (S : Finset ℂ) (f : ℕ) (p : Par) : Prop where
  zero : 0 ∈ S
  conj : ∀ z ∈ S, (starRingEnd ℂ) z ∈ S
  mem : ∀ cls n M, QcdAdm (backend eig basisKeys) cls f p.masses n M → ∀ i, (eig n M.transpose).1 i ∈ S

theorem eigs_one (f : ℕ) (p : Par) : ∃ S : Finset ℂ,
    ∀ cls n M, QcdAdm (backend eig basisKeys) cls f p.masses n M → ∀ i, (eig n M.transpose).1 i ∈ S := by
  have : ∀ cls, ∃ S : Finset ℂ, ∀ n M, QcdAdm (backend eig basisKeys) cls f p.masses n M → ∀ i, (eig n M.transpose).1 i ∈ S := by
    intro cls
    by_cases h : ∃ n M, QcdAdm (backend eig basisKeys) cls f p.masses n M
    · obtain ⟨n, M, hM⟩ := h
      refine ⟨Finset.univ.image (eig n M.transpose).1, ?_⟩
      intro n' M' hM' i
      obtain ⟨A, h1, h2⟩ := hM
      obtain ⟨A', h1', h2'⟩ := hM'
      obtain rfl := Except.ok.inj (h1.symm.trans h1')
      have := Except.ok.inj (h2.symm.trans h2')
      cases this
      exact Finset.mem_image_of_mem _ (Finset.mem_univ _)
    · exact ⟨∅, fun n M hM => absurd ⟨n, M, hM⟩ h⟩
  choose S hS using this
  refine ⟨(admSTable.map Prod.fst).toFinset.biUnion S, ?_⟩
  intro cls n M hM i
  refine Finset.mem_biUnion.2 ⟨cls, ?_, hS cls n M hM i⟩
  obtain ⟨A, hA, -⟩ := hM
  change admOf admSTable cls f p.masses = _ at hA
  unfold admOf at hA
  cases e : Dict.get? admSTable cls with
  | none => rw [e] at hA; exact absurd hA (by simp)
  | some R => exact List.mem_toFinset.2 (List.mem_map.2 ⟨_, Dict.mem_of_get? e, rfl⟩)

theorem eigs_two (f : ℕ) (p p' : Par) : ∃ S : Finset ℂ, Eigs eig basisKeys S f p ∧ Eigs eig basisKeys S f p' := by
  obtain ⟨S1, h1⟩ := eigs_one (eig := eig) (basisKeys := basisKeys) f p
  obtain ⟨S2, h2⟩ := eigs_one (eig := eig) (basisKeys := basisKeys) f p'
  have h0 : (0 : ℂ) ∈ ({0} ∪ (S1 ∪ S2) : Finset ℂ) := by simp
  have hc : ∀ z ∈ (({0} ∪ (S1 ∪ S2)) ∪ ({0} ∪ (S1 ∪ S2)).image (starRingEnd ℂ) : Finset ℂ),
      (starRingEnd ℂ) z ∈ (({0} ∪ (S1 ∪ S2)) ∪ ({0} ∪ (S1 ∪ S2)).image (starRingEnd ℂ) : Finset ℂ) := by
    intro z hz
    rcases Finset.mem_union.1 hz with hz | hz
    · exact Finset.mem_union_right _ (Finset.mem_image_of_mem _ hz)
    · obtain ⟨y, hy, rfl⟩ := Finset.mem_image.1 hz
      exact Finset.mem_union_left _ (by simpa using hy)
  refine ⟨({0} ∪ (S1 ∪ S2)) ∪ ({0} ∪ (S1 ∪ S2)).image (starRingEnd ℂ), ⟨?_, hc, ?_⟩, ⟨?_, hc, ?_⟩⟩
  · exact Finset.mem_union_left _ h0
  · intro cls n M hM i
    exact Finset.mem_union_left _ (Finset.mem_union_right _ (Finset.mem_union_left _ (h1 cls n M hM i)))
  · exact Finset.mem_union_left _ h0
  · intro cls n M hM i
    exact Finset.mem_union_left _ (Finset.mem_union_right _ (Finset.mem_union_right _ (h2 cls n M hM i)))

theorem usCoeff_zero {S : Finset ℂ} (h0 : (0 : ℂ) ∈ S) (eta : ℝ) (f : ℕ) : usCoeff S eta f 0 = 1 := by
  have hD : Diagonalises (0 : Matrix (Fin 1) (Fin 1) ℂ) (fun _ => 0, 1) := by
    refine ⟨isUnit_one, ?_⟩
    ext i j
    simp [Matrix.diagonal]
  have := us_poly (S := S) f hD (fun _ => h0) eta
  have h2 := congrFun (congrFun this 0) 0
  have hr : (0 : ℕ) ∈ Finset.range S.card := Finset.mem_range.2 (Finset.card_pos.2 ⟨0, h0⟩)
  rw [Matrix.sum_apply, Finset.sum_eq_single 0] at h2
  · simp [usMatrix] at h2
    exact h2.symm
  · intro k _ hk
    simp [zero_pow hk]
  · intro h; exact absurd hr h

/-! ## The coefficients of the flow -/

/-- number of terms -/
noncomputable def flowN (S : Finset ℂ) (qcd : ℕ) : ℕ := if qcd = 1 then S.card else 1

/-- coefficients of the powers of the QCD right-hand side -/
noncomputable def flowS (S : Finset ℂ) (eta : ℝ) (f qcd k : ℕ) : ℝ := if qcd = 1 then (usCoeff S eta f k).re else 1

/-- coefficients of the terms with QED -/
noncomputable def flowE (S : Finset ℂ) (eta : ℝ) (f : ℕ) (as ae : ℝ) (qed qcd k l : ℕ) : ℝ :=
  if qcd = 1 ∧ qed = 1 then (-(ae : ℂ) / (2 * b0s f * as) * ueCoeff S eta f k l).re else 0

theorem flowE_real {S : Finset ℂ} (hS : ∀ z ∈ S, (starRingEnd ℂ) z ∈ S) {eta : ℝ} (h : 0 < eta) (f : ℕ) (as ae : ℝ)
    (k l : ℕ) : ((flowE S eta f as ae 1 1 k l : ℝ) : ℂ) = -(ae : ℂ) / (2 * b0s f * as) * ueCoeff S eta f k l := by
  unfold flowE
  rw [if_pos ⟨rfl, rfl⟩]
  apply re_of_conj
  have : (starRingEnd ℂ) (ueCoeff S eta f k l) = ueCoeff S eta f k l := by
    conv_rhs => rw [← ueCoeff_real hS h f k l]
    rw [← ueCoeff_real hS h f k l]
    simp
  rw [map_mul, map_div₀, map_mul, conj_b0s, this]
  simp

theorem flow_inv {a : Coef} {s : String} {i : ℕ} (h : Listed a s i)
    (hc : Dict.get? sectorTable s = some "inv") {S : Finset ℂ} (h0 : (0 : ℂ) ∈ S) (eta : ℝ) (f : ℕ) (p : Par)
    (as ae : ℝ) (qed qcd : ℕ) (C : Coef → ℂ) :
    flow eig basisKeys (flowN S qcd) (flowS S eta f qcd) (flowE S eta f as ae qed qcd) f p C a
      = masked eig basisKeys f C a := by
  have hz : ∀ F X, step eig basisKeys F f p X a = 0 := fun F X => inv_step h hc F f p X
  have hpos : 0 < flowN S qcd := by
    unfold flowN
    split_ifs
    · exact Finset.card_pos.2 ⟨0, h0⟩
    · exact Nat.one_pos
  unfold flow
  rw [Pi.add_apply, Finset.sum_apply, Finset.sum_apply, Finset.sum_eq_single 0, Finset.sum_eq_zero, add_zero]
  · have : flowS S eta f qcd 0 = 1 := by
      unfold flowS
      split_ifs
      · rw [usCoeff_zero h0]; rfl
      · rfl
    rw [this]
    simp
  · intro k _
    rw [Finset.sum_apply]
    refine Finset.sum_eq_zero fun l _ => ?_
    cases k with
    | zero => simp [hz]
    | succ k => rw [Function.iterate_succ_apply', Pi.smul_apply, hz, smul_zero]
  · intro k _ hk
    obtain ⟨k, rfl⟩ := Nat.exists_eq_succ_of_ne_zero hk
    rw [Function.iterate_succ_apply', Pi.smul_apply, hz, smul_zero]
  · intro hn; exact absurd (Finset.mem_range.2 hpos) hn

/-- coefficients that do not exist -/
theorem flow_dead {f : ℕ} {a : Coef} (hl : ¬Live eig basisKeys f a) (N : ℕ) (cs : ℕ → ℝ) (ce : ℕ → ℕ → ℝ) (p : Par)
    (C : Coef → ℂ) : flow eig basisKeys N cs ce f p C a = 0 := by
  have hs : ∀ F X, step eig basisKeys F f p X a = 0 := fun F X => by
    unfold step masked
    rw [if_neg hl]
  have hmz : masked eig basisKeys f C a = 0 := by unfold masked; rw [if_neg hl]
  have hit : ∀ F k X, X a = 0 → (step eig basisKeys F f p)^[k] X a = 0 := by
    intro F k X hX
    cases k with
    | zero => exact hX
    | succ k => rw [Function.iterate_succ_apply', hs]
  unfold flow
  rw [Pi.add_apply, Finset.sum_apply, Finset.sum_apply, Finset.sum_eq_zero, Finset.sum_eq_zero, add_zero]
  · intro k _
    rw [Finset.sum_apply]
    refine Finset.sum_eq_zero fun l _ => ?_
    rw [Pi.smul_apply, hit _ _ _ (hs _ _), smul_zero]
  · intro k _
    rw [Pi.smul_apply, hit _ _ _ hmz, smul_zero]

/-- the flow of coefficients that vanish in a sector -/
theorem flow_zero {s : String} {f : ℕ} {C : Coef → ℂ}
    (hC : ∀ a i, Listed a s i → Live eig basisKeys f a → C a = 0) (N : ℕ) (cs : ℕ → ℝ) (ce : ℕ → ℕ → ℝ) (p : Par)
    {a : Coef} {i : ℕ} (h : Listed a s i) : flow eig basisKeys N cs ce f p C a = 0 := by
  by_cases hl : Live eig basisKeys f a
  · let R : Submodule ℝ ((Coef → ℂ) × (Coef → ℂ)) :=
      { carrier := {x | ∀ a i, Listed a s i → x.1 a = 0}
        add_mem' := by
          intro x y hx hy a i h1
          simp [hx a i h1, hy a i h1]
        zero_mem' := by intro a i _; rfl
        smul_mem' := by
          intro c x hx a i h1
          simp [hx a i h1] }
    have hm' : ∀ C C' : Coef → ℂ, (C, C') ∈ R → (masked eig basisKeys f C, masked eig basisKeys f C') ∈ R := by
      intro C C' hR a i h1
      change masked eig basisKeys f C a = 0
      unfold masked
      split_ifs
      · exact hR a i h1
      · rfl
    have hr' : ∀ F (C C' : Coef → ℂ), (C, C') ∈ R → (rate F f p C, rate F f p C') ∈ R := by
      intro F C C' hR a i h1
      change rate F f p C a = 0
      rw [rate_eq]
      refine Finset.sum_eq_zero fun b hb => ?_
      by_cases hz : mix F f p b a = 0
      · rw [hz, mul_zero]
      · obtain ⟨t, k, j, n, S, e, hA, hB, -⟩ := mix_entry (List.mem_toFinset.1 hb) (mem_allCoefs.2 ⟨_, _, h1⟩) hz
        obtain ⟨rfl, -⟩ := listed_unique hB.listed h1 rfl
        rw [show C b = 0 from hR b _ hA.listed, zero_mul]
    have hmm : (masked eig basisKeys f C, masked eig basisKeys f C) ∈ R := by
      intro a i h1
      change masked eig basisKeys f C a = 0
      unfold masked
      split_ifs with h2
      · exact hC a i h1 h2
      · rfl
    have := flow_rel R hm' hr' hmm N cs ce a i h
    change flow eig basisKeys N cs ce f p (masked eig basisKeys f C) a = 0 at this
    have e : masked eig basisKeys f (masked eig basisKeys f C) = masked eig basisKeys f C := by
      funext b
      unfold masked
      split_ifs <;> rfl
    unfold flow at this ⊢
    rwa [e] at this
  · exact flow_dead hl N cs ce p C

/-! ## What a run returns -/

/-- a sector -/
theorem run_flow {s : String} {f : ℕ} {p q : Par} (hp : p.Positive) (hq : q.Positive)
    (hD : EigFor eig basisKeys s f p.masses) {S : Finset ℂ} (hS : Eigs eig basisKeys S f p)
    {eta : ℝ} (heta : 0 < eta) {qed qcd : ℕ} {C d : Dict String ℂ}
    (h : runSector (backend eig basisKeys) s C eta f p q qed qcd = .ok d) {a : Coef} {i : ℕ} (ha : Listed a s i) :
    (scale a q : ℂ) * val d (nameOf a) = (scale a p : ℂ) *
      flow eig basisKeys (flowN S qcd) (flowS S eta f qcd) (flowE S eta f p.alpha_s p.alpha_e qed qcd) f p
        (fun a => val C (nameOf a)) a := by
  have hB := backend_tables eig basisKeys
  obtain ⟨cls, keys, h1, h2, h3⟩ := runSector_ok _ h
  have hcls : Dict.get? sectorTable s = some cls := lookup_ok.1 h1
  have hnd := keylist_nodup hB h2
  obtain ⟨co, hN⟩ := names_exist h2
  by_cases hl : Live eig basisKeys f a
  swap
  · rw [flow_dead hl, mul_zero]
    have : val d (nameOf a) = 0 := by
      have hn : nameOf a ∉ keys := fun hm => hl ⟨s, (keylist_kept hB h2 _).1 hm⟩
      unfold val
      rcases h3 with ⟨-, rfl⟩ | ⟨-, T, -, rfl⟩ <;> rw [toDict_get?_none _ _ hnd _ hn] <;> rfl
    rw [this, mul_zero]
  obtain ⟨i', rfl⟩ := hN.surj ha hl
  have hval : ∀ (g : Fin keys.length → ℂ), val (toDict keys g) (nameOf (co i')) = g i' := by
    intro g
    rw [hN.name]
    simp only [val]
    rw [toDict_get? keys g hnd i']
    rfl
  have hvec : ∀ j, vec keys C j = val C (nameOf (co j)) := by
    intro j
    rw [hN.name]
    rfl
  rcases h3 with ⟨h3 | rfl, rfl⟩ | ⟨h3, T, hT, rfl⟩
  · rw [flow_zero (s := s) _ _ _ _ _ ha, mul_zero, hval, h3]
    · simp
    · intro b j hb hlb
      obtain ⟨j', rfl⟩ := hN.surj hb hlb
      rw [← hvec, h3]
      rfl
  · rw [flow_inv ha hcls hS.zero, hval, hvec, inv_scale ha hcls, inv_scale ha hcls]
    unfold masked
    rw [if_pos hl]
  · obtain ⟨s_in, U, s_out, hin, hU, hout, rfl⟩ := evolved_ok _ hT
    have e1 : ∀ j : Fin keys.length, s_in.getD j 0 = scale (co j) p := by
      intro j
      have := scales_get hin j
      obtain ⟨l, hl⟩ := hN.listed j
      rw [← hN.name, scaleC_eq hl.wellNamed] at this
      exact (Except.ok.inj this).symm
    have e2 : s_out.getD i' 0 = scale (co i') q := by
      have := scales_get hout i'
      rw [← hN.name, scaleC_eq ha.wellNamed] at this
      exact (Except.ok.inj this).symm
    have hne := scales_ne hq hout i'
    rw [hval, ← transfer_mulVec, e2, mul_div_cancel₀ _ (by rw [← e2]; exact_mod_cast hne)]
    have ex : (fun j => vec keys C j * (s_in.getD j 0 : ℂ)) = nvec p co (fun a => val C (nameOf a)) := by
      funext j
      rw [e1, hvec, nvec, mul_comm]
    rw [ex]
    change _ = nvec p co _ i'
    rcases evolution_order _ hU with rfl | rfl
    · obtain rfl := evolution_noqcd _ hU
      have : flow eig basisKeys (flowN S 0) (flowS S eta f 0) (flowE S eta f p.alpha_s p.alpha_e qed 0) f p
          (fun a => val C (nameOf a)) = masked eig basisKeys f (fun a => val C (nameOf a)) := by
        simp [flow, flowN, flowS, flowE]
      rw [this, nvec_masked hN, Matrix.one_mulVec]
    · obtain ⟨M, hM, hU'⟩ := evolution_qcd _ hU
      have hMr : RedAdm (eig := eig) (basisKeys := basisKeys) .qcd s f p.masses keys.length M := by
        obtain ⟨A, hA1, hA2⟩ := hM
        exact ⟨cls, A, hcls, hA1, hA2⟩
      have hdia : Diagonalises M.transpose ((eig keys.length M.transpose).1, (eig keys.length M.transpose).2) := hD _ hcls _ _ hM
      have hus : usMatrix (eig keys.length M.transpose).1 (eig keys.length M.transpose).2 eta f
          = ∑ k ∈ Finset.range (flowN S 1), (flowS S eta f 1 k : ℂ) • M.transpose ^ k := by
        rw [us_poly (S := S) f hdia (hS.mem _ _ _ hM) eta]
        refine Finset.sum_congr rfl fun k _ => ?_
        unfold flowS
        rw [if_pos rfl, usCoeff_real hS.conj heta f k]
      rcases hU' with ⟨rfl, rfl⟩ | ⟨rfl, E, A, hA, hE, rfl⟩
      · rw [nvec_flow hN hp hMr _ _ _ (E := 0) (Or.inr fun k l => by simp [flowE])]
        refine congrFun (congrArg (fun X => Matrix.mulVec X _) ?_) i'
        refine hus.trans ?_
        simp [flowE]
      · have hEr : RedAdm (eig := eig) (basisKeys := basisKeys) .qed s f p.masses keys.length E := ⟨cls, A, hcls, hA, hE⟩
        rw [nvec_flow hN hp hMr _ _ _ (Or.inl hEr)]
        refine congrFun (congrArg (fun X => Matrix.mulVec X _) ?_) i'
        refine congrArg₂ _ hus ?_
        refine (ue_poly (S := S) f hdia (hS.mem _ _ _ hM) eta p).trans ?_
        rw [Finset.smul_sum]
        refine Finset.sum_congr rfl fun k _ => ?_
        rw [Finset.smul_sum]
        refine Finset.sum_congr rfl fun l _ => ?_
        rw [smul_smul, flowE_real hS.conj heta]

end Verif.WetTab
