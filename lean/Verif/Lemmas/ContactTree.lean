import Verif.Lemmas.Contact
import Verif.Lemmas.ContactTab

/-!
# Lemmas: contact terms of the tree-level matching and their rotation to the basis of the WET (C95)
-/

set_option autoImplicit false
set_option linter.unusedSimpArgs false
set_option linter.unusedVariables false

namespace Verif.Contact
open Verif Verif.Tens Verif.Beta Verif.Flavour Verif.BetaSpec Verif.Rotation Verif.Exchange BigOperators

/-! ## Contact terms -/

/-- the WET coefficients that four-fermion operators contribute to at tree level -/
noncomputable def tree (X : Key → Ten) (p r s t : Fin 3) : WKey → ℂ
  | .VnunuLL | .VeeLL => 1 / 4 * (X .ll [p, r, s, t] + X .ll [s, t, p, r] + X .ll [p, t, s, r] + X .ll [s, r, p, t])
  | .VnueLL => X .ll [p, r, s, t] + X .ll [s, t, p, r]
  | .VnuuLL | .VedLL => X .lq1 [p, r, s, t] + X .lq3 [p, r, s, t]
  | .VnudLL | .VeuLL => X .lq1 [p, r, s, t] - X .lq3 [p, r, s, t]
  | .VnueduLL => 2 * X .lq3 [p, r, s, t]
  | .VuuLL | .VddLL => 1 / 2 * (X .qq1 [p, r, s, t] + X .qq3 [p, r, s, t] + (X .qq1 [s, t, p, r] + X .qq3 [s, t, p, r]))
  | .V1udLL => X .qq1 [p, r, s, t] + X .qq1 [s, t, p, r] - X .qq3 [p, r, s, t] - X .qq3 [s, t, p, r]
      + 1 / 3 * (2 * (X .qq3 [p, t, s, r] + X .qq3 [s, r, p, t]))
  | .V8udLL => 2 * (2 * (X .qq3 [p, t, s, r] + X .qq3 [s, r, p, t]))
  | .VeeRR => 1 / 4 * (X .ee [p, r, s, t] + X .ee [s, t, p, r] + X .ee [p, t, s, r] + X .ee [s, r, p, t])
  | .VeuRR => X .eu [p, r, s, t]
  | .VedRR => X .ed [p, r, s, t]
  | .VuuRR => 1 / 2 * (X .uu [p, r, s, t] + X .uu [s, t, p, r])
  | .VddRR => 1 / 2 * (X .dd [p, r, s, t] + X .dd [s, t, p, r])
  | .V1udRR => X .ud1 [p, r, s, t]
  | .V8udRR => X .ud8 [p, r, s, t]
  | .VnueLR | .VeeLR => X .le [p, r, s, t]
  | .VnuuLR | .VeuLR => X .lu [p, r, s, t]
  | .VnudLR | .VedLR => X .ld [p, r, s, t]
  | .VueLR | .VdeLR => X .qe [p, r, s, t]
  | .V1uuLR | .V1duLR => X .qu1 [p, r, s, t]
  | .V1udLR | .V1ddLR => X .qd1 [p, r, s, t]
  | .V8uuLR | .V8duLR => X .qu8 [p, r, s, t]
  | .V8udLR | .V8ddLR => X .qd8 [p, r, s, t]
  | .SedRL | .SnueduRL => X .ledq [p, r, s, t]
  | .S1udRR => X .quqd1 [p, r, s, t]
  | .S1udduRR => -X .quqd1 [s, t, p, r]
  | .S8udRR => X .quqd8 [p, r, s, t]
  | .S8udduRR => -X .quqd8 [s, t, p, r]
  | .SeuRR => -X .lequ1 [p, r, s, t]
  | .SnueduRR => X .lequ1 [p, r, s, t]
  | .TeuRR => -X .lequ3 [p, r, s, t]
  | .TnueduRR => X .lequ3 [p, r, s, t]
  | .SduuLL | .SuddLL => X .qqql [r, p, s, t] - X .qqql [r, s, p, t] + X .qqql [s, r, p, t]
  | .SduuLR => -X .qque [p, r, s, t] - X .qque [r, p, s, t]
  | .SduuRL => X .duql [p, r, s, t]
  | .SdudRL => -X .duql [p, r, s, t]
  | .SduuRR => X .duue [p, r, s, t]
  | _ => 0

theorem total_add (x y : Lin) : total (x + y) = total x + total y := by simp [total]; ring
theorem total_sub (x y : Lin) : total (x - y) = total x - total y := by simp [total]; ring
theorem total_neg (x : Lin) : total (-x) = -total x := by simp [total]; ring
theorem total_lin (c : ℂ) (x : Lin) : total (lin c 0 * x) = c * total x := by
  simp [total, lin]; ring
theorem total_contact (c : ℂ) : total (contact c) = c := by simp [total, contact, lin]
theorem total_zero : total 0 = 0 := by simp [total]

/-- no operators but four-fermion operators -/
def NoBosons (X : Key → Ten) : Prop :=
  ∀ k ∈ [Key.phiD, .phiWB, .phil1, .phil3, .phiq1, .phiq3, .phie, .phiu, .phid, .phiud], ∀ ix, X k ix = 0

theorem tree_total (P P0 : Inp) (hW : P0.mW = P.mW) (hZ : P0.mZ = P.mZ) (hv : P0.v = P.v) (hg : P0.g1 = P.g1)
    (hX : NoBosons P.C) (h0 : ∀ k ix, P0.C k ix = 0) (q : ℂ) (K : WKey) (p r s t : Fin 3) (x x0 : Lin)
    (hx : coefficient P q K [p, r, s, t] = some x) (hx0 : coefficient P0 q K [p, r, s, t] = some x0) :
    total x - total x0 = tree P.C p r s t K := by
  have z : ∀ k ∈ [Key.phiD, .phiWB, .phil1, .phil3, .phiq1, .phiq3, .phie, .phiu, .phid, .phiud], ∀ ix, P.C k ix = 0 := hX
  have z1 := z .phiD (by decide)
  have z2 := z .phiWB (by decide)
  have z3 := z .phil1 (by decide)
  have z4 := z .phil3 (by decide)
  have z5 := z .phiq1 (by decide)
  have z6 := z .phiq3 (by decide)
  have z7 := z .phie (by decide)
  have z8 := z .phiu (by decide)
  have z9 := z .phid (by decide)
  have z10 := z .phiud (by decide)
  have eG : gZ2 P = gZ2 P0 := by simp only [gZ2, Inp.c0, z1, h0, hv]
  have eS : sin2 P = sin2 P0 := by simp only [sin2, Inp.c0, z1, z2, h0, hv, hW, hZ, hg]
  have eN : zNu P = zNu P0 := by funext a b; simp only [zNu, zed, eS, z3, z4, h0, hv]
  have eE : zEL P = zEL P0 := by funext a b; simp only [zEL, zed, eS, z3, z4, h0, hv]
  have eU : zUL P = zUL P0 := by funext a b; simp only [zUL, zed, eS, z5, z6, h0, hv]
  have eD : zDL P = zDL P0 := by funext a b; simp only [zDL, zed, eS, z5, z6, h0, hv]
  have eER : zER P = zER P0 := by funext a b; simp only [zER, zed, eS, z7, h0, hv]
  have eUR : zUR P = zUR P0 := by funext a b; simp only [zUR, zed, eS, z8, h0, hv]
  have eDR : zDR P = zDR P0 := by funext a b; simp only [zDR, zed, eS, z9, h0, hv]
  have eL : wL P = wL P0 := by funext a b; simp only [wL, z4, h0, hv]
  have eQ : wQ P = wQ P0 := by funext a b; simp only [wQ, z6, h0, hv]
  have eR : wRdag P = wRdag P0 := by funext a b; simp only [wRdag, z10, h0, hv]
  have ez : zz P = zz P0 := by funext a b c d e f; simp only [zz, eG]
  have ew : ww P = ww P0 := by funext a b; simp only [ww, hv]
  cases K <;> (first
    | (simp [coefficient, Exchange.vector, Exchange.scalar, Exchange.baryon] at hx; done)
    | (obtain rfl := Option.some.inj hx
       obtain rfl := Option.some.inj hx0
       simp only [tree, sym4, sym2, chargedQuarks, ct, eG, eN, eE, eU, eD, eER, eUR, eDR, eL, eQ, eR, ez, ew, total_add,
         total_sub, total_neg, total_lin, total_contact, total_zero, h0]
       ring))

/-! ## The contact terms of the beta functions -/

theorem tree_runs0 {C B : Key → Ten} (h : Runs C B) (f : ℕ) (m : WetRun.Masses) (K : WKey) (hK : lines K = 0)
    (p r s t : Fin 3) :
    tree B p r s t K = C .gs [] ^ 2 * ((mixK K).map fun x =>
      x.1.eval f m * (bif x.2.2 then tree C p t s r x.2.1 else tree C p r s t x.2.1)).sum := by
  cases K <;> first
    | (exact absurd hK (by decide))
    | (simp only [tree, mixK, List.map_cons, List.map_nil, List.sum_cons, List.sum_nil, WetTab.Ent.eval, cond_true, cond_false,
         h.ll, h.lq1, h.lq3, h.ee, h.eu, h.ed, h.le, h.lu, h.ld, h.qe, h.ledq, h.quqd1, h.quqd8, h.lequ1, h.lequ3,
         h.duql, h.qque, h.qqql, h.duue]
       try push_cast
       ring)

theorem tree_runs1 {C B : Key → Ten} (h : Runs C B) (f : ℕ) (m : WetRun.Masses) (K : WKey) (hK : lines K = 1) :
    ∃ Y Z : Fin 3 → Fin 3 → ℂ, ∀ p r s t : Fin 3,
    tree B p r s t K = C .gs [] ^ 2 * ((mixK K).map fun x =>
      x.1.eval f m * (bif x.2.2 then tree C p t s r x.2.1 else tree C p r s t x.2.1)).sum
      + delta p r * Y s t + delta s t * Z p r := by
  cases K <;> try (exact absurd hK (by decide))
  case V8udLL => exact ⟨fun s t => C .gs [] ^ 2 * (8 * pq C s t), fun s t => C .gs [] ^ 2 * (8 * pq C s t), by
    intro p r s t
    simp only [tree, mixK, List.map_cons, List.map_nil, List.sum_cons, List.sum_nil, WetTab.Ent.eval, cond_false, h.qq3]
    push_cast; ring⟩
  case V8udRR => exact ⟨fun s t => C .gs [] ^ 2 * (4 * pd C s t), fun s t => C .gs [] ^ 2 * (4 * pu C s t), by
    intro p r s t
    simp only [tree, mixK, List.map_cons, List.map_nil, List.sum_cons, List.sum_nil, WetTab.Ent.eval, cond_false, h.ud8]
    push_cast; ring⟩
  case V8uuLR => exact ⟨fun s t => C .gs [] ^ 2 * (4 * pu C s t), fun s t => C .gs [] ^ 2 * (8 * pq C s t), by
    intro p r s t
    simp only [tree, mixK, List.map_cons, List.map_nil, List.sum_cons, List.sum_nil, WetTab.Ent.eval, cond_false, h.qu8]
    push_cast; ring⟩
  case V8duLR => exact ⟨fun s t => C .gs [] ^ 2 * (4 * pu C s t), fun s t => C .gs [] ^ 2 * (8 * pq C s t), by
    intro p r s t
    simp only [tree, mixK, List.map_cons, List.map_nil, List.sum_cons, List.sum_nil, WetTab.Ent.eval, cond_false, h.qu8]
    push_cast; ring⟩
  case V8udLR => exact ⟨fun s t => C .gs [] ^ 2 * (4 * pd C s t), fun s t => C .gs [] ^ 2 * (8 * pq C s t), by
    intro p r s t
    simp only [tree, mixK, List.map_cons, List.map_nil, List.sum_cons, List.sum_nil, WetTab.Ent.eval, cond_false, h.qd8]
    push_cast; ring⟩
  case V8ddLR => exact ⟨fun s t => C .gs [] ^ 2 * (4 * pd C s t), fun s t => C .gs [] ^ 2 * (8 * pq C s t), by
    intro p r s t
    simp only [tree, mixK, List.map_cons, List.map_nil, List.sum_cons, List.sum_nil, WetTab.Ent.eval, cond_false, h.qd8]
    push_cast; ring⟩
  all_goals exact ⟨fun _ _ => 0, fun _ _ => 0, by
    intro p r s t
    simp only [tree, mixK, List.map_cons, List.map_nil, List.sum_cons, List.sum_nil, WetTab.Ent.eval, cond_false, h.qq1,
      h.qq3, h.ud1, h.qu1, h.qd1]
    push_cast; ring⟩

theorem tree_runs2 {C B : Key → Ten} (h : Runs C B) (f : ℕ) (m : WetRun.Masses) (K : WKey) (hK : lines K = 2) :
    ∃ Y Z : Fin 3 → Fin 3 → ℂ, ∀ p r s t : Fin 3,
    tree B p r s t K = C .gs [] ^ 2 * ((mixK K).map fun x =>
      x.1.eval f m * (bif x.2.2 then tree C p t s r x.2.1 else tree C p r s t x.2.1)).sum
      + delta p r * Y s t + delta s t * Y p r + delta p t * Z s r + delta s r * Z p t
      + C .gs [] ^ 2 * (6 * tree C p t s r K - 6 * tree C p r s t K) := by
  cases K <;> try (exact absurd hK (by decide))
  case VuuRR => exact ⟨fun s t => -(C .gs [] ^ 2 * (1 / 3 * pu C s t)), fun s t => C .gs [] ^ 2 * pu C s t, by
    intro p r s t
    simp only [tree, mixK, List.map_cons, List.map_nil, List.sum_cons, List.sum_nil, WetTab.Ent.eval, cond_false, h.uu]
    push_cast; ring⟩
  case VddRR => exact ⟨fun s t => -(C .gs [] ^ 2 * (1 / 3 * pd C s t)), fun s t => C .gs [] ^ 2 * pd C s t, by
    intro p r s t
    simp only [tree, mixK, List.map_cons, List.map_nil, List.sum_cons, List.sum_nil, WetTab.Ent.eval, cond_false, h.dd]
    push_cast; ring⟩
  all_goals exact ⟨fun s t => -(C .gs [] ^ 2 * (2 / 3 * pq C s t)), fun s t => C .gs [] ^ 2 * (2 * pq C s t), by
    intro p r s t
    simp only [tree, mixK, List.map_cons, List.map_nil, List.sum_cons, List.sum_nil, WetTab.Ent.eval, cond_false, h.qq1,
      h.qq3]
    push_cast; ring⟩

/-! ## Rotations of four indices -/

/-- a tensor with four indices contracted with four vectors -/
noncomputable def R4 (a b c d : Fin 3 → ℂ) (F : Fin 3 → Fin 3 → Fin 3 → Fin 3 → ℂ) : ℂ :=
  ∑ i, a i * ∑ j, b j * ∑ k, c k * ∑ l, d l * F i j k l

theorem R4_add (a b c d : Fin 3 → ℂ) (F G : Fin 3 → Fin 3 → Fin 3 → Fin 3 → ℂ) :
    R4 a b c d (fun i j k l => F i j k l + G i j k l) = R4 a b c d F + R4 a b c d G := by
  simp only [R4, mul_add, Finset.sum_add_distrib]

theorem R4_smul (a b c d : Fin 3 → ℂ) (x : ℂ) (F : Fin 3 → Fin 3 → Fin 3 → Fin 3 → ℂ) :
    R4 a b c d (fun i j k l => x * F i j k l) = x * R4 a b c d F := by
  simp only [R4, Finset.mul_sum]
  refine Finset.sum_congr rfl fun i _ => Finset.sum_congr rfl fun j _ => Finset.sum_congr rfl fun k _ =>
    Finset.sum_congr rfl fun l _ => ?_
  ring

theorem R4_zero (a b c d : Fin 3 → ℂ) : R4 a b c d (fun _ _ _ _ => 0) = 0 := by simp [R4]

theorem R4_swap (a b c d : Fin 3 → ℂ) (F : Fin 3 → Fin 3 → Fin 3 → Fin 3 → ℂ) :
    R4 a b c d (fun i j k l => F i l k j) = R4 a d c b F := by
  simp only [R4, Fin.sum_univ_three]; ring

theorem R4_pair (a b c d : Fin 3 → ℂ) (F : Fin 3 → Fin 3 → Fin 3 → Fin 3 → ℂ) :
    R4 a b c d (fun i j k l => F k l i j) = R4 c d a b F := by
  simp only [R4, Fin.sum_univ_three]; ring

theorem R4_sum {ι : Type} (a b c d : Fin 3 → ℂ) (L : List ι) (F : ι → Fin 3 → Fin 3 → Fin 3 → Fin 3 → ℂ) :
    R4 a b c d (fun i j k l => (L.map fun x => F x i j k l).sum) = (L.map fun x => R4 a b c d (F x)).sum := by
  induction L with
  | nil => simp only [List.map_nil, List.sum_nil, R4_zero]
  | cons x L ih => simp only [List.map_cons, List.sum_cons, R4_add, ih]

/-- a closed line between the first two indices -/
theorem R4_line (a b c d : Fin 3 → ℂ) (Y : Fin 3 → Fin 3 → ℂ) (h : ∑ i, a i * b i = 0) :
    R4 a b c d (fun i j k l => delta i j * Y k l) = 0 := by
  have e : R4 a b c d (fun i j k l => delta i j * Y k l) = (∑ i, a i * b i) * ∑ k, c k * ∑ l, d l * Y k l := by
    simp only [R4, delta, Fin.sum_univ_three]
    simp
    ring
  rw [e, h, zero_mul]

/-- the tensor with given components -/
def ten4 (F : Fin 3 → Fin 3 → Fin 3 → Fin 3 → ℂ) : Ten
  | [i, j, k, l] => F i j k l
  | _ => 0

theorem rot_R4 {X : Type} (U : X → Matrix (Fin 3) (Fin 3) ℂ) (t1 t2 t3 t4 : Ty X) (A : Ten) (p r s t : Fin 3) :
    rot U [t1, t2, t3, t4] A [p, r, s, t] = R4 (fac U t1 · p) (fac U t2 · r) (fac U t3 · s) (fac U t4 · t)
      fun i j k l => A [i, j, k, l] := rfl

/-- a closed line of a rotated field -/
theorem line_zero {X : Type} (U : X → Matrix (Fin 3) (Fin 3) ℂ) (x : X) (hU : U x ∈ Matrix.unitaryGroup (Fin 3) ℂ)
    (p r : Fin 3) (h : p ≠ r) : ∑ i, fac U ⟨x, true⟩ i p * fac U ⟨x, false⟩ i r = 0 := by
  have e := congrFun (congrFun (Matrix.mem_unitaryGroup_iff'.1 hU) p) r
  rw [Matrix.one_apply_ne h, Matrix.mul_apply] at e
  simpa [fac, Matrix.star_apply] using e

/-- the value of a coefficient, rotated to the mass basis of the down-type quarks -/
noncomputable def tval (U : WFl → Matrix (Fin 3) (Fin 3) ℂ) (X : Key → Ten) (K : WKey) (p r s t : Fin 3) : ℂ :=
  rot U (wetTy K) (ten4 fun i j k l => tree X i j k l K) [p, r, s, t]

theorem wetTy_four : ∀ K ∈ WKey.all, lines K ≠ 3 → (wetTy K).length = 4 := by decide +kernel

theorem lines_cases : ∀ K ∈ WKey.all, lines K ≠ 3 → lines K = 0 ∨ lines K = 1 ∨ lines K = 2 := by decide +kernel

/-- exchange of the second and the fourth element -/
def swap4 {α : Type} : List α → List α
  | [a, b, c, d] => [a, d, c, b]
  | l => l

theorem wetTy_mix : ∀ K ∈ WKey.all, ∀ x ∈ mixK K,
    wetTy x.2.1 = bif x.2.2 then swap4 (wetTy K) else wetTy K := by decide +kernel

theorem wetTy_lines {K : WKey} (h : lines K = 1 ∨ lines K = 2) :
    ∃ F G : WFl, wetTy K = [⟨F, true⟩, ⟨F, false⟩, ⟨G, true⟩, ⟨G, false⟩] ∧ (lines K = 2 → F = G) := by
  cases K <;> first
    | (exact absurd h (by decide))
    | (exact ⟨_, _, rfl, by decide⟩)

theorem fin3 : ∀ p r s t : Fin 3, p ≠ r → p ≠ t → s ≠ r → s ≠ t → p = s ∨ r = t := by decide

/-- a coefficient without closed lines in the matching of the beta function -/
theorem tval_runs {C B : Key → Ten} (h : Runs C B) (U : WFl → Matrix (Fin 3) (Fin 3) ℂ)
    (hU : ∀ x, U x ∈ Matrix.unitaryGroup (Fin 3) ℂ) (f : ℕ) (m : WetRun.Masses) (K : WKey) (hK : lines K ≠ 3)
    (p r s t : Fin 3) (h1 : lines K = 1 → p ≠ r ∧ s ≠ t)
    (h2 : lines K = 2 → p ≠ r ∧ s ≠ t ∧ p ≠ t ∧ s ≠ r) :
    tval U B K p r s t = C .gs [] ^ 2 * ((mixK K).map fun x =>
      x.1.eval f m * (bif x.2.2 then tval U C x.2.1 p t s r else tval U C x.2.1 p r s t)).sum := by
  have kall : K ∈ WKey.all := by cases K <;> decide
  obtain ⟨t1, t2, t3, t4, ht⟩ : ∃ t1 t2 t3 t4, wetTy K = [t1, t2, t3, t4] := by
    have := wetTy_four K kall hK
    match wetTy K, this with
    | [a, b, c, d], _ => exact ⟨a, b, c, d, rfl⟩
  have eC : ∀ X : Key → Ten, tval U X K p r s t = R4 (fac U t1 · p) (fac U t2 · r) (fac U t3 · s) (fac U t4 · t)
      fun i j k l => tree X i j k l K := by
    intro X
    rw [tval, ht, rot_R4]; rfl
  have eS : ∀ x ∈ mixK K, R4 (fac U t1 · p) (fac U t2 · r) (fac U t3 · s) (fac U t4 · t) (fun i j k l =>
      bif x.2.2 then tree C i l k j x.2.1 else tree C i j k l x.2.1) =
      bif x.2.2 then tval U C x.2.1 p t s r else tval U C x.2.1 p r s t := by
    intro x hx
    have := wetTy_mix K kall x hx
    obtain ⟨e, K', w⟩ := x
    cases w
    · simp only [cond_false] at this ⊢
      rw [tval, this, ht, rot_R4]; rfl
    · simp only [cond_true] at this ⊢
      rw [tval, this, ht, swap4, rot_R4, R4_swap _ _ _ _ fun i j k l => tree C i j k l K']; rfl
  have eM : R4 (fac U t1 · p) (fac U t2 · r) (fac U t3 · s) (fac U t4 · t) (fun i j k l =>
      C .gs [] ^ 2 * ((mixK K).map fun x =>
        x.1.eval f m * (bif x.2.2 then tree C i l k j x.2.1 else tree C i j k l x.2.1)).sum) =
      C .gs [] ^ 2 * ((mixK K).map fun x =>
        x.1.eval f m * (bif x.2.2 then tval U C x.2.1 p t s r else tval U C x.2.1 p r s t)).sum := by
    rw [R4_smul, R4_sum]
    congr 2
    refine List.map_congr_left fun x hx => ?_
    rw [R4_smul, eS x hx]
  rw [eC]
  rcases lines_cases K kall hK with h0 | h0 | h0
  · simp only [tree_runs0 h f m K h0]
    exact eM
  · obtain ⟨Y, Z, hYZ⟩ := tree_runs1 h f m K h0
    obtain ⟨F, G, hFG, -⟩ := wetTy_lines (.inl h0)
    rw [ht] at hFG
    obtain ⟨rfl, rfl, rfl, rfl⟩ : t1 = ⟨F, true⟩ ∧ t2 = ⟨F, false⟩ ∧ t3 = ⟨G, true⟩ ∧ t4 = ⟨G, false⟩ := by
      simpa using hFG
    simp only [hYZ]
    rw [R4_add, R4_add, eM, R4_line _ _ _ _ Y (line_zero U F (hU F) p r (h1 h0).1),
      R4_pair _ _ _ _ fun i j k l => delta i j * Z k l, R4_line _ _ _ _ Z (line_zero U G (hU G) s t (h1 h0).2),
      add_zero, add_zero]
  · obtain ⟨Y, Z, hYZ⟩ := tree_runs2 h f m K h0
    obtain ⟨F, G, hFG, hG⟩ := wetTy_lines (.inr h0)
    obtain rfl := hG h0
    rw [ht] at hFG
    obtain ⟨rfl, rfl, rfl, rfl⟩ : t1 = ⟨F, true⟩ ∧ t2 = ⟨F, false⟩ ∧ t3 = ⟨F, true⟩ ∧ t4 = ⟨F, false⟩ := by
      simpa using hFG
    obtain ⟨q1, q2, q3, q4⟩ := h2 h0
    have eW : R4 (fac U ⟨F, true⟩ · p) (fac U ⟨F, false⟩ · r) (fac U ⟨F, true⟩ · s) (fac U ⟨F, false⟩ · t)
        (fun i j k l => tree C i l k j K) =
        R4 (fac U ⟨F, true⟩ · p) (fac U ⟨F, false⟩ · r) (fac U ⟨F, true⟩ · s) (fac U ⟨F, false⟩ · t)
        (fun i j k l => tree C i j k l K) := by
      rw [R4_swap _ _ _ _ fun i j k l => tree C i j k l K]
      rcases fin3 p r s t q1 q3 q4 q2 with e | e
      · subst e
        rw [← R4_pair]
        congr 1
        funext i j k l
        clear hK h1 h2 eC eS eM ht hFG kall hYZ hG
        cases K <;> first
          | (exact absurd h0 (by decide))
          | (simp only [tree]; ring)
      · subst e; rfl
    simp only [hYZ]
    rw [R4_add, R4_add, R4_add, R4_add, R4_add, eM, R4_line _ _ _ _ Y (line_zero U F (hU F) p r q1),
      R4_pair _ _ _ _ fun i j k l => delta i j * Y k l, R4_line _ _ _ _ Y (line_zero U F (hU F) s t q2),
      R4_swap _ _ _ _ fun i j k l => delta i j * Z k l, R4_line _ _ _ _ Z (line_zero U F (hU F) p t q3),
      R4_swap _ _ _ _ fun i j k l => delta k l * Z i j, R4_pair _ _ _ _ fun i j k l => delta i j * Z k l,
      R4_line _ _ _ _ Z (line_zero U F (hU F) s r q4), R4_smul]
    have : R4 (fac U ⟨F, true⟩ · p) (fac U ⟨F, false⟩ · r) (fac U ⟨F, true⟩ · s) (fac U ⟨F, false⟩ · t)
        (fun i j k l => 6 * tree C i l k j K - 6 * tree C i j k l K) = 0 := by
      simp only [sub_eq_add_neg, ← neg_mul]
      rw [R4_add, R4_smul, R4_smul, eW]
      ring
    rw [this]
    ring

end Verif.Contact
