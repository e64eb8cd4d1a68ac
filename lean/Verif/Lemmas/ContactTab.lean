import Verif.Spec.Contact
import Verif.Lemmas.WetEntries

/-!
# The QCD anomalous dimensions of operators without closed quark lines (C95)
-/

set_option autoImplicit false

namespace Verif.Contact
open Verif Verif.Rotation Verif.WetTab Verif.WetRun

/-- which coefficients contribute to the running of a coefficient, with which factor, and whether their
second and fourth index are exchanged -/
def mixK : WKey → List (Ent × WKey × Bool)
  | .S1udRR => [(.n 16 1, .S1udRR, false), (.p 64 9, .S1udduRR, true), (.p 16 9, .S8udRR, false), (.p 112 27, .S8udduRR, true)]
  | .S1udduRR => [(.n 16 1, .S1udduRR, false), (.p 64 9, .S1udRR, true), (.p 16 9, .S8udduRR, false), (.p 112 27, .S8udRR, true)]
  | .S8udRR => [(.p 8 1, .S1udRR, false), (.n 16 3, .S1udduRR, true), (.p 16 3, .S8udRR, false), (.p 44 9, .S8udduRR, true)]
  | .S8udduRR => [(.p 8 1, .S1udduRR, false), (.n 16 3, .S1udRR, true), (.p 16 3, .S8udduRR, false), (.p 44 9, .S8udRR, true)]
  | .V1uuLR => [(.n 8 3, .V8uuLR, false)]
  | .V1udLR => [(.n 8 3, .V8udLR, false)]
  | .V1duLR => [(.n 8 3, .V8duLR, false)]
  | .V1ddLR => [(.n 8 3, .V8ddLR, false)]
  | .V8uuLR => [(.n 12 1, .V1uuLR, false), (.n 14 1, .V8uuLR, false)]
  | .V8udLR => [(.n 12 1, .V1udLR, false), (.n 14 1, .V8udLR, false)]
  | .V8duLR => [(.n 12 1, .V1duLR, false), (.n 14 1, .V8duLR, false)]
  | .V8ddLR => [(.n 12 1, .V1ddLR, false), (.n 14 1, .V8ddLR, false)]
  | .V1udLL => [(.p 8 3, .V8udLL, false)]
  | .V1udRR => [(.p 8 3, .V8udRR, false)]
  | .V8udLL => [(.p 12 1, .V1udLL, false), (.n 4 1, .V8udLL, false)]
  | .V8udRR => [(.p 12 1, .V1udRR, false), (.n 4 1, .V8udRR, false)]
  | .VuuLL => [(.p 4 1, .VuuLL, false)]
  | .VddLL => [(.p 4 1, .VddLL, false)]
  | .VuuRR => [(.p 4 1, .VuuRR, false)]
  | .VddRR => [(.p 4 1, .VddRR, false)]
  | .SedRL => [(.n 8 1, .SedRL, false)]
  | .SeuRR => [(.n 8 1, .SeuRR, false)]
  | .SnueduRL => [(.n 8 1, .SnueduRL, false)]
  | .SnueduRR => [(.n 8 1, .SnueduRR, false)]
  | .TeuRR => [(.p 8 3, .TeuRR, false)]
  | .TnueduRR => [(.p 8 3, .TnueduRR, false)]
  | .SuddLL => [(.n 4 1, .SuddLL, false)]
  | .SduuLL => [(.n 4 1, .SduuLL, false)]
  | .SduuLR => [(.n 4 1, .SduuLR, false)]
  | .SduuRL => [(.n 4 1, .SduuRL, false)]
  | .SdudRL => [(.n 4 1, .SdudRL, false)]
  | .SduuRR => [(.n 4 1, .SduuRR, false)]
  | _ => []

/-- coefficients that tree-level matching does not generate from four-fermion operators, and which only
coefficients of this kind contribute to -/
def dead : WKey → Bool
  | .S1ddRR | .S1uuRR | .S8ddRR | .S8uuRR | .SedRR | .TedRR | .SeuRL | .SeeRR | .V1udduLR | .V8udduLR | .SuudLR
  | .SuudRL | .SdduRL => true
  | _ => false

/-- exchange the second and the fourth of four digits -/
def swapN (n : ℕ) : ℕ :=
  Nat.add (Nat.add (Nat.mul (Nat.div n 1000) 1000) (Nat.mul (Nat.mod n 10) 100))
    (Nat.add (Nat.mul (Nat.mod (Nat.div n 10) 10) 10) (Nat.mod (Nat.div n 100) 10))

def partner (b : Coef) (x : Ent × WKey × Bool) : Coef := (x.2.1, bif x.2.2 then swapN b.2 else b.2)

/-- digits of a number -/
def d1 (n : ℕ) : ℕ := Nat.div n 1000
def d2 (n : ℕ) : ℕ := Nat.mod (Nat.div n 100) 10
def d3 (n : ℕ) : ℕ := Nat.mod (Nat.div n 10) 10
def d4 (n : ℕ) : ℕ := Nat.mod n 10

/-- the pairs of equal fields: 0 none, 1 `ψ̄_1 ψ_2` and `ψ̄_3 ψ_4`, 2 also `ψ̄_1 ψ_4` and `ψ̄_3 ψ_2`, 3 not a
four-fermion operator -/
def lines : WKey → ℕ
  | .G | .Gtilde | .egamma | .uG | .dG | .ugamma | .dgamma => 3
  | .VuuLL | .VddLL | .VuuRR | .VddRR => 2
  | .V1udLL | .V8udLL | .V1udRR | .V8udRR | .V1uuLR | .V8uuLR | .V1udLR | .V8udLR | .V1duLR | .V8duLR | .V1ddLR
  | .V8ddLR => 1
  | _ => 0

def noLoop (b : Coef) : Bool :=
  match lines b.1 with
  | 0 => true
  | 1 => !Nat.beq (d1 b.2) (d2 b.2) && !Nat.beq (d3 b.2) (d4 b.2)
  | 2 => !Nat.beq (d1 b.2) (d2 b.2) && !Nat.beq (d3 b.2) (d4 b.2) && !Nat.beq (d1 b.2) (d4 b.2) && !Nat.beq (d3 b.2) (d2 b.2)
  | _ => false

theorem valid_four {b : Coef} (h : Valid b.1 (ixOf b)) (h4 : (fields b.1).length = 4) :
    ixOf b = [d1 b.2, d2 b.2, d3 b.2, d4 b.2] := by
  have := h.length_eq
  rw [h4] at this
  unfold ixOf at this ⊢
  split_ifs at this ⊢ <;> simp at this
  rfl

theorem beq_false {a b : ℕ} : Nat.beq a b = false ↔ ¬a = b := by
  rw [← Bool.not_eq_true, Nat.beq_eq]

theorem noLoop_of {b : Coef} (hv : Valid b.1 (ixOf b)) (h : NoClosedLoop b) : noLoop b = true := by
  have e := valid_four hv h.1
  obtain ⟨h4, h⟩ := h
  rw [e] at h
  obtain ⟨k, n⟩ := b
  cases k <;> first
    | rfl
    | (simp [fields, dipole] at h4; done)
    | (simp [fields, WetTab.vector, quark] at h
       simp only [noLoop, lines, Bool.and_eq_true, Bool.not_eq_true', beq_false]
       tauto)

/-- equality of coefficients -/
def sameC (a b : Coef) : Bool := Nat.beq a.2 b.2 && Nat.beq a.1.ctorIdx b.1.ctorIdx

theorem sameC_eq {a b : Coef} (h : sameC a b = true) : a = b := by
  rw [sameC, Bool.and_eq_true] at h
  exact Prod.ext (ctorIdx_inj (Nat.eq_of_beq_eq_true h.2)) (Nat.eq_of_beq_eq_true h.1)

/-- equality of the entries that occur -/
def sameE : Option Ent → Ent → Bool
  | some (.p a b), .p c d => Nat.beq a c && Nat.beq b d
  | some (.n a b), .n c d => Nat.beq a c && Nat.beq b d
  | _, _ => false

theorem sameE_eq {x : Option Ent} {e : Ent} (h : sameE x e = true) : x = some e := by
  unfold sameE at h
  split at h
  · rw [Bool.and_eq_true] at h
    rw [Nat.eq_of_beq_eq_true h.1, Nat.eq_of_beq_eq_true h.2]
  · rw [Bool.and_eq_true] at h
    rw [Nat.eq_of_beq_eq_true h.1, Nat.eq_of_beq_eq_true h.2]
  · cases h

/-- the entry of the row of `a` in column `j` is `e` -/
def hasEntry (j : ℕ) (e : Ent) (a : Coef) : List Coef → Rows → Bool
  | c :: cs, row :: rows => bif sameC c a then sameE (lookupRow row j) e else hasEntry j e a cs rows
  | _, _ => false

theorem hasEntry_spec {j : ℕ} {e : Ent} {a : Coef} : ∀ {cs : List Coef} {R : Rows}, hasEntry j e a cs R = true →
    ∃ i, cs[i]? = some a ∧ entry R i j = some e
  | [], _, h => by simp [hasEntry] at h
  | _ :: _, [], h => by simp [hasEntry] at h
  | c :: cs, row :: rows, h => by
    rw [hasEntry] at h
    cases hc : sameC c a with
    | true =>
      rw [hc, cond_true] at h
      exact ⟨0, by rw [sameC_eq hc]; rfl, sameE_eq h⟩
    | false =>
      rw [hc, cond_false] at h
      obtain ⟨i, h1, h2⟩ := hasEntry_spec h
      exact ⟨i + 1, h1, h2⟩

/-- all contributions to a coefficient without closed quark lines are present -/
def colsOK (cs : List Coef) (R : Rows) : ℕ → List Coef → Bool
  | _, [] => true
  | j, b :: l => force j fun j => (!noLoop b || (dead b.1 || (mixK b.1).all fun x =>
      force (partner b x).2 fun n => hasEntry j x.1 (x.2.1, n) cs R)) && colsOK cs R (Nat.succ j) l

theorem colsOK_spec {cs : List Coef} {R : Rows} {j0 : ℕ} {l : List Coef} (h : colsOK cs R j0 l = true) {j : ℕ} {b : Coef}
    (hb : l[j]? = some b) (hl : noLoop b = true) (hd : dead b.1 = false) (x : Ent × WKey × Bool) (hx : x ∈ mixK b.1) :
    hasEntry (j0 + j) x.1 (partner b x) cs R = true := by
  induction l generalizing j0 j with
  | nil => simp at hb
  | cons c l ih =>
    rw [colsOK, force_eq, Bool.and_eq_true] at h
    cases j with
    | zero =>
      obtain rfl : c = b := by simpa using hb
      rw [hl, hd] at h
      have h1 := h.1
      rw [Bool.not_true, Bool.false_or, Bool.false_or] at h1
      have := List.all_eq_true.1 h1 x hx
      rw [force_eq] at this
      exact this
    | succ j =>
      have := ih h.2 (by simpa using hb)
      rwa [show j0.succ + j = j0 + (j + 1) from by omega] at this

/-- ... and there are no others -/
def rowsOK (S : Sec) : Bool :=
  force (maskOf noLoop S.coefs) fun m => force (maskOf (fun c => dead c.1) S.coefs) fun d =>
    rowsAll (fun i j _ => !Nat.testBit m j || bif Nat.testBit d j then Nat.testBit d i else
      match S.coefs[i]?, S.coefs[j]? with
      | some a, some b => (mixK b.1).any fun x => force (partner b x).2 fun n => sameC (x.2.1, n) a
      | _, _ => false) 0 S.rS

set_option maxRecDepth 100000 in
theorem secs_cols : secs.all (fun S => colsOK S.coefs S.rS 0 S.coefs) = true := by decide +kernel

set_option maxRecDepth 100000 in
theorem secs_rows : secs.all rowsOK = true := by decide +kernel

theorem scale_one {b : Coef} (h : lines b.1 ≠ 3) (p : Par) : scale b p = 1 := by
  obtain ⟨k, n⟩ := b
  cases k <;> first
    | (exact absurd rfl h)
    | (simp [scale, gfac, mprod, massOf])

theorem noLoop_lines {b : Coef} (h : noLoop b = true) : lines b.1 ≠ 3 := by
  intro e
  rw [noLoop, e] at h
  cases h

theorem dead_lines : ∀ k ∈ WKey.all, dead k = true → lines k ≠ 3 := by decide +kernel
theorem mixK_lines : ∀ k ∈ WKey.all, ∀ x ∈ mixK k, lines x.2.1 ≠ 3 ∧ dead k = false := by decide +kernel
theorem mixK_nodup : ∀ k ∈ WKey.all, ((mixK k).map fun x => x.2.1).Nodup := by decide +kernel

/-- all contributions are there -/
theorem live_mem {b : Coef} (hb : b ∈ allCoefs) (hn : noLoop b = true) (hd : dead b.1 = false) (x : Ent × WKey × Bool)
    (hx : x ∈ mixK b.1) : partner b x ∈ allCoefs ∧
      ∀ (f : ℕ) (p : Par), mix .qcd f p (partner b x) b = x.1.eval f p.masses := by
  have kall : ∀ k : WKey, k ∈ WKey.all := fun k => by cases k <;> decide
  obtain ⟨s, j, hlb⟩ := mem_allCoefs.1 hb
  obtain ⟨n, S, hB⟩ := hlb.at
  have hc := List.all_eq_true.1 secs_cols S hB.mem
  have := colsOK_spec hc hB.coef hn hd x hx
  rw [Nat.zero_add] at this
  obtain ⟨i, hi, he⟩ := hasEntry_spec this
  obtain ⟨s', hA⟩ := At.of_sec hB.sec hi
  refine ⟨mem_allCoefs.2 ⟨_, _, hA.listed⟩, fun f p => ?_⟩
  rw [mix_of hA hB, scale_one (mixK_lines b.1 (kall _) x hx).1, scale_one (noLoop_lines hn)]
  simp only [value, Sec.rows, he]
  simp

/-- the contributions to a coefficient without closed quark lines are those of `mixK` -/
theorem rate_live {b : Coef} (hb : b ∈ allCoefs) (hn : noLoop b = true) (hd : dead b.1 = false) (f : ℕ) (p : Par)
    (W : Coef → ℂ) :
    rate .qcd f p W b = ((mixK b.1).map fun x => x.1.eval f p.masses * W (partner b x)).sum := by
  have kall : ∀ k : WKey, k ∈ WKey.all := fun k => by cases k <;> decide
  obtain ⟨s, j, hlb⟩ := mem_allCoefs.1 hb
  obtain ⟨n, S, hB⟩ := hlb.at
  have hr := List.all_eq_true.1 secs_rows S hB.mem
  have h1 := live_mem hb hn hd
  -- and no others
  have h2 : ∀ a ∈ allCoefs, mix .qcd f p a b ≠ 0 → a ∈ (mixK b.1).map (partner b) := by
    intro a ha h
    obtain ⟨s', i, j', n', S', e, hA, hB', he, -⟩ := mix_entry ha hb h
    obtain ⟨rfl, rfl, -⟩ := listed_unique hB.listed hB'.listed rfl
    have hnn := (hB.sector_iff hB').1 rfl
    subst hnn
    obtain rfl := hB.sec_eq hB'
    rw [rowsOK, force_eq, force_eq] at hr
    have := rowsAll_spec hr he
    rw [Nat.zero_add, testBit_maskOf hB.coef, testBit_maskOf hB.coef, hn, hd, hA.coef, hB.coef] at this
    simp only [Bool.not_true, Bool.false_or, cond_false, List.any_eq_true, force_eq] at this
    obtain ⟨x, hx, hs⟩ := this
    exact List.mem_map.2 ⟨x, hx, sameC_eq hs⟩
  have hnd : ((mixK b.1).map (partner b)).Nodup := by
    have := mixK_nodup b.1 (kall _)
    refine List.Nodup.of_map Prod.fst ?_
    rwa [List.map_map]
  rw [rate_eq, ← Finset.sum_subset (s₁ := ((mixK b.1).map (partner b)).toFinset)]
  · rw [List.sum_toFinset _ hnd, List.map_map]
    congr 1
    refine List.map_congr_left fun x hx => ?_
    simp only [Function.comp]
    rw [(h1 x hx).2 f p, mul_comm]
  · intro a ha
    obtain ⟨x, hx, rfl⟩ := List.mem_map.1 (List.mem_toFinset.1 ha)
    exact List.mem_toFinset.2 (h1 x hx).1
  · intro a ha hna
    by_contra h
    exact hna (List.mem_toFinset.2 (h2 a (List.mem_toFinset.1 ha) fun h0 => h (by rw [h0, mul_zero])))

/-- the running of a coefficient that is not generated -/
theorem rate_dead {b : Coef} (hb : b ∈ allCoefs) (hn : noLoop b = true) (hd : dead b.1 = true) (f : ℕ) (p : Par)
    (W : Coef → ℂ) (hW : ∀ a ∈ allCoefs, dead a.1 = true → W a = 0) : rate .qcd f p W b = 0 := by
  rw [rate_eq]
  refine Finset.sum_eq_zero fun a ha => ?_
  by_cases h : mix .qcd f p a b = 0
  · rw [h, mul_zero]
  · obtain ⟨s', i, j, n', S, e, hA, hB, he, -⟩ := mix_entry (List.mem_toFinset.1 ha) hb h
    have hr := List.all_eq_true.1 secs_rows S hB.mem
    rw [rowsOK, force_eq, force_eq] at hr
    have := rowsAll_spec hr he
    rw [Nat.zero_add, testBit_maskOf hB.coef, testBit_maskOf hB.coef, testBit_maskOf hA.coef, hn, hd] at this
    rw [hW a (List.mem_toFinset.1 ha) (by simpa using this), zero_mul]

end Verif.Contact
