import Verif.Lemmas.ContactTree
import Verif.Props.MatchLinear

/-!
# C95: tree-level matching commutes with QCD corrections
-/

set_option autoImplicit false

namespace Verif.Contact
open Verif Verif.Tens Verif.Beta Verif.Flavour Verif.BetaSpec Verif.Rotation Verif.Exchange Verif.Match Verif.WetTab Verif.RotationProps

theorem swap_digits {n : ℕ} (h : n < 10000) : d1 (swapN n) = d1 n ∧ d2 (swapN n) = d4 n ∧ d3 (swapN n) = d3 n ∧
    d4 (swapN n) = d2 n := by
  have e : swapN n = n / 1000 * 1000 + n % 10 * 100 + (n / 10 % 10 * 10 + n / 100 % 10) := rfl
  have e1 : ∀ m, d1 m = m / 1000 := fun _ => rfl
  have e2 : ∀ m, d2 m = m / 100 % 10 := fun _ => rfl
  have e3 : ∀ m, d3 m = m / 10 % 10 := fun _ => rfl
  have e4 : ∀ m, d4 m = m % 10 := fun _ => rfl
  have key : ∀ a b c d : ℕ, a < 10 → b < 10 → c < 10 → d < 10 →
      (a * 1000 + d * 100 + (c * 10 + b)) / 1000 = a ∧ (a * 1000 + d * 100 + (c * 10 + b)) / 100 % 10 = d ∧
      (a * 1000 + d * 100 + (c * 10 + b)) / 10 % 10 = c ∧ (a * 1000 + d * 100 + (c * 10 + b)) % 10 = b := by
    intros; omega
  simp only [e1, e2, e3, e4, e]
  exact key _ _ _ _ (by omega) (by omega) (by omega) (by omega)

theorem fields_lines : ∀ k ∈ WKey.all, lines k ≠ 3 → (fields k).length = 4 := by decide +kernel
theorem dead_tree {X : Key → Ten} {K : WKey} (h : dead K = true) (p r s t : Fin 3) : tree X p r s t K = 0 := by
  cases K <;> first | rfl | (exact absurd h (by decide))

/-- an index of an array -/
abbrev ix3 (i : ℕ) : Fin 3 := Fin.ofNat 3 (i - 1)

theorem ix3_ne {i j : ℕ} (hi : 1 ≤ i ∧ i ≤ 3) (hj : 1 ≤ j ∧ j ≤ 3) (h : i ≠ j) : ix3 i ≠ ix3 j := by
  obtain ⟨a, b⟩ := hi
  obtain ⟨c, d⟩ := hj
  intro e
  have := congrArg Fin.val e
  simp only [ix3, Fin.ofNat] at this
  omega

theorem digits {b : Coef} (hv : Valid b.1 (ixOf b)) (h : lines b.1 ≠ 3) :
    (1 ≤ d1 b.2 ∧ d1 b.2 ≤ 3) ∧ (1 ≤ d2 b.2 ∧ d2 b.2 ≤ 3) ∧ (1 ≤ d3 b.2 ∧ d3 b.2 ≤ 3) ∧ (1 ≤ d4 b.2 ∧ d4 b.2 ≤ 3) := by
  have h4 := fields_lines b.1 (by cases b.1 <;> decide) h
  have e := valid_four hv h4
  rw [Valid, e] at hv
  have g : ∀ x : Sp, x.gens ≤ 3 := by intro x; cases x <;> decide
  match hf : fields b.1, h4 with
  | [a, b', c, d], _ =>
    rw [hf] at hv
    simp only [List.forall₂_cons, List.forall₂_nil_left_iff, and_true] at hv
    obtain ⟨⟨a1, a2⟩, ⟨b1, b2⟩, ⟨c1, c2⟩, ⟨d1', d2'⟩⟩ := hv
    exact ⟨⟨a1, a2.trans (g _)⟩, ⟨b1, b2.trans (g _)⟩, ⟨c1, c2.trans (g _)⟩, ⟨d1', d2'.trans (g _)⟩⟩

theorem tree_nodup {C : Dict Key Ten} {p : Dict String ℝ} {T : Dict WKey Ten} (hT : matchTree C p = .ok T) :
    T.NodupKeys := by
  obtain ⟨s, s0, -, -, -, rfl⟩ := tree_ok hT
  exact nodup_tree _

/-- the rotated tree-level matching of four-fermion operators -/
theorem value_tree {C : Dict Key Ten} {p : Dict String ℝ} {T R : Dict WKey Ten} {V : Mat} (hX : NoBosons (arrays C))
    (hm : arrays C .ll [1, 0, 0, 1] = 0 ∧ arrays C .ll [0, 1, 1, 0] = 0)
    (hT : matchTree C p = .ok T) (hR : rotateDown T V = .ok R) (c : Coef) (hv : Valid c.1 (ixOf c)) (hl : lines c.1 ≠ 3) :
    valueOf R c = tval (downOnly V) (arrays C) c.1 (ix3 (d1 c.2)) (ix3 (d2 c.2)) (ix3 (d3 c.2)) (ix3 (d4 c.2)) := by
  have kall : ∀ k : WKey, k ∈ WKey.all := fun k => by cases k <;> decide
  obtain ⟨s, s0, hs, hs0, ht⟩ := C84_tree C p T hT
  obtain ⟨-, -, -, -, hk, -⟩ := tree_ok hT
  obtain rfl : s = s0 := by
    have := Loop.scal_noshift (C' := C) p hk hk ⟨hm.1, hm.2, hX .phil3 (by decide) _, hX .phil3 (by decide) _,
      hX .phiWB (by decide) _, hX .phiD (by decide) _⟩
    rw [hs, hs0] at this
    exact Except.ok.inj this
  have h0 : ∀ k ix, (inp (zeroed C) s).C k ix = 0 := fun k ix => val_zeroed C k ix
  obtain ⟨A, hA⟩ := Loop.tree_get hT c.1
  obtain ⟨R', h1, -, h2⟩ := C30_rotates V T (tree_nodup hT) (fun k _ => by
    obtain ⟨B, hB⟩ := Loop.tree_get hT k
    rw [← Dict.isSome_get?_iff, hB]; rfl)
  rw [hR] at h1
  obtain rfl := Except.ok.inj h1
  obtain ⟨B, hB, hrot⟩ := (h2 c.1).2 A hA
  have hlen := wetTy_four c.1 (kall _) hl
  rw [valueOf, hB, valid_four hv (fields_lines c.1 (kall _) hl)]
  simp only [List.map_cons, List.map_nil]
  rw [hrot _ (by rw [hlen]; rfl), tval]
  refine rot_congr _ _ _ _ _ fun j hj => ?_
  rw [hlen] at hj
  match j, hj with
  | [i, j, k, l], _ =>
    obtain ⟨x, hx⟩ := C84_complete (inp C s) (Real.sqrt 2 : ℝ) c.1 [i, j, k, l] (by rw [hlen]; rfl)
    obtain ⟨x0, hx0⟩ := C84_complete (inp (zeroed C) s) (Real.sqrt 2 : ℝ) c.1 [i, j, k, l] (by rw [hlen]; rfl)
    rw [ht c.1 A hA _ x x0 hx hx0]
    exact tree_total (inp C s) (inp (zeroed C) s) rfl rfl rfl rfl hX h0 _ c.1 i j k l x x0 hx hx0

theorem noBosons {C : Key → Ten} (h : OnlyStrong C) : NoBosons C := by
  intro k hk ix
  refine h.fourFermion k ?_ ?_ ?_ ix <;> revert k <;> decide +kernel

/-- **C95.** Tree-level matching commutes with QCD corrections: for a SMEFT parameter point with four-fermion
operators and the strong interaction only, match either the point, or its beta functions (the derivatives with
respect to the logarithm of the scale, times 16π²), and rotate to the WET basis with a unitary CKM matrix.  Then the
second result is the derivative (times 16π²) of the first one under the QCD running of the WET, `g_s²` times the
anomalous dimension, for every coefficient of an operator without closed quark lines. -/
theorem C95_commutes (C : Dict Key Ten) (hC : OnlyStrong (arrays C)) (p : Dict String ℝ) (T R : Dict WKey Ten)
    (hT : matchTree C p = .ok T) (V : Mat) (hV : V ∈ Matrix.unitaryGroup (Fin 3) ℂ) (hR : rotateDown T V = .ok R)
    (cKeys : List Key) (h : ℂ) :
    ∃ T' R', matchTree (beta cKeys (arrays C) h true) p = .ok T' ∧ rotateDown T' V = .ok R' ∧
      ∀ b ∈ allCoefs, NoClosedLoop b → ∀ (f : ℕ) (par : WetRun.Par),
        valueOf R' b = arrays C .gs [] ^ 2 * rate .qcd f par (valueOf R) b := by
  have kall : ∀ k : WKey, k ∈ WKey.all := fun k => by cases k <;> decide
  set B := beta cKeys (arrays C) h true with hB
  have hruns : Runs (arrays C) (arrays B) := runs_beta hC cKeys h
  obtain ⟨s, s0, hs, hs0, hk, -⟩ := tree_ok hT
  -- the beta functions do not shift the inputs
  have hBk : ∀ k ∈ treeKeys, B.mem k = true := by
    intro k hk
    rw [Dict.mem_iff, ← Dict.isSome_get?_iff]
    by_cases hf : k ∈ fours
    · rw [hB, beta_some hC cKeys h (fours_strong k hf)]; rfl
    · rw [hB, beta_some hC cKeys h (others_none k hk hf)]; rfl
  have hBn : NoBosons (arrays B) := by
    intro k hk ix
    have : k ∈ treeKeys ∧ k ∉ fours := by revert k; decide +kernel
    rw [arrays, hB, beta_some hC cKeys h (others_none k this.1 this.2)]; rfl
  have hBm : arrays B .ll [1, 0, 0, 1] = 0 ∧ arrays B .ll [0, 1, 1, 0] = 0 := ⟨hruns.ll _ _ _ _, hruns.ll _ _ _ _⟩
  have hBs : scalars B p = .ok s0 := by
    rw [← hs0]
    exact Loop.scal_noshift p hBk hk ⟨hBm.1, hBm.2, hBn .phil3 (by decide) _, hBn .phil3 (by decide) _,
      hBn .phiWB (by decide) _, hBn .phiD (by decide) _⟩
  have hB0 : scalars (zeroed B) p = .ok s0 := by
    rw [← hs0]
    exact Loop.scal_noshift p (fun k hk => Loop.zeroed_mem (hBk k hk)) hk
      ⟨val_zeroed _ _ _, val_zeroed _ _ _, val_zeroed _ _ _, val_zeroed _ _ _, val_zeroed _ _ _, val_zeroed _ _ _⟩
  obtain ⟨T', hT'⟩ : ∃ T', matchTree B p = .ok T' := ⟨_, tree_of_scal hBs hB0 hBk⟩
  clear_value B
  obtain ⟨R', hR', -, -⟩ := C30_rotates V T' (tree_nodup hT') (fun k _ => by
    obtain ⟨B, hB⟩ := Loop.tree_get hT' k
    rw [← Dict.isSome_get?_iff, hB]; rfl)
  refine ⟨T', R', hT', hR', fun b hb hl f par => ?_⟩
  obtain ⟨_, _, hlb⟩ := mem_allCoefs.1 hb
  have hv := hlb.wellNamed.1
  have hn := noLoop_of hv hl
  have hn3 := noLoop_lines hn
  have hCn := noBosons hC
  rw [value_tree hBn hBm hT' hR' b hv hn3]
  have hU : ∀ x, downOnly V x ∈ Matrix.unitaryGroup (Fin 3) ℂ := by
    intro x; cases x <;> first | exact hV | exact one_mem _
  obtain ⟨g1, g2, g3, g4⟩ := digits hv hn3
  rw [tval_runs hruns _ hU f par.masses b.1 hn3 _ _ _ _ (fun e => by
      rw [noLoop, e] at hn
      simp only [Bool.and_eq_true, Bool.not_eq_true', beq_false] at hn
      exact ⟨ix3_ne g1 g2 hn.1, ix3_ne g3 g4 hn.2⟩) (fun e => by
      rw [noLoop, e] at hn
      simp only [Bool.and_eq_true, Bool.not_eq_true', beq_false] at hn
      obtain ⟨⟨⟨n1, n2⟩, n3⟩, n4⟩ := hn
      exact ⟨ix3_ne g1 g2 n1, ix3_ne g3 g4 n2, ix3_ne g1 g4 n3, ix3_ne g3 g2 n4⟩)]
  congr 1
  cases hd : dead b.1 with
  | true =>
    have : mixK b.1 = [] := by
      cases hm : mixK b.1 with
      | nil => rfl
      | cons x l =>
        have := (mixK_lines b.1 (kall _) x (by rw [hm]; simp)).2
        rw [hd] at this; cases this
    rw [this, rate_dead hb hn hd f par _ (fun a ha hda => ?_)]
    · rfl
    · obtain ⟨_, _, hla⟩ := mem_allCoefs.1 ha
      rw [value_tree hCn hC.muon hT hR a hla.wellNamed.1 (dead_lines a.1 (kall _) hda), tval]
      have hz : ∀ i j k l, tree (arrays C) i j k l a.1 = 0 := dead_tree hda
      simp only [hz]
      have hlen := wetTy_four a.1 (kall _) (dead_lines a.1 (kall _) hda)
      match hw : wetTy a.1, hlen with
      | [t1, t2, t3, t4], _ => rw [rot_R4]; exact R4_zero _ _ _ _
  | false =>
    rw [rate_live hb hn hd]
    congr 1
    refine List.map_congr_left fun x hx => ?_
    obtain ⟨hxa, -⟩ := live_mem hb hn hd x hx
    obtain ⟨_, _, hlx⟩ := mem_allCoefs.1 hxa
    rw [value_tree hCn hC.muon hT hR _ hlx.wellNamed.1 (mixK_lines b.1 (kall _) x hx).1]
    obtain ⟨e, K, w⟩ := x
    cases w
    · rfl
    · have hlt : b.2 < 10000 := by
        have : d1 b.2 = b.2 / 1000 := rfl
        omega
      obtain ⟨w1, w2, w3, w4⟩ := swap_digits hlt
      simp only [partner, cond_true, w1, w2, w3, w4]

/-- a parameter point with the strong coupling and one four-fermion operator, `(ū γ c)(ū γ c)` -/
noncomputable def exS : Dict Key Ten := keys.map fun k => (k, fun ix =>
  if k = .gs ∧ ix = [] ∨ k = .uu ∧ ix = [0, 1, 0, 1] then 1 else 0)

theorem exS_get (k : Key) (hk : k ∈ keys) : exS.get? k = some fun ix =>
    if k = .gs ∧ ix = [] ∨ k = .uu ∧ ix = [0, 1, 0, 1] then 1 else 0 := by
  refine Dict.get?_of_mem ?_ (List.mem_map.2 ⟨k, hk, rfl⟩)
  unfold Dict.NodupKeys Dict.keys exS
  rw [List.map_map]
  simpa [Function.comp_def] using (by decide : keys.Nodup)

theorem exS_strong : OnlyStrong (arrays exS) := by
  refine ⟨?_, ?_, ?_⟩
  · intro k hk ix
    rw [arrays, exS_get k (by revert k; decide)]
    simp only [List.mem_cons, List.not_mem_nil, or_false] at hk
    rcases hk with rfl | rfl | rfl | rfl | rfl <;> simp
  · intro k hk h1 h2 ix
    rw [arrays, exS_get k hk]
    have e1 : k ≠ .gs := by rintro rfl; exact h1 (by decide)
    have e2 : k ≠ .uu := by rintro rfl; exact h2 (by decide)
    simp [e1, e2]
  · rw [arrays, exS_get _ (by decide)]; simp

/-- C95, example: the theorem applies to `exS`, and the running of the coefficient `VuuRR_1212` does not vanish: its
anomalous dimension is 4, in the WET and in the matching of the SMEFT beta function -/
theorem C95_example (ckm : Verif.TranslateSmeft.Ckm) : ∃ (p : Dict String ℝ) (T R T' R' : Dict WKey Ten), matchTree exS p = .ok T ∧
    rotateDown T 1 = .ok R ∧ matchTree (beta [] (arrays exS) 1 true) p = .ok T' ∧ rotateDown T' 1 = .ok R' ∧
    NoClosedLoop (.VuuRR, 1212) ∧ valueOf R (.VuuRR, 1212) = 1 ∧ valueOf R' (.VuuRR, 1212) = 4 := by
  obtain ⟨D, hD⟩ := Loop.C87_succeeds ckm exS (fun k hk => by
      rw [Dict.mem_iff]
      have : k ∈ keys := by revert k; decide
      simpa [Dict.keys, exS, Function.comp_def] using this) (fun k hk => by
      rw [exS_get k (by revert k; decide)]
      simp only [List.mem_cons, List.not_mem_nil, or_false] at hk
      rcases hk with rfl | rfl | rfl | rfl <;> simp) _ (Loop.physical_ex ckm) 160 (by norm_num)
  obtain ⟨T, hT, -⟩ := Loop.arrays_ok hD
  obtain ⟨R, hR, -, -⟩ := C30_rotates 1 T (tree_nodup hT) (fun k _ => by
    obtain ⟨B, hB⟩ := Loop.tree_get hT k
    rw [← Dict.isSome_get?_iff, hB]; rfl)
  obtain ⟨T', R', hT', hR', hval⟩ := C95_commutes exS exS_strong _ T R hT 1 (one_mem _) hR [] 1
  have hb : (WKey.VuuRR, 1212) ∈ allCoefs := by decide +kernel
  have hl : NoClosedLoop (.VuuRR, 1212) := by
    refine ⟨rfl, fun _ => ?_⟩
    decide
  obtain ⟨_, _, hlb⟩ := mem_allCoefs.1 hb
  have hW : valueOf R (.VuuRR, 1212) = 1 := by
    rw [value_tree (noBosons exS_strong) exS_strong.muon hT hR _ hlb.wellNamed.1 (by decide), tval,
      rot_untouched 1 _ (by decide) _ _ rfl]
    have e : ix3 (d1 1212) = 0 ∧ ix3 (d2 1212) = 1 ∧ ix3 (d3 1212) = 0 ∧ ix3 (d4 1212) = 1 := by decide
    simp only [e.1, e.2.1, e.2.2.1, e.2.2.2, ten4, tree, arrays, exS_get _ (by decide : Key.uu ∈ keys)]
    norm_num
  refine ⟨_, T, R, T', R', hT, hR, hT', hR', hl, hW, ?_⟩
  rw [hval _ hb hl 5 ⟨1, 1, 1, 1, 1, 1, 1, 1, 1, 1⟩, rate_live hb (by decide) rfl]
  simp only [mixK, List.map_cons, List.map_nil, List.sum_cons, List.sum_nil, partner, cond_false, Ent.eval]
  rw [hW]
  simp only [arrays, exS_get _ (by decide : Key.gs ∈ keys)]
  norm_num

end Verif.Contact
