import Verif.Lemmas.WetCharge
import Mathlib.Algebra.BigOperators.Group.Finset.Basic

/-!
# The right-hand side of the renormalisation group equations and its symmetries
-/

set_option autoImplicit false
set_option linter.unusedSimpArgs false

namespace Verif.WetTab
open Verif Verif.Rotation Verif.WetRun

/-! ## Sums over all coefficients -/

theorem mem_allCoefs {a : Coef} : a ∈ allCoefs ↔ ∃ s i, Listed a s i := by
  rw [allCoefs, List.mem_flatMap]
  constructor
  · rintro ⟨⟨s, l⟩, hl, ha⟩
    obtain ⟨i, hi⟩ := List.getElem?_of_mem ha
    exact ⟨s, i, l, hl, hi⟩
  · rintro ⟨s, i, l, hl, hi⟩
    exact ⟨(s, l), hl, List.mem_of_getElem? hi⟩

theorem allCoefs_nodup : allCoefs.Nodup := by
  obtain ⟨h1, h2⟩ := listed_codes_nodup
  rw [allCoefs, List.nodup_flatMap]
  refine ⟨fun sl hsl => List.Nodup.of_map _ (h1 sl hsl), h2.imp ?_⟩
  intro a b h c hc hc'
  exact h (List.mem_map_of_mem hc) (List.mem_map_of_mem hc')

theorem mixing_value {a b : Coef} (ha : a ∈ allCoefs) (hb : b ∈ allCoefs) (F : Force) (f : ℕ) (p : Par) :
    ∃ z, ∀ z', Mixing F f p a b z' ↔ z' = z := by
  obtain ⟨s, i, ha⟩ := mem_allCoefs.1 ha
  obtain ⟨t, j, hb⟩ := mem_allCoefs.1 hb
  obtain ⟨n, S, hA⟩ := ha.at
  obtain ⟨m, T, hB⟩ := hb.at
  by_cases h : n = m
  · subst h
    exact ⟨_, fun z' => mixing_same_iff hA hB⟩
  · exact ⟨_, fun z' => mixing_other_iff hA hB h⟩

theorem mix_iff {a b : Coef} (ha : a ∈ allCoefs) (hb : b ∈ allCoefs) {F : Force} {f : ℕ} {p : Par} {z : ℂ} :
    Mixing F f p a b z ↔ mix F f p a b = z := by
  obtain ⟨w, hw⟩ := mixing_value ha hb F f p
  have : mix F f p a b = w := by
    unfold mix
    have hex : ∃ z, Mixing F f p a b z := ⟨w, (hw w).2 rfl⟩
    rw [dif_pos hex]
    exact (hw _).1 hex.choose_spec
  rw [hw, this, eq_comm]

theorem rate_eq (F : Force) (f : ℕ) (p : Par) (C : Coef → ℂ) (b : Coef) :
    rate F f p C b = ∑ a ∈ allCoefs.toFinset, C a * mix F f p a b := by
  rw [rate, List.sum_toFinset _ allCoefs_nodup]

/-! ## Nonzero entries -/

/-- a nonzero entry is an entry of the table -/
theorem mix_entry {a b : Coef} {F : Force} {f : ℕ} {p : Par} (ha : a ∈ allCoefs) (hb : b ∈ allCoefs)
    (h : mix F f p a b ≠ 0) :
    ∃ s i j n S e, At a s i n S ∧ At b s j n S ∧ entry (S.rows F) i j = some e ∧
      mix F f p a b = e.eval f p.masses * (scale a p / scale b p : ℝ) := by
  have ha' := ha
  have hb' := hb
  obtain ⟨s, i, hla⟩ := mem_allCoefs.1 ha
  obtain ⟨t, j, hlb⟩ := mem_allCoefs.1 hb
  obtain ⟨n, S, hA⟩ := hla.at
  obtain ⟨m, T, hB⟩ := hlb.at
  by_cases hnm : n = m
  · subst hnm
    obtain rfl := hA.sec_eq hB
    obtain rfl := (hA.sector_iff hB).2 rfl
    have hm := ((mixing_same_iff (F := F) (f := f) (p := p) hA hB).1 ((mix_iff ha' hb').2 rfl))
    rw [value] at hm
    cases he : entry (S.rows F) i j with
    | none => rw [he] at hm; simp at hm; exact absurd hm h
    | some e => rw [he] at hm; exact ⟨s, i, j, n, S, e, hA, hB, he, hm⟩
  · exact absurd ((mixing_other_iff hA hB hnm).1 ((mix_iff ha' hb').2 rfl)) h

theorem real_mask {a : Coef} {s : String} {i n : ℕ} {S : Sec} (h : At a s i n S) :
    (maskOf realB S.coefs).testBit i = true ↔ IsReal a.1 (ixOf a) := by
  rw [testBit_maskOf h.coef]
  exact realB_iff h.listed.wellNamed.1

/-- real coefficients get real contributions from real coefficients only -/
theorem real_entry {a b : Coef} {F : Force} {f : ℕ} {p : Par} (ha : a ∈ allCoefs) (hb : b ∈ allCoefs)
    (hr : IsReal b.1 (ixOf b)) :
    mix F f p a b = 0 ∨ IsReal a.1 (ixOf a) ∧ (mix F f p a b).im = 0 := by
  by_contra hn
  rw [not_or] at hn
  obtain ⟨s, i, j, n, S, e, hA, hB, he, hm⟩ := mix_entry ha hb hn.1
  apply hn.2
  have h0 := List.all_eq_true.1 secs_realOK S hA.mem
  rw [realOK, force_eq, Bool.and_eq_true] at h0
  have h1 : realRowOK (maskOf realB S.coefs) (S.rows F) = true := by
    cases F
    · exact h0.2
    · exact h0.1
  have h2 := rowsAll_spec h1 he
  rw [Nat.zero_add, (real_mask hB).2 hr] at h2
  simp only [Bool.not_true, Bool.false_or, Bool.and_eq_true] at h2
  refine ⟨(real_mask hA).1 h2.1, ?_⟩
  rw [hm, ← Complex.conj_eq_iff_im, map_mul, Complex.conj_ofReal, eval_coef, map_mul,
    Complex.conj_ofReal, coef_real]
  rintro k l rfl
  cases h2.2

theorem rate_real {F : Force} {f : ℕ} {p : Par} {C : Coef → ℂ} (h : RealOnReal C) :
    RealOnReal (rate F f p C) := by
  intro b hb hr
  rw [rate_eq, Complex.im_sum]
  refine Finset.sum_eq_zero fun a ha => ?_
  have ha := List.mem_toFinset.1 ha
  rcases real_entry (F := F) (f := f) (p := p) ha hb hr with h0 | ⟨h1, h2⟩
  · rw [h0]; simp
  · rw [Complex.mul_im, h a ha h1, h2]; simp

theorem conjAll_spec {img : List (ℕ × ℕ)} {L : List Sec} {k : ℕ} (h : conjAll img k L = true) {n : ℕ}
    {S : Sec} (hS : L[n]? = some S) : conjOK img (k + n) S = true := by
  induction L generalizing k n with
  | nil => simp at hS
  | cons T L ih =>
    rw [conjAll, force_eq, Bool.and_eq_true] at h
    cases n with
    | zero => obtain rfl : T = S := by simpa using hS
              exact h.1
    | succ n =>
      have := ih h.2 (by simpa using hS)
      rwa [show k + 1 + n = k + (n + 1) from by omega] at this

/-- coefficients that mix are conjugated together, except for real ones -/
theorem conj_entry {img : List (ℕ × ℕ)} (h : conjAll img 0 secs = true) {a b : Coef} {F : Force} {f : ℕ}
    {p : Par} (ha : a ∈ allCoefs) (hb : b ∈ allCoefs) :
    mix F f p a b = 0 ∨ IsReal a.1 (ixOf a) ∨ ∃ s i j n S, At a s i n S ∧ At b s j n S ∧
      tconj (img.getD n (0, 0)).2 i = tconj (img.getD n (0, 0)).2 j := by
  by_cases hz : mix F f p a b = 0
  · exact .inl hz
  · obtain ⟨s, i, j, n, S, e, hA, hB, he, hm⟩ := mix_entry ha hb hz
    have h0 := conjAll_spec h hA.sec
    rw [Nat.zero_add, conjOK, force_eq, force_eq, Bool.and_eq_true] at h0
    have h2 : (beqB (tconj (img.getD n (0, 0)).2 i) (tconj (img.getD n (0, 0)).2 j) ||
        Nat.testBit (maskOf realB S.coefs) i) = true := by
      have h3 : rowsAll (fun i j _ => beqB (tconj (img.getD n (0, 0)).2 i)
          (tconj (img.getD n (0, 0)).2 j) || Nat.testBit (maskOf realB S.coefs) i) 0 (S.rows F) = true := by
        cases F
        · exact h0.2
        · exact h0.1
      have := rowsAll_spec h3 he
      rwa [Nat.zero_add] at this
    rw [Bool.or_eq_true] at h2
    rcases h2 with h2 | h2
    · refine .inr (.inr ⟨s, i, j, n, S, hA, hB, ?_⟩)
      revert h2
      cases tconj (img.getD n (0, 0)).2 i <;> cases tconj (img.getD n (0, 0)).2 j <;> simp [beqB]
    · exact .inr (.inl ((real_mask hA).1 h2))

/-- **Charges are conserved**, except for the two coefficients of the wrong orientation. -/
theorem charge_entry {a b : Coef} {F : Force} {f : ℕ} {p : Par} (ha : a ∈ allCoefs) (hb : b ∈ allCoefs)
    (hwa : wrong a = false) (hwb : wrong b = false) (h : mix F f p a b ≠ 0) :
    ∀ x ∈ allFlavours, charge a x = charge b x := by
  obtain ⟨s, i, j, n, S, e, hA, hB, he, hm⟩ := mix_entry ha hb h
  have h0 := List.all_eq_true.1 secs_chargeOK S hA.mem
  rw [chargeOK, force_eq, force_eq, Bool.and_eq_true] at h0
  have h3 : chargeRowsOK (pack 64 (S.coefs.map chCode)) (maskOf wrong S.coefs) (S.rows F) = true := by
    cases F
    · exact h0.2
    · exact h0.1
  have h4 := rowsAll_spec h3 he
  have hlt : ∀ d ∈ S.coefs.map chCode, d < 2 ^ 64 := by
    intro d hd
    obtain ⟨c, _, rfl⟩ := List.mem_map.1 hd
    rw [chCode_eq]
    have key : ∀ l : List ℕ, (∀ d ∈ l, d < 2 ^ 4) → pack 4 l < 2 ^ (4 * l.length) := by
      intro l
      induction l with
      | nil => intro _; simp [pack]
      | cons d l ih =>
        intro h
        have h1 := ih fun d hd => h d (List.mem_cons_of_mem _ hd)
        have h2 := h d List.mem_cons_self
        rw [pack_cons h2, List.length_cons, Nat.mul_add, pow_add]
        norm_num at h2 ⊢
        omega
    have h1 := key _ (digitsOf_lt allFlavours c)
    have h2 : (digitsOf allFlavours c).length = 11 := by simp [digitsOf, allFlavours, flavours]
    rw [h2] at h1
    norm_num at h1 ⊢
    omega
  have hblk : ∀ {a : Coef} {j : ℕ}, S.coefs[j]? = some a →
      Nat.mod (Nat.shiftRight (pack 64 (S.coefs.map chCode)) (Nat.mul 64 j)) 18446744073709551616 =
        chCode a := by
    intro a j hj
    have := blk_pack hlt j
    rw [List.getD_eq_getElem?_getD, List.getElem?_map, hj] at this
    exact this
  rw [Nat.zero_add, hblk hA.coef, hblk hB.coef, testBit_maskOf hA.coef, testBit_maskOf hB.coef, hwa, hwb,
    Bool.or_false, Bool.or_false] at h4
  exact chCode_inj (Nat.eq_of_beq_eq_true h4)

/-! ## Covariance -/

theorem conjIf_mul (c : Bool) (z w : ℂ) : conjIf c (z * w) = conjIf c z * conjIf c w := by
  cases c <;> simp [conjIf]

theorem conjIf_real {c : Bool} {z : ℂ} (h : z.im = 0) : conjIf c z = z := by
  cases c
  · rfl
  · exact Complex.conj_eq_iff_im.2 h

theorem conjIf_sum (c : Bool) (s : Finset Coef) (g : Coef → ℂ) :
    conjIf c (∑ a ∈ s, g a) = ∑ a ∈ s, conjIf c (g a) := by
  cases c
  · rfl
  · simp [conjIf, map_sum]

theorem sgn_xor (a b : Bool) : sgn (xor a b) = sgn a * sgn b := by cases a <;> cases b <;> simp [sgn]

theorem sgn_mul_self (a : Bool) : sgn a * sgn a = 1 := by cases a <;> simp [sgn]

theorem conjIf_sgn (c n : Bool) : conjIf c (sgn n) = sgn n := by cases c <;> cases n <;> simp [conjIf, sgn]

theorem conjIf_conjIf (c c' : Bool) (z : ℂ) : conjIf c (conjIf c' z) = conjIf (xor c c') z := by
  cases c <;> cases c' <;> simp [conjIf]

/-! ## Colour -/

/-- leptons -/
def Sp.lept : Sp → Bool
  | .e | .nu => true
  | _ => false

theorem Sp.lept_iff {x : Sp} : x.Lepton ↔ x.lept = true := by
  cases x <;> simp [Sp.Lepton, Sp.lept]

/-- colour inert operators, for the kernel -/
def inertL : List Fld → Bool
  | [a, b, c, d] => (a.sp.lept && b.sp.lept && c.sp.lept && d.sp.lept) ||
      (a.bar && !b.bar && c.bar && !d.bar && decide (a.ch = b.ch) && decide (c.ch = d.ch) &&
        beqB a.sp.lept b.sp.lept && beqB c.sp.lept d.sp.lept && !beqB a.sp.lept c.sp.lept)
  | _ => false

theorem inert_of {k : WKey} (h : ColourInert k) : inertL (fields k) = true := by
  rcases h with ⟨h0, h⟩ | ⟨x, y, z, w, A, B, e, h⟩
  · have h : ∀ F ∈ fields k, F.sp.lept = true := fun F hF => Sp.lept_iff.1 (h F hF)
    rcases hf : fields k with _ | ⟨a, _ | ⟨b, _ | ⟨c, _ | ⟨d, _ | ⟨u, l⟩⟩⟩⟩⟩
    all_goals
      rw [hf] at h h0
      simp [inertL] at h h0 ⊢
    simp [h]
  · rw [e]
    simp only [Sp.lept_iff] at h
    cases x <;> cases y <;> cases z <;> cases w <;> cases A <;> cases B <;>
      first
        | rfl
        | exact absurd h (by decide)

/-- nothing mixes into colour inert operators under QCD -/
def inertOK (S : Sec) : Bool :=
  force (maskOf (fun c => inertL (fields c.1)) S.coefs) fun m =>
    rowsAll (fun _ j _ => !Nat.testBit m j) 0 S.rS

theorem secs_inertOK : secs.all inertOK = true := by decide +kernel

theorem inert_column {b : Coef} {s : String} {j n : ℕ} {S : Sec} (hB : At b s j n S)
    (h : ColourInert b.1) (i : ℕ) : entry S.rS i j = none := by
  by_contra hn
  obtain ⟨e, he⟩ := Option.ne_none_iff_exists'.1 hn
  have h0 := List.all_eq_true.1 secs_inertOK S hB.mem
  rw [inertOK, force_eq] at h0
  have h2 := rowsAll_spec h0 he
  rw [testBit_maskOf hB.coef, inert_of h] at h2
  cases h2

theorem inert_mix {a b : Coef} {f : ℕ} {p : Par} (ha : a ∈ allCoefs) (hb : b ∈ allCoefs)
    (h : ColourInert b.1) : mix .qcd f p a b = 0 := by
  by_contra hn
  obtain ⟨s, i, j, n, S, e, hA, hB, he, -⟩ := mix_entry ha hb hn
  rw [show S.rows .qcd = S.rS from rfl, inert_column hB h] at he
  cases he

/-- Covariance of the right-hand side, from the behaviour of the entries. -/
theorem covariance {T : Sym} {dom : Coef → Prop} {F : Force} {f : ℕ} {p p' : Par} {C C' : Coef → ℂ}
    (im : Coef → Coef × Bool × Bool)
    (hmem : ∀ a ∈ allCoefs, dom a → (im a).1 ∈ allCoefs ∧ dom (im a).1)
    (him : ∀ a ∈ allCoefs, dom a → T a (im a).1 (im a).2.1 (im a).2.2)
    (hT : ∀ a ∈ allCoefs, ∀ a' ∈ allCoefs, ∀ c n, T a a' c n → dom a ∧ a' = (im a).1 ∧ n = (im a).2.2 ∧
      (c = (im a).2.1 ∨ IsReal a'.1 (ixOf a')))
    (hinj : ∀ a ∈ allCoefs, ∀ b ∈ allCoefs, dom a → dom b → (im a).1 = (im b).1 → a = b)
    (hent : ∀ a ∈ allCoefs, ∀ b ∈ allCoefs, dom a → dom b →
      mix F f p' (im a).1 (im b).1 = sgn (xor (im a).2.2 (im b).2.2) * conjIf (im b).2.1 (mix F f p a b))
    (hconj : ∀ a ∈ allCoefs, ∀ b ∈ allCoefs, dom a → dom b →
      mix F f p a b = 0 ∨ (C a).im = 0 ∨ (im a).2.1 = (im b).2.1)
    (hoff : ∀ a ∈ allCoefs, ∀ b ∈ allCoefs, ¬dom a → dom b → mix F f p a b = 0 ∧ mix F f p' a b = 0)
    (hC' : RealOnReal C') (h : Transformed T C C') : Transformed T (rate F f p C) (rate F f p' C') := by
  classical
  have key : ∀ b ∈ allCoefs, dom b →
      rate F f p' C' (im b).1 = sgn (im b).2.2 * conjIf (im b).2.1 (rate F f p C b) := by
    intro b hb hdb
    set D := allCoefs.toFinset.filter dom with hD
    have hDm : ∀ a, a ∈ D ↔ a ∈ allCoefs ∧ dom a := fun a => by simp [hD]
    have himg : D.image (fun a => (im a).1) = D := by
      refine Finset.eq_of_subset_of_card_le ?_ ?_
      · intro x hx
        obtain ⟨a, ha, rfl⟩ := Finset.mem_image.1 hx
        exact (hDm _).2 (hmem a ((hDm a).1 ha).1 ((hDm a).1 ha).2)
      · rw [Finset.card_image_of_injOn]
        intro a ha b hb e
        have ha := (hDm a).1 ha
        have hb := (hDm b).1 hb
        exact hinj a ha.1 b hb.1 ha.2 hb.2 e
    have hsum : ∀ (q : Par) (K : Coef → ℂ) (y : Coef), (∀ a ∈ allCoefs, ¬dom a → mix F f q a y = 0) →
        rate F f q K y = ∑ a ∈ D, K a * mix F f q a y := by
      intro q K y hy
      rw [rate_eq]
      symm
      refine Finset.sum_subset (Finset.filter_subset _ _) ?_
      intro a ha hna
      have ha := List.mem_toFinset.1 ha
      rw [hy a ha fun hd => hna ((hDm a).2 ⟨ha, hd⟩), mul_zero]
    have hb' := hmem b hb hdb
    rw [hsum p' C' (im b).1 fun a ha hda => (hoff a ha _ hb'.1 hda hb'.2).2,
      hsum p C b fun a ha hda => (hoff a ha b hb hda hdb).1]
    conv_lhs => rw [← himg]
    rw [Finset.sum_image (by
      intro a ha b hb e
      have ha := (hDm a).1 ha
      have hb := (hDm b).1 hb
      exact hinj a ha.1 b hb.1 ha.2 hb.2 e), conjIf_sum, Finset.mul_sum]
    refine Finset.sum_congr rfl fun a ha => ?_
    obtain ⟨hal, hda⟩ := (hDm a).1 ha
    rw [h a hal _ (hmem a hal hda).1 _ _ (him a hal hda), hent a hal b hb hda hdb, conjIf_mul, sgn_xor]
    have h1 := sgn_mul_self (im a).2.2
    rcases hconj a hal b hb hda hdb with h0 | h0 | h0
    · rw [h0]; simp [conjIf]
    · rw [conjIf_real h0, conjIf_real h0]
      linear_combination sgn (im b).2.2 * C a * conjIf (im b).2.1 (mix F f p a b) * h1
    · rw [h0]
      linear_combination sgn (im b).2.2 * conjIf (im b).2.1 (C a) * conjIf (im b).2.1 (mix F f p a b) * h1
  intro b hb b' hb' c n hTb
  obtain ⟨hdb, rfl, rfl, hc⟩ := hT b hb b' hb' c n hTb
  rcases hc with rfl | hr
  · exact key b hb hdb
  · have hre := rate_real (F := F) (f := f) (p := p') hC' _ hb' hr
    have h1 := key b hb hdb
    have h2 : (rate F f p C b).im = 0 := by
      rw [h1] at hre
      generalize (im b).2.2 = nn at hre
      generalize (im b).2.1 = cc at hre
      cases nn <;> cases cc <;> simpa [sgn, conjIf] using hre
    rw [h1, conjIf_real h2, conjIf_real h2]

end Verif.WetTab
