import Verif.Lemmas.SmeftHiggs

/-!
# Higgs-Warsaw up ↔ Warsaw up: the two translations are inverse to each other
-/

set_option autoImplicit false

namespace Verif.SmeftHiggs
open Verif Verif.EFT Verif.Rotation Verif.TranslateSmeft Verif.WetNames

theorem mem_loop {α : Type} {f : Fin 3 → Fin 3 → List α} {x : α} : x ∈ loop f ↔ ∃ i j, x ∈ f i j := by
  have h : ∀ i : Fin 3, i ∈ ([0, 1, 2] : List (Fin 3)) := by decide
  simp only [loop, List.mem_flatMap]
  constructor
  · rintro ⟨i, -, j, -, hx⟩
    exact ⟨i, j, hx⟩
  · rintro ⟨i, j, hx⟩
    exact ⟨i, h i, j, h j, hx⟩

section
variable {q : Couplings}

theorem Good.gw' (hq : Good q) : (q.gw : ℂ) ≠ 0 := Complex.ofReal_ne_zero.2 hq.gw
theorem Good.gp' (hq : Good q) : (q.gp : ℂ) ≠ 0 := Complex.ofReal_ne_zero.2 hq.gp
theorem Good.gs' (hq : Good q) : (q.gs : ℂ) ≠ 0 := Complex.ofReal_ne_zero.2 hq.gs
theorem Good.ne' (hq : Good q) : (q.gw : ℂ) ^ 2 - (q.gp : ℂ) ^ 2 ≠ 0 := by
  have := Complex.ofReal_ne_zero.2 hq.ne
  push_cast at this
  exact this
theorem Good.sum' (hq : Good q) : (q.gw : ℂ) ^ 2 + (q.gp : ℂ) ^ 2 ≠ 0 := by
  have h1 := hq.gw
  have : q.gw ^ 2 + q.gp ^ 2 ≠ 0 := by positivity
  have := Complex.ofReal_ne_zero.2 this
  push_cast at this
  exact this
theorem Good.s' (hq : Good q) : (q.s2w : ℂ) * ((q.gw : ℂ) ^ 2 + (q.gp : ℂ) ^ 2) = (q.gp : ℂ) ^ 2 := by
  have := congrArg Complex.ofReal hq.s
  push_cast at this
  exact this
theorem Good.c' (hq : Good q) : (q.c2w : ℂ) * ((q.gw : ℂ) ^ 2 + (q.gp : ℂ) ^ 2) = (q.gw : ℂ) ^ 2 := by
  have := congrArg Complex.ofReal hq.c
  push_cast at this
  exact this

theorem re_of_im {z : ℂ} (h : z.im = 0) : (z.re : ℂ) = z := Complex.ext (by simp) (by simp [h])

theorem im_mul_ofReal {z : ℂ} (h : z.im = 0) (r : ℝ) : (z * r).im = 0 := by simp [h]

theorem im_div_ofReal {z : ℂ} (h : z.im = 0) (r : ℝ) : (z / r).im = 0 := by
  rw [Complex.div_ofReal_im, h, zero_div]

/-- the combination of coefficients that enters `phiWB` -/
noncomputable def X (q : Couplings) (H : String → ℂ) : ℂ :=
  H "czz" - H "czgamma" * (q.c2w - q.s2w) - H "cgammagamma" * q.c2w * q.s2w

theorem C1_eq (hq : Good q) (H : String → ℂ) :
    C1 q H = (H "czBox" * q.gw ^ 2 + q.gp ^ 2 * X q H) * q.gw ^ 2 / (q.gw ^ 2 - q.gp ^ 2) := by
  have h1 := hq.s'
  have h2 := hq.c'
  have h3 : (q.gw : ℂ) ^ 2 * q.s2w = q.gp ^ 2 * q.c2w := by
    rw [eq_div_of_mul_eq hq.sum' h1, eq_div_of_mul_eq hq.sum' h2]; ring
  simp only [C1, X]
  congr 2
  linear_combination (-H "cgammagamma" * q.s2w) * h3

theorem C2_eq (H : String → ℂ) :
    C2 q H = (H "czBox" + X q H) * q.gw ^ 2 * q.gp ^ 2 / (q.gw ^ 2 - q.gp ^ 2) := by
  simp only [C2, X]
  ring

theorem C1_sub_C2 (hq : Good q) (H : String → ℂ) : C1 q H - C2 q H = H "czBox" * q.gw ^ 2 := by
  rw [C1_eq hq, C2_eq]
  have := hq.ne'
  field_simp
  ring

/-- the function `f` in terms of the coefficients of the other basis -/
theorem f_of (hq : Good q) {H W : String → ℂ} (hWB : W "phiWB" = X q H * q.gw * q.gp / 2)
    (hZ : W "ll_1221" / 4 - ((W "phil3_11").re : ℂ) / 2 - ((W "phil3_22").re : ℂ) / 2 - W "phiD" / 4
      = -(H "czBox" * q.gw ^ 2) / 2) (T3 Q : ℂ) (i j : Fin 3) :
    f q W T3 Q i j = -(eye (C1 q H - C2 q H) i j * T3 + Q * eye (C2 q H) i j) / 2 := by
  by_cases h : i = j
  · simp only [f, eye, h, if_true, hZ, hWB]
    rw [C1_sub_C2 hq, C2_eq]
    have := hq.ne'
    field_simp
    ring
  · simp [f, eye, h]

end

/-! ## Hermitian matrices -/

theorem herm_eq {W : String → ℂ} {k : String} {M : Mat} (hM : ∀ i j, star (M j i) = M i j)
    (h : ∀ i j, i ≤ j → W (ix k i j) = M i j) : herm W k = M := by
  funext i j
  simp only [herm]
  rcases lt_trichotomy i j with hij | rfl | hij
  · rw [if_pos hij.le, if_neg (not_le.2 hij), if_neg hij.ne, h _ _ hij.le]
    simp
  · rw [if_pos le_rfl, if_pos rfl, h _ _ le_rfl, hM]
    ring
  · rw [if_neg (not_le.2 hij), if_pos hij.le, if_neg hij.ne', h _ _ hij.le, hM]
    simp

theorem herm_upper {H : String → ℂ} {k : String} (h : ∀ i, (H (ix k i i)).im = 0) {i j : Fin 3} (hij : i ≤ j) :
    herm H k i j = H (ix k i j) := by
  simp only [herm, if_pos hij]
  rcases hij.lt_or_eq with hij | rfl
  · rw [if_neg (not_le.2 hij), if_neg hij.ne]
    simp
  · rw [if_pos le_rfl, if_pos rfl]
    have : star (H (ix k i i)) = H (ix k i i) := Complex.conj_eq_iff_im.2 (h i)
    rw [this]
    ring

theorem herm_star {H : String → ℂ} {k : String} (h : ∀ i, (H (ix k i i)).im = 0) (i j : Fin 3) :
    star (herm H k j i) = herm H k i j := by
  have hd : ∀ i, star (H (ix k i i)) = H (ix k i i) := fun i => Complex.conj_eq_iff_im.2 (h i)
  simp only [herm]
  rcases lt_trichotomy i j with hij | rfl | hij
  · rw [if_pos hij.le, if_neg (not_le.2 hij), if_neg hij.ne, if_neg hij.ne']
    simp
  · rw [if_pos le_rfl, if_pos rfl]
    simp [hd]
  · rw [if_pos hij.le, if_neg (not_le.2 hij), if_neg hij.ne, if_neg hij.ne']
    simp

theorem eye_star {c : ℂ} (h : c.im = 0) (i j : Fin 3) : star (eye c j i) = eye c i j := by
  by_cases hij : i = j
  · subst hij
    simpa [eye] using Complex.conj_eq_iff_im.2 h
  · simp [eye, hij, Ne.symm hij]

theorem eye_eq (c : ℂ) : (fun i j => eye c i j : Mat) = c • (1 : Mat) := by
  funext i j
  by_cases hij : i = j <;> simp [eye, hij]

theorem star_conj (V M : Mat) (hM : ∀ i j, star (M j i) = M i j) (i j : Fin 3) :
    star ((V * M * V.conjTranspose) j i) = (V * M * V.conjTranspose) i j := by
  have h1 : M.conjTranspose = M := by
    ext a b
    exact hM a b
  have : (V * M * V.conjTranspose).conjTranspose = V * M * V.conjTranspose := by
    rw [Matrix.conjTranspose_mul, Matrix.conjTranspose_mul, Matrix.conjTranspose_conjTranspose, h1, Matrix.mul_assoc]
  exact congrFun (congrFun this i) j

/-! ## Higgs-Warsaw up → Warsaw up → Higgs-Warsaw up -/

theorem C1_real {q : Couplings} {H : String → ℂ} (h : ∀ x ∈ higgsReal, (H x).im = 0) : (C1 q H).im = 0 := by
  have h1 := h "czBox" (by decide +kernel)
  have h2 := h "czz" (by decide +kernel)
  have h3 := h "czgamma" (by decide +kernel)
  have h4 := h "cgammagamma" (by decide +kernel)
  rw [C1, ← re_of_im h1, ← re_of_im h2, ← re_of_im h3, ← re_of_im h4]
  norm_cast

theorem C2_real {q : Couplings} {H : String → ℂ} (h : ∀ x ∈ higgsReal, (H x).im = 0) : (C2 q H).im = 0 := by
  have h1 := h "czBox" (by decide +kernel)
  have h2 := h "czz" (by decide +kernel)
  have h3 := h "czgamma" (by decide +kernel)
  have h4 := h "cgammagamma" (by decide +kernel)
  rw [C2, ← re_of_im h1, ← re_of_im h2, ← re_of_im h3, ← re_of_im h4]
  norm_cast

theorem diag_real {H : String → ℂ} (h : ∀ x ∈ higgsReal, (H x).im = 0) :
    (∀ i, (H (ix "deltagZuL" i i)).im = 0) ∧ (∀ i, (H (ix "deltagZdL" i i)).im = 0) ∧
      ∀ i, (H (ix "deltagWlL" i i)).im = 0 := by
  have h1 : ∀ i, ix "deltagZuL" i i ∈ higgsReal := by decide +kernel
  have h2 : ∀ i, ix "deltagZdL" i i ∈ higgsReal := by decide +kernel
  have h3 : ∀ i, ix "deltagWlL" i i ∈ higgsReal := by decide +kernel
  exact ⟨fun i => h _ (h1 i), fun i => h _ (h2 i), fun i => h _ (h3 i)⟩

section
variable {V : Mat} {q : Couplings} {H W : String → ℂ}

theorem tensors_of (hW : ∀ x v, (x, v) ∈ warsawScalars q H ++ warsawTensors V q H → W x = v) :
    (∀ i j, i ≤ j →
      W (ix "phil3" i j) = H (ix "deltagWlL" i j) + eye (C1 q H) i j / 2 ∧
      W (ix "phiq3" i j) = H (ix "deltagZuL" i j) - dLrot V H i j + eye (C1 q H) i j / 2 ∧
      W (ix "phil1" i j) = -2 * H (ix "deltagZeL" i j) - H (ix "deltagWlL" i j) + eye (C2 q H) i j / 2 ∧
      W (ix "phiq1" i j) = -H (ix "deltagZuL" i j) - dLrot V H i j - eye (C2 q H) i j / 6 ∧
      W (ix "phie" i j) = -2 * H (ix "deltagZeR" i j) + eye (C2 q H) i j ∧
      W (ix "phiu" i j) = -2 * H (ix "deltagZuR" i j) - 2 / 3 * eye (C2 q H) i j ∧
      W (ix "phid" i j) = -2 * H (ix "deltagZdR" i j) + 1 / 3 * eye (C2 q H) i j) ∧
    ∀ i j, W (ix "phiud" i j) = -2 * H (ix "deltagWqR" i j) := by
  constructor
  · intro i j hij
    have key : ∀ p : String × ℂ, p ∈ [(ix "phil3" i j, H (ix "deltagWlL" i j) + eye (C1 q H) i j / 2),
       (ix "phiq3" i j, H (ix "deltagZuL" i j) - dLrot V H i j + eye (C1 q H) i j / 2),
       (ix "phil1" i j, -2 * H (ix "deltagZeL" i j) - H (ix "deltagWlL" i j) + eye (C2 q H) i j / 2),
       (ix "phiq1" i j, -H (ix "deltagZuL" i j) - dLrot V H i j - eye (C2 q H) i j / 6),
       (ix "phie" i j, -2 * H (ix "deltagZeR" i j) + eye (C2 q H) i j),
       (ix "phiu" i j, -2 * H (ix "deltagZuR" i j) - 2 / 3 * eye (C2 q H) i j),
       (ix "phid" i j, -2 * H (ix "deltagZdR" i j) + 1 / 3 * eye (C2 q H) i j)] → W p.1 = p.2 := by
      intro p hp
      refine hW _ _ (List.mem_append_right _ (mem_loop.2 ⟨i, j, List.mem_append_left _ ?_⟩))
      rw [if_pos hij]
      exact hp
    simp only [List.forall_mem_cons, List.not_mem_nil, false_implies, implies_true, and_true] at key
    exact key
  · intro i j
    exact hW _ _ (List.mem_append_right _ (mem_loop.2 ⟨i, j, List.mem_append_right _ (by simp)⟩))

theorem scalars_of (hW : ∀ x v, (x, v) ∈ warsawScalars q H ++ warsawTensors V q H → W x = v) :
    ∀ p ∈ warsawScalars q H, W p.1 = p.2 := fun _ hp => hW _ _ (List.mem_append_left _ hp)

theorem higgs_of_warsaw (hV : V.conjTranspose * V = 1) (hq : Good q)
    (hW : ∀ x v, (x, v) ∈ warsawScalars q H ++ warsawTensors V q H → W x = v)
    (hll : W "ll_1221" = H "ll_1221") (hr : ∀ x ∈ higgsReal, (H x).im = 0) :
    ∀ p ∈ higgsTensors V q W ++ higgsScalars q W, p.2 = H p.1 := by
  have hs := scalars_of hW
  obtain ⟨ht, hud⟩ := tensors_of hW
  simp only [warsawScalars, List.forall_mem_cons, List.not_mem_nil, false_implies, implies_true, and_true] at hs
  obtain ⟨s1, s2, s3, s4, s5, s6, s7, s8, s9, s10, s11⟩ := hs
  obtain ⟨rU, rD, rW⟩ := diag_real hr
  have r1 := C1_real (q := q) hr
  have r2 := C2_real (q := q) hr
  have l1 : W "phil3_11" = H "deltagWlL_11" + C1 q H / 2 := (ht 0 0 le_rfl).1
  have l2 : W "phil3_22" = H "deltagWlL_22" + C1 q H / 2 := (ht 1 1 le_rfl).1
  have w1 : (H "deltagWlL_11").im = 0 := rW 0
  have w2 : (H "deltagWlL_22").im = 0 := rW 1
  have i1 : (W "phil3_11").im = 0 := by
    rw [l1, ← re_of_im w1, ← re_of_im r1]
    norm_cast
  have i2 : (W "phil3_22").im = 0 := by
    rw [l2, ← re_of_im w2, ← re_of_im r1]
    norm_cast
  have eD : W "phiD" = -(2 * C2 q H) - 4 * dM H := by
    rw [s3, C2]; ring
  have hf := f_of (H := H) (W := W) hq s7 (by
    rw [re_of_im i1, re_of_im i2, l1, l2, hll, eD, dM, ← C1_sub_C2 hq]
    ring)
  have esub : ∀ i j, eye (C1 q H - C2 q H) i j = eye (C1 q H) i j - eye (C2 q H) i j := by
    intro i j; by_cases h : i = j <;> simp [eye, h]
  have hrot : q13rot V W = (-2 : ℂ) • herm H "deltagZdL" + ((C1 q H) / 2 - C2 q H / 6) • (1 : Mat) := by
    have h3 : herm W "phiq3" = herm H "deltagZuL" - dLrot V H + (C1 q H / 2) • (1 : Mat) := by
      refine herm_eq ?_ ?_
      · intro i j
        simp only [Matrix.add_apply, Matrix.sub_apply, Matrix.smul_apply, smul_eq_mul, star_add, star_sub, herm_star rU]
        rw [dLrot, star_conj V _ (herm_star rD)]
        have := eye_star (c := C1 q H / 2) (by rw [← re_of_im r1]; norm_cast) i j
        rw [congrFun (congrFun (eye_eq (C1 q H / 2)) i) j, congrFun (congrFun (eye_eq (C1 q H / 2)) j) i] at this
        simpa using this
      · intro i j hij
        rw [(ht i j hij).2.1, Matrix.add_apply, Matrix.sub_apply, herm_upper rU hij, ← eye_eq]
        simp only [eye]
        split_ifs <;> ring
    have h1 : herm W "phiq1" = -herm H "deltagZuL" - dLrot V H - (C2 q H / 6) • (1 : Mat) := by
      refine herm_eq ?_ ?_
      · intro i j
        simp only [Matrix.neg_apply, Matrix.sub_apply, Matrix.smul_apply, smul_eq_mul, star_neg, star_sub, herm_star rU]
        rw [dLrot, star_conj V _ (herm_star rD)]
        have := eye_star (c := C2 q H / 6) (by rw [← re_of_im r2]; norm_cast) i j
        rw [congrFun (congrFun (eye_eq (C2 q H / 6)) i) j, congrFun (congrFun (eye_eq (C2 q H / 6)) j) i] at this
        simpa using this
      · intro i j hij
        rw [(ht i j hij).2.2.2.1, Matrix.sub_apply, Matrix.sub_apply, Matrix.neg_apply, herm_upper rU hij, ← eye_eq]
        simp only [eye]
        split_ifs <;> ring
    have hsum : herm W "phiq3" + herm W "phiq1"
        = (-2 : ℂ) • (V * herm H "deltagZdL" * V.conjTranspose) + ((C1 q H) / 2 - C2 q H / 6) • (1 : Mat) := by
      rw [h3, h1, dLrot, sub_smul, neg_smul, two_smul]
      abel
    rw [q13rot, hsum, Matrix.mul_add, Matrix.add_mul, Matrix.mul_smul, Matrix.smul_mul, Matrix.mul_smul,
      Matrix.smul_mul, Matrix.mul_one, hV]
    congr 2
    calc V.conjTranspose * (V * herm H "deltagZdL" * V.conjTranspose) * V
        = (V.conjTranspose * V) * herm H "deltagZdL" * (V.conjTranspose * V) := by simp only [Matrix.mul_assoc]
      _ = _ := by rw [hV, Matrix.one_mul, Matrix.mul_one]
  have g1 := hq.gw'
  have g2 := hq.gp'
  have g3 := hq.gs'
  have g4 := hq.sum'
  have g5 := hq.s'
  have g6 := hq.c'
  rw [List.forall_mem_append]
  constructor
  · intro p hp0
    obtain ⟨i, j, hp1⟩ := mem_loop.1 hp0
    clear hp0
    rcases List.mem_append.1 hp1 with hp | hp <;> clear hp1
    · by_cases hij : i ≤ j
      · rw [if_pos hij] at hp
        obtain ⟨t1, t2, t3, t4, t5, t6, t7⟩ := ht i j hij
        revert p
        simp only [List.forall_mem_cons, List.not_mem_nil, false_implies, implies_true, and_true]
        simp only [hf, t1, t2, t3, t4, t5, t6, t7, esub]
        refine ⟨by ring, by ring, by ring, by ring, ?_, by ring, by ring⟩
        rw [hrot, Matrix.add_apply, Matrix.smul_apply, herm_upper rD hij, ← eye_eq]
        simp only [eye, smul_eq_mul]
        split_ifs <;> ring
      · rw [if_neg hij] at hp
        exact absurd hp (by simp)
    · rw [List.mem_singleton] at hp
      subst hp
      simp only [hud]
      ring
  · simp only [higgsScalars, List.forall_mem_cons, List.not_mem_nil, false_implies, implies_true, and_true]
    refine ⟨?_, ?_, ?_, ?_, ?_, ?_, ?_, ?_, ?_, ?_, ?_⟩
    · rw [s1, s2, eD, l1, l2, hll, dM]
      have h1 : (H "czBox" * q.gw ^ 2 + H "czz" * q.gp ^ 2 - H "czgamma" * q.gp ^ 2 * (q.c2w - q.s2w)
          - H "cgammagamma" * q.gw ^ 2 * q.s2w ^ 2) * 4 * q.gw ^ 2 * q.lam / (q.gw ^ 2 - q.gp ^ 2)
          = 4 * q.lam * C1 q H := by rw [C1]; ring
      have h2 : (H "czBox" * (3 * q.gw ^ 2 - q.gp ^ 2) + 2 * H "czz" * q.gp ^ 2
          - 2 * H "czgamma" * q.gp ^ 2 * (q.c2w - q.s2w)
          - 2 * H "cgammagamma" * q.gw ^ 2 * q.s2w ^ 2) * q.gw ^ 2 / (q.gw ^ 2 - q.gp ^ 2) / 2
          = C1 q H + (C1 q H - C2 q H) / 2 := by
        rw [C1_sub_C2 hq, C1]
        have := hq.ne'
        field_simp
        ring
      rw [h1, h2]
      ring
    · rw [s2, eD, l1, l2, hll, dM]
      have h2 : (H "czBox" * (3 * q.gw ^ 2 - q.gp ^ 2) + 2 * H "czz" * q.gp ^ 2
          - 2 * H "czgamma" * q.gp ^ 2 * (q.c2w - q.s2w)
          - 2 * H "cgammagamma" * q.gw ^ 2 * q.s2w ^ 2) * q.gw ^ 2 / (q.gw ^ 2 - q.gp ^ 2) / 2
          = C1 q H + (C1 q H - C2 q H) / 2 := by
        rw [C1_sub_C2 hq, C1]
        have := hq.ne'
        field_simp
        ring
      rw [h2]
      ring
    · rw [eD, l1, l2, hll, dM, div_eq_iff (pow_ne_zero 2 g1), ← C1_sub_C2 hq]
      ring
    · rw [s4]; field_simp
    · rw [s5, s6, s7]; exact to_gg g1 g2 g4 g5 g6 _ _ _
    · rw [s5, s6, s7]; exact to_zz g1 g2 g4 g5 g6 _ _ _
    · rw [s5, s6, s7]; exact to_zg g1 g2 g4 g5 g6 _ _ _
    · rw [s8]; field_simp
    · rw [s9, s10, s11]; exact to_gg g1 g2 g4 g5 g6 _ _ _
    · rw [s9, s10, s11]; exact to_zz g1 g2 g4 g5 g6 _ _ _
    · rw [s9, s10, s11]; exact to_zg g1 g2 g4 g5 g6 _ _ _

/-! ## Warsaw up → Higgs-Warsaw up → Warsaw up -/

theorem tensors_of' (hH : ∀ x v, (x, v) ∈ higgsTensors V q W ++ higgsScalars q W → H x = v) :
    (∀ i j, i ≤ j →
      H (ix "deltagWlL" i j) = W (ix "phil3" i j) + f q W (1 / 2) 0 i j - f q W (-1 / 2) (-1) i j ∧
      H (ix "deltagZeL" i j) = -1 / 2 * W (ix "phil3" i j) - 1 / 2 * W (ix "phil1" i j) + f q W (-1 / 2) (-1) i j ∧
      H (ix "deltagZeR" i j) = -1 / 2 * W (ix "phie" i j) + f q W 0 (-1) i j ∧
      H (ix "deltagZuL" i j) = 1 / 2 * W (ix "phiq3" i j) - 1 / 2 * W (ix "phiq1" i j) + f q W (1 / 2) (2 / 3) i j ∧
      H (ix "deltagZdL" i j) = -1 / 2 * q13rot V W i j + f q W (-1 / 2) (-1 / 3) i j ∧
      H (ix "deltagZuR" i j) = -1 / 2 * W (ix "phiu" i j) + f q W 0 (2 / 3) i j ∧
      H (ix "deltagZdR" i j) = -1 / 2 * W (ix "phid" i j) + f q W 0 (-1 / 3) i j) ∧
    ∀ i j, H (ix "deltagWqR" i j) = -W (ix "phiud" i j) / 2 := by
  constructor
  · intro i j hij
    have key : ∀ p : String × ℂ, p ∈ [
       (ix "deltagWlL" i j, W (ix "phil3" i j) + f q W (1 / 2) 0 i j - f q W (-1 / 2) (-1) i j),
       (ix "deltagZeL" i j, -1 / 2 * W (ix "phil3" i j) - 1 / 2 * W (ix "phil1" i j) + f q W (-1 / 2) (-1) i j),
       (ix "deltagZeR" i j, -1 / 2 * W (ix "phie" i j) + f q W 0 (-1) i j),
       (ix "deltagZuL" i j, 1 / 2 * W (ix "phiq3" i j) - 1 / 2 * W (ix "phiq1" i j) + f q W (1 / 2) (2 / 3) i j),
       (ix "deltagZdL" i j, -1 / 2 * q13rot V W i j + f q W (-1 / 2) (-1 / 3) i j),
       (ix "deltagZuR" i j, -1 / 2 * W (ix "phiu" i j) + f q W 0 (2 / 3) i j),
       (ix "deltagZdR" i j, -1 / 2 * W (ix "phid" i j) + f q W 0 (-1 / 3) i j)] → H p.1 = p.2 := by
      intro p hp
      refine hH _ _ (List.mem_append_left _ (mem_loop.2 ⟨i, j, List.mem_append_left _ ?_⟩))
      rw [if_pos hij]
      exact hp
    simp only [List.forall_mem_cons, List.not_mem_nil, false_implies, implies_true, and_true] at key
    exact key
  · intro i j
    exact hH _ _ (List.mem_append_left _ (mem_loop.2 ⟨i, j, List.mem_append_right _ (by simp)⟩))

theorem warsaw_of_higgs (hV : V * V.conjTranspose = 1) (hq : Good q)
    (hH : ∀ x v, (x, v) ∈ higgsTensors V q W ++ higgsScalars q W → H x = v)
    (hll : H "ll_1221" = W "ll_1221") (hlr : (W "ll_1221").im = 0) (hr : ∀ x ∈ warsawReal, (W x).im = 0) :
    ∀ p ∈ warsawScalars q H ++ warsawTensors V q H, p.2 = W p.1 := by
  have hs : ∀ p ∈ higgsScalars q W, H p.1 = p.2 := fun _ hp => hH _ _ (List.mem_append_right _ hp)
  obtain ⟨ht, hud⟩ := tensors_of' hH
  simp only [higgsScalars, List.forall_mem_cons, List.not_mem_nil, false_implies, implies_true, and_true] at hs
  obtain ⟨s1, s2, s3, s4, s5, s6, s7, s8, s9, s10, s11⟩ := hs
  have g1 := hq.gw'
  have g2 := hq.gp'
  have g3 := hq.gs'
  have g4 := hq.sum'
  have g5 := hq.s'
  have g6 := hq.c'
  have d3 : ∀ i, ix "phiq3" i i ∈ warsawReal := by decide +kernel
  have d1 : ∀ i, ix "phiq1" i i ∈ warsawReal := by decide +kernel
  have r3 : ∀ i, (W (ix "phiq3" i i)).im = 0 := fun i => hr _ (d3 i)
  have r1 : ∀ i, (W (ix "phiq1" i i)).im = 0 := fun i => hr _ (d1 i)
  have i1 := hr "phil3_11" (by decide +kernel)
  have i2 := hr "phil3_22" (by decide +kernel)
  have iD := hr "phiD" (by decide +kernel)
  have iW := hr "phiW" (by decide +kernel)
  have iB := hr "phiB" (by decide +kernel)
  have iWB := hr "phiWB" (by decide +kernel)
  have hB : H "czBox" * q.gw ^ 2 = -W "ll_1221" / 2 + W "phiD" / 2 + W "phil3_11" + W "phil3_22" := by
    rw [s3, div_mul_cancel₀ _ (pow_ne_zero 2 g1)]
  have hX : W "phiWB" = X q H * q.gw * q.gp / 2 := by
    rw [X, s5, s6, s7]
    exact (to_WB g1 g2 g4 g5 g6 _ _ _).symm
  have hf := f_of (H := H) (W := W) hq hX (by
    rw [re_of_im i1, re_of_im i2, hB]
    ring)
  have k1 : (H "czBox").im = 0 := by
    rw [s3, ← re_of_im i1, ← re_of_im i2, ← re_of_im iD, ← re_of_im hlr]
    norm_cast
  have k2 : (H "czz").im = 0 := by
    rw [s6, ← re_of_im iW, ← re_of_im iB, ← re_of_im iWB]
    norm_cast
  have k3 : (H "czgamma").im = 0 := by
    rw [s7, ← re_of_im iW, ← re_of_im iB, ← re_of_im iWB]
    norm_cast
  have k4 : (H "cgammagamma").im = 0 := by
    rw [s5, ← re_of_im iW, ← re_of_im iB, ← re_of_im iWB]
    norm_cast
  have c1 : (C1 q H).im = 0 := by
    rw [C1, ← re_of_im k1, ← re_of_im k2, ← re_of_im k3, ← re_of_im k4]
    norm_cast
  have c2 : (C2 q H).im = 0 := by
    rw [C2, ← re_of_im k1, ← re_of_im k2, ← re_of_im k3, ← re_of_im k4]
    norm_cast
  have esub : ∀ i j, eye (C1 q H - C2 q H) i j = eye (C1 q H) i j - eye (C2 q H) i j := by
    intro i j; by_cases h : i = j <;> simp [eye, h]
  have l1 : H "deltagWlL_11" = W "phil3_11" - C1 q H / 2 := by
    have : H "deltagWlL_11" = W "phil3_11" + f q W (1 / 2) 0 0 0 - f q W (-1 / 2) (-1) 0 0 := (ht 0 0 le_rfl).1
    rw [this, hf, hf]
    simp only [eye, if_true]
    ring
  have l2 : H "deltagWlL_22" = W "phil3_22" - C1 q H / 2 := by
    have : H "deltagWlL_22" = W "phil3_22" + f q W (1 / 2) 0 1 1 - f q W (-1 / 2) (-1) 1 1 := (ht 1 1 le_rfl).1
    rw [this, hf, hf]
    simp only [eye, if_true]
    ring
  have hM : dM H = (W "phil3_11" + W "phil3_22" - C1 q H - W "ll_1221" / 2) / 2 := by
    rw [dM, l1, l2, hll]; ring
  have hrot : dLrot V H = (-1 / 2 : ℂ) • (herm W "phiq3" + herm W "phiq1") + (C1 q H / 4 - C2 q H / 12) • (1 : Mat) := by
    have hd : herm H "deltagZdL" = (-1 / 2 : ℂ) • q13rot V W + (C1 q H / 4 - C2 q H / 12) • (1 : Mat) := by
      refine herm_eq ?_ ?_
      · intro i j
        have h1 := star_conj V.conjTranspose (herm W "phiq3" + herm W "phiq1") (by
          intro a b
          rw [Matrix.add_apply, Matrix.add_apply, star_add, herm_star r3, herm_star r1]) i j
        rw [Matrix.conjTranspose_conjTranspose] at h1
        have h2 := eye_star (c := C1 q H / 4 - C2 q H / 12) (by
          rw [← re_of_im c1, ← re_of_im c2]; norm_cast) i j
        rw [congrFun (congrFun (eye_eq (C1 q H / 4 - C2 q H / 12)) i) j,
          congrFun (congrFun (eye_eq (C1 q H / 4 - C2 q H / 12)) j) i] at h2
        rw [Matrix.add_apply, Matrix.add_apply, star_add, h2, Matrix.smul_apply, Matrix.smul_apply, smul_eq_mul,
          smul_eq_mul, star_mul', q13rot, h1]
        congr 2
        exact Complex.conj_eq_iff_im.2 (by norm_num)
      · intro i j hij
        rw [(ht i j hij).2.2.2.2.1, Matrix.add_apply, Matrix.smul_apply, hf, esub, ← eye_eq]
        simp only [eye, smul_eq_mul]
        split_ifs <;> ring
    rw [dLrot, hd, Matrix.mul_add, Matrix.add_mul, Matrix.mul_smul, Matrix.smul_mul, Matrix.mul_smul,
      Matrix.smul_mul, Matrix.mul_one, hV]
    congr 2
    rw [q13rot]
    calc V * (V.conjTranspose * (herm W "phiq3" + herm W "phiq1") * V) * V.conjTranspose
        = (V * V.conjTranspose) * (herm W "phiq3" + herm W "phiq1") * (V * V.conjTranspose) := by
          simp only [Matrix.mul_assoc]
      _ = _ := by rw [hV, Matrix.one_mul, Matrix.mul_one]
  have hC12 : C1 q H - C2 q H = -W "ll_1221" / 2 + W "phiD" / 2 + W "phil3_11" + W "phil3_22" := by
    rw [C1_sub_C2 hq, hB]
  have hbox : (H "czBox" * (3 * q.gw ^ 2 - q.gp ^ 2) + 2 * H "czz" * q.gp ^ 2
          - 2 * H "czgamma" * q.gp ^ 2 * (q.c2w - q.s2w)
          - 2 * H "cgammagamma" * q.gw ^ 2 * q.s2w ^ 2) * q.gw ^ 2 / (q.gw ^ 2 - q.gp ^ 2) / 2
          = C1 q H + (C1 q H - C2 q H) / 2 := by
    rw [C1_sub_C2 hq, C1]
    have := hq.ne'
    field_simp
    ring
  rw [List.forall_mem_append]
  constructor
  · simp only [warsawScalars, List.forall_mem_cons, List.not_mem_nil, false_implies, implies_true, and_true]
    refine ⟨?_, ?_, ?_, ?_, ?_, ?_, ?_, ?_, ?_, ?_, ?_⟩
    · have h1 : (H "czBox" * q.gw ^ 2 + H "czz" * q.gp ^ 2 - H "czgamma" * q.gp ^ 2 * (q.c2w - q.s2w)
          - H "cgammagamma" * q.gw ^ 2 * q.s2w ^ 2) * 4 * q.gw ^ 2 * q.lam / (q.gw ^ 2 - q.gp ^ 2)
          = 4 * q.lam * C1 q H := by rw [C1]; ring
      rw [h1, s1, s2, hM]
      ring
    · rw [hbox, s2, hM, hC12]
      ring
    · have h1 : -(H "czBox" + H "czz" - H "czgamma" * (q.c2w - q.s2w) - H "cgammagamma" * q.s2w * q.c2w)
          * 2 * q.gw ^ 2 * q.gp ^ 2 / (q.gw ^ 2 - q.gp ^ 2) = -(2 * C2 q H) := by rw [C2]; ring
      rw [h1, hM]
      linear_combination 2 * hC12
    · rw [s4]; field_simp
    · rw [s5, s6, s7]; exact to_W g1 g2 g4 g5 g6 _ _ _
    · rw [s5, s6, s7]; exact to_B g1 g2 g4 g5 g6 _ _ _
    · exact hX.symm
    · rw [s8]; field_simp
    · rw [s9, s10, s11]; exact to_W g1 g2 g4 g5 g6 _ _ _
    · rw [s9, s10, s11]; exact to_B g1 g2 g4 g5 g6 _ _ _
    · rw [s9, s10, s11]; exact to_WB g1 g2 g4 g5 g6 _ _ _
  · intro p hp0
    obtain ⟨i, j, hp1⟩ := mem_loop.1 hp0
    clear hp0
    rcases List.mem_append.1 hp1 with hp | hp <;> clear hp1
    · by_cases hij : i ≤ j
      · rw [if_pos hij] at hp
        obtain ⟨t1, t2, t3, t4, t5, t6, t7⟩ := ht i j hij
        have e : dLrot V H i j = -1 / 2 * (W (ix "phiq3" i j) + W (ix "phiq1" i j)) + eye (C1 q H) i j / 4
            - eye (C2 q H) i j / 12 := by
          rw [hrot, Matrix.add_apply, Matrix.smul_apply, Matrix.add_apply, herm_upper r3 hij, herm_upper r1 hij,
            ← eye_eq]
          simp only [eye, smul_eq_mul]
          split_ifs <;> ring
        revert p
        simp only [List.forall_mem_cons, List.not_mem_nil, false_implies, implies_true, and_true]
        simp only [e, t1, t2, t3, t4, t6, t7, hf, esub]
        refine ⟨by ring, by ring, by ring, by ring, by ring, by ring, by ring⟩
      · rw [if_neg hij] at hp
        exact absurd hp (by simp)
    · rw [List.mem_singleton] at hp
      subst hp
      simp only [hud]
      ring

end

end Verif.SmeftHiggs
