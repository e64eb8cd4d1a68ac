import Verif.Props.WetEvolution
import Verif.Props.WetRunExample

/-!
# Concrete cases meeting the hypotheses of the theorems on the WET evolution (C70)
-/

open Classical

set_option autoImplicit false

namespace Verif.WetTab
open Verif Verif.Rotation Verif.WetRun

variable (eig : (n : ℕ) → Matrix (Fin n) (Fin n) ℂ → (Fin n → ℂ) × Matrix (Fin n) (Fin n) ℂ)
  (basisKeys : ℕ → String → Except Exc (List String))

/-- with five flavours every sector has its list of coefficients and matrices of that size -/
theorem five_flavours {s : String} (h : s ∈ Dict.keys sectorTable) (m : Masses) :
    ∃ cs cls RE RS, (s, cs) ∈ coefTable ∧ Dict.get? sectorTable s = some cls ∧
      Dict.get? admETable cls = some RE ∧ Dict.get? admSTable cls = some RS ∧
      keylist (backend eig basisKeys) s 5 = .ok (cs.map nameOf) ∧
      (cls ≠ "inv" → RS.length = (cs.map nameOf).length ∧
        QcdAdm (backend eig basisKeys) cls 5 m (cs.map nameOf).length (fun i j => value RS 5 m i j) ∧
        QedAdm (backend eig basisKeys) cls 5 m (cs.map nameOf).length (fun i j => value RE 5 m i j)) := by
  obtain ⟨cs, cls, RE, RS, hcs, hcls, hE, hS, hsize⟩ := sector_data h
  have hper : ∀ c, permissible (backend eig basisKeys) c 5 = .ok none := fun c => by
    unfold permissible
    rw [if_pos (.inr rfl)]
  refine ⟨cs, cls, RE, RS, hcs, hcls, hE, hS, ?_, fun hinv => ?_⟩
  · unfold keylist
    rw [lookup_ok.2 (get_coeffs eig basisKeys hcs), hper]
    rfl
  · obtain ⟨h1, h2⟩ := hsize hinv
    rw [List.length_map, ← h2]
    refine ⟨rfl, ?_, ?_⟩
    · refine ⟨⟨RS.length, fun i j => value RS 5 m i j⟩, ?_, ?_⟩
      · change admOf admSTable cls 5 m = _
        unfold admOf
        rw [hS]
      · unfold reduce
        rw [hper]
        rfl
    · rw [h2, ← h1]
      refine ⟨⟨RE.length, fun i j => value RE 5 m i j⟩, ?_, ?_⟩
      · change admOf admETable cls 5 m = _
        unfold admOf
        rw [hE]
      · unfold reduce
        rw [hper]
        rfl

/-- eigendecomposition of a diagonal matrix -/
def exDiagEig (n : ℕ) (M : Matrix (Fin n) (Fin n) ℂ) : (Fin n → ℂ) × Matrix (Fin n) (Fin n) ℂ :=
  (M.diag, 1)

theorem adm_s_II_diag : ∀ i < 15, ∀ j < 15, i ≠ j → (entry adm_s_II i j).isNone = true := by decide

/-- a coupling that runs at one loop with five flavours for `t > -1` -/
noncomputable def alphaEx (t : ℝ) : ℝ := (10 + 2 * (11 - 2 * ((5 : ℕ) : ℝ) / 3) / (4 * Real.pi) * (t + 1))⁻¹

theorem alphaEx_pos {t : ℝ} (h : -1 < t) : 0 < alphaEx t := by
  unfold alphaEx
  have : (0 : ℝ) < t + 1 := by linarith
  have := Real.pi_pos
  have : (0 : ℝ) < 11 - 2 * ((5 : ℕ) : ℝ) / 3 := by norm_num
  positivity

/-- The semileptonic sector `ubenu` with five flavours and one-loop running of the coupling. -/
example (C : Dict String ℂ) : ∃ keys : List String, ∃ co : Fin keys.length → Coef, ∃ d₀ d₁ : ℝ → Dict String ℂ,
    ∃ γs γe : Matrix (Fin keys.length) (Fin keys.length) ℂ, ∃ q : ℝ → Par,
    (∀ t > -1, runSector (backend exDiagEig basisKeys) "ubenu" C ((1 / 5) / (q t).alpha_s) 5
      (Example.par (1 / 5)) (q t) 1 1 = .ok (d₁ t)) ∧
    ∀ t > -1, ∀ i, HasDerivAt (fun t => (norm (q t) (co i).1 (ixOf (co i)) : ℂ) * val (d₁ t) (nameOf (co i)))
        ((q t).alpha_s / (4 * Real.pi) * ∑ j, γs j i * ((norm (q t) (co j).1 (ixOf (co j)) : ℂ)
            * val (d₁ t) (nameOf (co j)))
          + ((1 / 128 : ℝ) : ℂ) / (4 * Real.pi) * ∑ j, γe j i * ((norm (q t) (co j).1 (ixOf (co j)) : ℂ)
            * val (d₀ t) (nameOf (co j)))) t := by
  have hmem : "ubenu" ∈ Dict.keys sectorTable := by decide +kernel
  have hcls' : Dict.get? sectorTable "ubenu" = some "II" := by decide +kernel
  obtain ⟨cs, cls, RE, RS, hcs, hcls, hE, hS, hk, hadm⟩ :=
    five_flavours exDiagEig basisKeys hmem (Example.par (1 / 5)).masses
  obtain rfl : "II" = cls := Option.some.inj (hcls'.symm.trans hcls)
  obtain rfl : adm_s_II = RS := Option.some.inj
    ((show Dict.get? admSTable "II" = some adm_s_II by rfl).symm.trans hS)
  obtain ⟨hlen', hs, he⟩ := hadm (by decide)
  obtain ⟨co, hco⟩ := C70_names exDiagEig basisKeys hk
  have hrun : ∀ t (qed : ℕ), qed = 0 ∨ qed = 1 →
      ∃ d, runSector (backend exDiagEig basisKeys) "ubenu" C ((1 / 5) / (Example.par (alphaEx t)).alpha_s) 5
        (Example.par (1 / 5)) (Example.par (alphaEx t)) qed 1 = .ok d := fun t qed h =>
    run_total exDiagEig basisKeys hmem (.inl rfl) C _ _ _ h (.inr rfl)
  refine ⟨_, co, fun t => (hrun t 0 (.inl rfl)).choose, fun t => (hrun t 1 (.inr rfl)).choose,
    fun i j => value adm_s_II 5 (Example.par (1 / 5)).masses i j,
    fun i j => value RE 5 (Example.par (1 / 5)).masses i j,
    fun t => Example.par (alphaEx t), fun t _ => (hrun t 1 (.inr rfl)).choose_spec, fun t ht i => ?_⟩
  have hlen : (cs.map nameOf).length = 15 := by
    rw [← hlen']; rfl
  refine (C70_running exDiagEig basisKeys hcls (by decide) hk hco (p := Example.par (1 / 5))
    (Example.par_pos _ (by norm_num)) hs ?_ he {t | -1 < t} (isOpen_lt continuous_const continuous_id)
    (fun t => Example.par (alphaEx t)) (fun t ht => Example.par_pos _ (alphaEx_pos ht)) ?_ C _ _
    (fun t _ => (hrun t 0 (.inl rfl)).choose_spec) (fun t _ => (hrun t 1 (.inr rfl)).choose_spec) t ht i).2
  · refine ⟨isUnit_one, ?_⟩
    simp only [exDiagEig, mul_one, one_mul]
    ext a b
    change value adm_s_II 5 _ b a = _
    rw [Matrix.diagonal_apply]
    split_ifs with hab
    · rw [hab]; rfl
    · have := adm_s_II_diag b (by rw [← hlen]; exact b.2) a (by rw [← hlen]; exact a.2)
        (fun h => hab (Fin.ext h.symm))
      simp only [value, Option.isNone_iff_eq_none.1 this]
  · intro t ht
    have h0 := alphaEx_pos ht
    simp only [Example.par]
    unfold alphaEx at h0 ⊢
    have hne := (inv_pos.1 h0).ne'
    have h1 : HasDerivAt (fun t : ℝ => 10 + 2 * (11 - 2 * ((5 : ℕ) : ℝ) / 3) / (4 * Real.pi) * (t + 1))
        (2 * (11 - 2 * ((5 : ℕ) : ℝ) / 3) / (4 * Real.pi)) t := by
      simpa using (((hasDerivAt_id t).add_const 1).const_mul
        (2 * (11 - 2 * ((5 : ℕ) : ℝ) / 3) / (4 * Real.pi))).const_add 10
    refine (h1.fun_inv hne).congr_deriv ?_
    field_simp

/-! ## Running parameters -/

/-- a RunDec that advances all families proportional to the coupling of the example -/
noncomputable def exRunDec : Qcd.RunDec where
  alphasExact := fun _ _ μ nf _ => Qcd.exampleCoupling nf μ
  alL2AlH := fun _ _ t μ _ => Qcd.exampleCoupling t.nf μ
  alH2AlL := fun _ _ t μ _ => Qcd.exampleCoupling (t.nf - 1) μ
  mMS2mMS := fun m a₁ a₂ _ _ => m / a₁ * a₂
  mH2mL := fun m a _ t μ _ => m / a * Qcd.exampleCoupling (t.nf - 1) μ
  mL2mH := fun m a _ t μ _ => m / a * Qcd.exampleCoupling t.nf μ

theorem ex_mass (c : ℝ) : Qcd.RunsMass exRunDec 3 Qcd.exampleCoupling
    (fun nf μ => c * Qcd.exampleCoupling nf μ) := by
  constructor <;> intro nf μ₁ μ₂ <;> simp [exRunDec, Qcd.exampleCoupling_ne]

example : ∃ q, runningPar exRunDec ⟨Qcd.exampleCoupling 5 Qcd.MZ, 1 / 128, Qcd.exampleCoupling 3 2,
      2 * Qcd.exampleCoupling 3 2, 3 * Qcd.exampleCoupling 3 2, 1, 4, 1, 1, 1⟩ 3 4 = .ok q ∧
    q.m_b = 34 / 3 * Qcd.exampleCoupling 4 3 ∧ q.m_d = 2 * Qcd.exampleCoupling 4 3 := by
  obtain ⟨-, q, hq, -, -, -, h1, -, -, h2, -⟩ := C70_parameters exRunDec Qcd.exampleCoupling
    (by constructor <;> intros <;> simp [exRunDec]) Qcd.exampleCoupling_ne _ _ _ _ _
    (ex_mass 1) (ex_mass 2) (ex_mass 3) (ex_mass (2 / 5)) (ex_mass (34 / 3)) 1 4
    (by norm_num [Qcd.exampleCoupling]) (by norm_num [Qcd.exampleCoupling]) (by norm_num) (by norm_num)
    ⟨Qcd.exampleCoupling 5 Qcd.MZ, 1 / 128, Qcd.exampleCoupling 3 2,
      2 * Qcd.exampleCoupling 3 2, 3 * Qcd.exampleCoupling 3 2, 1, 4, 1, 1, 1⟩ rfl rfl rfl rfl (by simp) rfl
    "WET-4" 4 (by simp) 3 (by norm_num) (by norm_num)
  exact ⟨q, hq, h2, h1⟩

end Verif.WetTab
