import Verif.Props.WetRun
import Verif.Props.Qcd
import Verif.Lemmas.WetTotal
import Verif.Spec.WetNorm

/-!
# The WET running as a solution of the renormalisation group equation (C70)
-/

open Classical

set_option autoImplicit false
set_option linter.unusedSimpArgs false

namespace Verif.WetTab
open Verif Verif.Rotation Verif.WetRun

variable (eig : (n : ℕ) → Matrix (Fin n) (Fin n) ℂ → (Fin n → ℂ) × Matrix (Fin n) (Fin n) ℂ)
  (basisKeys : ℕ → String → Except Exc (List String))

/-- C70: the factor by which the code multiplies a coefficient before the evolution is the
normalisation of the anomalous dimensions. -/
theorem C70_normalisation {c : Coef} (h : WellNamed c) (p : Par) :
    scaleC (nameOf c) p = .ok (norm p c.1 (ixOf c)) := by
  rw [scaleC_eq h]
  congr 1
  obtain ⟨k, m⟩ := c
  cases k
  case uG | dG | ugamma | dgamma | egamma =>
    obtain ⟨i, j, e, i1, i2, j1, j2, -⟩ := dipole_number h rfl
    simp only [Sp.gens] at i2 j2
    simp only [e, norm, massOf, gfac, gStrong, gElectric]
    interval_cases i <;> interval_cases j <;>
      simp [mprod, Q.val, Par.masses, upMass, downMass, leptonMass, div_div]
  all_goals
    simp [norm, gfac, massOf, mprod, gStrong]

/-! ## The evolution matrices from the anomalous dimensions -/

theorem sized_self {n : ℕ} (M : Matrix (Fin n) (Fin n) ℂ) : WetRun.Mat.sized ⟨n, M⟩ n = .ok M := by
  simp [WetRun.Mat.sized]

theorem usPart_of_adm {B : WetRun.Backend} {cls : String} {f n : ℕ} {p : Par} {γs : Matrix (Fin n) (Fin n) ℂ}
    (hs : QcdAdm B cls f p.masses n γs) (eta : ℝ) :
    usPart B cls eta f p 1 n
      = .ok (usMatrix (B.eig n γs.transpose).1 (B.eig n γs.transpose).2 eta f) := by
  obtain ⟨A, hA, hr⟩ := hs
  unfold usPart getUs admeig
  rw [if_neg (by decide), if_pos rfl, hA]
  simp only [bind, Except.bind, hr, pure, Except.pure, sized_self]

theorem uePart_of_adm {B : WetRun.Backend} {cls : String} {f n : ℕ} {p : Par}
    {γs γe : Matrix (Fin n) (Fin n) ℂ} (hs : QcdAdm B cls f p.masses n γs)
    (he : QedAdm B cls f p.masses n γe) (eta : ℝ) :
    uePart B cls eta f p 1 1 n
      = .ok (ueMatrix (B.eig n γs.transpose).1 (B.eig n γs.transpose).2 γe eta f p) := by
  obtain ⟨A, hA, hr⟩ := hs
  obtain ⟨E, hE, hre⟩ := he
  unfold uePart getUe admeig
  rw [if_neg (by decide), if_pos rfl, if_neg (by decide), hA, hE]
  simp only [bind, Except.bind, hr, hre, pure, Except.pure, sized_self]

/-- a normalised output coefficient is the evolution matrix applied to the normalised input -/
theorem normalised_output {s cls : String} {f : ℕ} {keys : List String}
    (hcls : Dict.get? sectorTable s = some cls) (hinv : cls ≠ "inv")
    (hk : keylist (backend eig basisKeys) s f = .ok keys)
    {co : Fin keys.length → Coef} (hco : ∀ i, WellNamed (co i) ∧ nameOf (co i) = keys[i])
    {p q : Par} (hq : q.Positive) {qed : ℕ} {C d : Dict String ℂ} {eta : ℝ}
    (h : runSector (backend eig basisKeys) s C eta f p q qed 1 = .ok d)
    {U : Matrix (Fin keys.length) (Fin keys.length) ℂ}
    (hU : evolution (backend eig basisKeys) cls eta f p qed 1 keys.length = .ok U) (i : Fin keys.length) :
    (norm q (co i).1 (ixOf (co i)) : ℂ) * val d (nameOf (co i))
      = ∑ j, U i j * ((norm p (co j).1 (ixOf (co j)) : ℂ) * val C (nameOf (co j))) := by
  have hB := backend_tables eig basisKeys
  have hnd := keylist_nodup hB hk
  have hval : ∀ (g : Fin keys.length → ℂ), val (toDict keys g) (nameOf (co i)) = g i := by
    intro g
    rw [(hco i).2]
    simp only [val]
    rw [toDict_get? keys g hnd i]
    rfl
  have hvec : ∀ j, vec keys C j = val C (nameOf (co j)) := by
    intro j
    rw [(hco j).2]
    rfl
  obtain ⟨cls', keys', h1, h2, h3⟩ := runSector_ok _ h
  rw [lookup_ok] at h1
  obtain rfl : cls = cls' := Option.some.inj (hcls.symm.trans h1)
  obtain rfl : keys = keys' := Except.ok.inj (hk.symm.trans h2)
  rcases h3 with ⟨h3 | h3, rfl⟩ | ⟨-, T, hT, rfl⟩
  · rw [hval, h3]
    simp only [Pi.zero_apply, mul_zero]
    symm
    apply Finset.sum_eq_zero
    intro j _
    rw [← hvec, h3]
    simp
  · exact absurd h3 hinv
  · obtain ⟨s_in, U', s_out, hin, hU', hout, rfl⟩ := evolved_ok _ hT
    obtain rfl : U = U' := Except.ok.inj (hU.symm.trans hU')
    have e1 : ∀ j : Fin keys.length, s_in.getD j 0 = norm p (co j).1 (ixOf (co j)) := by
      intro j
      have := scales_get hin j
      rw [← (hco j).2, C70_normalisation (hco j).1] at this
      exact (Except.ok.inj this).symm
    have e2 : s_out.getD i 0 = norm q (co i).1 (ixOf (co i)) := by
      have := scales_get hout i
      rw [← (hco i).2, C70_normalisation (hco i).1] at this
      exact (Except.ok.inj this).symm
    have hne := scales_ne hq hout i
    rw [hval, ← transfer_mulVec, e2, mul_div_cancel₀ _ (by rw [← e2]; exact_mod_cast hne)]
    simp only [Matrix.mulVec, dotProduct]
    apply Finset.sum_congr rfl
    intro j _
    rw [e1, hvec]
    ring

/-! ## The renormalisation group equation -/

/-- C70: let the strong coupling run at one loop with the logarithm `t` of the scale, in an open range
of scales.  The
coefficients returned for a sector, in the normalisation of the anomalous dimensions, solve
`dN/dt = α_s/(4π) γ_sᵀ N` without QED, and
`dN/dt = α_s/(4π) γ_sᵀ N + α_e/(4π) γ_eᵀ N₀` to first order in QED, `N₀` being the solution without
QED.  Here `γ_s`, `γ_e` are the anomalous dimensions at the masses of the initial scale. -/
theorem C70_running {s cls : String} {f : ℕ} {keys : List String}
    (hcls : Dict.get? sectorTable s = some cls) (hinv : cls ≠ "inv")
    (hk : keylist (backend eig basisKeys) s f = .ok keys)
    {co : Fin keys.length → Coef} (hco : ∀ i, WellNamed (co i) ∧ nameOf (co i) = keys[i])
    {p : Par} (hp : p.Positive)
    {γs γe : Matrix (Fin keys.length) (Fin keys.length) ℂ}
    (hs : QcdAdm (backend eig basisKeys) cls f p.masses keys.length γs)
    (hD : Diagonalises γs.transpose (eig keys.length γs.transpose))
    (he : QedAdm (backend eig basisKeys) cls f p.masses keys.length γe)
    (S : Set ℝ) (hS : IsOpen S) (q : ℝ → Par) (hq : ∀ t ∈ S, (q t).Positive)
    (hrun : ∀ t ∈ S, HasDerivAt (fun t => (q t).alpha_s)
      (-(2 * (11 - 2 * (f : ℝ) / 3) * (q t).alpha_s ^ 2 / (4 * Real.pi))) t)
    (C : Dict String ℂ) (d₀ d₁ : ℝ → Dict String ℂ)
    (h₀ : ∀ t ∈ S, runSector (backend eig basisKeys) s C (p.alpha_s / (q t).alpha_s) f p (q t) 0 1
      = .ok (d₀ t))
    (h₁ : ∀ t ∈ S, runSector (backend eig basisKeys) s C (p.alpha_s / (q t).alpha_s) f p (q t) 1 1
      = .ok (d₁ t)) :
    let N : (ℝ → Dict String ℂ) → ℝ → Fin keys.length → ℂ := fun d t i =>
      (norm (q t) (co i).1 (ixOf (co i)) : ℂ) * val (d t) (nameOf (co i))
    ∀ t ∈ S, ∀ i,
      HasDerivAt (fun t => N d₀ t i)
        ((q t).alpha_s / (4 * Real.pi) * ∑ j, γs j i * N d₀ t j) t ∧
      HasDerivAt (fun t => N d₁ t i)
        ((q t).alpha_s / (4 * Real.pi) * ∑ j, γs j i * N d₁ t j
          + p.alpha_e / (4 * Real.pi) * ∑ j, γe j i * N d₀ t j) t := by
  intro N t ht i
  set B := backend eig basisKeys with hB
  set Us : ℝ → Matrix (Fin keys.length) (Fin keys.length) ℂ := fun x =>
    usMatrix (B.eig _ γs.transpose).1 (B.eig _ γs.transpose).2 (p.alpha_s / x) f with hUs
  set Ue : ℝ → Matrix (Fin keys.length) (Fin keys.length) ℂ := fun x =>
    ueMatrix (B.eig _ γs.transpose).1 (B.eig _ γs.transpose).2 γe (p.alpha_s / x) f p with hUe
  have e0 : ∀ x, usPart B cls (p.alpha_s / x) f p 1 keys.length = .ok (Us x) :=
    fun x => usPart_of_adm hs _
  have e1 : ∀ x, uePart B cls (p.alpha_s / x) f p 1 1 keys.length = .ok (Ue x) :=
    fun x => uePart_of_adm hs he _
  have ev0 : ∀ x, evolution B cls (p.alpha_s / x) f p 0 1 keys.length = .ok (Us x) := by
    intro x
    unfold evolution
    rw [e0]
    simp [bind, Except.bind, pure, Except.pure, uePart]
  have ev1 : ∀ x, evolution B cls (p.alpha_s / x) f p 1 1 keys.length = .ok (Us x + Ue x) := by
    intro x
    unfold evolution
    rw [e0, e1]
    rfl
  set N0 : Fin keys.length → ℂ := fun j =>
    (norm p (co j).1 (ixOf (co j)) : ℂ) * val C (nameOf (co j)) with hN0
  have f0 : ∀ t ∈ S, ∀ i, N d₀ t i = ∑ j, Us (q t).alpha_s i j * N0 j := fun t ht i =>
    normalised_output eig basisKeys hcls hinv hk hco (hq t ht) (h₀ t ht) (ev0 _) i
  have f1 : ∀ t ∈ S, ∀ i, N d₁ t i = ∑ j, (Us (q t).alpha_s + Ue (q t).alpha_s) i j * N0 j := fun t ht i =>
    normalised_output eig basisKeys hcls hinv hk hco (hq t ht) (h₁ t ht) (ev1 _) i
  have hx := (hq t ht).1
  have A0 := (C70_qcd (B := B) cls f p hp.1 _ γs hs hD Us e0).2
  have A1 := (C70_qed (B := B) cls f p hp.1 _ γs γe hs hD he Us Ue e0 e1).2
  clear_value Us Ue
  have D0 := fun j => HasDerivAt.scomp (h := fun t => (q t).alpha_s) (g₁ := fun y => Us y i j) t
    (A0 _ hx i j) (hrun t ht)
  have D1 := fun j => HasDerivAt.scomp (h := fun t => (q t).alpha_s) (g₁ := fun y => Ue y i j) t
    (A1 _ hx i j) (hrun t ht)
  simp only [Function.comp_def] at D0 D1
  have hxc : ((q t).alpha_s : ℂ) ≠ 0 := by exact_mod_cast hx.ne'
  have hpi : (Real.pi : ℂ) ≠ 0 := by exact_mod_cast Real.pi_ne_zero
  have hb : (11 - 2 * (f : ℂ) / 3) ≠ 0 := by
    intro h
    have : (33 : ℂ) = 2 * f := by linear_combination 3 * h
    have : (33 : ℕ) = 2 * f := by exact_mod_cast this
    omega
  have m0 : ∀ j, N d₀ t j = (Us (q t).alpha_s).mulVec N0 j := fun j => f0 t ht j
  have m1 : ∀ j, N d₁ t j = (Us (q t).alpha_s).mulVec N0 j + (Ue (q t).alpha_s).mulVec N0 j := by
    intro j
    rw [f1 t ht]
    simp only [Matrix.mulVec, dotProduct, Matrix.add_apply, add_mul, Finset.sum_add_distrib]
  have sT : ∀ (γ : Matrix (Fin keys.length) (Fin keys.length) ℂ) (v : Fin keys.length → ℂ),
      ∑ j, γ j i * v j = γ.transpose.mulVec v i := fun γ v => rfl
  have P0 : HasDerivAt (fun t => N d₀ t i)
      ((q t).alpha_s / (4 * Real.pi) * ∑ j, γs j i * N d₀ t j) t := by
    refine HasDerivAt.congr_of_eventuallyEq ?_
      (Filter.eventually_of_mem (hS.mem_nhds ht) fun t ht => f0 t ht i)
    refine (HasDerivAt.fun_sum fun j _ => (D0 j).mul_const (N0 j)).congr_deriv ?_
    simp only [m0]
    rw [sT γs ((Us (q t).alpha_s).mulVec N0), Matrix.mulVec_mulVec]
    simp only [Matrix.mulVec, dotProduct]
    rw [Finset.mul_sum]
    refine Finset.sum_congr rfl fun j _ => ?_
    simp only [Matrix.smul_apply, smul_eq_mul, Complex.real_smul]
    push_cast
    generalize 11 - 2 * (f : ℂ) / 3 = b at hb ⊢
    field_simp
  refine ⟨P0, ?_⟩
  refine HasDerivAt.congr_of_eventuallyEq ?_
    (Filter.eventually_of_mem (hS.mem_nhds ht) fun t ht => f1 t ht i)
  refine (HasDerivAt.fun_sum fun j _ => ((D0 j).add (D1 j)).mul_const (N0 j)).congr_deriv ?_
  simp only [m0, m1]
  rw [sT γs (fun j => (Us (q t).alpha_s).mulVec N0 j + (Ue (q t).alpha_s).mulVec N0 j),
    sT γe ((Us (q t).alpha_s).mulVec N0),
    show (fun j => (Us (q t).alpha_s).mulVec N0 j + (Ue (q t).alpha_s).mulVec N0 j)
      = (Us (q t).alpha_s).mulVec N0 + (Ue (q t).alpha_s).mulVec N0 from rfl,
    Matrix.mulVec_add, Matrix.mulVec_mulVec, Matrix.mulVec_mulVec, Matrix.mulVec_mulVec]
  simp only [Pi.add_apply, Matrix.mulVec, dotProduct]
  rw [← Finset.sum_add_distrib, Finset.mul_sum, Finset.mul_sum, ← Finset.sum_add_distrib]
  refine Finset.sum_congr rfl fun j _ => ?_
  simp only [Matrix.smul_apply, Matrix.add_apply, smul_eq_mul, Complex.real_smul]
  push_cast
  generalize 11 - 2 * (f : ℂ) / 3 = b at hb ⊢
  field_simp
  ring

/-- C70: every coefficient of a sector has a name of the table. -/
theorem C70_names {s : String} {f : ℕ} {keys : List String}
    (hk : keylist (backend eig basisKeys) s f = .ok keys) :
    ∃ co : Fin keys.length → Coef, ∀ i, WellNamed (co i) ∧ nameOf (co i) = keys[i] := by
  obtain ⟨all, hall, hsub⟩ := keylist_sub (backend_tables eig basisKeys) hk
  obtain ⟨cs, hcs, rfl⟩ := coeffs_get eig basisKeys hall
  have : ∀ i : Fin keys.length, ∃ c, WellNamed c ∧ nameOf c = keys[i] := by
    intro i
    obtain ⟨c, hc, e⟩ := List.mem_map.1 (hsub.subset (List.getElem_mem i.2))
    obtain ⟨j, hj⟩ := listed_of_mem hcs hc
    exact ⟨c, hj.wellNamed, e⟩
  exact ⟨fun i => (this i).choose, fun i => (this i).choose_spec⟩

/-! ## The parameters used for the evolution -/

/-- C70: the number of flavours is five in WET, four in WET-4 and three in WET-3; the couplings and
masses used are those of the theory with that number of flavours at the requested scale, for every
family of couplings and masses that RunDec advances at three loops.  The inputs are
`α_s(M_Z)` with five flavours, `m_b(m_b)` with five, `m_c(m_c)` with four, the light quark masses at
2 GeV with three flavours; `α_e` and the lepton masses do not run.  (At the scale `m_c` the charm
mass is that of four flavours: C61.) -/
theorem C70_parameters (R : Qcd.RunDec) (A : ℕ → ℝ → ℝ) (hA : Qcd.RunsCoupling R 3 A)
    (hA0 : ∀ nf μ, A nf μ ≠ 0) (mu md ms mc mb : ℕ → ℝ → ℝ) (hu : Qcd.RunsMass R 3 A mu)
    (hd : Qcd.RunsMass R 3 A md) (hs : Qcd.RunsMass R 3 A ms) (hc : Qcd.RunsMass R 3 A mc)
    (hb : Qcd.RunsMass R 3 A mb) (Mc Mb : ℝ) (hMc : mc 4 Mc = Mc) (hMb : mb 5 Mb = Mb)
    (hMc0 : 0 < Mc) (hMb0 : 0 < Mb) (P : Par) (h1 : P.alpha_s = A 5 Qcd.MZ) (h2 : P.m_b = Mb)
    (h3 : P.m_c = Mc) (h4 : P.m_s = ms 3 2) (h5 : P.m_u = mu 3 2) (h6 : P.m_d = md 3 2)
    (eft : String) (f : ℕ) (hf : (eft, f) ∈ [("WET", 5), ("WET-4", 4), ("WET-3", 3)])
    (scale : ℝ) (hs0 : 0 < scale) (hne : scale = Mc → f = 4) :
    WetRun.flavours eft = .ok f ∧
    ∃ q, runningPar R P scale f = .ok q ∧
      q.alpha_s = A f scale ∧ q.alpha_e = P.alpha_e ∧
      q.m_u = mu f scale ∧ q.m_d = md f scale ∧ q.m_s = ms f scale ∧ q.m_c = mc f scale ∧
      q.m_b = mb f scale ∧ q.m_e = P.m_e ∧ q.m_mu = P.m_mu ∧ q.m_tau = P.m_tau := by
  have hf' : 3 ≤ f ∧ f ≤ 5 := by
    simp only [List.mem_cons, Prod.mk.injEq, List.not_mem_nil, or_false] at hf
    omega
  refine ⟨?_, ?_⟩
  · simp only [List.mem_cons, Prod.mk.injEq, List.not_mem_nil, or_false] at hf
    rcases hf with ⟨rfl, rfl⟩ | ⟨rfl, rfl⟩ | ⟨rfl, rfl⟩ <;> decide
  · refine ⟨⟨A f scale, P.alpha_e, mu f scale, md f scale, ms f scale, mc f scale, mb f scale, P.m_e,
      P.m_mu, P.m_tau⟩, ?_, rfl, rfl, rfl, rfl, rfl, rfl, rfl, rfl, rfl, rfl⟩
    unfold runningPar
    rw [h1, h2, h3, h4, h5, h6,
      Qcd.C61_coupling R 3 A hA scale f hs0 hf'.1 (by omega) (hA0 _ _),
      Qcd.C61_bottom R 3 A mb hA hb Mb scale f hMb hMb0 hs0 hf'.1 (by omega) hA0,
      Qcd.C61_charm R 3 A mc hA hc Mc scale f hMc hMc0 hs0 hf'.1 hf'.2 hA0 hne,
      Qcd.C61_light R 3 A ms hA hs scale f hs0 hf'.1 hf'.2 hA0,
      Qcd.C61_light R 3 A mu hA hu scale f hs0 hf'.1 hf'.2 hA0,
      Qcd.C61_light R 3 A md hA hd scale f hs0 hf'.1 hf'.2 hA0]
    simp only [bind, Except.bind, pure, Except.pure]

end Verif.WetTab
