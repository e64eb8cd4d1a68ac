import Verif.Lemmas.WetRun
import Verif.Lemmas.WetSym

/-!
# The tables of the package are well formed, and running with them does not fail
-/

set_option autoImplicit false
set_option linter.unusedSimpArgs false

namespace Verif.WetTab
open Verif Verif.Rotation Verif.WetRun

variable (eig : (n : ℕ) → Matrix (Fin n) (Fin n) ℂ → (Fin n → ℂ) × Matrix (Fin n) (Fin n) ℂ)
  (basisKeys : ℕ → String → Except Exc (List String))

theorem coeffs_get {s : String} {l : List String}
    (h : (backend eig basisKeys).coeffs.get? s = some l) :
    ∃ cs, (s, cs) ∈ coefTable ∧ l = cs.map nameOf := by
  have h := Dict.mem_of_get? h
  obtain ⟨⟨s', cs⟩, hm, he⟩ := List.mem_map.1 h
  obtain ⟨rfl, rfl⟩ := Prod.mk.inj he
  exact ⟨cs, hm, rfl⟩

theorem get_coeffs {s : String} {cs : List Coef} (h : (s, cs) ∈ coefTable) :
    (backend eig basisKeys).coeffs.get? s = some (cs.map nameOf) := by
  apply Dict.get?_of_mem
  · unfold Dict.NodupKeys Dict.keys
    have : (backend eig basisKeys).coeffs.map Prod.fst = coefTable.map Prod.fst := by
      simp [backend, Function.comp_def]
    rw [this]
    exact sector_names_nodup
  · exact List.mem_map.2 ⟨_, h, rfl⟩

theorem listed_of_mem {s : String} {cs : List Coef} (h : (s, cs) ∈ coefTable) {c : Coef} (hc : c ∈ cs) :
    ∃ i, Listed c s i := by
  obtain ⟨i, hi⟩ := List.getElem?_of_mem hc
  exact ⟨i, cs, h, hi⟩

theorem names_nodup {s : String} {cs : List Coef} (h : (s, cs) ∈ coefTable) : (cs.map nameOf).Nodup := by
  refine List.Nodup.map_on ?_ ?_
  · intro c hc c' hc' e
    obtain ⟨i, hi⟩ := listed_of_mem h hc
    obtain ⟨j, hj⟩ := listed_of_mem h hc'
    exact nameOf_inj hi.wellNamed hj.wellNamed e
  · rw [List.nodup_iff_getElem?_ne_getElem?]
    intro i j hij hj e
    have hi : i < cs.length := by omega
    have h1 : Listed cs[j] s i := ⟨cs, h, by rw [e, List.getElem?_eq_getElem hj]⟩
    have h2 : Listed cs[j] s j := ⟨cs, h, List.getElem?_eq_getElem hj⟩
    have := (listed_unique h1 h2 rfl).2.1
    omega

/-- the classes of the sectors -/
theorem sectors_aligned : ∀ sc ∈ sectorTable,
    sc.2 = classOfSector sc.1 ∨ (sc.2 ∉ reducedClasses ∧ classOfSector sc.1 ∉ reducedClasses) := by
  decide +kernel

theorem no_dF0 : "dF0" ∉ coefTable.map Prod.fst := by decide +kernel

theorem sectors_listed : ∀ sc ∈ sectorTable, sc.1 ∈ coefTable.map Prod.fst := by decide +kernel

/-- the tables of the package are well formed -/
theorem backend_tables : Tables (backend eig basisKeys) where
  nodup s l h := by
    obtain ⟨cs, hm, rfl⟩ := coeffs_get eig basisKeys h
    exact names_nodup hm
  disjoint s s' l l' h h' hne := by
    obtain ⟨cs, hm, rfl⟩ := coeffs_get eig basisKeys h
    obtain ⟨cs', hm', rfl⟩ := coeffs_get eig basisKeys h'
    intro k hk hk'
    obtain ⟨c, hc, rfl⟩ := List.mem_map.1 hk
    obtain ⟨c', hc', e⟩ := List.mem_map.1 hk'
    obtain ⟨i, hi⟩ := listed_of_mem hm hc
    obtain ⟨j, hj⟩ := listed_of_mem hm' hc'
    obtain rfl := nameOf_inj hj.wellNamed hi.wellNamed e
    exact hne (listed_unique hi hj rfl).1
  noDF0 := by
    cases h : (backend eig basisKeys).coeffs.get? "dF0" with
    | none => rfl
    | some l =>
      obtain ⟨cs, hm, -⟩ := coeffs_get eig basisKeys h
      exact absurd (List.mem_map.2 ⟨_, hm, rfl⟩) no_dF0
  aligned s c h := sectors_aligned (s, c) (Dict.mem_of_get? h)

/-- the matrices have the size of their sector, except in the class `inv`, which is not run -/
def sizeOK (s : String) (S : Sec) : Bool :=
  (Nat.beq S.rE.length S.coefs.length && Nat.beq S.rS.length S.coefs.length) ||
    decide (Dict.get? sectorTable s = some "inv")

theorem sizes : (List.zip (coefTable.map Prod.fst) secs).all (fun x => sizeOK x.1 x.2) = true := by
  decide +kernel

/-- the class and the matrices of a sector -/
theorem sector_data {s : String} (h : s ∈ Dict.keys sectorTable) :
    ∃ cs cls RE RS, (s, cs) ∈ coefTable ∧ Dict.get? sectorTable s = some cls ∧
      Dict.get? admETable cls = some RE ∧ Dict.get? admSTable cls = some RS ∧
      (cls ≠ "inv" → RE.length = cs.length ∧ RS.length = cs.length) := by
  obtain ⟨⟨s', cls⟩, hm, rfl⟩ := List.mem_map.1 h
  obtain ⟨⟨s, cs⟩, hc, e⟩ := List.mem_map.1 (sectors_listed _ hm)
  simp only at e
  subst e
  obtain ⟨n, hn⟩ := List.getElem?_of_mem hc
  have hlen := secs_matches.length_eq
  obtain ⟨hn', hn''⟩ := List.getElem?_eq_some_iff.1 hn
  have hS : n < secs.length := by omega
  have hM := (List.forall₂_iff_get.1 secs_matches).2 n hn' hS
  simp only [List.get_eq_getElem, hn''] at hM
  obtain ⟨e1, cls', h1, h2, h3⟩ := hM
  refine ⟨cs, cls', _, _, hc, h1, h2, h3, fun hne => ?_⟩
  have hz : (s, secs[n]) ∈ List.zip (coefTable.map Prod.fst) secs := by
    rw [List.mem_iff_getElem]
    refine ⟨n, by simp; omega, ?_⟩
    simp [hn'']
  have := List.all_eq_true.1 sizes _ hz
  simp only [sizeOK, Bool.or_eq_true, Bool.and_eq_true, decide_eq_true_eq] at this
  rcases this with h | h
  · rw [← show secs[n].coefs = cs from e1]
    exact ⟨Nat.eq_of_beq_eq_true h.1, Nat.eq_of_beq_eq_true h.2⟩
  · rw [h1] at h
    exact absurd (Option.some.inj h) hne

theorem scales_total (cs : List Coef) (p : Par) (h : ∀ c ∈ cs, WellNamed c) (keys : List String)
    (hk : ∀ k ∈ keys, k ∈ cs.map nameOf) : ∃ s, scales keys p = .ok s := by
  unfold scales
  induction keys with
  | nil => exact ⟨[], rfl⟩
  | cons k keys ih =>
    obtain ⟨s, hs⟩ := ih fun k hk' => hk k (List.mem_cons_of_mem _ hk')
    obtain ⟨c, hc, rfl⟩ := List.mem_map.1 (hk k List.mem_cons_self)
    refine ⟨(gfac c.1 p / mprod p.masses (massOf c)) :: s, ?_⟩
    rw [List.mapM_cons, scaleC_eq (h c hc), hs]
    rfl

/-- running a sector does not fail -/
theorem run_total {s : String} (hs : s ∈ Dict.keys sectorTable) {f : ℕ}
    (hf : f = 5 ∨ (f = 3 ∨ f = 4) ∧ ∀ s, s ∈ Dict.keys sectorTable → ∃ b, basisKeys f s = .ok b)
    (C : Dict String ℂ) (eta : ℝ) (p p' : Par) {qed qcd : ℕ} (hqed : qed = 0 ∨ qed = 1)
    (hqcd : qcd = 0 ∨ qcd = 1) :
    ∃ d, runSector (backend eig basisKeys) s C eta f p p' qed qcd = .ok d := by
  set B := backend eig basisKeys with hB
  have hT : Tables B := backend_tables eig basisKeys
  obtain ⟨cs, cls, RE, RS, hcs, hcls, hE, hS, hsize⟩ := sector_data hs
  have hco := get_coeffs eig basisKeys hcs
  have hlook : lookup B.sectors s = .ok cls := lookup_ok.2 hcls
  -- the coefficients and the reduction of the matrices
  have hper : ∃ x, permissible B (classOfSector s) f = .ok x := by
    unfold permissible
    by_cases hA : classOfSector s ∉ reducedClasses ∨ f = 5
    · exact ⟨none, if_pos hA⟩
    · rw [if_neg hA]
      rw [not_or] at hA
      rcases hf with hf | ⟨hf, hb⟩
      · exact absurd hf hA.2
      · have h34 : f ∈ [3, 4] := by simpa using hf
        rw [if_neg (not_not.2 h34), sector_of_class hT hco]
        obtain ⟨b, hb⟩ := hb s hs
        simp only [bind, Except.bind, show B.basisKeys f s = .ok b from hb,
          show lookup B.coeffs s = _ from lookup_ok.2 hco]
        exact ⟨_, rfl⟩
  have hkeys : ∃ keys, keylist B s f = .ok keys := by
    obtain ⟨x, hx⟩ := hper
    unfold keylist
    rw [lookup_ok.2 hco]
    unfold classOfSector at hx
    simp only [bind, Except.bind, hx]
    cases x <;> exact ⟨_, rfl⟩
  obtain ⟨keys, hkeys⟩ := hkeys
  rw [runSector_eq, hlook, hkeys]
  simp only [bind, Except.bind]
  by_cases h0 : vec keys C = 0 ∨ cls = "inv"
  · rw [if_pos h0]; exact ⟨_, rfl⟩
  rw [if_neg h0]
  rw [not_or] at h0
  obtain ⟨hlE, hlS⟩ := hsize h0.2
  have hw : ∀ c ∈ cs, WellNamed c := fun c hc => by
    obtain ⟨i, hi⟩ := listed_of_mem hcs hc
    exact hi.wellNamed
  obtain ⟨all, hall, hsub⟩ := keylist_sub hT hkeys
  obtain rfl : cs.map nameOf = all := Option.some.inj (hco.symm.trans hall)
  obtain ⟨s1, hs1⟩ := scales_total cs p hw keys fun k hk => hsub.subset hk
  obtain ⟨s2, hs2⟩ := scales_total cs p' hw keys fun k hk => hsub.subset hk
  -- the reduced matrices have the right size
  have hred : ∀ A : WetRun.Mat, A.n = cs.length → ∃ A', reduce B cls f A = .ok A' ∧ A'.n = keys.length := by
    intro A hA
    obtain ⟨x, hx⟩ := hper
    have hx' : permissible B cls f = .ok x := by
      rcases hT.aligned s cls hcls with rfl | ⟨h1, h2⟩
      · exact hx
      · unfold permissible at hx ⊢
        rw [if_pos (.inl h2)] at hx
        rw [if_pos (.inl h1)]
        exact hx
    unfold keylist at hkeys
    rw [lookup_ok.2 hco] at hkeys
    unfold classOfSector at hx
    unfold reduce
    simp only [bind, Except.bind, hx] at hkeys
    simp only [bind, Except.bind, hx']
    cases x with
    | none =>
      refine ⟨A, rfl, ?_⟩
      have : cs.map nameOf = keys := Except.ok.inj hkeys
      rw [← this, hA, List.length_map]
    | some perm =>
      have hk : (perm.map fun i => (cs.map nameOf)[i]?.getD "") = keys := Except.ok.inj hkeys
      obtain ⟨-, -, b, all, hb, hall', hperm⟩ := permissible_some _ hx
      have hin : ∀ i ∈ perm, i < A.n := by
        intro i hi
        rw [hA]
        have := sector_of_class hT hco
        unfold classOfSector at this
        rw [this] at hall'
        obtain rfl : cs.map nameOf = all := Option.some.inj (hco.symm.trans hall')
        rw [hperm] at hi
        have := (List.mem_filter.1 hi).1
        rw [List.mem_range, List.length_map] at this
        exact this
      refine ⟨_, dif_pos hin, ?_⟩
      rw [← hk, List.length_map]
  obtain ⟨AS, hAS, hnS⟩ := hred ⟨RS.length, fun i j => value RS f p.masses i j⟩ hlS
  obtain ⟨AE, hAE, hnE⟩ := hred ⟨RE.length, fun i j => value RE f p.masses i j⟩ hlE
  have hadmS : B.admS cls f p.masses = .ok ⟨RS.length, fun i j => value RS f p.masses i j⟩ := by
    change admOf admSTable cls f p.masses = _
    unfold admOf
    rw [hS]
  have hadmE : B.admE cls f p.masses = .ok ⟨RE.length, fun i j => value RE f p.masses i j⟩ := by
    change admOf admETable cls f p.masses = _
    unfold admOf
    rw [hE]
  have hU : ∃ U, evolution B cls eta f p qed qcd keys.length = .ok U := by
    have h1 : ∃ U, usPart B cls eta f p qcd keys.length = .ok U := by
      unfold usPart
      rcases hqcd with rfl | rfl
      · exact ⟨1, rfl⟩
      · simp only [getUs, admeig, hadmS, hAS, bind, Except.bind, pure, Except.pure, Mat.sized]
        exact ⟨_, dif_pos hnS.symm⟩
    have h2 : ∃ U, uePart B cls eta f p qed qcd keys.length = .ok U := by
      unfold uePart
      rcases hqed with rfl | rfl
      · exact ⟨0, rfl⟩
      · simp only [getUe, admeig, hadmS, hAS, hadmE, hAE, bind, Except.bind, pure, Except.pure, Mat.sized,
          dif_pos (hnS.trans hnE.symm), dif_pos hnS.symm]
        exact ⟨_, rfl⟩
    obtain ⟨U1, h1⟩ := h1
    obtain ⟨U2, h2⟩ := h2
    exact ⟨U1 + U2, by simp only [evolution, h1, h2, bind, Except.bind, pure, Except.pure]⟩
  obtain ⟨U, hU⟩ := hU
  simp only [evolved, hs1, hU, hs2, bind, Except.bind, pure, Except.pure]
  exact ⟨_, rfl⟩

end Verif.WetTab
