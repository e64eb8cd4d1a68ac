import Verif.Spec.Smeft
import Verif.Lemmas.MatchFlavour

/-!
# Property C72: flavour covariance of the tree-level matching
-/

set_option autoImplicit false

namespace Verif.Match
open Verif Verif.Spec Verif.Tens Verif.Beta Verif.Rotation Verif.Flavour

/-- **C72.** If the coefficients of `C'` are those of `C` for rotated fermion fields
(ψ → U ψ with unitary matrices, and the combination entering muon decay unchanged), then the
WET coefficients obtained from `C'` are those obtained from `C`, for the WET fields rotated by
the matrix of the multiplet they come from. -/
theorem C72_covariance (U : Fl → Matrix (Fin 3) (Fin 3) ℂ)
    (hU : ∀ f, U f ∈ Matrix.unitaryGroup (Fin 3) ℂ) (C C' : Dict Key Ten) (p : Dict String ℝ)
    (D : Dict WKey Ten)
    (hC : ∀ k τ, smeftTy k = some τ → ∀ ix : Ix, ix.length = τ.length →
      val C' k ix = rot U τ (val C k) ix)
    (hkeys : ∀ k ∈ coeffKeys, C'.mem k = true)
    (hll : val C' .ll [1, 0, 0, 1] = val C .ll [1, 0, 0, 1] ∧
      val C' .ll [0, 1, 1, 0] = val C .ll [0, 1, 1, 0])
    (hphi : val C' .phil3 [1, 1] = val C .phil3 [1, 1] ∧ val C' .phil3 [0, 0] = val C .phil3 [0, 0])
    (h : matchTree C p = .ok D) :
    ∃ D', matchTree C' p = .ok D' ∧ ∀ k, ∃ B B', D.get? k = some B ∧ D'.get? k = some B' ∧
      ∀ ix : Ix, ix.length = (wetTy k).length →
        B' ix = rot (fun f => U (parent f)) (wetTy k) B ix := by
  obtain ⟨s, s0, h1, h2, hm, rfl⟩ := tree_ok h
  have hm' : ∀ k ∈ treeKeys, C'.mem k = true :=
    fun k hk => hkeys k (by revert hk; revert k; decide)
  have hz : ∀ (C : Dict Key Ten), (∀ k ∈ treeKeys, C.mem k = true) →
      ∀ k ∈ treeKeys, (zeroed C).mem k = true := by
    intro C hm k hk
    rw [Dict.mem_iff, zeroed, Dict.keys_mapVal, ← Dict.mem_iff]
    exact hm k hk
  have hs' : scalars C' p = .ok s := by
    rw [scalars_congr p hm hm' hll.1 hll.2 hphi.1 hphi.2 (hC .phiWB [] rfl [] rfl)
      (hC .phiD [] rfl [] rfl)]
    exact h1
  have hs0' : scalars (zeroed C') p = .ok s0 := by
    rw [scalars_congr p (hz C hm) (hz C' hm')] <;> first | exact h2 | simp only [val_zeroed]
  refine ⟨_, tree_of_scal hs' hs0' hm', fun k => ?_⟩
  obtain ⟨⟨k, e⟩, hm, rfl⟩ := List.mem_map.1 (prog_keys k (by cases k <;> decide))
  refine ⟨_, _, get?_prog (diffE C s s0) k e hm, get?_prog (diffE C' s s0) k e hm, fun ix hix => ?_⟩
  have hl : ix.length = (outTy k).length := by simpa [outTy] using hix
  have hv : ∀ (E E' : Dict Key Ten) (t : Scal), (∀ k τ, smeftTy k = some τ → ∀ ix : Ix,
      ix.length = τ.length → val E' k ix = rot U τ (val E k) ix) →
      ∀ v, realVar v = true → ∀ ix : Ix, ix.length = (mvTy v).length →
        env E' t v ix = rot U (mvTy v) (env E t v) ix := by
    intro E E' t hE v hv ix hix
    cases v with
    | c k =>
      obtain ⟨τ, hτ⟩ := Option.isSome_iff_exists.1 hv
      simp only [mvTy, hτ, Option.getD_some] at hix ⊢
      exact hE k τ hτ ix hix
    | _ => simp [mvTy, rot, env]
  have e1 := expr_cov U hU k e hm _ _ (hv C C' s hC) ix hl
  have e2 := expr_cov U hU k e hm _ _ (hv (zeroed C) (zeroed C') s0 fun k τ _ ix _ => by
    rw [val_zeroed, show val (zeroed C) k = fun _ => 0 from funext (val_zeroed C k), rot_zero]) ix hl
  rw [rot_outTy]
  show diffE C' s s0 e ix = rot U (outTy k) (diffE C s s0 e) ix
  unfold diffE
  rw [e1, e2, rot_sub]

/-- **C72, quarks and charged-lepton singlets.** If the lepton doublet is not rotated, the
condition on muon decay is automatic. -/
theorem C72_quark (U : Fl → Matrix (Fin 3) (Fin 3) ℂ)
    (hU : ∀ f, U f ∈ Matrix.unitaryGroup (Fin 3) ℂ) (hl : U .l = 1) (C C' : Dict Key Ten)
    (p : Dict String ℝ) (D : Dict WKey Ten)
    (hC : ∀ k τ, smeftTy k = some τ → ∀ ix : Ix, ix.length = τ.length →
      val C' k ix = rot U τ (val C k) ix)
    (hkeys : ∀ k ∈ coeffKeys, C'.mem k = true) (h : matchTree C p = .ok D) :
    ∃ D', matchTree C' p = .ok D' ∧ ∀ k, ∃ B B', D.get? k = some B ∧ D'.get? k = some B' ∧
      ∀ ix : Ix, ix.length = (wetTy k).length →
        B' ix = rot (fun f => U (parent f)) (wetTy k) B ix := by
  have f1 : ∀ (b : Bool) (j i : Fin 3), fac U ⟨.l, b⟩ j i = if j = i then 1 else 0 := by
    intro b j i
    unfold fac
    rw [hl, Matrix.one_apply]
    split <;> split <;> simp
  have e4 : ∀ a b c d : Fin 3, val C' .ll [a, b, c, d] = val C .ll [a, b, c, d] := by
    intro a b c d
    rw [hC .ll _ rfl [a, b, c, d] rfl]
    simp [rot, f1]
  have e2 : ∀ a b : Fin 3, val C' .phil3 [a, b] = val C .phil3 [a, b] := by
    intro a b
    rw [hC .phil3 _ rfl [a, b] rfl]
    simp [rot, f1]
  exact C72_covariance U hU C C' p D hC hkeys ⟨e4 _ _ _ _, e4 _ _ _ _⟩ ⟨e2 _ _, e2 _ _⟩ h

/-- the complete set of rotated coefficients -/
noncomputable def rotated (U : Fl → Matrix (Fin 3) (Fin 3) ℂ) (C : Dict Key Ten) : Dict Key Ten :=
  keys.map fun k => (k, rot U ((smeftTy k).getD []) (val C k))

theorem val_rotated (U : Fl → Matrix (Fin 3) (Fin 3) ℂ) (C : Dict Key Ten) (k : Key)
    (τ : List (Ty Fl)) (h : smeftTy k = some τ) : val (rotated U C) k = rot U τ (val C k) := by
  have hk : k ∈ keys := mem_keys_of_smeft h
  have hg : (rotated U C).get? k = some (rot U ((smeftTy k).getD []) (val C k)) := by
    refine Dict.get?_of_mem ?_ (List.mem_map.2 ⟨k, hk, rfl⟩)
    unfold Dict.NodupKeys Dict.keys rotated
    rw [List.map_map]
    simp only [Function.comp_def, List.map_id']
    decide
  unfold val at hg ⊢
  rw [hg, h]
  rfl

/-- the hypotheses are met for every set of coefficients and all rotations of the quarks -/
example (U : Fl → Matrix (Fin 3) (Fin 3) ℂ) (C : Dict Key Ten) :
    (∀ k τ, smeftTy k = some τ → ∀ ix : Ix, ix.length = τ.length →
      val (rotated U C) k ix = rot U τ (val C k) ix) ∧ ∀ k ∈ coeffKeys, (rotated U C).mem k = true := by
  refine ⟨fun k τ h ix _ => by rw [val_rotated U C k τ h], fun k hk => ?_⟩
  rw [Dict.mem_iff]
  simpa [Dict.keys, rotated, Function.comp_def] using List.mem_of_mem_filter hk

end Verif.Match
