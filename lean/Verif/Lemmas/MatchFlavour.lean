import Verif.Lemmas.Match

/-!
# Lemmas: flavour covariance of the tree-level matching
-/

set_option autoImplicit false

namespace Verif.Match
open Verif Verif.Spec Verif.Tens Verif.Beta Verif.Rotation Verif.Flavour

/-- index types of the variables of the matching conditions -/
def mvTy : MV → List (Ty Fl)
  | .c k => (smeftTy k).getD []
  | _ => []

/-- index types of the JMS coefficients, in terms of the SMEFT multiplets -/
def outTy (k : WKey) : List (Ty Fl) := (wetTy k).map fun t => ⟨parent t.f, t.bar⟩

theorem cov_ok : ∀ ke ∈ treeProg, ke.2 = .num 0 ∨ check mvTy (distr ke.2) (outTy ke.1) = true := by
  decide +kernel

theorem rot_outTy (U : Fl → Matrix (Fin 3) (Fin 3) ℂ) (τ : List (Ty WFl)) (A : Ten) :
    rot (fun f => U (parent f)) τ A = rot U (τ.map fun t => ⟨parent t.f, t.bar⟩) A := by
  induction τ generalizing A with
  | nil => rfl
  | cons t τ ih =>
    funext ix
    cases ix with
    | nil => rfl
    | cons i is =>
      simp only [rot, List.map_cons]
      exact Finset.sum_congr rfl fun j _ => by rw [ih]; rfl

theorem rot_sub {F : Type} (U : F → Matrix (Fin 3) (Fin 3) ℂ) (τ : List (Ty F)) (A B : Ten) (ix : Ix) :
    rot U τ (fun ix => A ix - B ix) ix = rot U τ A ix - rot U τ B ix := by
  have e : (fun ix => A ix - B ix) = fun ix => A ix + (-1) * B ix := by funext ix; ring
  rw [e, rot_add U τ A (fun ix => (-1) * B ix), rot_const_mul]
  ring

/-- variables that stand for coefficients -/
def realVar : MV → Bool
  | .c k => (smeftTy k).isSome
  | _ => true

theorem real_ok : ∀ ke ∈ treeProg, usesOnly realVar ke.2 = true := by decide +kernel

theorem expr_cov (U : Fl → Matrix (Fin 3) (Fin 3) ℂ) (hU : ∀ f, U f ∈ Matrix.unitaryGroup (Fin 3) ℂ)
    (k : WKey) (e : E MV) (hm : (k, e) ∈ treeProg) (en en' : MV → Ten)
    (h : ∀ v, realVar v = true → ∀ ix : Ix, ix.length = (mvTy v).length →
      en' v ix = rot U (mvTy v) (en v) ix)
    (ix : Ix) (hix : ix.length = (outTy k).length) :
    eval en' e ix = rot U (outTy k) (eval en e) ix := by
  rcases cov_ok _ hm with h0 | hc
  · simp only at h0
    subst h0
    have : ∀ en : MV → Ten, eval en (.num 0) = fun _ => 0 := by
      intro en; funext ix; simp [eval]
    rw [this, this, rot_zero]
  · let cut : (MV → Ten) → MV → Ten := fun en v => if realVar v then en v else fun _ => 0
    have hcut : ∀ en : MV → Ten, eval en e = eval (cut en) e := fun en =>
      uses_sound realVar en (cut en) (fun v hv => by simp [cut, hv]) e (real_ok _ hm)
    rw [hcut en, hcut en', ← eval_distr (cut en) e, ← eval_distr (cut en') e]
    refine check_sound mvTy U hU (cut en) (cut en') (fun v ix hix => ?_) _ _ hc ix hix
    by_cases hv : realVar v = true
    · simp only [cut, hv, if_true]
      exact h v hv ix hix
    · simp only [cut, hv, if_false, rot_zero, Bool.false_eq_true]

theorem scalars_congr {C C' : Dict Key Ten} (p : Dict String ℝ)
    (hm : ∀ k ∈ treeKeys, C.mem k = true) (hm' : ∀ k ∈ treeKeys, C'.mem k = true)
    (h1 : val C' .ll [1, 0, 0, 1] = val C .ll [1, 0, 0, 1])
    (h2 : val C' .ll [0, 1, 1, 0] = val C .ll [0, 1, 1, 0])
    (h3 : val C' .phil3 [1, 1] = val C .phil3 [1, 1]) (h4 : val C' .phil3 [0, 0] = val C .phil3 [0, 0])
    (h5 : val C' .phiWB [] = val C .phiWB []) (h6 : val C' .phiD [] = val C .phiD []) :
    scalars C' p = scalars C p := by
  have g : ∀ (C : Dict Key Ten), (∀ k ∈ treeKeys, C.mem k = true) → ∀ k ∈ treeKeys,
      item C k = .ok (val C k) := by
    intro C hm k hk
    have := hm k hk
    unfold Dict.mem at this
    obtain ⟨A, hA⟩ := Option.isSome_iff_exists.1 this
    unfold item val
    rw [hA]
    rfl
  have hG : ∀ GF, GFx GF (val C' .ll) (val C' .phil3) = GFx GF (val C .ll) (val C .phil3) := by
    intro GF; unfold GFx; rw [h1, h2, h3, h4]
  unfold scalars
  rw [g C hm .ll (by decide), g C hm .phil3 (by decide), g C hm .phiWB (by decide),
    g C hm .phiD (by decide), g C' hm' .ll (by decide), g C' hm' .phil3 (by decide),
    g C' hm' .phiWB (by decide), g C' hm' .phiD (by decide)]
  simp only [bind, Except.bind, hG, h5, h6]

end Verif.Match
