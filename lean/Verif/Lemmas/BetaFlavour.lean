import Verif.Lemmas.Beta
import Verif.Lemmas.Einsum
import Verif.Lemmas.Linearity
import Verif.Spec.Beta
import Mathlib.Analysis.Complex.Norm

/-!
# Lemmas for the flavour properties of the beta functions
-/

set_option autoImplicit false

namespace Verif.Beta
open Verif Verif.Tens Verif.Flavour Verif.BetaSpec BigOperators

/-- the variables of two related environments are related -/
def CovR {F : Type} (T : Key → List (Ty F)) (U : F → Matrix (Fin 3) (Fin 3) ℂ) (k : Key)
    (A A' : Ten) : Prop :=
  ∀ ix : Ix, ix.length = (T k).length → A' ix = rot U (T k) A ix

theorem rot_zero {F : Type} (U : F → Matrix (Fin 3) (Fin 3) ℂ) (τ : List (Ty F)) (ix : Ix) :
    rot U τ (fun _ => 0) ix = 0 := by
  have := rot_const_mul U τ 0 (fun _ => 0) ix
  simpa using this

theorem step_sound {F : Type} [DecidableEq F] (T : Key → List (Ty F))
    (U : F → Matrix (Fin 3) (Fin 3) ℂ) (hU : ∀ f, U f ∈ Matrix.unitaryGroup (Fin 3) ℂ)
    (ke : Key × E Key) (hc : check T (distr ke.2) (T ke.1) = true) (env env' : Key → Ten)
    (h : ∀ k, CovR T U k (env k) (env' k)) : CovR T U ke.1 (eval env ke.2) (eval env' ke.2) := by
  intro ix hix
  rw [← eval_distr env ke.2, ← eval_distr env' ke.2]
  exact check_sound T U hU env env' h _ _ hc ix hix

theorem allTy_of_smeft {k : Key} {τ : List (Ty Fl)} (h : smeftTy k = some τ) : allTy k = τ := by
  simp [allTy, h]

theorem mem_keys_of_smeft {k : Key} {τ : List (Ty Fl)} (h : smeftTy k = some τ) : k ∈ keys := by
  have := smeftTy_isSome k
  rw [h] at this
  simpa using this.symm

theorem smeft_of_mem_keys {k : Key} (h : k ∈ keys) : ∃ τ, smeftTy k = some τ := by
  have := smeftTy_isSome k
  rw [decide_eq_true h] at this
  exact Option.isSome_iff_exists.1 this

theorem allTy_high : allTy .HIGHSCALE = [] := rfl

theorem input_cov {F : Type} (T : Key → List (Ty F)) (hT : T .HIGHSCALE = [])
    (U : F → Matrix (Fin 3) (Fin 3) ℂ) (C C' : Key → Ten) (h : ℂ)
    (hC : ∀ k ∈ keys, ∀ ix : Ix, ix.length = (T k).length → C' k ix = rot U (T k) (C k) ix) (k : Key) :
    CovR T U k (input C h k) (input C' h k) := by
  intro ix hix
  simp only [input]
  by_cases h1 : k = .HIGHSCALE
  · subst h1
    simp only [if_true]
    rw [hT]; rfl
  · simp only [h1, if_false]
    by_cases h2 : k ∈ keys
    · simp only [h2, if_true]
      exact hC k h2 ix hix
    · simp only [h2, if_false]
      rw [rot_zero]

/-! ### The term of `Beta["dphi"]` with mismatched indices -/

/-- `my_einsum("tprs,pt", C["quqd1"], Gu @ Gu.conj().T @ Gu)`, beta.py line 509 -/
def badTerm : E Key :=
  .ein [.t, .p, .r, .s] (.t .quqd1) [.p, .t]
    (.mat (.mat (.t .Gu) (.tr (.conj (.t .Gu)))) (.t .Gu)) [] (.num 1)

/-- remove the term from the sum -/
def splitBad : E Key → Option (E Key)
  | .sub a y => if y = .mul (.num 12) badTerm then some a else (splitBad a).map fun g => .sub g y
  | .add a y => (splitBad a).map fun g => .add g y
  | _ => none

theorem splitBad_eval (env : Key → Ten) (e g : E Key) (h : splitBad e = some g) (ix : Ix) :
    eval env e ix = eval env g ix - 12 * eval env badTerm ix := by
  induction e generalizing g with
  | sub a y iha _ =>
    simp only [splitBad] at h
    split at h
    · rename_i hy
      simp only [Option.some.injEq] at h
      subst h; subst hy
      simp [eval]
    · cases hs : splitBad a with
      | none => simp [hs] at h
      | some g' =>
        simp only [hs, Option.map_some, Option.some.injEq] at h
        subst h
        simp only [eval]
        rw [iha g' hs]; ring
  | add a y iha _ =>
    simp only [splitBad] at h
    cases hs : splitBad a with
    | none => simp [hs] at h
    | some g' =>
      simp only [hs, Option.map_some, Option.some.injEq] at h
      subst h
      simp only [eval]
      rw [iha g' hs]; ring
  | _ => simp [splitBad] at h

theorem splitBad_dphi : (splitBad np_dphi).isSome = true := by decide +kernel

/-- `Beta["dphi"]` without the term -/
def goodDphi : E Key := (splitBad np_dphi).get splitBad_dphi

theorem check_goodDphi : check allTy (distr goodDphi) (allTy .dphi) = true := by decide +kernel

theorem dphi_split (env : Key → Ten) (ix : Ix) :
    eval env np_dphi ix = eval env goodDphi ix - 12 * eval env badTerm ix :=
  splitBad_eval env np_dphi goodDphi (by simp [goodDphi]) ix

theorem last_dphi : lastExpr npProg .dphi = some np_dphi := by decide +kernel

theorem badTerm_value (env : Key → Ten) (r s : Fin 3) :
    eval env badTerm [r, s] = ∑ p, ∑ t, env .quqd1 [t, p, r, s] *
      ∑ j, (∑ i, env .Gu [p, i] * (starRingEnd ℂ) (env .Gu [j, i])) * env .Gu [j, t] := by
  simp only [badTerm, eval, einT]
  rw [sum_piFinset_lbl]
  simp [einDom, outLabels, Lbl.all, mkσ, List.count_cons, matT]

/-- a variable that is not assigned keeps its value -/
theorem runLocals_ne (k : Key) (prog : List (Key × E Key)) (env : Key → Ten)
    (hp : ∀ ke ∈ prog, k ≠ ke.1) : runLocals env prog k = env k := by
  induction prog generalizing env with
  | nil => rfl
  | cons ke prog ih =>
    rw [show runLocals env (ke :: prog) =
      runLocals (Function.update env ke.1 (eval env ke.2)) prog from rfl,
      ih _ (fun x hx => hp x (by simp [hx]))]
    simp [Function.update, hp ke (by simp)]

theorem keys_not_loc : ∀ k ∈ keys, ∀ ke ∈ locProg ++ loc2Prog, k ≠ ke.1 := by decide +kernel

theorem input_key (C : Key → Ten) (h : ℂ) (k : Key) (hk : k ∈ keys) : input C h k = C k := by
  have hne : k ≠ .HIGHSCALE := by rintro rfl; revert hk; decide
  simp [input, hne, hk]

/-- auxiliary variables do not overwrite the coefficients -/
theorem env1_key (C : Key → Ten) (h : ℂ) (k : Key) (hk : k ∈ keys) : env1 C h k = C k := by
  unfold env1
  rw [runLocals_ne _ _ _ (fun ke hke => keys_not_loc k hk ke (List.mem_append_left _ hke)),
    input_key _ _ _ hk]

/-- auxiliary variables do not overwrite the coefficients -/
theorem env2_key (C : Key → Ten) (h : ℂ) (k : Key) (hk : k ∈ keys) : env2 C h k = C k := by
  unfold env2
  rw [runLocals_ne _ _ _ (fun ke hke => keys_not_loc k hk ke (List.mem_append_right _ hke)),
    env1_key _ _ _ hk]

/-! ### Common rotations of quarks and of leptons -/

/-- forget the difference between the quark (lepton) multiplets: `true` is a quark -/
def coarse (t : Ty Fl) : Ty Bool :=
  ⟨match t.f with | .q => true | .u => true | .d => true | .l => false | .e => false, t.bar⟩

/-- index types up to quark/lepton -/
def coarseTy (k : Key) : List (Ty Bool) := (allTy k).map coarse

theorem check_coarse_loc : ∀ ke ∈ locProg ++ loc2Prog,
    check coarseTy (distr ke.2) (coarseTy ke.1) = true := by decide +kernel

theorem check_coarse : ∀ ke ∈ smProg ++ npProg,
    check coarseTy (distr ke.2) (coarseTy ke.1) = true := by decide +kernel

/-- phases as rotation matrices -/
noncomputable def phaseU (z w : ℂ) : Bool → Matrix (Fin 3) (Fin 3) ℂ
  | true => z • 1
  | false => w • 1

theorem phaseU_unitary (z w : ℂ) (hz : ‖z‖ = 1) (hw : ‖w‖ = 1) (f : Bool) :
    phaseU z w f ∈ Matrix.unitaryGroup (Fin 3) ℂ := by
  have key : ∀ a : ℂ, ‖a‖ = 1 → (a • (1 : Matrix (Fin 3) (Fin 3) ℂ)) ∈ Matrix.unitaryGroup (Fin 3) ℂ := by
    intro a ha
    rw [Matrix.mem_unitaryGroup_iff, Matrix.star_eq_conjTranspose, Matrix.conjTranspose_smul,
      Matrix.conjTranspose_one, Matrix.smul_mul, Matrix.mul_smul, Matrix.one_mul, smul_smul]
    have : a * star a = 1 := by
      have := Complex.mul_conj a
      rw [Complex.normSq_eq_norm_sq, ha] at this
      simpa using this
    rw [this, one_smul]
  cases f
  · exact key w hw
  · exact key z hz

theorem conj_eq_inv (z : ℂ) (hz : ‖z‖ = 1) : (starRingEnd ℂ) z = z⁻¹ := by
  rw [Complex.inv_def, Complex.normSq_eq_norm_sq, hz]
  simp

theorem rot_phase (z w : ℂ) (hz : ‖z‖ = 1) (hw : ‖w‖ = 1) (τ : List (Ty Fl)) (A : Ten) (ix : Ix)
    (hix : ix.length = τ.length) :
    rot (phaseU z w) (τ.map coarse) A ix = z ^ net true τ * w ^ net false τ * A ix := by
  have hz0 : z ≠ 0 := by rintro rfl; simp at hz
  have hw0 : w ≠ 0 := by rintro rfl; simp at hw
  have hf : ∀ (t : Ty Fl) (j i : Fin 3), fac (phaseU z w) (coarse t) j i =
      if j = i then z ^ net true [t] * w ^ net false [t] else 0 := by
    rintro ⟨f, b⟩ j i
    by_cases hji : j = i <;> cases f <;> cases b <;>
      simp [fac, coarse, phaseU, net, hji, conj_eq_inv, hz, hw]
  induction τ generalizing A ix with
  | nil =>
    have : ix = [] := List.length_eq_zero_iff.1 hix
    subst this
    simp [rot, net]
  | cons t τ ih =>
    cases ix with
    | nil => simp at hix
    | cons i is =>
      have h1 : is.length = τ.length := by simpa using hix
      simp only [List.map_cons, rot, hf, ite_mul, zero_mul, Finset.sum_ite_eq', Finset.mem_univ, if_true]
      rw [ih _ _ h1]
      have e : ∀ q, net q (t :: τ) = net q [t] + net q τ := by
        intro q; simp [net]
      rw [e, e, zpow_add₀ hz0, zpow_add₀ hw0]
      ring

end Verif.Beta
