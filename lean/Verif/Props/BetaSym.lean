import Verif.Lemmas.BetaSymCheck
import Verif.Lemmas.EvalQ
import Verif.Props.SmeftRun

/-!
# Property C63: running preserves the operator symmetries
-/

set_option autoImplicit false
set_option linter.unusedSimpArgs false

namespace Verif.BetaSym
open Verif Verif.Spec Verif.Tens Verif.Beta Verif.NF Verif.EvalQ

theorem step (ke : Key × E Key) (h : symOK ke = true) (env : Key → Ten)
    (henv : ∀ k, Has (clAll k) (env k)) : Has (clAll ke.1) (eval env ke.2) := by
  refine has_of_gens _ (clAll_simple _) _ fun g hg => ?_
  simp only [symOK, List.all_eq_true] at h
  exact relCheck_sound rkB env rel (fun k g hg => (has_iff _ (clAll_simple k) _).1 (henv k) g hg) _ _
    (h g hg)

theorem has_zero (c : Cl) : Has c fun _ => 0 := by
  cases c <;> simp [Has, IsClass2, IsClass9, IsClass4, IsClass5, IsClass6, IsClass7, IsClass8]

theorem input_has (C : Key → Ten) (h : ℂ) (hh : h.im = 0)
    (hC : ∀ k ∈ keys, Has (clNoFierz k) (C k)) (k : Key) : Has (clAll k) (input C h k) := by
  unfold input
  split
  · rename_i e; subst e; exact hh
  · split
    · rename_i hk
      rw [clAll_keys k hk]; exact hC k hk
    · exact has_zero _

/-- **C63 (partial).** If every parameter has the symmetries of its operator (real couplings
and bosonic coefficients, hermitian and exchange-symmetric four-fermion coefficients, ...)
then so does its beta function, with and without new physics. Left out are the two
identities that need a Fierz rearrangement (those of `ee` and of `qqql`): they are neither
assumed nor concluded; see the two violations below. -/
theorem C63_beta_partial (cKeys : List Key) (hc : ∀ k ∈ keys, k ∈ cKeys) (C : Key → Ten) (h : ℂ)
    (hh : h.im = 0) (hC : ∀ k ∈ keys, Has (clNoFierz k) (C k)) (newphys : Bool) (k : Key)
    (hk : k ∈ keys) :
    ∃ B, (beta cKeys C h newphys).get? k = some B ∧ Has (clNoFierz k) B := by
  obtain ⟨B, _, h1, _, h3⟩ := beta_rel (fun k A _ => Has (clAll k) A) (fun _ => True) C C h h cKeys
    newphys (input_has C h hh hC)
    (fun ke hke env _ henv => step ke (by
      rcases List.mem_append.1 hke with hke | hke
      · exact ok_locProg ke hke
      · exact ok_loc2Prog ke hke) env henv)
    (fun ke hke _ env _ henv => step ke (by
      rcases List.mem_append.1 hke with hke | hke
      · exact ok_smProg ke hke
      · exact ok_npProg ke hke) env henv)
    (fun _ k => has_zero _) (fun _ => hc) k hk trivial
  exact ⟨B, h1, clAll_keys k hk ▸ h3⟩

/-- the symmetries are kept by real-linear combinations -/
theorem has_comb (c : Cl) (A B : Ten) (a b : ℝ) (hA : Has c A) (hB : Has c B) :
    Has c fun ix => a * A ix + b * B ix := by
  cases c with
  | real => simp only [Has] at *; simp [hA, hB]
  | any => trivial
  | herm => intro i j; simp only [Has] at hA hB ⊢; simp [hA i j, hB i j]
  | symm => intro i j; simp only [Has] at hA hB ⊢; simp [hA i j, hB i j]
  | cl4 =>
    intro i j k l
    have h1 := hA i j k l; have h2 := hB i j k l
    simp only at h1 h2 ⊢
    rw [h1.1, h2.1, h1.2, h2.2]; simp
  | cl5 =>
    intro i j k l
    have h1 := hA i j k l; have h2 := hB i j k l
    simp only at h1 h2 ⊢
    rw [h1, h2]; simp
  | cl6 =>
    intro i j k l
    have h1 := hA i j k l; have h2 := hB i j k l
    simp only at h1 h2 ⊢
    rw [h1.1, h2.1, h1.2.1, h2.2.1, h1.2.2, h2.2.2]; simp
  | cl7 =>
    intro i j k l
    have h1 := hA i j k l; have h2 := hB i j k l
    simp only at h1 h2 ⊢
    rw [h1, h2]
  | cl8 =>
    intro i j k l
    have h1 := hA i j k l; have h2 := hB i j k l
    simp only at h1 h2 ⊢
    linear_combination (a : ℂ) * h1 + (b : ℂ) * h2

open Verif.SmeftRun in
/-- **C63 (partial), leading-log running.** Running a complete symmetric parameter point by
the leading logarithm gives a symmetric parameter point (same two identities left out). -/
theorem C63_leadinglog_partial (cKeys : List Key) (hc : ∀ k, k ∈ cKeys ↔ k ∈ keys) (C : Dict Key Ten)
    (hC : Complete C) (hsym : ∀ k ∈ keys, Has (clNoFierz k) (entry C k)) (s_in s_out : ℝ)
    (hi : 0 < s_in) (ho : 0 < s_out) (newphys : Bool) :
    ∃ out, leadinglog cKeys C s_in s_out newphys = .ok out ∧ Complete out ∧
      ∀ k ∈ keys, Has (clNoFierz k) (entry out k) := by
  obtain ⟨out, h1, h2, _, h3⟩ := C46_shift hc C hC s_in s_out hi ho newphys
  refine ⟨out, h1, h2, fun k hk => ?_⟩
  obtain ⟨B, hB, hs⟩ := C63_beta_partial cKeys (fun k hk => (hc k).2 hk)
    (fun k => (C.get? k).getD fun _ => 0) 1 (by simp) hsym newphys k hk
  have e : entry out k = fun ix => ((1 : ℝ) : ℂ) * entry C k ix +
      ((Real.log (s_out / s_in) / (16 * Real.pi ^ 2) : ℝ) : ℂ) * B ix := by
    funext ix
    rw [h3 k hk ix]
    have : betaAt cKeys C newphys k ix = B ix := by
      unfold betaAt
      rw [hB]; rfl
    rw [this]
    push_cast; ring
  rw [e]
  exact has_comb _ _ _ _ _ (hsym k hk) hs

/-! ### Violations -/

/-- hypercharge coupling 1 and `phie` = diag(1, 0, 0) -/
def witEE : Key → GTen
  | .gp => fun _ => G.one
  | .phie => fun ix => if ix = [0, 0] then G.one else G.zero
  | _ => fun _ => G.zero

/-- unit Yukawa matrices and one entry of `qque` -/
def witQ : Key → GTen
  | .Ge | .Gu => eyeG
  | .qque => fun ix => if ix = [0, 0, 1, 0] then G.one else G.zero
  | _ => fun _ => G.zero

def inputG (C : Key → GTen) : Key → GTen := fun k =>
  if k = .HIGHSCALE then fun _ => G.one else if k ∈ keys then C k else fun _ => G.zero

theorem input_lift (C : Key → GTen) : input (lift C) 1 = lift (inputG C) := by
  funext k ix
  simp only [input, lift, inputG]
  split
  · exact G.toC_one.symm
  · split
    · rfl
    · exact G.toC_zero.symm

theorem env2_lift (C : Key → GTen) :
    env2 (lift C) 1 = lift (runLocalsG (runLocalsG (inputG C) locProg) loc2Prog) := by
  unfold env2 env1
  rw [input_lift, ← runLocalsG_sound, ← runLocalsG_sound]

theorem last_ee : lastExpr npProg .ee = some np_ee := by decide +kernel
theorem last_qqql : lastExpr npProg .qqql = some np_qqql := by decide +kernel

theorem np_value (C : Key → GTen) (k : Key) (e : E Key) (h : lastExpr npProg k = some e)
    (cKeys : List Key) : ∃ B, (beta cKeys (lift C) 1 true).get? k = some B ∧
      ∀ ix, B ix = G.toC (evalG (runLocalsG (runLocalsG (inputG C) locProg) loc2Prog) e ix) := by
  refine ⟨eval (env2 (lift C) 1) e, by rw [get?_beta_true, h]; rfl, fun ix => ?_⟩
  rw [env2_lift, evalG_sound]

theorem ee_values :
    evalG (runLocalsG (runLocalsG (inputG witEE) locProg) loc2Prog) np_ee [0, 0, 1, 1] = ⟨-1/3, 0⟩ ∧
    evalG (runLocalsG (runLocalsG (inputG witEE) locProg) loc2Prog) np_ee [0, 1, 1, 0] = ⟨0, 0⟩ := by
  decide +kernel

theorem qqql_values :
    evalG (runLocalsG (runLocalsG (inputG witQ) locProg) loc2Prog) np_qqql [0, 0, 1, 0] = ⟨-4, 0⟩ ∧
    evalG (runLocalsG (runLocalsG (inputG witQ) locProg) loc2Prog) np_qqql [1, 0, 0, 0] = ⟨0, 0⟩ := by
  decide +kernel

/-- **C63, violation.** The beta function of `ee` does not have the Fierz symmetry of `ee`:
at a point with hypercharge coupling 1, `phie` = diag(1,0,0) and everything else zero, which
has all symmetries, the entries `1122` and `1221` of the beta function differ. -/
theorem C63_ee_fierz_violation : ∃ C : Key → Ten, (∀ k ∈ keys, Has (cl k) (C k)) ∧
    ∀ cKeys, ∃ B, (beta cKeys C 1 true).get? .ee = some B ∧ ¬ Has (cl .ee) B := by
  refine ⟨lift witEE, ?_, fun cKeys => ?_⟩
  · intro k _
    by_cases h1 : k = .gp
    · subst h1; simp [Has, cl, lift, witEE, G.toC_one]
    by_cases h2 : k = .phie
    · subst h2
      intro i j
      simp only [lift, witEE]
      fin_cases i <;> fin_cases j <;> simp [G.toC_one, G.toC_zero]
    have : lift witEE k = fun _ => 0 := by
      funext ix
      have : witEE k = fun _ => G.zero := by
        revert h1 h2; cases k <;> simp [witEE]
      simp only [lift, this, G.toC_zero]
    rw [this]; exact has_zero _
  · obtain ⟨B, hB, hv⟩ := np_value witEE .ee np_ee last_ee cKeys
    refine ⟨B, hB, fun h => ?_⟩
    have := (h 0 0 1 1).2.2
    simp only [hv, ee_values.1, ee_values.2] at this
    exact G.toC_inj_ne (by decide +kernel) this

/-- **C63, violation.** The beta function of `qqql` does not obey the flavour relation of
`qqql`: with unit Yukawa matrices and one entry of `qque` (a symmetric point) the
relation fails. -/
theorem C63_qqql_violation : ∃ C : Key → Ten, (∀ k ∈ keys, Has (cl k) (C k)) ∧
    ∀ cKeys, ∃ B, (beta cKeys C 1 true).get? .qqql = some B ∧ ¬ Has (cl .qqql) B := by
  refine ⟨lift witQ, ?_, fun cKeys => ?_⟩
  · intro k _
    by_cases h1 : k = .Ge ∨ k = .Gu
    · rcases h1 with rfl | rfl <;> trivial
    by_cases h2 : k = .qque
    · subst h2
      intro i j k l
      simp only [lift, witQ]
      congr 1
      revert i j k l
      decide
    have : lift witQ k = fun _ => 0 := by
      funext ix
      have : witQ k = fun _ => G.zero := by
        revert h1 h2; cases k <;> simp [witQ]
      simp only [lift, this, G.toC_zero]
    rw [this]; exact has_zero _
  · obtain ⟨B, hB, hv⟩ := np_value witQ .qqql np_qqql last_qqql cKeys
    refine ⟨B, hB, fun h => ?_⟩
    have := h 0 0 1 0
    simp only [hv, qqql_values.1, qqql_values.2, ← G.toC_add] at this
    exact G.toC_inj_ne (by decide +kernel) this

/-- the hypotheses are met by a point with non-trivial complex Yukawa couplings, a complex
hermitian `phiq1` and a four-fermion coefficient -/
example : ∃ C : Key → Ten, (∀ k ∈ keys, Has (clNoFierz k) (C k)) ∧ C .phiq1 [0, 1] = Complex.I ∧
    C .Gu [0, 1] = Complex.I ∧ C .ll [0, 1, 1, 0] = 1 := by
  refine ⟨fun k => match k with
    | .Gu => fun _ => Complex.I
    | .phiq1 => fun ix => if ix = [0, 1] then Complex.I else if ix = [1, 0] then -Complex.I else 0
    | .ll => fun ix => if ix = [0, 1, 1, 0] ∨ ix = [1, 0, 0, 1] then 1 else 0
    | _ => fun _ => 0, ?_, by simp, rfl, by simp⟩
  intro k _
  by_cases h1 : k = .Gu
  · subst h1; trivial
  by_cases h2 : k = .phiq1
  · subst h2
    intro i j
    fin_cases i <;> fin_cases j <;> simp
  by_cases h3 : k = .ll
  · subst h3
    intro i j k l
    fin_cases i <;> fin_cases j <;> fin_cases k <;> fin_cases l <;> simp
  cases k <;> first | exact has_zero _ | exact absurd rfl h1 | exact absurd rfl h2 | exact absurd rfl h3

end Verif.BetaSym
