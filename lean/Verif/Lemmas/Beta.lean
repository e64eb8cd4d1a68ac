import Verif.Model.Beta
import Verif.Lemmas.IndexTypes

/-!
# Lemmas about the beta functions
-/

set_option autoImplicit false
set_option linter.unusedSectionVars false

namespace Verif.Beta
open Verif Verif.Tens Verif.Flavour

/-- last assignment to a key -/
def lastExpr (prog : List (Key × E Key)) (k : Key) : Option (E Key) :=
  prog.foldl (fun acc ke => if ke.1 = k then some ke.2 else acc) none

theorem get?_assign (env : Key → Ten) (prog : List (Key × E Key)) (d : Dict Key Ten) (k : Key) :
    (assign env prog d).get? k = ((lastExpr prog k).map (eval env)).or (d.get? k) := by
  unfold lastExpr
  induction prog using List.reverseRecOn generalizing d with
  | nil => simp [assign]
  | append_singleton prog ke ih =>
    have e : assign env (prog ++ [ke]) d = (assign env prog d).set ke.1 (eval env ke.2) := by
      simp [assign, List.foldl_append]
    rw [e, Dict.get?_set, ih, List.foldl_append]
    by_cases h : ke.1 = k <;> simp [h]

theorem get?_update_gen {α : Type} (d e : Dict Key α) (k : Key) (hn : e.NodupKeys) :
    (d.update e).get? k = (e.get? k).or (d.get? k) := by
  induction e generalizing d with
  | nil => simp [Dict.update]
  | cons p e ih =>
    obtain ⟨a, v⟩ := p
    have hn' : a ∉ Dict.keys e ∧ (Dict.keys e).Nodup := by
      simpa [Dict.NodupKeys, Dict.keys] using hn
    have : Dict.update d ((a, v) :: e) = Dict.update (d.set a v) e := rfl
    rw [this, ih _ hn'.2, Dict.get?_cons, Dict.get?_set]
    by_cases h : a = k
    · subst h
      have : Dict.get? e a = none := (Dict.get?_eq_none_iff e a).2 hn'.1
      simp [this]
    · simp [h]

theorem nodupKeys_assign (env : Key → Ten) (prog : List (Key × E Key)) (d : Dict Key Ten)
    (h : d.NodupKeys) : (assign env prog d).NodupKeys := by
  induction prog generalizing d with
  | nil => exact h
  | cons ke prog ih => exact ih _ (Dict.nodupKeys_set _ _ _ h)

/-! ### Relating two environments through the program -/

/-- a relation between environments indexed by variables, preserved by assignments whose
right-hand side preserves it -/
theorem runLocals_rel (R : Key → Ten → Ten → Prop) (prog : List (Key × E Key))
    (env env' : Key → Ten) (h : ∀ k, R k (env k) (env' k))
    (hstep : ∀ ke ∈ prog, ∀ env env' : Key → Ten, (∀ k, R k (env k) (env' k)) →
      R ke.1 (eval env ke.2) (eval env' ke.2)) :
    ∀ k, R k (runLocals env prog k) (runLocals env' prog k) := by
  induction prog generalizing env env' with
  | nil => exact h
  | cons ke prog ih =>
    refine ih _ _ ?_ (fun x hx => hstep x (List.mem_cons_of_mem _ hx))
    intro k
    by_cases e : k = ke.1
    · subst e
      simpa using hstep ke (by simp) env env' h
    · simpa [Function.update, e] using h k

/-- `lastExpr` returns an assignment of the program -/
theorem lastExpr_mem (prog : List (Key × E Key)) (k : Key) (e : E Key)
    (h : lastExpr prog k = some e) : (k, e) ∈ prog := by
  unfold lastExpr at h
  induction prog using List.reverseRecOn with
  | nil => simp at h
  | append_singleton prog ke ih =>
    rw [List.foldl_append] at h
    simp only [List.foldl_cons, List.foldl_nil] at h
    split at h
    · rename_i hk
      simp only [Option.some.injEq] at h
      rw [← hk, ← h]; simp
    · exact List.mem_append_left _ (ih h)

/-- every key is assigned -/
theorem keys_assigned : ∀ k ∈ keys, ((lastExpr npProg k).isSome || (lastExpr smProg k).isSome) = true := by
  decide +kernel

/-- keys assigned before the `newphys` test are not assigned again -/
theorem sm_not_np : ∀ k ∈ keys, (lastExpr smProg k).isSome = true → (lastExpr npProg k) = none := by
  decide +kernel

/-- the zero dictionary has a zero array at every key -/
theorem get?_zeroDict (cKeys : List Key) (k : Key) (h : k ∈ cKeys) :
    (zeroDict cKeys).get? k = some fun _ => 0 := by
  induction cKeys with
  | nil => simp at h
  | cons a l ih =>
    by_cases e : a = k
    · simp [zeroDict, Dict.get?_cons, e]
    · have : k ∈ l := by
        rcases List.mem_cons.1 h with rfl | h
        · exact absurd rfl e
        · exact h
      have := ih this
      simpa [zeroDict, Dict.get?_cons, e] using this

/-- the value of `beta(C, h)[k]` -/
theorem get?_beta_true (cKeys : List Key) (C : Key → Ten) (h : ℂ) (k : Key) :
    (beta cKeys C h true).get? k =
      ((lastExpr npProg k).map (eval (env2 C h))).or ((lastExpr smProg k).map (eval (env1 C h))) := by
  simp [beta, get?_assign]

/-- the value of `beta(C, h, newphys=False)[k]` -/
theorem get?_beta_false (cKeys : List Key) (C : Key → Ten) (h : ℂ) (k : Key) (hk : k ∈ cKeys) :
    (beta cKeys C h false).get? k =
      some (((lastExpr smProg k).map (eval (env1 C h))).getD fun _ => 0) := by
  have hn : (assign (env1 C h) smProg []).NodupKeys :=
    nodupKeys_assign _ _ _ (by simp [Dict.NodupKeys, Dict.keys])
  simp only [beta, Bool.not_false, if_true]
  rw [get?_update_gen _ _ _ hn, get?_assign, get?_zeroDict _ _ hk]
  cases lastExpr smProg k <;> simp

/-- A relation between environments that every assignment preserves relates the beta
functions. -/
theorem beta_rel (R : Key → Ten → Ten → Prop) (ok : Key → Prop) (C C' : Key → Ten) (h h' : ℂ)
    (cKeys : List Key) (np : Bool)
    (hin : ∀ k, R k (input C h k) (input C' h' k))
    (hloc : ∀ ke ∈ locProg ++ loc2Prog, ∀ env env' : Key → Ten, (∀ k, R k (env k) (env' k)) →
      R ke.1 (eval env ke.2) (eval env' ke.2))
    (hb : ∀ ke ∈ smProg ++ npProg, ok ke.1 → ∀ env env' : Key → Ten,
      (∀ k, R k (env k) (env' k)) → R ke.1 (eval env ke.2) (eval env' ke.2))
    (h0 : np = false → ∀ k, R k (fun _ => 0) (fun _ => 0))
    (hc : np = false → ∀ k ∈ keys, k ∈ cKeys) :
    ∀ k ∈ keys, ok k → ∃ B B', (beta cKeys C h np).get? k = some B ∧
      (beta cKeys C' h' np).get? k = some B' ∧ R k B B' := by
  intro k hk hok
  have h1 : ∀ k, R k (env1 C h k) (env1 C' h' k) :=
    runLocals_rel R locProg _ _ hin fun ke hke => hloc ke (List.mem_append_left _ hke)
  have h2 : ∀ k, R k (env2 C h k) (env2 C' h' k) :=
    runLocals_rel R loc2Prog _ _ h1 fun ke hke => hloc ke (List.mem_append_right _ hke)
  cases np with
  | true =>
    rw [get?_beta_true, get?_beta_true]
    have := keys_assigned k hk
    cases hn : lastExpr npProg k with
    | some e =>
      exact ⟨_, _, rfl, rfl,
        hb (k, e) (List.mem_append_right _ (lastExpr_mem _ _ _ hn)) hok _ _ h2⟩
    | none =>
      cases hs : lastExpr smProg k with
      | some e =>
        exact ⟨_, _, rfl, rfl,
          hb (k, e) (List.mem_append_left _ (lastExpr_mem _ _ _ hs)) hok _ _ h1⟩
      | none => simp [hn, hs] at this
  | false =>
    rw [get?_beta_false _ _ _ _ (hc rfl k hk), get?_beta_false _ _ _ _ (hc rfl k hk)]
    refine ⟨_, _, rfl, rfl, ?_⟩
    cases hs : lastExpr smProg k with
    | some e => exact hb (k, e) (List.mem_append_left _ (lastExpr_mem _ _ _ hs)) hok _ _ h1
    | none => exact h0 rfl k

/-- family version of `runLocals_rel` -/
theorem runLocals_relN {ι : Type} (R : Key → (ι → Ten) → Prop) (prog : List (Key × E Key))
    (env : ι → Key → Ten) (h : ∀ k, R k fun i => env i k)
    (hstep : ∀ ke ∈ prog, ∀ env : ι → Key → Ten, (∀ k, R k fun i => env i k) →
      R ke.1 fun i => eval (env i) ke.2) :
    ∀ k, R k fun i => runLocals (env i) prog k := by
  induction prog generalizing env with
  | nil => exact h
  | cons ke prog ih =>
    refine ih (fun i => Function.update (env i) ke.1 (eval (env i) ke.2)) ?_
      (fun x hx => hstep x (List.mem_cons_of_mem _ hx))
    intro k
    by_cases e : k = ke.1
    · subst e
      simpa using hstep ke (by simp) env h
    · simpa [Function.update, e] using h k

/-- family version of `beta_rel`, with new physics -/
theorem beta_relN {ι : Type} (R R' : Key → (ι → Ten) → Prop) (ok : Key → Prop) (C : ι → Key → Ten)
    (h : ℂ) (cKeys : List Key) (hin : ∀ k, R k fun i => input (C i) h k)
    (hloc : ∀ ke ∈ locProg ++ loc2Prog, ∀ env : ι → Key → Ten, (∀ k, R k fun i => env i k) →
      R ke.1 fun i => eval (env i) ke.2)
    (hb : ∀ ke ∈ smProg ++ npProg, ok ke.1 → ∀ env : ι → Key → Ten, (∀ k, R k fun i => env i k) →
      R' ke.1 fun i => eval (env i) ke.2) :
    ∀ k ∈ keys, ok k → ∃ B : ι → Ten, (∀ i, (beta cKeys (C i) h true).get? k = some (B i)) ∧ R' k B := by
  intro k hk hok
  have h1 : ∀ k, R k fun i => env1 (C i) h k :=
    runLocals_relN R locProg _ hin fun ke hke => hloc ke (List.mem_append_left _ hke)
  have h2 : ∀ k, R k fun i => env2 (C i) h k :=
    runLocals_relN R loc2Prog _ h1 fun ke hke => hloc ke (List.mem_append_right _ hke)
  have := keys_assigned k hk
  cases hn : lastExpr npProg k with
  | some e =>
    exact ⟨fun i => eval (env2 (C i) h) e, fun i => by rw [get?_beta_true, hn]; rfl,
      hb (k, e) (List.mem_append_right _ (lastExpr_mem _ _ _ hn)) hok _ h2⟩
  | none =>
    cases hs : lastExpr smProg k with
    | some e =>
      exact ⟨fun i => eval (env1 (C i) h) e, fun i => by rw [get?_beta_true, hn, hs]; rfl,
        hb (k, e) (List.mem_append_left _ (lastExpr_mem _ _ _ hs)) hok _ h1⟩
    | none => simp [hn, hs] at this

/-! ### Index types of all variables -/

open Fl in
/-- index types of the auxiliary variables of the code -/
def localTy : Key → List (Ty Fl)
  | .Gammaq => [b q, x q]
  | .Gammau => [b u, x u]
  | .Gammad => [b d, x d]
  | .Gammal => [b l, x l]
  | .Gammae => [b e, x e]
  | .Xie => [b l, x e]
  | .Xid => [b q, x d]
  | .Xiu => [b q, x u]
  | _ => []

/-- index types of all variables -/
def allTy (k : Key) : List (Ty Fl) := (smeftTy k).getD (localTy k)

/-- the SMEFT coefficients are exactly the keys with an entry in the specification -/
theorem smeftTy_isSome (k : Key) : (smeftTy k).isSome = decide (k ∈ keys) := by
  cases k <;> decide +kernel

theorem check_loc : ∀ ke ∈ locProg ++ loc2Prog, check allTy (distr ke.2) (allTy ke.1) = true := by
  decide +kernel

theorem check_beta : ∀ ke ∈ smProg ++ npProg, ke.1 ≠ .dphi →
    check allTy (distr ke.2) (allTy ke.1) = true := by
  decide +kernel

end Verif.Beta
