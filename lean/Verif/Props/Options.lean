import Verif.Spec.Options
import Verif.Model.Wilson
import Mathlib.Tactic.Basic
import Mathlib.Tactic.Linarith
import Mathlib.Data.List.Induction

/-! # Properties C09-C12, C18: options -/

set_option autoImplicit false
open Classical

namespace Verif
open Spec

/-! ## The schema -/

theorem coerceParams_iff (parse : String → Option ℝ) (d : Dict String PyVal) (p : Params) :
    coerceParams parse d = .ok p ↔ CoercedTo parse d p := by
  induction d generalizing p with
  | nil => cases p <;> simp [coerceParams, CoercedTo]
  | cons kv d ih =>
    obtain ⟨k, v⟩ := kv
    have hv : ∀ x, coerceFloat parse v = .ok x ↔ (v = .num x ∨ ∃ s, v = .str s ∧ parse s = some x) := by
      intro x
      cases v with
      | str s => cases h : parse s <;> simp [coerceFloat, h]
      | num y => simp [coerceFloat]
      | dict d => simp [coerceFloat]
      | other => simp [coerceFloat]
    cases p with
    | nil =>
      simp only [coerceParams, CoercedTo, iff_false]
      cases coerceFloat parse v <;> cases coerceParams parse d <;> simp
    | cons kx p =>
      obtain ⟨k', x⟩ := kx
      simp only [CoercedTo, ← ih, ← hv, coerceParams]
      cases coerceFloat parse v <;> cases coerceParams parse d <;> simp [and_assoc]

/-- The schema together with the `delta` block accepts exactly the documented values. -/
theorem accepted_iff (parse : String → Option ℝ) (key : String) (v : PyVal) (o : OptVal) :
    (∃ v', renameDelta key v = .ok v' ∧ schema parse key v' = .ok o) ↔ Accepted parse key v o := by
  constructor
  · rintro ⟨v', h1, h2⟩
    unfold renameDelta at h1
    by_cases hk : key = "parameters"
    · subst hk
      simp only [if_true] at h1
      cases v with
      | dict d =>
        have hs : ∀ d' : Dict String PyVal, schema parse "parameters" (.dict d') = .ok o →
            ∃ p, o = .params p ∧ CoercedTo parse d' p := by
          intro d' h
          simp only [schema] at h
          simp at h
          split at h
          · rename_i p hp
            simp at h
            exact ⟨p, h.symm, (coerceParams_iff parse d' p).1 hp⟩
          · simp at h
        cases hd : Dict.get? d "delta" with
        | none =>
          simp only [hd, Except.ok.injEq] at h1
          subst h1
          obtain ⟨p, rfl, hp⟩ := hs _ h2
          exact .parameters d p hd hp
        | some x =>
          simp only [hd, Except.ok.injEq] at h1
          subst h1
          obtain ⟨p, rfl, hp⟩ := hs _ h2
          exact .parametersDelta d x p hd hp
      | _ => simp at h1
    · simp only [hk, if_false, Except.ok.injEq] at h1
      subst h1
      unfold schema at h2
      split at h2
      · rename_i hk1
        subst hk1
        cases v with
        | str s =>
          simp only at h2
          split at h2
          · simp at h2; subst h2; exact .accuracy s ‹_›
          · simp at h2
        | _ => simp at h2
      · split at h2
        · rename_i hk2
          cases v with
          | num x =>
            simp only at h2
            split at h2
            · simp at h2; subst h2; exact .order key x hk2 ‹_›
            · simp at h2
          | _ => simp at h2
        · split at h2
          · rename_i hk3
            cases v with
            | num x => simp [coerceFloat] at h2; subst h2; exact .scaleNum key x hk3
            | str s =>
              simp only [coerceFloat] at h2
              cases hp : parse s with
              | none => simp [hp] at h2
              | some x => simp [hp] at h2; subst h2; exact .scaleStr key s x hk3 hp
            | _ => simp [coerceFloat] at h2
          · simp at h2
  · intro h
    cases h with
    | accuracy s h => exact ⟨.str s, by simp [renameDelta], by simp [schema, h]⟩
    | order _ x hk hx =>
      refine ⟨.num x, ?_, ?_⟩
      · rcases hk with rfl | rfl | rfl <;> simp [renameDelta]
      · rcases hk with rfl | rfl | rfl <;> simp [schema, hx]
    | scaleNum _ x hk =>
      refine ⟨.num x, ?_, ?_⟩
      · rcases hk with rfl | rfl | rfl <;> simp [renameDelta]
      · rcases hk with rfl | rfl | rfl <;> simp [schema, coerceFloat]
    | scaleStr _ s x hk hs =>
      refine ⟨.str s, ?_, ?_⟩
      · rcases hk with rfl | rfl | rfl <;> simp [renameDelta]
      · rcases hk with rfl | rfl | rfl <;> simp [schema, coerceFloat, hs]
    | parameters d p hd hp =>
      refine ⟨.dict d, by simp [renameDelta, hd], ?_⟩
      simp [schema, (coerceParams_iff parse d p).2 hp]
    | parametersDelta d x p hd hp =>
      refine ⟨.dict ((d.set "gamma" x).erase "delta"), by simp [renameDelta, hd], ?_⟩
      simp [schema, (coerceParams_iff parse _ p).2 hp]

/-- The stored value is determined by the key and the value given. -/
theorem accepted_unique (parse : String → Option ℝ) (key : String) (v : PyVal) (o o' : OptVal)
    (h : Accepted parse key v o) (h' : Accepted parse key v o') : o = o' := by
  obtain ⟨v1, h1, h2⟩ := (accepted_iff ..).2 h
  obtain ⟨v2, h3, h4⟩ := (accepted_iff ..).2 h'
  rw [h1] at h3
  cases h3
  rw [h2] at h4
  cases h4
  rfl

theorem setOption_accepted {α : Type} (parse : String → Option ℝ) (empty : α) (i : Instance α)
    (key : String) (v : PyVal) (o : OptVal) (h : Accepted parse key v o) :
    setOption parse empty i key v =
      (.ok (), { options := i.options.update [(key, o)], cache := empty }) := by
  obtain ⟨v', h1, h2⟩ := (accepted_iff ..).2 h
  simp [setOption, h1, h2]

theorem setOption_rejected {α : Type} (parse : String → Option ℝ) (empty : α) (i : Instance α)
    (key : String) (v : PyVal) (h : ∀ o, ¬ Accepted parse key v o) :
    ∃ e, setOption parse empty i key v = (.error e, i) := by
  unfold setOption
  cases h1 : renameDelta key v with
  | error e => exact ⟨e, rfl⟩
  | ok v' =>
    cases h2 : schema parse key v' with
    | error e => exact ⟨e, by simp [h2]⟩
    | ok o => exact absurd ((accepted_iff ..).1 ⟨v', h1, h2⟩) (h o)

theorem setDefault_accepted (parse : String → Option ℝ) (d : Dict String OptVal)
    (key : String) (v : PyVal) (o : OptVal) (h : Accepted parse key v o) :
    setDefaultOption parse d key v = (.ok (), d.update [(key, o)]) := by
  obtain ⟨v', h1, h2⟩ := (accepted_iff ..).2 h
  simp [setDefaultOption, h1, h2]

theorem setDefault_rejected (parse : String → Option ℝ) (d : Dict String OptVal)
    (key : String) (v : PyVal) (h : ∀ o, ¬ Accepted parse key v o) :
    ∃ e, setDefaultOption parse d key v = (.error e, d) := by
  unfold setDefaultOption
  cases h1 : renameDelta key v with
  | error e => exact ⟨e, rfl⟩
  | ok v' =>
    cases h2 : schema parse key v' with
    | error e => exact ⟨e, by simp [h2]⟩
    | ok o => exact absurd ((accepted_iff ..).1 ⟨v', h1, h2⟩) (h o)

theorem update_one {α : Type} (d : Dict String α) (k k' : String) (o : α) :
    (d.update [(k, o)]).get? k' = if k = k' then some o else d.get? k' := by
  rw [Dict.get?_update _ _ (by simp [Dict.NodupKeys, Dict.keys])]
  simp only [Dict.get?_cons, Dict.get?_nil]
  by_cases h : k = k' <;> simp [h]

/-! ## C09 -/

/-- C09: setting an option to a documented value succeeds, `get_option` then returns the stored
value, every other option reads as before, and the result cache is emptied. -/
theorem C09_set_option {α : Type} (parse : String → Option ℝ) (empty : α)
    (defaults : Dict String OptVal) (i : Instance α) (key : String) (v : PyVal) (o : OptVal)
    (hkey : key ∈ defaults.keys) (h : Accepted parse key v o) :
    (setOption parse empty i key v).1 = .ok () ∧
    (setOption parse empty i key v).2.cache = empty ∧
    getOption defaults (setOption parse empty i key v).2 key = .ok o ∧
    ∀ k, k ≠ key → getOption defaults (setOption parse empty i key v).2 k = getOption defaults i k := by
  rw [setOption_accepted parse empty i key v o h]
  refine ⟨rfl, rfl, ?_, ?_⟩
  · have := (Dict.isSome_get?_iff defaults key).2 hkey
    obtain ⟨dv, hdv⟩ := Option.isSome_iff_exists.1 this
    simp [getOption, hdv, update_one]
  · intro k hk
    simp [getOption, update_one, Ne.symm hk]

/-- C09: any other key or value raises and changes nothing (options, cache). -/
theorem C09_set_option_rejected {α : Type} (parse : String → Option ℝ) (empty : α) (i : Instance α)
    (key : String) (v : PyVal) (h : ∀ o, ¬ Accepted parse key v o) :
    ∃ e, setOption parse empty i key v = (.error e, i) :=
  setOption_rejected parse empty i key v h

/-- C09: the same for the class defaults. -/
theorem C09_set_default_option (parse : String → Option ℝ) (d : Dict String OptVal)
    (key : String) (v : PyVal) :
    (∀ o, Accepted parse key v o → (setDefaultOption parse d key v).1 = .ok () ∧
      ∀ k, (setDefaultOption parse d key v).2.get? k = if k = key then some o else d.get? k) ∧
    ((∀ o, ¬ Accepted parse key v o) → ∃ e, setDefaultOption parse d key v = (.error e, d)) := by
  refine ⟨fun o h => ?_, setDefault_rejected parse d key v⟩
  rw [setDefault_accepted parse d key v o h]
  refine ⟨rfl, fun k => ?_⟩
  simp [update_one, eq_comm]

/-- C09: keys that are not option names are always rejected. -/
theorem C09_unknown_key (parse : String → Option ℝ) (key : String) (v : PyVal)
    (hk : key ∉ optionNames) (o : OptVal) : ¬ Accepted parse key v o := by
  intro h
  simp only [optionNames, List.mem_cons, List.not_mem_nil, or_false, not_or] at hk
  cases h <;> simp_all

/-- Non-vacuity of C09: an order of 1 is accepted, 2 is rejected. -/
example (parse : String → Option ℝ) : Accepted parse "qed_order" (.num 1) (.num 1) ∧
    (∀ o, ¬ Accepted parse "qed_order" (.num 2) o) ∧ "qed_order" ∈ importDefaults.keys := by
  refine ⟨.order _ _ (by simp) (by simp), ?_, ?_⟩
  · intro o h
    obtain ⟨v', h1, h2⟩ := (accepted_iff ..).2 h
    simp [renameDelta] at h1
    subst h1
    norm_num [schema] at h2
    cases h2
  · simp [importDefaults, Dict.keys]

/-! ## C11 -/

/-- C11: setting `parameters` to a dictionary containing `delta` (and only coercible values) stores
its number under `gamma`, no `delta`, and keeps every other parameter. -/
theorem C11_delta_renamed {α : Type} (parse : String → Option ℝ) (empty : α)
    (defaults : Dict String OptVal) (i : Instance α) (d : Dict String PyVal) (hd : d.NodupKeys)
    (x : ℝ) (hx : d.get? "delta" = some (.num x))
    (hnum : ∀ k v, (k, v) ∈ d → ∃ y, v = .num y)
    (hkey : "parameters" ∈ defaults.keys) :
    ∃ p : Params, getOption defaults (setOption parse empty i "parameters" (.dict d)).2 "parameters"
        = .ok (.params p) ∧
      p.get? "gamma" = some x ∧ p.get? "delta" = none ∧
      ∀ k, k ≠ "gamma" → k ≠ "delta" → ∀ y, d.get? k = some (.num y) ↔ p.get? k = some y := by
  -- coercion keeps lookups
  have coerce : ∀ d' : Dict String PyVal, (∀ k v, (k, v) ∈ d' → ∃ y, v = .num y) →
      ∃ p, CoercedTo parse d' p ∧ ∀ k y, d'.get? k = some (.num y) ↔ p.get? k = some y := by
    intro d'
    induction d' with
    | nil => intro _; exact ⟨[], trivial, by simp⟩
    | cons kv d' ih =>
      intro h
      obtain ⟨k, v⟩ := kv
      obtain ⟨y, rfl⟩ := h k v (by simp)
      obtain ⟨p, hp, hg⟩ := ih (fun k v hm => h k v (by simp [hm]))
      refine ⟨(k, y) :: p, ⟨rfl, Or.inl rfl, hp⟩, ?_⟩
      intro k' y'
      simp only [Dict.get?_cons]
      by_cases hk : k = k'
      · simp [hk]
      · simp [hk, hg]
  have hmem_set : ∀ (d : Dict String PyVal) (k : String) (v : PyVal) (k' : String) (v' : PyVal),
      (k', v') ∈ d.set k v → (k', v') ∈ d ∨ v' = v := by
    intro d k v k' v'
    induction d with
    | nil => simp [Dict.set]
    | cons kv d ih =>
      obtain ⟨a, b⟩ := kv
      unfold Dict.set
      split
      · intro h
        rcases List.mem_cons.1 h with h | h
        · simp at h; exact Or.inr h.2
        · exact Or.inl (by simp [h])
      · intro h
        rcases List.mem_cons.1 h with h | h
        · exact Or.inl (by simp [h])
        · rcases ih h with h | h
          · exact Or.inl (by simp [h])
          · exact Or.inr h
  have hmem_erase : ∀ (d : Dict String PyVal) (k k' : String) (v' : PyVal),
      (k', v') ∈ d.erase k → (k', v') ∈ d := by
    intro d k k' v'
    induction d with
    | nil => simp [Dict.erase]
    | cons kv d ih =>
      obtain ⟨a, b⟩ := kv
      unfold Dict.erase
      split
      · intro h; simp [h]
      · intro h
        rcases List.mem_cons.1 h with h | h
        · simp [h]
        · simp [ih h]
  obtain ⟨p, hp, hg⟩ := coerce ((d.set "gamma" (.num x)).erase "delta") (by
    intro k v hm
    rcases hmem_set _ _ _ _ _ (hmem_erase _ _ _ _ hm) with h | h
    · exact hnum k v h
    · exact ⟨x, h⟩)
  have hacc : Accepted parse "parameters" (.dict d) (.params p) := .parametersDelta d _ p hx hp
  have hset := Dict.nodupKeys_set d "gamma" (PyVal.num x) hd
  refine ⟨p, (C09_set_option parse empty defaults i _ _ _ hkey hacc).2.2.1, ?_, ?_, ?_⟩
  · rw [← hg, Dict.get?_erase_ne _ (by decide), Dict.get?_set_self]
  · cases h : p.get? "delta" with
    | none => rfl
    | some y =>
      rw [← hg, Dict.get?_erase_self _ _ hset] at h
      simp at h
  · intro k hk1 hk2 y
    rw [← hg, Dict.get?_erase_ne _ (Ne.symm hk2), Dict.get?_set_ne _ _ (Ne.symm hk1)]

/-- Non-vacuity of C11: `delta` together with `gamma` and another parameter. -/
example : ∃ d : Dict String PyVal, d.NodupKeys ∧ d.get? "delta" = some (.num 1) ∧
    (∀ k v, (k, v) ∈ d → ∃ y, v = .num y) ∧ d.get? "gamma" = some (.num 7) ∧ "parameters" ∈ importDefaults.keys := by
  refine ⟨[("gamma", .num 7), ("m_b", .num 4), ("delta", .num 1)], ?_, ?_, ?_, ?_, ?_⟩
  · simp [Dict.NodupKeys, Dict.keys]
  · simp [Dict.get?]
  · simp
    rintro k v (⟨_, rfl⟩ | ⟨_, rfl⟩ | ⟨_, rfl⟩) <;> simp
  · simp [Dict.get?]
  · simp [importDefaults, Dict.keys]

/-! ## C12 -/

/-- C12: the effective parameters are the user's value if there is one, else the default. -/
theorem C12_effective_parameters (p user : Params) (hu : user.NodupKeys) (k : String) :
    (∀ x, user.get? k = some x → (effParameters p user).get? k = some x) ∧
    (user.get? k = none → (effParameters p user).get? k = p.get? k) := by
  unfold effParameters
  rw [Dict.get?_update _ _ hu]
  constructor
  · intro x hx; simp [hx]
  · intro hx; simp [hx]

/-- C12: the matching parameters are the effective parameters plus `loop_order`, which is the
option's value whatever the user's dictionary contains. -/
theorem C12_matching_parameters (p user : Params) (lo : ℝ) :
    (matchingParameters p user lo).get? "loop_order" = some lo ∧
    ∀ k, k ≠ "loop_order" → (matchingParameters p user lo).get? k = (effParameters p user).get? k := by
  unfold matchingParameters
  exact ⟨Dict.get?_set_self _ _ _, fun k hk => Dict.get?_set_ne _ _ (Ne.symm hk)⟩

/-- Non-vacuity of C12. -/
example : ∃ (p user : Params), user.NodupKeys ∧ user.get? "m_b" = some 4 ∧ p.get? "m_b" = some 5 ∧
    user.get? "m_c" = none ∧ p.get? "m_c" = some 1 :=
  ⟨[("m_b", 5), ("m_c", 1)], [("m_b", 4)], by simp [Dict.NodupKeys, Dict.keys], by simp [Dict.get?],
    by simp [Dict.get?], by simp [Dict.get?], by simp [Dict.get?]⟩

/-! ## C10 -/

section C10
variable {α : Type} (parse : String → Option ℝ) (empty : α)

/-- The call sets option `key` of instance `j` to an accepted value. -/
def SetsOn (j : ℕ) (key : String) (op : WorldOp) : Prop :=
  ∃ v o, op = .setOption j key v ∧ Accepted parse key v o

theorem step_length (w : World α) (op : WorldOp) :
    w.insts.length ≤ (w.step parse empty op).insts.length := by
  cases op with
  | create => simp [World.step]
  | setOption i k v => simp only [World.step]; split <;> simp
  | setDefault k v => simp [World.step]

theorem step_default_key (w : World α) (op : WorldOp) (k : String) (h : k ∈ w.defaults.keys) :
    k ∈ (w.step parse empty op).defaults.keys := by
  cases op with
  | create => simpa [World.step] using h
  | setOption i k' v => simp only [World.step]; split <;> simpa using h
  | setDefault k' v =>
    simp only [World.step]
    by_cases ha : ∃ o, Accepted parse k' v o
    · obtain ⟨o, ho⟩ := ha
      rw [setDefault_accepted parse _ _ _ _ ho]
      rw [← Dict.isSome_get?_iff, update_one]
      split
      · simp
      · rwa [Dict.isSome_get?_iff]
    · obtain ⟨e, he⟩ := setDefault_rejected parse w.defaults k' v (by simpa using ha)
      rw [he]; exact h

/-- One call keeps the options of instance `j` unless it sets one of them. -/
theorem step_options (w : World α) (op : WorldOp) (j : ℕ) (x : Instance α)
    (hx : w.insts[j]? = some x) (key : String) :
    ∃ y, (w.step parse empty op).insts[j]? = some y ∧
      (¬ SetsOn parse j key op → y.options.get? key = x.options.get? key) ∧
      (∀ v o, op = .setOption j key v → Accepted parse key v o → y.options.get? key = some o) := by
  have hj : j < w.insts.length := by
    by_contra h
    rw [List.getElem?_eq_none (by omega)] at hx
    simp at hx
  cases op with
  | create =>
    refine ⟨x, ?_, fun _ => rfl, by simp⟩
    simp only [World.step]
    rw [List.getElem?_append_left hj, hx]
  | setDefault k v => exact ⟨x, by simpa [World.step] using hx, fun _ => rfl, by simp⟩
  | setOption i k v =>
    by_cases hij : i = j
    · subst hij
      refine ⟨(setOption parse empty x k v).2, ?_, ?_, ?_⟩
      · simp only [World.step, hx]
        simp [hj]
      · intro hn
        by_cases ha : ∃ o, Accepted parse k v o
        · obtain ⟨o, ho⟩ := ha
          have hk : k ≠ key := by
            rintro rfl
            exact hn ⟨v, o, rfl, ho⟩
          rw [setOption_accepted parse empty x k v o ho]
          simp [update_one, hk]
        · obtain ⟨e, he⟩ := setOption_rejected parse empty x k v (by simpa using ha)
          rw [he]
      · intro v' o he ha
        simp only [WorldOp.setOption.injEq, true_and] at he
        obtain ⟨rfl, rfl⟩ := he
        rw [setOption_accepted parse empty x k v o ha]
        simp [update_one]
    · refine ⟨x, ?_, fun _ => rfl, ?_⟩
      · simp only [World.step]
        split
        · exact hx
        · simp [List.getElem?_set_ne hij, hx]
      · intro v' o he
        simp only [WorldOp.setOption.injEq] at he
        exact absurd he.1 hij

theorem foldl_options (ops : List WorldOp) (w : World α) (j : ℕ) (x : Instance α)
    (hx : w.insts[j]? = some x) (key : String) (h : ∀ op ∈ ops, ¬ SetsOn parse j key op) :
    ∃ y, (ops.foldl (World.step parse empty) w).insts[j]? = some y ∧
      y.options.get? key = x.options.get? key := by
  induction ops generalizing w x with
  | nil => exact ⟨x, hx, rfl⟩
  | cons op ops ih =>
    obtain ⟨y, hy, hk, _⟩ := step_options parse empty w op j x hx key
    obtain ⟨z, hz, hz2⟩ := ih _ y hy (fun o ho => h o (by simp [ho]))
    exact ⟨z, hz, hz2.trans (hk (h op (by simp)))⟩

theorem foldl_default_key (ops : List WorldOp) (w : World α) (k : String) (h : k ∈ w.defaults.keys) :
    k ∈ (ops.foldl (World.step parse empty) w).defaults.keys := by
  induction ops generalizing w with
  | nil => exact h
  | cons op ops ih => exact ih _ (step_default_key parse empty w op k h)

theorem get_of_options (w : World α) (j : ℕ) (y : Instance α) (hy : w.insts[j]? = some y)
    (key : String) (hk : key ∈ w.defaults.keys) (o : OptVal) (ho : y.options.get? key = some o) :
    w.get j key = some (.ok o) := by
  obtain ⟨dv, hdv⟩ := Option.isSome_iff_exists.1 ((Dict.isSome_get?_iff w.defaults key).2 hk)
  simp [World.get, hy, getOption, hdv, ho]

theorem names_in_defaults (key : String) (hk : key ∈ optionNames) : key ∈ importDefaults.keys := by
  simpa [optionNames, importDefaults, Dict.keys] using hk

/-- C10: in any history of instance creations, `set_option` calls on any instances and
`set_default_option` calls, the option of an instance that was never set on that instance equals
the class default at the time the instance was created - later changes of the defaults, creations
and settings on other instances do not matter. -/
theorem C10_default_at_creation (pre post : List WorldOp) (key : String) (hkey : key ∈ optionNames)
    (hpost : ∀ op ∈ post, ¬ SetsOn parse (World.run parse empty pre).insts.length key op) :
    ∃ o, (World.run parse empty pre).defaults.get? key = some o ∧
      (World.run parse empty (pre ++ .create :: post)).get
        (World.run parse empty pre).insts.length key = some (.ok o) := by
  have hd : key ∈ (World.run parse empty pre).defaults.keys :=
    foldl_default_key parse empty pre _ key (names_in_defaults key hkey)
  obtain ⟨o, ho⟩ := Option.isSome_iff_exists.1 ((Dict.isSome_get?_iff _ key).2 hd)
  refine ⟨o, ho, ?_⟩
  have hrun : World.run parse empty (pre ++ .create :: post) =
      post.foldl (World.step parse empty) ((World.run parse empty pre).step parse empty .create) := by
    simp [World.run, List.foldl_append]
  rw [hrun]
  obtain ⟨y, hy, hy2⟩ := foldl_options parse empty post
    ((World.run parse empty pre).step parse empty .create) _
    (Instance.create (World.run parse empty pre).defaults empty)
    (by simp [World.step]) key hpost
  refine get_of_options _ _ y hy key ?_ o ?_
  · exact foldl_default_key parse empty post _ key (step_default_key parse empty _ _ key hd)
  · rw [hy2]; exact ho

/-- C10: an option that was set on the instance has the value accepted last. -/
theorem C10_last_set (pre post : List WorldOp) (j : ℕ) (key : String) (v : PyVal) (o : OptVal)
    (hj : j < (World.run parse empty pre).insts.length) (ha : Accepted parse key v o)
    (hpost : ∀ op ∈ post, ¬ SetsOn parse j key op) :
    (World.run parse empty (pre ++ .setOption j key v :: post)).get j key = some (.ok o) := by
  have hkey : key ∈ optionNames := by
    by_contra h
    exact C09_unknown_key parse key v h o ha
  have hd : key ∈ (World.run parse empty pre).defaults.keys :=
    foldl_default_key parse empty pre _ key (names_in_defaults key hkey)
  have hrun : World.run parse empty (pre ++ .setOption j key v :: post) =
      post.foldl (World.step parse empty)
        ((World.run parse empty pre).step parse empty (.setOption j key v)) := by
    simp [World.run, List.foldl_append]
  rw [hrun]
  obtain ⟨y, hy, _, hy3⟩ := step_options parse empty (World.run parse empty pre)
    (.setOption j key v) j _ (List.getElem?_eq_getElem hj) key
  obtain ⟨z, hz, hz2⟩ := foldl_options parse empty post _ j y hy key hpost
  refine get_of_options _ _ z hz key ?_ o ?_
  · exact foldl_default_key parse empty post _ key (step_default_key parse empty _ _ key hd)
  · rw [hz2]; exact hy3 v o rfl ha

end C10

/-- Non-vacuity of C10: after a default change an old instance keeps the old default although a
second instance sets the option to another value; a later instance sees the new default. -/
example (parse : String → Option ℝ) :
    (World.run parse () [.create, .setDefault "qed_order" (.num 0), .create,
      .setOption 1 "qed_order" (.num 1), .setOption 0 "qcd_order" (.num 0)]).get 0 "qed_order"
      = some (.ok (.num 1)) := by
  obtain ⟨o, ho, h⟩ := C10_default_at_creation parse () [] [.setDefault "qed_order" (.num 0), .create,
      .setOption 1 "qed_order" (.num 1), .setOption 0 "qcd_order" (.num 0)] "qed_order"
      (by simp [optionNames]) (by simp [SetsOn, World.run])
  have : o = .num 1 := by
    simp [World.run, importDefaults, Dict.get?] at ho
    exact ho.symm
  subst this
  simpa [World.run] using h

/-! ## C18 -/

/-- C18, violated: whatever Python's hash function is, changing the value of an option that is
present does not change the hash of the instance. -/
theorem C18_hash_ignores_option_values (h : ℤ → Finset String → ℤ) (wcHash : WC → ℤ) (s : Wilson)
    (parse : String → Option ℝ) (key : String) (v : PyVal) (o : OptVal)
    (hk : key ∈ Dict.keys s.inst.options) (ha : Accepted parse key v o) :
    Wilson.hash h wcHash { s with inst := (setOption parse [] s.inst key v).2 }
      = Wilson.hash h wcHash s := by
  rw [setOption_accepted parse [] s.inst key v o ha]
  unfold Wilson.hash
  congr 1
  have : ∀ k, k ∈ Dict.keys (s.inst.options.update [(key, o)]) ↔ k ∈ Dict.keys s.inst.options := by
    intro k
    rw [← Dict.isSome_get?_iff, ← Dict.isSome_get?_iff, update_one]
    split
    · rename_i hkk
      subst hkk
      simpa using (Dict.isSome_get?_iff _ _).2 hk
    · rfl
  ext k
  simp [this k]

/-- C18, negation of the documented contract: on a freshly created instance, setting an order to
a different value leaves the hash unchanged. -/
theorem C18_contract_violation (h : ℤ → Finset String → ℤ) (wcHash : WC → ℤ) (wc : WC)
    (parse : String → Option ℝ) :
    ∃ s s' : Wilson, s.wc = wc ∧ s' = { s with inst := (setOption parse [] s.inst "qed_order" (.num 0)).2 } ∧
      getOption importDefaults s.inst "qed_order" ≠ getOption importDefaults s'.inst "qed_order" ∧
      Wilson.hash h wcHash s' = Wilson.hash h wcHash s := by
  refine ⟨⟨wc, Instance.create importDefaults []⟩, _, rfl, rfl, ?_, ?_⟩
  · rw [(C09_set_option parse [] importDefaults _ "qed_order" (.num 0) (.num 0)
      (names_in_defaults _ (by simp [optionNames])) (.order _ _ (by simp) (by simp))).2.2.1]
    simp [getOption, importDefaults, Instance.create, Dict.get?]
  · exact C18_hash_ignores_option_values h wcHash _ parse "qed_order" _ (.num 0)
      (names_in_defaults _ (by simp [optionNames])) (.order _ _ (by simp) (by simp))

end Verif
