import Mathlib.Data.List.Basic
import Mathlib.Data.List.Nodup

/-!
# Python dictionaries

Insertion-ordered dictionaries (Python 3.7+ `dict`, `collections.OrderedDict`),
as used everywhere in `/repo/wilson`.  A dictionary is an association list; the
operations below never create duplicate keys (`Dict.NodupKeys` is an invariant).
-/

set_option linter.unusedSectionVars false

set_option autoImplicit false

namespace Verif

/-- Insertion-ordered dictionary. -/
abbrev Dict (κ : Type*) (α : Type*) := List (κ × α)

namespace Dict

variable {κ α β : Type*} [DecidableEq κ]

/-- Python `d.keys()` (in insertion order). -/
def keys (d : Dict κ α) : List κ := d.map Prod.fst

/-- Python `d.get(k)`, with `none` for a missing key. -/
def get? : Dict κ α → κ → Option α
  | [], _ => none
  | (k', v) :: d, k => if k' = k then some v else get? d k

/-- Python `d.get(k, default)`. -/
def getD (d : Dict κ α) (k : κ) (dflt : α) : α := (d.get? k).getD dflt

/-- Python `k in d`. -/
def mem (d : Dict κ α) (k : κ) : Bool := (d.get? k).isSome

/-- Python `d[k] = v`: overwrite in place, or append a new key at the end. -/
def set : Dict κ α → κ → α → Dict κ α
  | [], k, v => [(k, v)]
  | (k', v') :: d, k, v => if k' = k then (k', v) :: d else (k', v') :: set d k v

/-- Python `del d[k]` (no effect on a missing key; callers check first). -/
def erase : Dict κ α → κ → Dict κ α
  | [], _ => []
  | (k', v') :: d, k => if k' = k then d else (k', v') :: erase d k

/-- Python `d.update(e)`. -/
def update (d e : Dict κ α) : Dict κ α := e.foldl (fun acc kv => acc.set kv.1 kv.2) d

/-- Python `{k: f(v) for k, v in d.items()}`. -/
def mapVal (f : α → β) (d : Dict κ α) : Dict κ β := d.map fun kv => (kv.1, f kv.2)

/-- Python `{k: v for k, v in d.items() if p(k, v)}`. -/
def filterKV (p : κ → α → Bool) (d : Dict κ α) : Dict κ α := d.filter fun kv => p kv.1 kv.2

/-- No key occurs twice (true of every Python dictionary). -/
def NodupKeys (d : Dict κ α) : Prop := d.keys.Nodup

/-! ### Basic lemmas -/

@[simp] theorem get?_nil (k : κ) : get? ([] : Dict κ α) k = none := rfl

theorem get?_cons (k' k : κ) (v : α) (d : Dict κ α) :
    get? ((k', v) :: d) k = if k' = k then some v else get? d k := rfl

@[simp] theorem get?_set_self (d : Dict κ α) (k : κ) (v : α) : (d.set k v).get? k = some v := by
  induction d with
  | nil => simp [set, get?_cons]
  | cons p d ih =>
    obtain ⟨k', v'⟩ := p
    by_cases h : k' = k <;> simp [set, h, get?_cons, ih]

theorem get?_set_ne (d : Dict κ α) {k k' : κ} (v : α) (h : k ≠ k') :
    (d.set k v).get? k' = d.get? k' := by
  induction d with
  | nil => simp [set, get?_cons, h]
  | cons p d ih =>
    obtain ⟨a, b⟩ := p
    by_cases h1 : a = k
    · subst h1; simp [set, get?_cons, h]
    · simp [set, h1, get?_cons, ih]

theorem get?_set (d : Dict κ α) (k k' : κ) (v : α) :
    (d.set k v).get? k' = if k = k' then some v else d.get? k' := by
  by_cases h : k = k'
  · subst h; simp
  · simp [h, get?_set_ne]

theorem get?_eq_none_iff (d : Dict κ α) (k : κ) : d.get? k = none ↔ k ∉ d.keys := by
  induction d with
  | nil => simp [keys]
  | cons p d ih =>
    obtain ⟨a, b⟩ := p
    by_cases h : a = k
    · simp [get?_cons, h, keys]
    · have h' : k ≠ a := fun e => h e.symm
      simp only [get?_cons, h, if_false, ih, keys, List.map_cons, List.mem_cons, h', false_or]

theorem isSome_get?_iff (d : Dict κ α) (k : κ) : (d.get? k).isSome ↔ k ∈ d.keys := by
  have := get?_eq_none_iff d k
  cases h : d.get? k <;> simp_all

theorem mem_iff (d : Dict κ α) (k : κ) : d.mem k = true ↔ k ∈ d.keys := isSome_get?_iff d k

theorem keys_set (d : Dict κ α) (k : κ) (v : α) :
    (d.set k v).keys = if k ∈ d.keys then d.keys else d.keys ++ [k] := by
  induction d with
  | nil => simp [set, keys]
  | cons p d ih =>
    obtain ⟨a, b⟩ := p
    by_cases h : a = k
    · simp [set, h, keys]
    · have h' : k ≠ a := fun e => h e.symm
      simp only [keys] at ih
      simp only [set, h, if_false, keys, List.map_cons, ih, List.mem_cons, h', false_or]
      split <;> rename_i hk <;> simp [hk]

theorem nodupKeys_set (d : Dict κ α) (k : κ) (v : α) (h : d.NodupKeys) : (d.set k v).NodupKeys := by
  unfold NodupKeys at *
  rw [keys_set]
  split
  · exact h
  · rename_i hk
    rw [List.nodup_append]
    refine ⟨h, by simp, ?_⟩
    intro a ha b hb
    simp only [List.mem_singleton] at hb
    subst hb
    intro e; subst e; exact hk ha

theorem keys_erase_sublist (d : Dict κ α) (k : κ) : (d.erase k).keys.Sublist d.keys := by
  induction d with
  | nil => simp [erase, keys]
  | cons p d ih =>
    obtain ⟨a, b⟩ := p
    by_cases h : a = k
    · simp [erase, h, keys]
    · simpa [erase, h, keys] using ih

theorem nodupKeys_erase (d : Dict κ α) (k : κ) (h : d.NodupKeys) : (d.erase k).NodupKeys :=
  List.Nodup.sublist (keys_erase_sublist d k) h

theorem get?_erase_ne (d : Dict κ α) {k k' : κ} (h : k ≠ k') :
    (d.erase k).get? k' = d.get? k' := by
  induction d with
  | nil => simp [erase]
  | cons p d ih =>
    obtain ⟨a, b⟩ := p
    by_cases h1 : a = k
    · subst h1; simp [erase, get?_cons, h]
    · simp [erase, h1, get?_cons, ih]

theorem get?_erase_self (d : Dict κ α) (k : κ) (h : d.NodupKeys) : (d.erase k).get? k = none := by
  induction d with
  | nil => simp [erase]
  | cons p d ih =>
    obtain ⟨a, b⟩ := p
    simp only [NodupKeys, keys, List.map_cons, List.nodup_cons] at h
    by_cases h1 : a = k
    · subst h1
      simp only [erase, if_true]
      rw [get?_eq_none_iff]
      exact h.1
    · simp only [erase, h1, if_false, get?_cons]
      exact ih h.2

theorem nodupKeys_update (d e : Dict κ α) (h : d.NodupKeys) : (d.update e).NodupKeys := by
  unfold update
  induction e generalizing d with
  | nil => simpa using h
  | cons p e ih => exact ih _ (nodupKeys_set d p.1 p.2 h)

/-- Lookup after `update`: the new dictionary wins.  (For a right operand with
unique keys, as every Python dictionary is.) -/
theorem get?_update (d e : Dict κ α) (he : e.NodupKeys) (k : κ) :
    (d.update e).get? k = (e.get? k).or (d.get? k) := by
  unfold update
  induction e generalizing d with
  | nil => simp
  | cons p e ih =>
    obtain ⟨a, b⟩ := p
    simp only [NodupKeys, keys, List.map_cons, List.nodup_cons] at he
    rw [List.foldl_cons, ih _ he.2, get?_cons]
    by_cases h : a = k
    · subst h
      have : get? e a = none := (get?_eq_none_iff e a).2 he.1
      simp [this]
    · simp [h, get?_set_ne]

@[simp] theorem get?_mapVal (f : α → β) (d : Dict κ α) (k : κ) :
    (d.mapVal f).get? k = (d.get? k).map f := by
  induction d with
  | nil => simp [mapVal]
  | cons p d ih =>
    obtain ⟨a, b⟩ := p
    by_cases h : a = k
    · simp [mapVal, get?_cons, h]
    · simpa [mapVal, get?_cons, h] using ih

@[simp] theorem keys_mapVal (f : α → β) (d : Dict κ α) : (d.mapVal f).keys = d.keys := by
  simp [mapVal, keys, Function.comp_def]

theorem get?_filterKV (p : κ → α → Bool) (d : Dict κ α) (hd : d.NodupKeys) (k : κ) :
    (d.filterKV p).get? k = (d.get? k).filter (p k) := by
  induction d with
  | nil => simp [filterKV]
  | cons q d ih =>
    obtain ⟨a, b⟩ := q
    simp only [NodupKeys, keys, List.map_cons, List.nodup_cons] at hd
    have ih' := ih hd.2
    simp only [filterKV] at ih' ⊢
    by_cases h : a = k
    · subst h
      have hn : get? d a = none := (get?_eq_none_iff d a).2 hd.1
      by_cases hp : p a b
      · simp [hp, get?_cons, Option.filter_some]
      · rw [hn] at ih'
        simp only [List.filter_cons, hp]
        simpa [get?_cons, hp, Option.filter_some] using ih'
    · by_cases hp : p a b
      · simpa [hp, get?_cons, h] using ih'
      · simpa [hp, get?_cons, h] using ih'

theorem keys_filterKV_sublist (p : κ → α → Bool) (d : Dict κ α) :
    (d.filterKV p).keys.Sublist d.keys := by
  unfold filterKV keys
  exact List.Sublist.map _ List.filter_sublist

theorem nodupKeys_filterKV (p : κ → α → Bool) (d : Dict κ α) (h : d.NodupKeys) :
    (d.filterKV p).NodupKeys := List.Nodup.sublist (keys_filterKV_sublist p d) h

theorem mem_of_get? {d : Dict κ α} {k : κ} {v : α} (h : d.get? k = some v) : (k, v) ∈ d := by
  induction d with
  | nil => simp at h
  | cons p d ih =>
    obtain ⟨a, b⟩ := p
    by_cases hk : a = k
    · simp only [get?_cons, hk, if_true, Option.some.injEq] at h
      simp [hk, h]
    · simp only [get?_cons, hk, if_false] at h
      exact List.mem_cons_of_mem _ (ih h)

theorem get?_of_mem {d : Dict κ α} (hd : d.NodupKeys) {k : κ} {v : α} (h : (k, v) ∈ d) :
    d.get? k = some v := by
  induction d with
  | nil => simp at h
  | cons p d ih =>
    obtain ⟨a, b⟩ := p
    simp only [NodupKeys, keys, List.map_cons, List.nodup_cons] at hd
    rcases List.mem_cons.1 h with e | h'
    · simp only [Prod.mk.injEq] at e
      simp [get?_cons, e.1, e.2]
    · have hka : a ≠ k := by
        intro e; subst e
        exact hd.1 (List.mem_map.2 ⟨_, h', rfl⟩)
      simp [get?_cons, hka, ih hd.2 h']

end Dict
end Verif
