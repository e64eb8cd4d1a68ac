import Verif.Spec.WCxf
import Mathlib.Tactic.Basic
import Mathlib.Data.List.Induction

/-! # Properties C05, C06, C08: registry, child bases, files -/

set_option autoImplicit false
open Classical

namespace Verif
open Spec

section C05
variable {κ α : Type} [DecidableEq κ]

theorem apply_get? (r : Registry κ α) (op : RegOp κ α) (name : κ) (hr : (r.getD []).NodupKeys) :
    ((op.apply r).getD []).NodupKeys ∧
    (op.apply r).get? name =
      match op with
      | .register n x => if n = name then some x else r.get? name
      | .del n => if n = name then none else r.get? name
      | .clearAll => none := by
  cases op with
  | register n x =>
    refine ⟨?_, ?_⟩
    · simpa [RegOp.apply, Registry.register] using Dict.nodupKeys_set _ _ _ hr
    · simp only [RegOp.apply, Registry.register, Registry.get?, Option.getD_some]
      rw [Dict.get?_set]
  | del n =>
    cases r with
    | none => simp [RegOp.apply, Registry.del, Registry.get?, Dict.NodupKeys, Dict.keys]
    | some d =>
      simp only [Option.getD_some] at hr
      by_cases hm : d.mem n = true
      · simp only [RegOp.apply, Registry.del, hm, if_true, Registry.get?, Option.getD_some]
        refine ⟨Dict.nodupKeys_erase _ _ hr, ?_⟩
        by_cases h : n = name
        · subst h; simp [Dict.get?_erase_self _ _ hr]
        · simp [h, Dict.get?_erase_ne _ h]
      · have hm' : d.mem n = false := by simpa using hm
        simp only [RegOp.apply, Registry.del, hm', Registry.get?, Option.getD_some]
        refine ⟨hr, ?_⟩
        by_cases h : n = name
        · subst h
          simp only [if_true]
          rw [Dict.get?_eq_none_iff]
          intro hk
          exact hm ((Dict.mem_iff d n).2 hk)
        · simp [h]
  | clearAll => simp [RegOp.apply, Registry.clearAll, Registry.get?, Dict.NodupKeys, Dict.keys]

theorem foldl_nodup (ops : List (RegOp κ α)) (r : Registry κ α) (hr : (r.getD []).NodupKeys) :
    ((ops.foldl RegOp.apply r).getD []).NodupKeys := by
  induction ops generalizing r with
  | nil => exact hr
  | cons op ops ih =>
    refine ih _ ?_
    cases op with
    | register n x => exact (apply_get? r (.register n x) n hr).1
    | del n => exact (apply_get? r (.del n) n hr).1
    | clearAll => simp [RegOp.apply, Registry.clearAll, Dict.NodupKeys, Dict.keys]

theorem get_ok_iff (r : Registry κ α) (name : κ) (x : α) :
    r.get name = .ok x ↔ r.get? name = some x := by
  cases r with
  | none => simp [Registry.get, Registry.get?]
  | some d =>
    simp only [Registry.get, Registry.get?, Option.getD_some]
    cases Dict.get? d name <;> simp

/-- C05: after any history of registrations, deletions (successful or failing) and `clear_all`
calls, starting from a fresh class, `Cls[name]` returns `x` iff `x` was registered under `name`
at some point after which no call registered `name` anew, deleted `name` or cleared everything.
In particular calls concerning other names have no influence; and in all other cases the lookup
fails. -/
theorem C05_last_writer_wins (ops : List (RegOp κ α)) (name : κ) (x : α) :
    (ops.foldl RegOp.apply (none : Registry κ α)).get name = .ok x ↔
      ∃ pre post, ops = pre ++ RegOp.register name x :: post ∧
        ∀ op ∈ post, ¬ op.touches name := by
  rw [get_ok_iff]
  induction ops using List.reverseRecOn with
  | nil => simp [Registry.get?]
  | append_singleton ops op ih =>
    rw [List.foldl_append]
    simp only [List.foldl_cons, List.foldl_nil]
    have hn := foldl_nodup ops (none : Registry κ α) (by simp [Dict.NodupKeys, Dict.keys])
    rw [(apply_get? _ op name hn).2]
    -- histories ending in `op`
    have key : (∃ pre post, ops ++ [op] = pre ++ RegOp.register name x :: post ∧
        ∀ o ∈ post, ¬ o.touches name) ↔
        (op = .register name x) ∨ (¬ op.touches name ∧
          ∃ pre post, ops = pre ++ RegOp.register name x :: post ∧ ∀ o ∈ post, ¬ o.touches name) := by
      constructor
      · rintro ⟨pre, post, he, hp⟩
        rcases List.eq_nil_or_concat post with rfl | ⟨post', o, rfl⟩
        · left
          have := congrArg List.getLast? he
          simpa using this
        · right
          simp only [List.concat_eq_append] at he hp ⊢
          have he' : ops ++ [op] = (pre ++ RegOp.register name x :: post') ++ [o] := by
            rw [he]; simp
          obtain ⟨h1, h2⟩ := List.append_inj' he' rfl
          simp only [List.cons.injEq, and_true] at h2
          subst h2
          exact ⟨hp _ (by simp), pre, post', h1, fun o ho => hp o (by simp [ho])⟩
      · rintro (rfl | ⟨ht, pre, post, rfl, hp⟩)
        · exact ⟨ops, [], rfl, by simp⟩
        · refine ⟨pre, post ++ [op], by simp, ?_⟩
          intro o ho
          rcases List.mem_append.1 ho with h | h
          · exact hp o h
          · simp at h; subst h; exact ht
    rw [key, ← ih]
    cases op with
    | register n y =>
      by_cases h : n = name
      · subst h; simp [RegOp.touches]
      · simp [h, RegOp.touches]
    | del n =>
      by_cases h : n = name
      · subst h; simp [RegOp.touches]
      · simp [h, RegOp.touches]
    | clearAll => simp [RegOp.touches]

/-- C05: operations that do not concern a name do not change the outcome of its lookup
(value or failure; the kind of failure may be AttributeError instead of KeyError if nothing
was ever registered). -/
theorem C05_other_names (ops post : List (RegOp κ α)) (name : κ) (x : α)
    (h : ∀ op ∈ post, ¬ op.touches name) :
    ((ops ++ post).foldl RegOp.apply (none : Registry κ α)).get name = .ok x ↔
      (ops.foldl RegOp.apply (none : Registry κ α)).get name = .ok x := by
  induction post using List.reverseRecOn with
  | nil => simp
  | append_singleton post op ih =>
    rw [← ih (fun o ho => h o (by simp [ho])), ← List.append_assoc, List.foldl_append]
    simp only [List.foldl_cons, List.foldl_nil, get_ok_iff]
    rw [(apply_get? _ op name (foldl_nodup _ _ (by simp [Dict.NodupKeys, Dict.keys]))).2]
    have ht := h op (by simp)
    cases op with
    | register n y =>
      have : n ≠ name := by simpa [RegOp.touches] using ht
      simp [this]
    | del n =>
      have : n ≠ name := by simpa [RegOp.touches] using ht
      simp [this]
    | clearAll => simp [RegOp.touches] at ht

end C05

/-- Non-vacuity of C05: re-registration wins, another name's deletion is harmless. -/
example : ([.register "a" 1, .register "b" 5, .register "a" 2, .del "b", .del "zz"].foldl RegOp.apply
    (none : Registry String ℕ)).get "a" = .ok 2 := by
  rw [C05_last_writer_wins]
  exact ⟨[.register "a" 1, .register "b" 5], [.del "b", .del "zz"], rfl, by simp [RegOp.touches]⟩

/-! ## C06 -/

/-- C06: a basis whose parent is a loaded, different basis of the same EFT gets, for each sector,
its own definition if it has one and otherwise the parent's; it can afterwards be looked up; and
every other basis (in particular the parent) is as before. -/
theorem C06_inherits (st : Bases) (eft basis parent : String) (own ps : Dict String (Dict String Info))
    (pb : Basis) (hne : parent ≠ basis) (hp : st.bases.get? (eft, parent) = some pb)
    (hps : pb.sectors = some ps) (hown : own.NodupKeys) :
    ∃ b secs, (Basis.init st eft basis own (some parent)).1 = .ok b ∧
      b.sectors = some secs ∧
      (∀ s, secs.get? s = match own.get? s with | some d => some d | none => ps.get? s) ∧
      (Basis.init st eft basis own (some parent)).2.bases.get? (eft, basis) = some b ∧
      ∀ e n, (e, n) ≠ (eft, basis) →
        (Basis.init st eft basis own (some parent)).2.bases.get? (e, n) = st.bases.get? (e, n) := by
  have h0 : (Registry.register st.bases (eft, basis)
      ({ eft, basis, parent := some parent, sectors := none } : Basis)).get? (eft, parent) = some pb := by
    simp only [Registry.register, Registry.get?, Option.getD_some]
    rw [Dict.get?_set_ne _ _ (by simp [hne.symm])]
    exact hp
  refine ⟨{ eft, basis, parent := some parent, sectors := some (ps.update own) }, ps.update own,
    ?_, rfl, ?_, ?_, ?_⟩
  · simp [Basis.init, h0, hps]
  · intro s
    rw [Dict.get?_update _ _ hown]
    cases own.get? s <;> simp
  · simp only [Basis.init, h0, hps]
    simp [Registry.register, Registry.get?, Dict.get?_set_self]
  · intro e n hen
    simp only [Basis.init, h0, hps]
    simp only [Registry.register, Registry.get?, Option.getD_some]
    rw [Dict.get?_set_ne _ _ hen.symm]

/-- C06: a basis without parent has its own sectors and is registered. -/
theorem C06_no_parent (st : Bases) (eft basis : String) (own : Dict String (Dict String Info)) :
    ∃ b, (Basis.init st eft basis own none).1 = .ok b ∧ b.sectors = some own ∧
      (Basis.init st eft basis own none).2.bases.get? (eft, basis) = some b := by
  refine ⟨_, rfl, rfl, ?_⟩
  simp [Basis.init, Registry.register, Registry.get?, Dict.get?_set_self]

/-- C06: an unknown parent raises ValueError. -/
theorem C06_unknown_parent (st : Bases) (eft basis parent : String)
    (own : Dict String (Dict String Info)) (hne : parent ≠ basis)
    (hp : st.bases.get? (eft, parent) = none) :
    (Basis.init st eft basis own (some parent)).1 = .error .valueError := by
  have h0 : (Registry.register st.bases (eft, basis)
      ({ eft, basis, parent := some parent, sectors := none } : Basis)).get? (eft, parent) = none := by
    simp only [Registry.register, Registry.get?, Option.getD_some]
    rw [Dict.get?_set_ne _ _ (by simp [hne.symm])]
    exact hp
  simp [Basis.init, h0]

/-- C06, violated part: whenever the load fails, the unusable basis is nevertheless found in the
registry afterwards (and has no sectors), replacing whatever was registered there. -/
theorem C06_failed_load_violation (st : Bases) (eft basis : String)
    (own : Dict String (Dict String Info)) (parent : Option String) (e : Exc)
    (h : (Basis.init st eft basis own parent).1 = .error e) :
    ∃ b, (Basis.init st eft basis own parent).2.bases.get? (eft, basis) = some b ∧
      b.sectors = none := by
  refine ⟨{ eft, basis, parent, sectors := none }, ?_, rfl⟩
  unfold Basis.init at h ⊢
  cases parent with
  | none => simp at h
  | some p =>
    simp only at h ⊢
    split
    · rename_i pb hpb
      rw [hpb] at h
      split
      · rename_i ps hps
        simp [hps] at h
      · simp [Registry.register, Registry.get?, Dict.get?_set_self]
    · simp [Registry.register, Registry.get?, Dict.get?_set_self]

/-- C06, negation of "a failed load leaves the registry unchanged": a previously good basis is
destroyed by a failed reload. -/
theorem C06_not_atomic : ∃ (st : Bases) (b : Basis) (own : Dict String (Dict String Info)),
    st.bases.get? ("E", "b") = some b ∧ b.sectors = some own ∧
    (Basis.init st "E" "b" own (some "missing")).1 = .error .valueError ∧
    (Basis.init st "E" "b" own (some "missing")).2.bases.get? ("E", "b") ≠ some b := by
  refine ⟨⟨none, some [(("E", "b"), ⟨"E", "b", none, some []⟩)]⟩, ⟨"E", "b", none, some []⟩, [], ?_, rfl, ?_, ?_⟩
  · simp [Registry.get?, Dict.get?]
  · apply C06_unknown_parent <;> simp [Registry.get?, Dict.get?]
  · obtain ⟨b, hb, hs⟩ := C06_failed_load_violation ⟨none, some [(("E", "b"), ⟨"E", "b", none, some []⟩)]⟩
      "E" "b" [] (some "missing") .valueError
      (by apply C06_unknown_parent <;> simp [Registry.get?, Dict.get?])
    rw [hb]
    intro h
    rw [Option.some.injEq] at h
    rw [h] at hs
    simp at hs

/-- Non-vacuity of C06_inherits. -/
example : ∃ (st : Bases) (pb : Basis) (ps own : Dict String (Dict String Info)),
    st.bases.get? ("E", "p") = some pb ∧ pb.sectors = some ps ∧ own.NodupKeys ∧
    ps.get? "s" ≠ none ∧ own.get? "s" = none ∧ own ≠ [] :=
  ⟨⟨none, some [(("E", "p"), ⟨"E", "p", none, some [("s", [])]⟩)]⟩, ⟨"E", "p", none, some [("s", [])]⟩,
    [("s", [])], [("t", [])], by simp [Registry.get?, Dict.get?], rfl,
    by simp [Dict.NodupKeys, Dict.keys], by simp [Dict.get?], by simp [Dict.get?], by simp⟩

/-! ## C08 -/

theorem filter_extra (l : Dict String String)
    (h : ∀ k ∈ Dict.keys l, k.toList.head? ≠ some '_') :
    Dict.filterKV (fun k (_ : Attr) => decide (k.toList.head? ≠ some '_')) (l.mapVal Attr.str)
      = l.mapVal Attr.str := by
  unfold Dict.filterKV
  rw [List.filter_eq_self]
  intro kv hkv
  have : kv.1 ∈ Dict.keys l := by
    simp only [Dict.mapVal, List.mem_map] at hkv
    obtain ⟨x, hx, rfl⟩ := hkv
    exact List.mem_map.2 ⟨x, hx, rfl⟩
  simpa using h _ this

/-- C08: reading back what `dump` wrote gives the same EFT, basis, scale, values and metadata,
for metadata names that are not private and do not collide with the four main attributes. -/
theorem C08_dump_load (wc : WC)
    (hpub : ∀ k ∈ Dict.keys wc.extra, k.toList.head? ≠ some '_')
    (hres : ∀ k ∈ Dict.keys wc.extra, k ≠ "eft" ∧ k ≠ "basis" ∧ k ≠ "scale" ∧ k ≠ "values") :
    WC.ofDict wc.dumpDict = .ok wc := by
  have hd : wc.dumpDict =
      ([("eft", .str wc.eft), ("basis", .str wc.basis), ("scale", .num wc.scale),
       ("values", .values wc.values)] : Dict String Attr) ++ wc.extra.mapVal Attr.str := by
    have := filter_extra wc.extra hpub
    unfold Dict.filterKV at this
    unfold WC.dumpDict WC.attrs Dict.filterKV
    rw [List.filter_append, this]
    congr 1
    simp
  rw [hd]
  have hex : (wc.extra.mapVal Attr.str).filterMap (fun kv =>
      if kv.1 = "eft" ∨ kv.1 = "basis" ∨ kv.1 = "scale" ∨ kv.1 = "values" then none
      else match kv.2 with
        | .str s => some (kv.1, s)
        | _ => none) = wc.extra := by
    unfold Dict.mapVal
    rw [List.filterMap_map]
    conv_rhs => rw [← List.filterMap_some (l := wc.extra)]
    apply List.filterMap_congr
    intro kv hkv
    obtain ⟨h1, h2, h3, h4⟩ := hres kv.1 (List.mem_map.2 ⟨kv, hkv, rfl⟩)
    simp [h1, h2, h3, h4]
  simp only [WC.ofDict, List.cons_append, Dict.get?_cons, List.nil_append]
  simp
  cases wc
  simp only [WC.mk.injEq, true_and]
  exact hex

/-- C08: attributes with a leading underscore (caches, hash) are never written. -/
theorem C08_private_not_written (wc : WC) :
    ∀ k ∈ Dict.keys wc.dumpDict, k.toList.head? ≠ some '_' := by
  intro k hk
  simp only [WC.dumpDict, Dict.filterKV, Dict.keys, List.mem_map, List.mem_filter,
    decide_eq_true_eq] at hk
  obtain ⟨x, ⟨_, hx⟩, rfl⟩ := hk
  exact hx

/-- Non-vacuity of C08: a file with metadata. -/
example : let wc : WC := ⟨"WET", "JMS", 160, [("a", .reim (some 1) none)], [("comment", "hi")]⟩
    WC.ofDict wc.dumpDict = .ok wc := by
  apply C08_dump_load <;> simp [Dict.keys]

end Verif
