import Verif.Model.Threshold
import Verif.Props.WCxf

/-!
# C57: threshold matching is a restriction
-/

set_option autoImplicit false

open Classical

namespace Verif

theorem match_threshold {st : Bases} {ph : Physics} (hT : HasThresholds st ph) {e b e' b' : String}
    (hn : (e, b, e', b') ∈ thresholdMatchers) (B : Basis) (hB : st.bases.get? (e', b') = some B)
    (names : List String) (hk : B.allWcs = .ok names) (wc : WC) (he : wc.eft = e) (hb : wc.basis = b)
    (p : Option Params) :
    wc.match ph e' b' p = .ok (⟨e', b', wc.scale,
      dict2values (dropZeros (wc.dict.filterKV fun k _ => decide (k ∈ names))), []⟩ : WC) := by
  have hne : ¬ (e' = wc.eft ∧ b' = wc.basis) := by
    have : ∀ n ∈ thresholdMatchers, n.2.2.1 ≠ n.1 := by decide
    rintro ⟨h, -⟩
    exact this _ hn (h.trans he)
  unfold WC.match
  rw [if_neg hne, he, hb, hT _ hn]
  have hs : st.bases ≠ none := by
    intro h; rw [h] at hB; simp [Registry.get?] at hB
  obtain ⟨r, hr⟩ := Option.ne_none_iff_exists'.1 hs
  have : thresholdMatch st e' b' wc.dict wc.scale p
      = .ok (wc.dict.filterKV fun k _ => decide (k ∈ names)) := by
    unfold thresholdMatch
    rw [hr] at hB ⊢
    simp only [hB, hk]
    rfl
  simp only [matcherApply, this]

theorem getItem_restrict (wc : WC) (hd : wc.values.NodupKeys) (names : List String) (k : String)
    (e b : String) (s : ℝ) :
    WC.getItem (⟨e, b, s,
      dict2values (dropZeros (wc.dict.filterKV fun k _ => decide (k ∈ names))), []⟩ : WC) k
      = if k ∈ names then wc.getItem k else 0 := by
  have hd' : wc.dict.NodupKeys := by
    unfold Dict.NodupKeys WC.dict; rw [Dict.keys_mapVal]; exact hd
  unfold WC.getItem
  simp only [WC.dict, dict2values, Dict.get?_mapVal, dropZeros]
  have hd' : (Dict.mapVal Val.toNumber wc.values).NodupKeys := hd'
  rw [Dict.get?_filterKV _ _ (Dict.nodupKeys_filterKV _ _ hd'), Dict.get?_filterKV _ _ hd']
  have e1 : Dict.get? (Dict.mapVal Val.toNumber wc.values) k = (wc.values.get? k).map Val.toNumber :=
    Dict.get?_mapVal _ _ _
  rw [e1]
  cases hg : wc.values.get? k with
  | none => by_cases hk : k ∈ names <;> simp [hk]
  | some v =>
    by_cases hk : k ∈ names
    · by_cases hz : v.toNumber = 0
      · simp [hk, hz, Option.filter]
      · simp [hk, hz, Option.filter, toNumber_ofNumber]
    · simp [hk, Option.filter]

theorem nodup_restrict (wc : WC) (hd : wc.values.NodupKeys) (names : List String) :
    (dict2values (dropZeros (wc.dict.filterKV fun k _ => decide (k ∈ names)))).NodupKeys := by
  have hd' : wc.dict.NodupKeys := by
    unfold Dict.NodupKeys WC.dict; rw [Dict.keys_mapVal]; exact hd
  unfold Dict.NodupKeys dict2values
  rw [Dict.keys_mapVal]
  exact Dict.nodupKeys_filterKV _ _ (Dict.nodupKeys_filterKV _ _ hd')

/-- **C57.** Matching at a threshold always succeeds and returns exactly the coefficients that exist in
the lower theory, with unchanged values and scale, whatever the parameters. -/
theorem C57_restriction {st : Bases} {ph : Physics} (hT : HasThresholds st ph) {e b e' b' : String}
    (hn : (e, b, e', b') ∈ thresholdMatchers) (B : Basis) (hB : st.bases.get? (e', b') = some B)
    (names : List String) (hk : B.allWcs = .ok names) (wc : WC) (hd : wc.values.NodupKeys)
    (he : wc.eft = e) (hb : wc.basis = b) (p : Option Params) :
    ∃ out, wc.match ph e' b' p = .ok out ∧ out.eft = e' ∧ out.basis = b' ∧ out.scale = wc.scale ∧
      (∀ k, out.getItem k = if k ∈ names then wc.getItem k else 0) ∧
      ∀ k ∈ out.values.keys, k ∈ names ∧ k ∈ wc.values.keys := by
  refine ⟨_, match_threshold hT hn B hB names hk wc he hb p, rfl, rfl, rfl, fun k => ?_, fun k hk' => ?_⟩
  · exact getItem_restrict wc hd names k e' b' wc.scale
  · have h1 : k ∈ (dropZeros (wc.dict.filterKV fun k _ => decide (k ∈ names))).keys := by
      simpa [dict2values] using hk'
    have h2 := (Dict.keys_filterKV_sublist _ _).subset h1
    obtain ⟨⟨k', v⟩, hmem, rfl⟩ := List.mem_map.1 h2
    rw [Dict.filterKV, List.mem_filter] at hmem
    refine ⟨by simpa using hmem.2, ?_⟩
    have : k' ∈ wc.dict.keys := List.mem_map.2 ⟨_, hmem.1, rfl⟩
    simpa [WC.dict] using this

/-- **C57.** Two steps: the result is the restriction to the names that exist in both lower theories;
in particular, names absent from the intermediate theory are lost even if the last one has them. -/
theorem C57_two_steps {st : Bases} {ph : Physics} (hT : HasThresholds st ph)
    {e b e' b' e'' b'' : String} (hn : (e, b, e', b') ∈ thresholdMatchers)
    (hn' : (e', b', e'', b'') ∈ thresholdMatchers) (B B' : Basis)
    (hB : st.bases.get? (e', b') = some B) (hB' : st.bases.get? (e'', b'') = some B')
    (names names' : List String) (hk : B.allWcs = .ok names) (hk' : B'.allWcs = .ok names') (wc : WC)
    (hd : wc.values.NodupKeys) (he : wc.eft = e) (hb : wc.basis = b) (p p' : Option Params) :
    ∃ mid out, wc.match ph e' b' p = .ok mid ∧ mid.match ph e'' b'' p' = .ok out ∧
      out.eft = e'' ∧ out.basis = b'' ∧ out.scale = wc.scale ∧
      ∀ k, out.getItem k = if k ∈ names ∧ k ∈ names' then wc.getItem k else 0 := by
  refine ⟨_, _, match_threshold hT hn B hB names hk wc he hb p,
    match_threshold hT hn' B' hB' names' hk' _ rfl rfl p', rfl, rfl, rfl, fun k => ?_⟩
  rw [getItem_restrict _ (nodup_restrict wc hd names) names' k, getItem_restrict wc hd names k]
  by_cases h1 : k ∈ names <;> by_cases h2 : k ∈ names' <;> simp [h1, h2]

/-- **C57.** If every coefficient of the lower theories exists in the intermediate one, two steps are the
restriction to the lowest theory. -/
theorem C57_two_steps_nested {st : Bases} {ph : Physics} (hT : HasThresholds st ph)
    {e b e' b' e'' b'' : String} (hn : (e, b, e', b') ∈ thresholdMatchers)
    (hn' : (e', b', e'', b'') ∈ thresholdMatchers) (B B' : Basis)
    (hB : st.bases.get? (e', b') = some B) (hB' : st.bases.get? (e'', b'') = some B')
    (names names' : List String) (hk : B.allWcs = .ok names) (hk' : B'.allWcs = .ok names')
    (hsub : ∀ k ∈ names', k ∈ names) (wc : WC)
    (hd : wc.values.NodupKeys) (he : wc.eft = e) (hb : wc.basis = b) (p p' : Option Params) :
    ∃ mid out, wc.match ph e' b' p = .ok mid ∧ mid.match ph e'' b'' p' = .ok out ∧
      ∀ k, out.getItem k = if k ∈ names' then wc.getItem k else 0 := by
  obtain ⟨mid, out, h1, h2, -, -, -, h3⟩ :=
    C57_two_steps hT hn hn' B B' hB hB' names names' hk hk' wc hd he hb p p'
  refine ⟨mid, out, h1, h2, fun k => ?_⟩
  rw [h3 k]
  by_cases hk : k ∈ names'
  · simp [hk, hsub k hk]
  · simp [hk]

/-- **C57.** The threshold matchers are among the registered ones, and there is exactly one from each
of the bases flavio, Bern and JMS at each threshold above WET-3, plus one from WET-3 to WET-2. -/
theorem C57_registered : ∀ n ∈ thresholdMatchers, n ∈ registeredMatchers ∧ n.2.1 = n.2.2.2 ∧
    ((n.1, n.2.2.1) = ("WET", "WET-4") ∨ (n.1, n.2.2.1) = ("WET-4", "WET-3") ∨
      (n.1, n.2.2.1) = ("WET-3", "WET-2")) := by
  decide

theorem C57_all : ∀ n ∈ registeredMatchers, n.1 ≠ "SMEFT" → n ∈ thresholdMatchers := by decide

/-! ### A concrete case -/

namespace Threshold.Example

def b4 : Basis := ⟨"WET-4", "JMS", none, some [("sd", [("V_1", none), ("V_2", none)])]⟩
def b3 : Basis := ⟨"WET-3", "JMS", none, some [("sd", [("V_2", none), ("V_3", none)])]⟩
def st : Bases := { bases := some [(("WET-4", "JMS"), b4), (("WET-3", "JMS"), b3)] }
noncomputable def ph : Physics :=
  { translators := none
    matchers := some (thresholdMatchers.map fun n => (n, thresholdMatch st n.2.2.1 n.2.2.2)) }

theorem has : HasThresholds st ph := by
  intro n hn
  simp only [thresholdMatchers, List.mem_cons, List.not_mem_nil, or_false] at hn
  rcases hn with rfl | rfl | rfl | rfl | rfl | rfl | rfl <;>
    simp [ph, Registry.get?, thresholdMatchers, Dict.get?_cons]

/-- `V_1` and `V_3` are lost on the way from WET to WET-3, `V_2` survives -/
example : ∃ mid out, WC.match ph ⟨"WET", "JMS", 80, [("V_1", .num 1), ("V_2", .num 2), ("V_3", .num 3)], []⟩
      "WET-4" "JMS" none = .ok mid ∧ mid.match ph "WET-3" "JMS" none = .ok out ∧
    out.getItem "V_1" = 0 ∧ out.getItem "V_2" = 2 ∧ out.getItem "V_3" = 0 := by
  obtain ⟨mid, out, h1, h2, -, -, -, h3⟩ := C57_two_steps has
    (by decide : ("WET", "JMS", "WET-4", "JMS") ∈ thresholdMatchers)
    (by decide : ("WET-4", "JMS", "WET-3", "JMS") ∈ thresholdMatchers) b4 b3 rfl rfl
    ["V_1", "V_2"] ["V_2", "V_3"] rfl rfl
    ⟨"WET", "JMS", 80, [("V_1", .num 1), ("V_2", .num 2), ("V_3", .num 3)], []⟩
    (by simp [Dict.NodupKeys, Dict.keys]) rfl rfl none none
  refine ⟨mid, out, h1, h2, ?_, ?_, ?_⟩ <;> rw [h3] <;>
    simp [WC.getItem, WC.dict, Dict.mapVal, Dict.get?_cons, Val.toNumber]

end Threshold.Example

end Verif
