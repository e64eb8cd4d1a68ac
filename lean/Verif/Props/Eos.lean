import Verif.Lemmas.Eos

/-!
# C60: the EOS parameter file adds exactly the new-physics part
-/

set_option autoImplicit false

namespace Verif.Eos
open Verif Verif.EFT

/-- An EOS parameter `...Re{...}...` (`...Im{...}...`) that is not itself a coefficient gets
the real (imaginary) part of the coefficient it names. -/
theorem C60_part {wc : Dict Str ℂ} {name coeff : Str} {z : ℂ} (hno : wc.get? name = none)
    (hz : wc.get? coeff = some z) :
    (PartOf "Re".toList name coeff → getEosNp name wc = .ok z.re) ∧
    (PartOf "Im".toList name coeff → getEosNp name wc = .ok z.im) := by
  constructor
  · intro h
    have h1 : contains "Re{".toList name = true := contains_part h
    have h2 : unwrap "Re{".toList name = coeff := unwrap_part (by decide) h
    unfold getEosNp
    simp only [hno, h1, h2, if_true, branch, hz]
  · intro h
    have h1 : contains "Im{".toList name = true := contains_part h
    have h2 : unwrap "Im{".toList name = coeff := unwrap_part (by decide) h
    have h3 := not_contains_re h
    unfold getEosNp
    simp only [hno, h1, h2, h3, if_true, branch, hz]
    simp

/-- An EOS parameter with the name of a coefficient gets its real part. -/
theorem C60_direct {wc : Dict Str ℂ} {name : Str} {z : ℂ} (hz : wc.get? name = some z) :
    getEosNp name wc = .ok z.re := by
  unfold getEosNp
  simp only [hz]

/-- Charged currents: the parameter names the lepton-universal coefficient `..lnu..`, which
is not in the file.  If one of its electron and muon members is, both have to be equal, and
the parameter gets their real (imaginary) part; otherwise the conversion is rejected. -/
theorem C60_charged_current {wc : Dict Str ℂ} {name coeff ke km : Str}
    (hno : wc.get? name = none) (hno' : wc.get? coeff = none)
    (he : Member coeff "enue".toList ke) (hm : Member coeff "munumu".toList km)
    (hin : ke ∈ wc.keys ∨ km ∈ wc.keys) :
    (wc.getD ke 0 = wc.getD km 0 →
      (PartOf "Re".toList name coeff → getEosNp name wc = .ok (wc.getD ke 0).re) ∧
      (PartOf "Im".toList name coeff → getEosNp name wc = .ok (wc.getD ke 0).im)) ∧
    (wc.getD ke 0 ≠ wc.getD km 0 →
      PartOf "Re".toList name coeff ∨ PartOf "Im".toList name coeff →
      getEosNp name wc = .error .valueError) := by
  have hmem : (wc.mem ke || wc.mem km) = true := by
    rcases hin with h | h
    · rw [(Dict.mem_iff _ _).2 h]; rfl
    · rw [(Dict.mem_iff _ _).2 h, Bool.or_true]
  have hb : ∀ part : ℂ → ℝ, branch part wc coeff =
      open Classical in if wc.getD ke 0 ≠ wc.getD km 0 then .error .valueError
        else .ok (part (wc.getD ke 0)) := by
    intro part
    unfold branch
    simp only [hno', replace_member he, replace_member hm, hmem, if_true]
  have hre : PartOf "Re".toList name coeff → getEosNp name wc = branch Complex.re wc coeff := by
    intro h
    have h1 : contains "Re{".toList name = true := contains_part h
    have h2 : unwrap "Re{".toList name = coeff := unwrap_part (by decide) h
    unfold getEosNp
    simp only [hno, h1, h2, if_true]
  have him : PartOf "Im".toList name coeff → getEosNp name wc = branch Complex.im wc coeff := by
    intro h
    have h1 : contains "Im{".toList name = true := contains_part h
    have h2 : unwrap "Im{".toList name = coeff := unwrap_part (by decide) h
    have h3 := not_contains_re h
    unfold getEosNp
    simp only [hno, h1, h2, h3, if_true]
    simp
  refine ⟨fun e => ⟨fun h => ?_, fun h => ?_⟩, fun e h => ?_⟩
  · rw [hre h, hb, if_neg (by simpa using e)]
  · rw [him h, hb, if_neg (by simpa using e)]
  · rcases h with h | h
    · rw [hre h, hb, if_pos e]
    · rw [him h, hb, if_pos e]

/-- No coefficient: neither the parameter, nor the coefficient it names, nor an electron or
muon member of it is in the file.  Then there is no new-physics part. -/
theorem C60_absent {wc : Dict Str ℂ} {name : Str} (hno : wc.get? name = none) :
    (contains "Re{".toList name = false → contains "Im{".toList name = false →
      getEosNp name wc = .ok 0) ∧
    (∀ coeff, PartOf "Re".toList name coeff ∨ PartOf "Im".toList name coeff →
      wc.get? coeff = none →
      (∀ a b, coeff ≠ a ++ ("lnu".toList ++ b)) ∨ (∃ ke km, Member coeff "enue".toList ke ∧
        Member coeff "munumu".toList km ∧ ke ∉ wc.keys ∧ km ∉ wc.keys) →
      getEosNp name wc = .ok 0) := by
  refine ⟨fun h1 h2 => ?_, fun coeff hp hc hl => ?_⟩
  · unfold getEosNp
    simp only [hno, h1, h2]
    simp
  · have hmem : (wc.mem (replace "lnu".toList "enue".toList coeff) ||
        wc.mem (replace "lnu".toList "munumu".toList coeff)) = false := by
      rcases hl with h | ⟨ke, km, he, hm, h1, h2⟩
      · rw [replace, replace, replaceAux_absent _ _ _ _ h, replaceAux_absent _ _ _ _ h]
        simp [Dict.mem, hc]
      · rw [replace_member he, replace_member hm]
        have m1 : ¬ wc.mem ke = true := fun h => h1 ((Dict.mem_iff _ _).1 h)
        have m2 : ¬ wc.mem km = true := fun h => h2 ((Dict.mem_iff _ _).1 h)
        simp only [Bool.not_eq_true] at m1 m2
        rw [m1, m2]; rfl
    have hb : ∀ part : ℂ → ℝ, branch part wc coeff = .ok 0 := by
      intro part
      unfold branch
      simp only [hc, hmem]
      simp
    rcases hp with h | h
    · have h1 : contains "Re{".toList name = true := contains_part h
      have h2 : unwrap "Re{".toList name = coeff := unwrap_part (by decide) h
      unfold getEosNp
      simp only [hno, h1, h2, if_true, hb]
    · have h1 : contains "Im{".toList name = true := contains_part h
      have h2 : unwrap "Im{".toList name = coeff := unwrap_part (by decide) h
      have h3 := not_contains_re h
      unfold getEosNp
      simp only [hno, h1, h2, h3, if_true, hb]
      simp

/-- what one pass of the loop of `wcxf2eos` does -/
private lemma fold_spec (wc : Dict Str ℂ) (sm : Dict Str (Dict Str ℝ)) :
    ∀ acc out : Dict Str (Dict Str ℝ), sm.foldlM (step wc) acc = .ok out → sm.NodupKeys →
      (∀ k, k ∉ sm.keys → out.get? k = acc.get? k) ∧
      ∀ k v, sm.get? k = some v → ∃ x np, v.get? "central".toList = some x ∧
        getEosNp k wc = .ok np ∧ out.get? k = some (entry (x + np)) := by
  induction sm with
  | nil =>
    intro acc out h _
    simp only [List.foldlM_nil] at h
    cases h
    exact ⟨fun _ _ => rfl, fun k v hv => by simp at hv⟩
  | cons kv sm ih =>
    obtain ⟨k0, v0⟩ := kv
    intro acc out h hn
    rw [List.foldlM_cons] at h
    unfold step at h
    cases hc : v0.get? "central".toList with
    | none => simp only [hc] at h; cases h
    | some x =>
      cases hg : getEosNp k0 wc with
      | error e => simp only [hc, hg] at h; cases h
      | ok np =>
        simp only [hc, hg] at h
        have hn' : k0 ∉ Dict.keys sm ∧ Dict.NodupKeys sm := by
          simpa [Dict.NodupKeys, Dict.keys] using hn
        obtain ⟨r1, r2⟩ := ih _ out h hn'.2
        refine ⟨fun k hk => ?_, fun k v hv => ?_⟩
        · have hk' : k ≠ k0 ∧ k ∉ Dict.keys sm := by simpa [Dict.keys] using hk
          rw [r1 k hk'.2, Dict.get?_set_ne _ _ (Ne.symm hk'.1)]
        · rw [Dict.get?_cons] at hv
          by_cases hk : k0 = k
          · subst hk
            rw [if_pos rfl] at hv
            cases hv
            exact ⟨x, np, hc, hg, by rw [r1 _ hn'.1, Dict.get?_set_self]⟩
          · rw [if_neg hk] at hv
            exact r2 k v hv

/-- The parameter file lists exactly the parameters of the SM dictionary; the value (and
minimum and maximum) of each is the SM central value plus the new-physics part. -/
theorem C60_adds {wc : Dict Str ℂ} {sm out : Dict Str (Dict Str ℝ)} (hn : sm.NodupKeys)
    (h : wcxf2eos wc sm = .ok out) :
    (∀ k, k ∈ out.keys ↔ k ∈ sm.keys) ∧
    ∀ k v, sm.get? k = some v → ∃ x np e, v.get? "central".toList = some x ∧
      getEosNp k wc = .ok np ∧ out.get? k = some e ∧
      ∀ q ∈ ["central", "min", "max"], e.get? q.toList = some (x + np) := by
  obtain ⟨r1, r2⟩ := fold_spec wc sm [] out h hn
  refine ⟨fun k => ⟨fun hk => ?_, fun hk => ?_⟩, fun k v hv => ?_⟩
  · by_contra hno
    have := r1 k hno
    rw [Dict.get?_nil, Dict.get?_eq_none_iff] at this
    exact this hk
  · obtain ⟨v, hv⟩ := Option.isSome_iff_exists.1 ((Dict.isSome_get?_iff _ _).2 hk)
    obtain ⟨x, np, -, -, ho⟩ := r2 k v hv
    exact (Dict.isSome_get?_iff _ _).1 (by rw [ho]; rfl)
  · obtain ⟨x, np, h1, h2, h3⟩ := r2 k v hv
    refine ⟨x, np, _, h1, h2, h3, fun q hq => ?_⟩
    simp only [List.mem_cons, List.not_mem_nil, or_false] at hq
    rcases hq with rfl | rfl | rfl <;> rfl

/-- The conversion fails only if an SM entry has no central value or a parameter is
rejected. -/
theorem C60_succeeds {wc : Dict Str ℂ} {sm : Dict Str (Dict Str ℝ)}
    (h : ∀ kv ∈ sm, (∃ x, kv.2.get? "central".toList = some x) ∧ ∃ np, getEosNp kv.1 wc = .ok np) :
    ∃ out, wcxf2eos wc sm = .ok out := by
  have : ∀ acc : Dict Str (Dict Str ℝ), ∃ out, sm.foldlM (step wc) acc = .ok out := by
    induction sm with
    | nil => intro acc; exact ⟨acc, rfl⟩
    | cons kv sm ih =>
      intro acc
      obtain ⟨⟨x, hx⟩, np, hnp⟩ := h kv (List.mem_cons_self)
      rw [List.foldlM_cons]
      simp only [step, hx, hnp]
      exact ih (fun kv hkv => h kv (List.mem_cons_of_mem _ hkv)) _
  exact this []

/-- One rejected parameter rejects the whole file. -/
theorem C60_rejects {wc : Dict Str ℂ} {sm : Dict Str (Dict Str ℝ)} (hn : sm.NodupKeys)
    {k : Str} (hk : k ∈ sm.keys) {e : Exc} (h : getEosNp k wc = .error e) :
    ∃ e', wcxf2eos wc sm = .error e' := by
  cases ho : wcxf2eos wc sm with
  | error e' => exact ⟨e', rfl⟩
  | ok out =>
    obtain ⟨v, hv⟩ := Option.isSome_iff_exists.1 ((Dict.isSome_get?_iff _ _).2 hk)
    obtain ⟨x, np, e0, -, h2, -⟩ := (C60_adds hn ho).2 k v hv
    rw [h] at h2
    cases h2

/-- Non-universality in the tau sector is not noticed: a file with different electron (and
muon) and tau coefficients is accepted. -/
theorem C60_tau_violation : ∃ wc : Dict Str ℂ,
    wc.getD "ubenue::cVL".toList 0 = wc.getD "ubmunumu::cVL".toList 0 ∧
    wc.getD "ubenue::cVL".toList 0 ≠ wc.getD "ubtaunutau::cVL".toList 0 ∧
    getEosNp "ublnu::Re{cVL}".toList wc = .ok 1 := by
  refine ⟨[("ubenue::cVL".toList, 1), ("ubmunumu::cVL".toList, 1), ("ubtaunutau::cVL".toList, 5)],
    ?_, ?_, ?_⟩
  · simp [Dict.getD, Dict.get?]
  · simp [Dict.getD, Dict.get?]
  · have hp : PartOf "Re".toList "ublnu::Re{cVL}".toList "ublnu::cVL".toList :=
      ⟨"ublnu::".toList, "cVL".toList, [], by decide, by decide, by decide, by decide⟩
    have uniq : ∀ a' b', "ublnu::cVL".toList = a' ++ ("lnu".toList ++ b') → a' = "ub".toList := by
      intro a' b' h
      have hl : a'.length ≤ 7 := by
        have := congrArg List.length h
        simp at this
        omega
      have hp : a' = "ublnu::cVL".toList.take a'.length := by rw [h]; simp
      have hq : ("lnu".toList).isPrefixOf ("ublnu::cVL".toList.drop a'.length) = true := by
        rw [h, List.drop_left' rfl, List.isPrefixOf_iff_prefix]; exact ⟨b', rfl⟩
      rw [hp]
      have key : ∀ n ≤ 7, ("lnu".toList).isPrefixOf ("ublnu::cVL".toList.drop n) = true →
          "ublnu::cVL".toList.take n = "ub".toList := by decide
      exact key _ hl hq
    have := ((C60_charged_current (wc := [("ubenue::cVL".toList, 1), ("ubmunumu::cVL".toList, 1),
        ("ubtaunutau::cVL".toList, 5)]) (name := "ublnu::Re{cVL}".toList) (coeff := "ublnu::cVL".toList)
      (ke := "ubenue::cVL".toList) (km := "ubmunumu::cVL".toList) rfl rfl
      ⟨"ub".toList, "::cVL".toList, by decide, by decide, uniq⟩
      ⟨"ub".toList, "::cVL".toList, by decide, by decide, uniq⟩ (.inl (by decide))).1
      (by simp [Dict.getD, Dict.get?])).1 hp
    rw [this]
    simp [Dict.getD, Dict.get?]

/-- a concrete case for the other parameters -/
example : PartOf "Im".toList "b->smumu::Im{c9}".toList "b->smumu::c9".toList ∧
    getEosNp "b->smumu::Im{c9}".toList [("b->smumu::c9".toList, ⟨2, 3⟩)] = .ok 3 := by
  have h : PartOf "Im".toList "b->smumu::Im{c9}".toList "b->smumu::c9".toList :=
    ⟨"b->smumu::".toList, "c9".toList, [], by decide, by decide, by decide, by decide⟩
  exact ⟨h, (C60_part (wc := [("b->smumu::c9".toList, ⟨2, 3⟩)]) (by rfl) rfl).2 h⟩

end Verif.Eos
