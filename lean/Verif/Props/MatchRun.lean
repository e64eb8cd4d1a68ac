import Verif.Lemmas.MatchRun
import Verif.Spec.MatchRun
import Verif.Spec.Options
import Mathlib.Tactic.Linarith
import Mathlib.Tactic.NormNum

/-! # Properties C13-C17: `match_run` -/

set_option autoImplicit false
set_option linter.unusedSimpArgs false
open Classical

namespace Verif
open Spec

/-! ## C14 -/

theorem history_meta (B : Backend) (parse : String → Option ℝ) (defaults : Dict String OptVal)
    (s : Wilson) (ops : List Op) (hs : MetaInv s.inst.cache) :
    MetaInv (s.run B parse defaults ops).inst.cache := by
  unfold Wilson.run
  induction ops generalizing s with
  | nil => exact hs
  | cons op ops ih =>
    refine ih _ ?_
    cases op with
    | matchRun x e b sec => exact (matchRun_meta hs x e b sec).1
    | clearCache => exact metaInv_nil
    | setOption k v =>
      simp only [Wilson.step, setOption]
      split
      · exact hs
      · split
        · exact hs
        · exact metaInv_nil

/-- C14: on an instance created with an empty cache, after any history of `match_run`,
`set_option` and `clear_cache` calls, whatever `match_run` returns has the requested EFT, basis
and scale. -/
theorem C14_result_metadata (B : Backend) (parse : String → Option ℝ) (defaults : Dict String OptVal)
    (s : Wilson) (h0 : s.inst.cache = []) (ops : List Op) (scale : ℝ) (eft basis : String)
    (sectors : Sectors) (r : WC)
    (hr : (s.run B parse defaults ops).result B defaults scale eft basis sectors = .ok r) :
    r.eft = eft ∧ r.basis = basis ∧ r.scale = scale := by
  have hm := history_meta B parse defaults s ops (by rw [h0]; exact metaInv_nil)
  exact (matchRun_meta hm scale eft basis sectors).2 r hr

/-! ## C13 -/

section C13
variable {B : Backend} {o : Opts}

/-- The cache invariant: every entry is what a fresh instance returns, except that the entry for
the WET coefficients at the matching scale is the intermediate result. -/
def FreshInv (B : Backend) (o : Opts) (wc : WC) (c : Cache) : Prop :=
  ∀ s x e b w, Cache.get c s x e b = some w →
    (¬ AtMatchingScale o wc x e b s ∧ fresh B o wc x e b s = .ok w) ∨
    (AtMatchingScale o wc x e b s ∧ (smeftToWet B o wc).1 = .ok w)

theorem freshInv_nil (wc : WC) : FreshInv B o wc [] := by
  intro s x e b w h
  simp at h

theorem freshInv_set {wc : WC} {c : Cache} (h : FreshInv B o wc c) {s : Sectors} {x : ℝ}
    {e b : String} {w : WC}
    (hw : (¬ AtMatchingScale o wc x e b s ∧ fresh B o wc x e b s = .ok w) ∨
      (AtMatchingScale o wc x e b s ∧ (smeftToWet B o wc).1 = .ok w)) :
    FreshInv B o wc (c.set s x e b w) := by
  intro s' x' e' b' w' hg
  rw [Cache.get_set] at hg
  split at hg
  · rename_i hk
    obtain ⟨rfl, rfl, rfl, rfl⟩ := hk
    cases hg
    exact hw
  · exact h _ _ _ _ _ hg

/-- WET running to the scale one already is at changes nothing. -/
def WetRunIdentity (B : Backend) : Prop :=
  ∀ eft d x s q1 q2, B.wetEvolve eft d x x s q1 q2 = .ok d

/-- fresh result for a SMEFT to (non-SMEFT) request -/
theorem fresh_smeft_wet {wc : WC} {x : ℝ} {e b : String} {s : Sectors} (h1 : wc.eft = "SMEFT")
    (h2 : e ≠ "SMEFT") :
    fresh B o wc x e b s = match (smeftToWet B o wc).1 with
      | .error er => .error er
      | .ok w => (wetPart B o w x e b s).1 := by
  unfold fresh matchRun
  have h3 : ¬ wc.eft = e := by rw [h1]; exact Ne.symm h2
  simp only [Cache.get_nil]
  rw [if_neg (fun h => h3 h.2.1), if_neg (fun h => h3 h.1), if_pos h1, if_neg h2]
  rcases smeftToWet B o wc with ⟨r, l⟩
  cases r with
  | error er => rfl
  | ok w => simp only [storing_fst]

theorem fresh_smeft_smeft {wc : WC} {x : ℝ} {b : String} {s : Sectors} (h1 : wc.eft = "SMEFT")
    (h2 : x ≠ wc.scale) :
    fresh B o wc x "SMEFT" b s = (smeftToSmeft B o wc x b s).1 := by
  unfold fresh matchRun
  simp only [Cache.get_nil]
  rw [if_neg (fun h => h2 h.2.2), if_neg (fun h => h2 h.2), if_pos h1, if_pos trivial, storing_fst]

theorem smeftToSmeft_warsaw {wc : WC} {x : ℝ} {b : String} (s s' : Sectors) (hb : wc.basis = "Warsaw") :
    smeftToSmeft B o wc x b s = smeftToSmeft B o wc x b s' := by
  unfold smeftToSmeft
  have : ∀ s, B.translate wc "Warsaw" (some (selfParams B o)) s = (.ok wc, []) := by
    intro s
    simp [Backend.translate, WC.translate, hb]
  simp only [this]

theorem wetPart_identity (hid : WetRunIdentity B) {w : WC} (he : w.eft = "WET") (hb : w.basis = "JMS")
    (hx : w.extra = []) (hv : ∃ d, w.values = dict2values d) :
    (wetPart B o w w.scale "WET" "JMS" .all).1 = .ok w := by
  have hdict : ∀ d : Dict String ℂ, dict2values (Dict.mapVal Val.toNumber (dict2values d)) = dict2values d := by
    intro d
    unfold dict2values Dict.mapVal
    simp only [List.map_map]
    apply List.map_congr_left
    intro kv _
    simp only [Function.comp]
    congr 2
    unfold Val.ofNumber
    split
    · apply Complex.ext <;> simp [Val.toNumber]
    · rename_i h
      simp only [ne_eq, not_not] at h
      apply Complex.ext <;> simp [Val.toNumber, h]
  obtain ⟨d, hd⟩ := hv
  obtain ⟨we, wb, ws, wv, wx⟩ := w
  simp only at he hb hx hd
  subst he hb hx hd
  have hrun : B.wetRun ⟨"WET", "JMS", ws, dict2values d, []⟩ ws .all o.qed o.qcd =
      (.ok ⟨"WET", "JMS", ws, dict2values d, []⟩, [.wetRun "WET" ws ws .all o.qed o.qcd]) := by
    unfold Backend.wetRun
    rw [if_neg (by simp), if_neg (by simp)]
    simp only [hid _ _ _ _ _ _, WC.dict, hdict]
  simp [wetPart, wetRunTranslate, hrun, Phys.andThen, Backend.translate, WC.translate]

theorem smeftToWet_shape {wc w : WC} (hs : wc.eft = "SMEFT") (h : (smeftToWet B o wc).1 = .ok w) :
    w.extra = [] ∧ ∃ d, w.values = dict2values d := by
  have hm : ∀ v r : WC, v.eft = "SMEFT" → (B.match v "WET" "JMS" (some (selfMatchParams B o))).1 = .ok r →
      r.extra = [] ∧ ∃ d, r.values = dict2values d := by
    intro v r hv hr
    simp only [Backend.match, WC.match, hv] at hr
    simp only [show ¬ ("WET" = "SMEFT") by decide, false_and, if_false] at hr
    split at hr
    · cases hr
    · unfold matcherApply at hr
      split at hr
      · cases hr
      · cases hr
        exact ⟨rfl, _, rfl⟩
  unfold smeftToWet at h
  split at h
  · exact hm _ _ hs h
  · obtain ⟨w1, _, h2, _⟩ := andThen_ok h
    obtain ⟨w2, h3, h4, _⟩ := andThen_ok h2
    exact hm _ _ (smeftRun_meta h3).1 h4

/-- One `match_run` on a cache satisfying the invariant: the result is the fresh one, and the
invariant is kept. -/
theorem matchRun_fresh {wc : WC} {c : Cache} (hc : FreshInv B o wc c) (x : ℝ) (e b : String)
    (s : Sectors) (h1 : ¬ SectorRestrictedSmeft wc x e s)
    (h2 : ¬ AtMatchingScale o wc x e b s ∨ WetRunIdentity B) :
    (matchRun B o wc c x e b s).1.1 = fresh B o wc x e b s ∧
    FreshInv B o wc (matchRun B o wc c x e b s).2 := by
  -- with the identity hypothesis the special entry equals the fresh result, too
  have special : AtMatchingScale o wc x e b s → ∀ w, (smeftToWet B o wc).1 = .ok w →
      fresh B o wc x e b s = .ok w := by
    rintro ⟨ha, rfl, rfl, rfl, rfl⟩ w hw
    have hid : WetRunIdentity B := by
      rcases h2 with h | h
      · exact absurd ⟨ha, rfl, rfl, rfl, rfl⟩ h
      · exact h
    rw [fresh_smeft_wet ha (by decide), hw]
    obtain ⟨m1, m2, m3⟩ := smeftToWet_meta hw
    obtain ⟨m4, m5⟩ := smeftToWet_shape ha hw
    have := wetPart_identity (o := o) hid m1 m2 m4 m5
    rw [m3] at this
    exact this
  have store : ∀ (p : Phys WC) (c' : Cache) (f : WC → Cache), FreshInv B o wc c' →
      p.1 = fresh B o wc x e b s →
      (∀ w, p.1 = .ok w → FreshInv B o wc (f w)) →
      (storing p c' f).1.1 = fresh B o wc x e b s ∧ FreshInv B o wc (storing p c' f).2 := by
    intro p c' f hc' hp hf
    rw [storing_fst]
    refine ⟨hp, ?_⟩
    rcases storing_snd p c' f with ⟨w, hw, he⟩ | he
    · rw [he]; exact hf w hw
    · rw [he]; exact hc'
  -- storing the result under the request's key
  have stdKey : ∀ (c' : Cache), FreshInv B o wc c' → ∀ w, fresh B o wc x e b s = .ok w →
      FreshInv B o wc (c'.set s x e b w) := by
    intro c' hc' w hw
    refine freshInv_set hc' ?_
    by_cases ha : AtMatchingScale o wc x e b s
    · right
      refine ⟨ha, ?_⟩
      have hs := special ha
      obtain ⟨ha1, rfl, rfl, rfl, rfl⟩ := ha
      rw [fresh_smeft_wet ha1 (by decide)] at hw hs
      cases hsw : (smeftToWet B o wc).1 with
      | error er => rw [hsw] at hw; cases hw
      | ok w' =>
        rw [hsw] at hw hs
        have := hs w' rfl
        rw [this] at hw
        exact hw
    · exact Or.inl ⟨ha, hw⟩
  unfold matchRun
  split
  · rename_i w hw
    refine ⟨?_, hc⟩
    rcases hc _ _ _ _ _ hw with ⟨_, h⟩ | ⟨ha, h⟩
    · exact h.symm
    · exact (special ha w h).symm
  · split
    · rename_i h
      refine ⟨?_, hc⟩
      simp [fresh, matchRun, h]
    · rename_i hA
      split
      · rename_i h
        have hf : (B.translate wc b (some (selfParams B o)) s.forTranslate).1 = fresh B o wc x e b s := by
          unfold fresh matchRun
          simp only [Cache.get_nil]
          rw [if_neg hA, if_pos h, storing_fst]
        exact store _ _ _ hc hf (fun w hw => stdKey c hc w (by rw [← hf]; exact hw))
      · rename_i hB
        split
        · rename_i hE
          split
          · rename_i he
            subst he
            have hx : x ≠ wc.scale := fun hx => hB ⟨hE, hx⟩
            have hf := fresh_smeft_smeft (B := B) (o := o) (b := b) (s := s) hE hx
            refine store _ _ _ hc hf.symm (fun w hw => ?_)
            obtain ⟨_, mb, _⟩ := smeftToSmeft_meta hw
            rw [mb]
            refine freshInv_set hc (Or.inl ⟨?_, ?_⟩)
            · rintro ⟨_, h, _⟩
              exact absurd h (by decide)
            · rw [fresh_smeft_smeft hE hx]
              by_cases hs : s = .all
              · rw [← hs]; exact hw
              · have hb : wc.basis = "Warsaw" := by
                  by_contra hb
                  exact h1 ⟨hE, rfl, hs, hx, hb⟩
                rw [smeftToSmeft_warsaw .all s hb]
                exact hw
          · rename_i he
            have hfw := fresh_smeft_wet (B := B) (o := o) (x := x) (b := b) (s := s) hE he
            have hsp : ∀ wcEw, (smeftToWet B o wc).1 = .ok wcEw →
                FreshInv B o wc (c.set .all o.scaleEw wcEw.eft wcEw.basis wcEw) := by
              intro wcEw hw
              obtain ⟨m1, m2, m3⟩ := smeftToWet_meta hw
              rw [m1, m2]
              exact freshInv_set hc (Or.inr ⟨⟨hE, rfl, rfl, rfl, rfl⟩, hw⟩)
            split
            · rename_i wcEw hew
              have hw : (smeftToWet B o wc).1 = .ok wcEw := by
                rcases hc _ _ _ _ _ hew with ⟨ha, _⟩ | ⟨_, h⟩
                · exact absurd ⟨hE, rfl, rfl, rfl, rfl⟩ ha
                · exact h
              rw [hw] at hfw
              exact store _ _ _ (hsp wcEw hw) hfw.symm
                (fun w h => stdKey _ (hsp wcEw hw) w (by rw [hfw]; exact h))
            · split
              · rename_i er l hew
                rw [hew] at hfw
                exact ⟨hfw.symm, hc⟩
              · rename_i wcEw l hew
                have hw : (smeftToWet B o wc).1 = .ok wcEw := by rw [hew]
                rw [hw] at hfw
                exact store _ _ _ (hsp wcEw hw) hfw.symm
                  (fun w h => stdKey _ (hsp wcEw hw) w (by rw [hfw]; exact h))
        · rename_i hE
          split
          · rename_i hW
            have hf : ((B.translate wc "JMS" (some (selfParams B o)) s.forTranslate).andThen fun w =>
                wetPart B o w x e b s).1 = fresh B o wc x e b s := by
              unfold fresh matchRun
              simp only [Cache.get_nil]
              rw [if_neg hA, if_neg hB, if_neg hE, if_pos hW, storing_fst]
            exact store _ _ _ hc hf (fun w hw => stdKey c hc w (by rw [← hf]; exact hw))
          · rename_i hW
            refine ⟨?_, hc⟩
            unfold fresh matchRun
            simp only [Cache.get_nil]
            rw [if_neg hA, if_neg hB, if_neg hE, if_neg hW]

/-- The requests not covered by `C13_cache_transparent_partial`. -/
def Excluded (wc : WC) : Opts → ℝ → String → String → Sectors → Prop :=
  fun o x e b s => SectorRestrictedSmeft wc x e s ∨ AtMatchingScale o wc x e b s

theorem run_fresh (parse : String → Option ℝ) (defaults : Dict String OptVal)
    (Bad : Opts → ℝ → String → String → Sectors → Prop) (s : Wilson) (ops : List Op)
    (hBad : ∀ o x e b sec, ¬ Bad o x e b sec → ¬ SectorRestrictedSmeft s.wc x e sec ∧
      (¬ AtMatchingScale o s.wc x e b sec ∨ WetRunIdentity B))
    (hs : FreshInv B (readOpts defaults s.inst) s.wc s.inst.cache)
    (hav : Avoids Bad B parse defaults s ops) :
    (s.run B parse defaults ops).wc = s.wc ∧
    FreshInv B (readOpts defaults (s.run B parse defaults ops).inst) s.wc
      (s.run B parse defaults ops).inst.cache := by
  unfold Wilson.run
  induction ops generalizing s with
  | nil => exact ⟨rfl, hs⟩
  | cons op ops ih =>
    simp only [List.foldl_cons]
    obtain ⟨hop, hav'⟩ := hav
    have hwc : (s.step B parse defaults op).wc = s.wc := by cases op <;> rfl
    have hinv : FreshInv B (readOpts defaults (s.step B parse defaults op).inst) s.wc
        (s.step B parse defaults op).inst.cache := by
      cases op with
      | matchRun x e b sec =>
        obtain ⟨h1, h2⟩ := hBad _ _ _ _ _ hop
        exact (matchRun_fresh hs x e b sec h1 h2).2
      | clearCache => exact freshInv_nil _
      | setOption k v =>
        simp only [Wilson.step, setOption]
        split
        · exact hs
        · split
          · exact hs
          · exact freshInv_nil _
    rw [← hwc] at hinv
    obtain ⟨h3, h4⟩ := ih _ (by rw [hwc]; exact hBad) hinv hav'
    rw [hwc] at h3 h4
    exact ⟨h3, h4⟩

/-- C13 (partial): for every backend and every history of `match_run`, `set_option` and
`clear_cache` calls that avoids (a) sector-restricted SMEFT-to-SMEFT requests from a basis other
than Warsaw and (b) requests for the WET coefficients exactly at the electroweak matching scale,
a further such `match_run` returns what a newly created instance with the same coefficients and
the current options returns.  Missing from the full property: (a) is violated
(`C13_sector_violation`), (b) needs that running to the same scale is the identity
(`C13_cache_transparent`, `C13_matchingscale_violation`). -/
theorem C13_cache_transparent_partial (B : Backend) (parse : String → Option ℝ)
    (defaults : Dict String OptVal) (s : Wilson) (h0 : s.inst.cache = []) (ops : List Op)
    (hav : Avoids (Excluded s.wc) B parse defaults s ops)
    (scale : ℝ) (eft basis : String) (sectors : Sectors)
    (hlast : ¬ Excluded s.wc (readOpts defaults (s.run B parse defaults ops).inst) scale eft basis sectors) :
    (s.run B parse defaults ops).result B defaults scale eft basis sectors =
      fresh B (readOpts defaults (s.run B parse defaults ops).inst) s.wc scale eft basis sectors := by
  obtain ⟨hwc, hinv⟩ := run_fresh (B := B) parse defaults (Excluded s.wc) s ops
    (fun o x e b sec h => ⟨fun h' => h (Or.inl h'), Or.inl fun h' => h (Or.inr h')⟩)
    (by rw [h0]; exact freshInv_nil _) hav
  unfold Wilson.result
  rw [hwc]
  exact (matchRun_fresh hinv scale eft basis sectors (fun h => hlast (Or.inl h))
    (Or.inl fun h => hlast (Or.inr h))).1

/-- C13: if WET running to the scale one already is at changes nothing, then the results of
`match_run(sectors='all')` are transparent over every history of `match_run(sectors='all')`,
`set_option` and `clear_cache` calls; more generally of all histories without sector-restricted
SMEFT-to-SMEFT requests from a basis other than Warsaw. -/
theorem C13_cache_transparent (B : Backend) (hid : WetRunIdentity B) (parse : String → Option ℝ)
    (defaults : Dict String OptVal) (s : Wilson) (h0 : s.inst.cache = []) (ops : List Op)
    (hav : Avoids (fun _ x e _ sec => SectorRestrictedSmeft s.wc x e sec) B parse defaults s ops)
    (scale : ℝ) (eft basis : String) (sectors : Sectors)
    (hlast : ¬ SectorRestrictedSmeft s.wc scale eft sectors) :
    (s.run B parse defaults ops).result B defaults scale eft basis sectors =
      fresh B (readOpts defaults (s.run B parse defaults ops).inst) s.wc scale eft basis sectors := by
  obtain ⟨hwc, hinv⟩ := run_fresh (B := B) parse defaults _ s ops
    (fun o x e b sec h => ⟨h, Or.inr hid⟩)
    (by rw [h0]; exact freshInv_nil _) hav
  unfold Wilson.result
  rw [hwc]
  exact (matchRun_fresh hinv scale eft basis sectors hlast (Or.inr hid)).1

/-- Histories with `sectors='all'` only satisfy the hypothesis of `C13_cache_transparent`. -/
theorem avoids_of_all (B : Backend) (parse : String → Option ℝ) (defaults : Dict String OptVal)
    (wc : WC) (s : Wilson) (ops : List Op)
    (h : ∀ x e b sec, Op.matchRun x e b sec ∈ ops → sec = .all) :
    Avoids (fun _ x e _ sec => SectorRestrictedSmeft wc x e sec) B parse defaults s ops := by
  induction ops generalizing s with
  | nil => trivial
  | cons op ops ih =>
    refine ⟨?_, ih _ (fun x e b sec hm => h x e b sec (by simp [hm]))⟩
    cases op with
    | matchRun x e b sec =>
      have := h x e b sec (by simp)
      simp [SectorRestrictedSmeft, this]
    | _ => trivial

end C13

/-- A test backend: one translator `B1 → Warsaw` honouring `sectors`, all matchers copy, SMEFT
running copies, WET running multiplies by `f`. -/
noncomputable def testBackend (f : ℂ) : Backend where
  ph := { translators := some [(("SMEFT", "B1", "Warsaw"), fun d _ _ s =>
            match s with | none => .ok d | some _ => .ok [])],
          matchers := some [(("SMEFT", "Warsaw", "WET", "JMS"), fun d _ _ => .ok d),
            (("WET", "JMS", "WET-4", "JMS"), fun d _ _ => .ok d)] }
  defaultParams := []
  smeftEvolve := fun d _ _ _ => .ok d
  wetEvolve := fun _ d _ _ _ _ _ => .ok (d.mapVal fun v => f * v)

/-- The options of a new instance. -/
noncomputable def defaultInstance : Instance Cache := Instance.create importDefaults []

theorem readOpts_default : readOpts importDefaults defaultInstance =
    ⟨"integrate", 1, 1, 0, 91.1876, 4.2, 1.3, []⟩ := by
  simp [readOpts, optStr, optNum, optParams, getOption, importDefaults, defaultInstance,
    Instance.create, Dict.get?]

theorem ofNumber_one : Val.ofNumber 1 = .num 1 := by simp [Val.ofNumber]

/-- C13, violated for restricted sectors: after a sector-restricted SMEFT-to-SMEFT request, the
unrestricted request returns the restricted result. -/
theorem C13_sector_violation :
    ∃ (B : Backend) (parse : String → Option ℝ) (s : Wilson) (op : Op) (scale : ℝ),
      s.inst = defaultInstance ∧
      (s.run B parse importDefaults [op]).result B importDefaults scale "SMEFT" "Warsaw" .all ≠
        fresh B (readOpts importDefaults (s.run B parse importDefaults [op]).inst) s.wc
          scale "SMEFT" "Warsaw" .all := by
  refine ⟨testBackend 1, fun _ => none,
    ⟨⟨"SMEFT", "B1", 1000, [("x", .num 1)], []⟩, defaultInstance⟩,
    .matchRun 2000 "SMEFT" "Warsaw" (.tuple ["dB=de"]), 2000, rfl, ?_⟩
  have hns : ¬ ((2000 : ℝ) = 1000) := by norm_num
  simp [Wilson.run, Wilson.step, Wilson.result, fresh, matchRun, defaultInstance, Instance.create,
    hns, smeftToSmeft, Backend.translate, WC.translate, testBackend, Registry.get?, Dict.get?,
    Sectors.forTranslate, translatorApply, Phys.andThen, Backend.smeftRun, storing, Cache.get,
    Cache.set, Phys.ret, WC.dict, Dict.mapVal, dict2values, dropZeros, Dict.filterKV, Val.toNumber,
    ofNumber_one, Dict.set]

/-- C13, without the identity hypothesis: for a backend whose WET running is not the identity, a
request at the matching scale changes the result of a later request. -/
theorem C13_matchingscale_violation :
    ∃ (B : Backend) (parse : String → Option ℝ) (s : Wilson) (op : Op) (scale : ℝ),
      s.inst = defaultInstance ∧
      (s.run B parse importDefaults [op]).result B importDefaults scale "WET" "JMS" .all ≠
        fresh B (readOpts importDefaults (s.run B parse importDefaults [op]).inst) s.wc
          scale "WET" "JMS" .all := by
  refine ⟨testBackend 2, fun _ => none,
    ⟨⟨"SMEFT", "Warsaw", 1000, [("x", .num 1)], []⟩, defaultInstance⟩,
    .matchRun 91.1876 "WET" "JMS" .all, 5, rfl, ?_⟩
  have hi : ∀ c, readOpts importDefaults (⟨importDefaults, c⟩ : Instance Cache) =
    ⟨"integrate", 1, 1, 0, 91.1876, 4.2, 1.3, []⟩ := fun c => by
      simp [readOpts, optStr, optNum, optParams, getOption, importDefaults, Dict.get?]
  have hns : ¬ ((1000 : ℝ) = 91.1876) := by norm_num
  have hns2 : ¬ ((91.1876 : ℝ) = 5) := by norm_num
  have h2 : Val.ofNumber 2 = .num 2 := by simp [Val.ofNumber]
  have h4 : Val.ofNumber (2 * 2) = .num 4 := by norm_num [Val.ofNumber]
  have hne : ¬ ((4 : ℝ) = 2) := by norm_num
  simp [Wilson.run, Wilson.step, Wilson.result, fresh, matchRun, defaultInstance, Instance.create,
    hns, hns2, smeftToWet, Backend.translate, WC.translate, testBackend, Registry.get?, Dict.get?,
    Sectors.forTranslate, Phys.andThen, Backend.smeftRun, Backend.match, WC.match, matcherApply,
    wetPart, wetRunTranslate, Backend.wetRun, storing, Cache.get,
    Cache.set, Phys.ret, WC.dict, Dict.mapVal, dict2values, dropZeros, Dict.filterKV, Val.toNumber,
    ofNumber_one, h2, h4, hne, Dict.set, hi]

/-- Non-vacuity of C13: a history with a SMEFT request, a WET request at the matching scale, a
`set_option` and another request, on a backend with the identity property. -/
example : ∃ (B : Backend) (s : Wilson) (ops : List Op), WetRunIdentity B ∧ s.inst.cache = [] ∧
    ops.length = 4 ∧ Avoids (fun _ x e _ sec => SectorRestrictedSmeft s.wc x e sec) B (fun _ => none)
      importDefaults s ops := by
  refine ⟨testBackend 1, ⟨⟨"SMEFT", "B1", 1000, [("x", .num 1)], []⟩, defaultInstance⟩,
    [.matchRun 2000 "SMEFT" "Warsaw" .all, .matchRun 91.1876 "WET" "JMS" .all,
     .setOption "qed_order" (.num 0), .matchRun 3 "WET-4" "JMS" .all], ?_, rfl, rfl, ?_⟩
  · intro eft d x s q1 q2
    simp [testBackend, Dict.mapVal]
  · apply avoids_of_all
    simp
    rintro x e b sec (⟨_, _, _, rfl⟩ | ⟨_, _, _, rfl⟩ | ⟨_, _, _, rfl⟩) <;> rfl

end Verif
