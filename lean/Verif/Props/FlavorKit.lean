import Verif.Lemmas.FlavorKit

/-!
# FlavorKit ↔ JMS (C39)
-/

set_option autoImplicit false

namespace Verif.FlavorKit
open Verif Verif.Py

theorem distinct_tables : Distinct d dConj := by
  refine ⟨?_, ?_⟩
  · have h := fk_nodup
    rw [flavorKitNames] at h
    simp only [specials, List.map_cons, List.map_nil]
    exact h
  · have h := jms_nodup
    rw [jmsNames] at h
    simp only [specials, List.map_cons, List.map_nil]
    exact h

/-- The names of the coefficients occur once on both sides. -/
theorem C39_flavorkit_one_to_one : flavorKitNames.Nodup ∧ jmsNames.Nodup := ⟨fk_nodup, jms_nodup⟩

/-- From the FlavorKit basis to the JMS basis and back: the dictionary is restored. -/
theorem C39_flavorkit_to_JMS_and_back (P : WetApply.Params) (ha : 0 < P.par "alpha_e") (he : 0 < P.par "m_e")
    (hm : 0 < P.par "m_mu") (ht : 0 < P.par "m_tau") (C : Dict String ℂ) (hC : C.NodupKeys)
    (hk : ∀ k ∈ C.keys, k ∈ flavorKitNames) :
    ∃ D E, flavorKitToJms P C = .ok D ∧ jmsToFlavorKit P D = .ok E ∧ ∀ x, E.get? x = C.get? x :=
  fk_jms_fk distinct_tables ⟨ha, he, hm, ht⟩ hC fun k h => by
    have := hk k h
    rw [flavorKitNames] at this
    simp only [specials, List.map_cons, List.map_nil]
    exact this

/-- From the JMS basis to the FlavorKit basis and back: the coefficients the FlavorKit basis has are restored, the
other ones are dropped. -/
theorem C39_JMS_to_flavorkit_and_back (P : WetApply.Params) (ha : 0 < P.par "alpha_e") (he : 0 < P.par "m_e")
    (hm : 0 < P.par "m_mu") (ht : 0 < P.par "m_tau") (C : Dict String ℂ) (hC : C.NodupKeys)
    (hk : ∀ k ∈ C.keys, k.toList.takeWhile (· ≠ '_') = "egamma".toList → k ∈ egammaNames) :
    ∃ D E, jmsToFlavorKit P C = .ok D ∧ flavorKitToJms P D = .ok E ∧
      ∀ x, E.get? x = if x ∈ jmsNames then C.get? x else none := by
  obtain ⟨D, E, h1, h2, h3, h4⟩ := jms_fk_jms distinct_tables (p := P.par) ⟨ha, he, hm, ht⟩ hC hk
  have hs : ∀ x, x ∈ jmsNames ↔ x ∈ d.map Prod.snd ++ dConj.map Prod.snd ++ specials.map Prod.snd := by
    intro x
    rw [jmsNames]
    simp only [specials, List.map_cons, List.map_nil]
  refine ⟨D, E, h1, h2, fun x => ?_⟩
  by_cases hx : x ∈ jmsNames
  · rw [if_pos hx]
    exact h3 x ((hs x).1 hx)
  · rw [if_neg hx]
    exact h4 x fun h => hx ((hs x).2 h)

/-- An unknown name is rejected. -/
theorem C39_flavorkit_unknown (P : WetApply.Params) (k : String) (v : ℂ) (hk : k ∉ flavorKitNames)
    (hk' : k.toList.take 4 ≠ "K2R_".toList) : flavorKitToJms P [(k, v)] = .error .valueError := by
  rw [flavorKitNames] at hk
  simp only [List.mem_append, not_or] at hk
  obtain ⟨⟨h1, h2⟩, h3⟩ := hk
  exact unknown P.par h1 h2 (fun e => h3 (by rw [e]; decide +kernel)) (fun e => h3 (by rw [e]; decide +kernel)) hk'

/-- The hypotheses are met by a dictionary with three coefficients. -/
theorem C39_flavorkit_example :
    let C : Dict String ℂ := [("AVLL_2231", 1 + Complex.I), ("K2R_12", 2 * Complex.I), ("K2R_31", 3)]
    C.NodupKeys ∧ ∀ k ∈ C.keys, k ∈ flavorKitNames := by
  refine ⟨by simp [Dict.NodupKeys, Dict.keys], fun k hk => ?_⟩
  rw [flavorKitNames]
  refine List.mem_append_right _ ?_
  simp only [Dict.keys, List.map_cons, List.map_nil, List.mem_cons, List.not_mem_nil, or_false] at hk
  rcases hk with rfl | rfl | rfl <;> decide +kernel

end Verif.FlavorKit
