import Verif.Lemmas.WetRunsFF
import Verif.Lemmas.WetRunsFB
import Verif.Lemmas.WetValid
import Verif.Lemmas.WetCheckTri

/-!
# Pairs of translators
-/

set_option autoImplicit false
set_option maxRecDepth 100000

namespace Verif.WetApply
open Verif.Py Verif.Gen.WetOut Verif.WetNames

/-- The names of the arguments are spelled out in the syntax trees. -/
theorem run_eq {f : String} {F : List (ℕ × Sym)} (hF : outputs (code f) = .ok F) (P : Params) (C : Dict String ℂ) :
    run f P C = .ok (tail f C (values (inputsOf P C) F)) := by
  unfold run
  rw [hF]
  rfl

theorem chain_run {f g : String} {F G bad : List (ℕ × Sym)} {ok okG : ℕ → Bool} (hF : outputs (code f) = .ok F)
    (hG : outputs (code g) = .ok G) (vF : validL F = true) (vG : validL G = true)
    (htf : ∀ C d n, validN n = true → ok n = true → (tail f C d).get? (decode n) = d.get? (decode n))
    (htg : ∀ C d n, validN n = true → okG n = true → (tail g C d).get? (decode n) = d.get? (decode n))
    (oG : allSyms (inpsAll ok) G = true) (kG : allKeys okG G = true)
    (hc : checkBack (treeOf F) (treeOf bad) G = true) {P : Params} (hP : Physical P) (C : Dict String ℂ) :
    ∃ D E, run f P C = .ok D ∧ run g P D = .ok E ∧ ∀ n s, look n G = some s →
      E.get? (decode n) = some ((target' n (look n bad)).eval (inputsOf P C)) := by
  refine ⟨_, _, run_eq hF P C, run_eq hG P _, fun n s hs => ?_⟩
  have hm := look_mem hs
  have hn := (validL_mem vG _ hm).1
  rw [htg _ _ _ hn (allKeys_mem kG _ hm)]
  exact value_chain hP C _ vF (fun m hm ho => htf _ _ _ hm ho) vG oG hc hn hs

theorem allKeys_true (l : List (ℕ × Sym)) : allKeys (fun _ => true) l = true := by
  induction l with
  | nil => rfl
  | cons p l ih => show cond _ _ _ = true; rw [ih]; rfl

theorem tail_none {f : String} (h1 : f ≠ "JMS_to_flavio") (h2 : f ≠ "flavio_to_JMS") (C d : Dict String ℂ) :
    tail f C d = d := by
  rw [tail, if_neg h1, if_neg h2]

theorem tail_valid : (tailJ.all fun p => validN p.1 && validN p.2) = true := by decide +kernel

theorem look_none {α : Type} {n : ℕ} : ∀ {l : List (ℕ × α)}, look n l = none → ∀ p ∈ l, p.1 ≠ n
  | [], _, _, h => by cases h
  | (k, v) :: l, h, p, hm => by
    unfold look at h
    cases hk : Nat.beq k n with
    | true => rw [hk] at h; cases h
    | false =>
      rw [hk, cond_false] at h
      rcases List.mem_cons.1 hm with rfl | hm
      · intro e
        rw [show k = n from e, Nat.beq_refl] at hk
        cases hk
      · exact look_none h p hm

theorem dlep_eq : dlep = tailJ.map fun p => (decode p.1, decode p.2) := rfl

theorem tail_forward (C d : Dict String ℂ) (n : ℕ) (hn : validN n = true) (ho : outside (treeOf tailF) n = true) :
    (tail "JMS_to_flavio" C d).get? (decode n) = d.get? (decode n) := by
  rw [tail, if_pos rfl]
  refine forward_other C _ _ fun p hp e => ?_
  rw [dlep_eq] at hp
  obtain ⟨q, hq, rfl⟩ := List.mem_map.1 hp
  have hv := List.all_eq_true.1 tail_valid q hq
  rw [Bool.and_eq_true] at hv
  have := decode_inj hv.2 hn e
  exact look_none (outside_sound ho) (q.2, q.1) (List.mem_map.2 ⟨q, hq, rfl⟩) this

theorem tail_backward (C d : Dict String ℂ) (n : ℕ) (hn : validN n = true) (ho : outside (treeOf tailJ) n = true) :
    (tail "flavio_to_JMS" C d).get? (decode n) = d.get? (decode n) := by
  rw [tail, if_neg (by decide), if_pos rfl]
  refine backward_other C _ _ fun p hp e => ?_
  rw [dlep_eq] at hp
  obtain ⟨q, hq, rfl⟩ := List.mem_map.1 hp
  have hv := List.all_eq_true.1 tail_valid q hq
  rw [Bool.and_eq_true] at hv
  have := decode_inj hv.1 hn e
  exact look_none (outside_sound ho) q hq this

theorem out_JB : outputs (code "JMS_to_Bern") = .ok JMS_to_Bern := by
  rw [show code "JMS_to_Bern" = n!"JMS_to_Bern" by decide +kernel]; exact run_JMS_to_Bern
theorem out_BJ : outputs (code "Bern_to_JMS") = .ok Bern_to_JMS := by
  rw [show code "Bern_to_JMS" = n!"Bern_to_JMS" by decide +kernel]; exact run_Bern_to_JMS
theorem out_JF : outputs (code "JMS_to_flavio") = .ok JMS_to_flavio := by
  rw [show code "JMS_to_flavio" = n!"JMS_to_flavio" by decide +kernel]; exact run_JMS_to_flavio
theorem out_FJ : outputs (code "flavio_to_JMS") = .ok flavio_to_JMS := by
  rw [show code "flavio_to_JMS" = n!"flavio_to_JMS" by decide +kernel]; exact run_flavio_to_JMS
theorem out_BF : outputs (code "Bern_to_flavio") = .ok Bern_to_flavio := by
  rw [show code "Bern_to_flavio" = n!"Bern_to_flavio" by decide +kernel]; exact run_Bern_to_flavio
theorem out_FB : outputs (code "flavio_to_Bern") = .ok flavio_to_Bern := by
  rw [show code "flavio_to_Bern" = n!"flavio_to_Bern" by decide +kernel]; exact run_flavio_to_Bern

theorem notail {f : String} (h1 : f ≠ "JMS_to_flavio") (h2 : f ≠ "flavio_to_JMS") (C d : Dict String ℂ) (n : ℕ)
    (_ : validN n = true) (_ : true = true) : (tail f C d).get? (decode n) = d.get? (decode n) := by
  rw [tail_none h1 h2]

variable {P : Params} (hP : Physical P) (C : Dict String ℂ)
include hP

theorem back_JBJ : ∃ D E, run "JMS_to_Bern" P C = .ok D ∧ run "Bern_to_JMS" P D = .ok E ∧
    ∀ n s, look n Bern_to_JMS = some s → E.get? (decode n) = some ((target' n (look n [])).eval (inputsOf P C)) :=
  chain_run (ok := fun _ => true) (okG := fun _ => true) out_JB out_BJ valid_JMS_to_Bern valid_Bern_to_JMS
    (notail (by decide) (by decide)) (notail (by decide) (by decide)) (allSyms_true _) (allKeys_true _) check_JBJ hP C

theorem back_BJB : ∃ D E, run "Bern_to_JMS" P C = .ok D ∧ run "JMS_to_Bern" P D = .ok E ∧
    ∀ n s, look n JMS_to_Bern = some s → E.get? (decode n) = some ((target' n (look n [])).eval (inputsOf P C)) :=
  chain_run (ok := fun _ => true) (okG := fun _ => true) out_BJ out_JB valid_Bern_to_JMS valid_JMS_to_Bern
    (notail (by decide) (by decide)) (notail (by decide) (by decide)) (allSyms_true _) (allKeys_true _) check_BJB hP C

theorem back_BFB : ∃ D E, run "Bern_to_flavio" P C = .ok D ∧ run "flavio_to_Bern" P D = .ok E ∧
    ∀ n s, look n flavio_to_Bern = some s →
      E.get? (decode n) = some ((target' n (look n sevens)).eval (inputsOf P C)) :=
  chain_run (ok := fun _ => true) (okG := fun _ => true) out_BF out_FB valid_Bern_to_flavio valid_flavio_to_Bern
    (notail (by decide) (by decide)) (notail (by decide) (by decide)) (allSyms_true _) (allKeys_true _) check_BFB hP C

theorem back_FBF : ∃ D E, run "flavio_to_Bern" P C = .ok D ∧ run "Bern_to_flavio" P D = .ok E ∧
    ∀ n s, look n Bern_to_flavio = some s →
      E.get? (decode n) = some ((target' n (look n lostSd)).eval (inputsOf P C)) :=
  chain_run (ok := fun _ => true) (okG := fun _ => true) out_FB out_BF valid_flavio_to_Bern valid_Bern_to_flavio
    (notail (by decide) (by decide)) (notail (by decide) (by decide)) (allSyms_true _) (allKeys_true _) check_FBF hP C

theorem back_JFJ : ∃ D E, run "JMS_to_flavio" P C = .ok D ∧ run "flavio_to_JMS" P D = .ok E ∧
    ∀ n s, look n flavio_to_JMS = some s →
      E.get? (decode n) = some ((target' n (look n lostTensors)).eval (inputsOf P C)) :=
  chain_run out_JF out_FJ valid_JMS_to_flavio valid_flavio_to_JMS tail_forward tail_backward
    reads_flavio_to_JMS writes_flavio_to_JMS check_JFJ hP C

theorem back_FJF : ∃ D E, run "flavio_to_JMS" P C = .ok D ∧ run "JMS_to_flavio" P D = .ok E ∧
    ∀ n s, look n JMS_to_flavio = some s → E.get? (decode n) = some ((target' n (look n [])).eval (inputsOf P C)) :=
  chain_run out_FJ out_JF valid_flavio_to_JMS valid_JMS_to_flavio tail_backward tail_forward
    reads_JMS_to_flavio writes_JMS_to_flavio check_FJF hP C

theorem back_JBF : ∃ D E, run "JMS_to_Bern" P C = .ok D ∧ run "Bern_to_flavio" P D = .ok E ∧
    ∀ n s, look n Bern_to_flavio = some s →
      E.get? (decode n) = some ((target' n (look n JMS_to_flavio)).eval (inputsOf P C)) :=
  chain_run (ok := fun _ => true) (okG := fun _ => true) out_JB out_BF valid_JMS_to_Bern valid_Bern_to_flavio
    (notail (by decide) (by decide)) (notail (by decide) (by decide)) (allSyms_true _) (allKeys_true _) check_JBF hP C

omit hP in
theorem reads_flavio_to_Bern : allSyms (inpsAll (outside (treeOf tailF))) flavio_to_Bern = true := by decide +kernel

theorem back_JFB : ∃ D E, run "JMS_to_flavio" P C = .ok D ∧ run "flavio_to_Bern" P D = .ok E ∧
    ∀ n s, look n flavio_to_Bern = some s →
      E.get? (decode n) = some ((target' n (look n sevensTri)).eval (inputsOf P C)) :=
  chain_run (okG := fun _ => true) out_JF out_FB valid_JMS_to_flavio valid_flavio_to_Bern tail_forward
    (notail (by decide) (by decide)) reads_flavio_to_Bern (allKeys_true _) check_JFB hP C

end Verif.WetApply
