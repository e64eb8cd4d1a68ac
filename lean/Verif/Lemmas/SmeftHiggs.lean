import Verif.Spec.SmeftHiggs
import Mathlib.Tactic.FieldSimp
import Mathlib.Tactic.LinearCombination
import Mathlib.Tactic.FinCases
import Mathlib.Tactic.Positivity
import Mathlib.LinearAlgebra.Matrix.ConjTranspose

/-!
# Higgs-Warsaw up ↔ Warsaw up: algebra
-/

set_option autoImplicit false
set_option linter.unusedSectionVars false

namespace Verif.SmeftHiggs
open Verif Verif.EFT Verif.Rotation Verif.TranslateSmeft Verif.WetNames

/-! ## Names -/

theorem keys_warsaw (V : Mat) (q : Couplings) (H : String → ℂ) :
    (warsawScalars q H ++ warsawTensors V q H).keys = readsWarsaw.tail := rfl

theorem nodup_warsaw : readsWarsaw.tail.Nodup := by decide +kernel

theorem mem_warsaw : (∀ x ∈ readsWarsaw.tail, x ∈ warsawNames) ∧ ∀ x ∈ warsawNames, x ∈ readsWarsaw.tail := by
  decide +kernel

/-- the names written by `warsaw_up_to_higgslike` -/
def writesHiggs : List String :=
  (loop fun i j =>
    (if i ≤ j then ["deltagWlL", "deltagZeL", "deltagZeR", "deltagZuL", "deltagZdL", "deltagZuR", "deltagZdR"].map
      (ix · i j) else []) ++ [ix "deltagWqR" i j]) ++
  ["deltalambda3", "deltacz", "czBox", "cgg", "cgammagamma", "czz", "czgamma", "cggtilde",
    "cgammagammatilde", "czztilde", "czgammatilde"]

theorem keys_higgs (V : Mat) (q : Couplings) (W : String → ℂ) :
    (higgsTensors V q W ++ higgsScalars q W).keys = writesHiggs := rfl

theorem nodup_higgs : writesHiggs.Nodup := by decide +kernel

theorem mem_higgs : (∀ x ∈ writesHiggs, x ∈ higgsNames) ∧ ∀ x ∈ higgsNames, x ∈ writesHiggs := by
  decide +kernel

theorem readsHiggs_mem : ∀ x ∈ readsHiggs, x = "ll_1221" ∨ x ∈ higgsNames := by decide +kernel

theorem ll_not : "ll_1221" ∉ higgsNames ∧ "ll_1221" ∉ warsawNames := by decide +kernel

/-! ## Couplings -/

theorem item_of {p : Dict String ℝ} {k : String} (h : k ∈ p.keys) : item p k = .ok (p.getD k 0) := by
  obtain ⟨v, hv⟩ := Option.isSome_iff_exists.1 ((Dict.isSome_get?_iff p k).2 h)
  simp [item, hv, Dict.getD]

/-- what the translation needs to know about the couplings -/
structure Good (q : Couplings) : Prop where
  gs : q.gs ≠ 0
  gw : q.gw ≠ 0
  gp : q.gp ≠ 0
  ne : q.gw ^ 2 - q.gp ^ 2 ≠ 0
  s : q.s2w * (q.gw ^ 2 + q.gp ^ 2) = q.gp ^ 2
  c : q.c2w * (q.gw ^ 2 + q.gp ^ 2) = q.gw ^ 2

theorem couplings_ok {p : Dict String ℝ} (h : Physical p) : ∃ q, couplings p = .ok q ∧ Good q := by
  have hk := h.known
  have hp := h.pos
  have ha := h.angle
  simp only [List.mem_cons, List.not_mem_nil, or_false, forall_eq_or_imp, forall_eq] at hk hp
  obtain ⟨k1, k2, k3, k4, k5, -⟩ := hk
  obtain ⟨p1, p2, p3, p4, p5⟩ := hp
  simp only [couplings, item_of k1, item_of k2, item_of k3, item_of k4, item_of k5]
  generalize p.getD "GF" 0 = GF at *
  generalize p.getD "m_h" 0 = mh at *
  generalize p.getD "m_Z" 0 = mZ at *
  generalize p.getD "alpha_e" 0 = ae at *
  generalize p.getD "alpha_s" 0 = as at *
  have s2 : 0 < Real.sqrt 2 := Real.sqrt_pos.2 (by norm_num)
  have hpi := Real.pi_pos
  have A : 0 < Real.sqrt 2 * GF := by positivity
  have Z : 0 < Real.sqrt 2 * GF * mZ ^ 2 := by positivity
  have hr0 : 0 < 4 * Real.pi * ae / (Real.sqrt 2 * GF * mZ ^ 2) := by positivity
  have hr1 : 4 * Real.pi * ae / (Real.sqrt 2 * GF * mZ ^ 2) < 1 := (div_lt_one Z).2 ha
  have e1 : sqrt (Real.sqrt 2 * GF) = .ok (Real.sqrt (Real.sqrt 2 * GF)) := if_neg (not_lt.2 A.le)
  have v1 : 0 < Real.sqrt (Real.sqrt 2 * GF) := Real.sqrt_pos.2 A
  have e2 : divide 1 (Real.sqrt (Real.sqrt 2 * GF)) = .ok (1 / Real.sqrt (Real.sqrt 2 * GF)) := if_neg v1.ne'
  have e3 : divide (mh ^ 2) (2 * (1 / Real.sqrt (Real.sqrt 2 * GF)) ^ 2) =
      .ok (mh ^ 2 / (2 * (1 / Real.sqrt (Real.sqrt 2 * GF)) ^ 2)) := if_neg (by positivity)
  have e4 : sqrt (4 * Real.pi * ae) = .ok (Real.sqrt (4 * Real.pi * ae)) := if_neg (by
    rw [not_lt]; positivity)
  have e5 : divide (4 * Real.pi * ae) (Real.sqrt 2 * GF * mZ ^ 2) =
      .ok (4 * Real.pi * ae / (Real.sqrt 2 * GF * mZ ^ 2)) := if_neg Z.ne'
  have hae : 0 < 4 * Real.pi * ae := by positivity
  have e7 : sqrt (4 * Real.pi * as) = .ok (Real.sqrt (4 * Real.pi * as)) := if_neg (by
    rw [not_lt]; positivity)
  have gs : 0 < Real.sqrt (4 * Real.pi * as) := Real.sqrt_pos.2 (by positivity)
  have ee : 0 < Real.sqrt (4 * Real.pi * ae) := Real.sqrt_pos.2 hae
  generalize 4 * Real.pi * ae / (Real.sqrt 2 * GF * mZ ^ 2) = r at *
  have e6 : sqrt (1 - r) = .ok (Real.sqrt (1 - r)) := if_neg (by rw [not_lt]; linarith)
  have root0 : 0 < Real.sqrt (1 - r) := Real.sqrt_pos.2 (by linarith)
  have root1 : Real.sqrt (1 - r) < 1 := by
    rw [Real.sqrt_lt' one_pos]; linarith
  generalize Real.sqrt (1 - r) = t at *
  generalize Real.sqrt (4 * Real.pi * ae) = e at *
  generalize Real.sqrt (4 * Real.pi * as) = g at *
  have S0 : 0 < 1 / 2 * (1 - t) := by linarith
  have C0 : 0 < 1 - 1 / 2 * (1 - t) := by linarith
  have e8 : sqrt (1 / 2 * (1 - t)) = .ok (Real.sqrt (1 / 2 * (1 - t))) := if_neg (not_lt.2 S0.le)
  have e9 : divide e (Real.sqrt (1 / 2 * (1 - t))) = .ok (e / Real.sqrt (1 / 2 * (1 - t))) :=
    if_neg (Real.sqrt_pos.2 S0).ne'
  have e10 : sqrt (1 - 1 / 2 * (1 - t)) = .ok (Real.sqrt (1 - 1 / 2 * (1 - t))) := if_neg (not_lt.2 C0.le)
  have e11 : divide e (Real.sqrt (1 - 1 / 2 * (1 - t))) = .ok (e / Real.sqrt (1 - 1 / 2 * (1 - t))) :=
    if_neg (Real.sqrt_pos.2 C0).ne'
  have gw2 : (e / Real.sqrt (1 / 2 * (1 - t))) ^ 2 = e ^ 2 / (1 / 2 * (1 - t)) := by
    rw [div_pow, Real.sq_sqrt S0.le]
  have gp2 : (e / Real.sqrt (1 - 1 / 2 * (1 - t))) ^ 2 = e ^ 2 / (1 - 1 / 2 * (1 - t)) := by
    rw [div_pow, Real.sq_sqrt C0.le]
  have ne : (e / Real.sqrt (1 / 2 * (1 - t))) ^ 2 - (e / Real.sqrt (1 - 1 / 2 * (1 - t))) ^ 2 ≠ 0 := by
    rw [gw2, gp2]
    have : e ^ 2 / (1 / 2 * (1 - t)) - e ^ 2 / (1 - 1 / 2 * (1 - t))
        = e ^ 2 * t / ((1 / 2 * (1 - t)) * (1 - 1 / 2 * (1 - t))) := by
      rw [div_sub_div _ _ S0.ne' C0.ne']
      ring
    rw [this]
    positivity
  simp only [e1, e2, e3, e4, e5, e6, e7, e8, e9, e10, e11, bind, Except.bind]
  rw [if_neg ne]
  refine ⟨_, rfl, gs.ne', (div_pos ee (Real.sqrt_pos.2 S0)).ne', (div_pos ee (Real.sqrt_pos.2 C0)).ne', ne, ?_, ?_⟩
  · show 1 / 2 * (1 - t) * ((e / Real.sqrt (1 / 2 * (1 - t))) ^ 2 + (e / Real.sqrt (1 - 1 / 2 * (1 - t))) ^ 2) = _
    rw [gw2, gp2]
    have h1 := S0.ne'
    have h2 := C0.ne'
    generalize 1 / 2 * (1 - t) = S at *
    field_simp
    ring
  · show (1 - 1 / 2 * (1 - t)) * ((e / Real.sqrt (1 / 2 * (1 - t))) ^ 2 + (e / Real.sqrt (1 - 1 / 2 * (1 - t))) ^ 2) = _
    rw [gw2, gp2]
    have h1 := S0.ne'
    have h2 := C0.ne'
    generalize 1 / 2 * (1 - t) = S at *
    field_simp
    ring

/-! ## Field strengths -/

section
variable {g p s c : ℂ} (hg : g ≠ 0) (hp : p ≠ 0) (hS : g ^ 2 + p ^ 2 ≠ 0) (hs : s * (g ^ 2 + p ^ 2) = p ^ 2)
  (hc : c * (g ^ 2 + p ^ 2) = g ^ 2)
include hg hp hS hs hc

theorem to_gg (z y a : ℂ) :
    4 * ((z + y * 2 * s + a * s ^ 2) * g ^ 2 / 4 / g ^ 2 + (z - y * 2 * c + a * c ^ 2) * p ^ 2 / 4 / p ^ 2
      - (z - y * (c - s) - a * c * s) * g * p / 2 / g / p) = a := by
  have e1 := eq_div_of_mul_eq hS hs
  have e2 := eq_div_of_mul_eq hS hc
  subst e1 e2
  field_simp
  ring

theorem to_zz (z y a : ℂ) :
    4 * (g ^ 2 * ((z + y * 2 * s + a * s ^ 2) * g ^ 2 / 4) + p ^ 2 * ((z - y * 2 * c + a * c ^ 2) * p ^ 2 / 4)
      + g * p * ((z - y * (c - s) - a * c * s) * g * p / 2)) / (g ^ 2 + p ^ 2) ^ 2 = z := by
  have e1 := eq_div_of_mul_eq hS hs
  have e2 := eq_div_of_mul_eq hS hc
  subst e1 e2
  field_simp
  ring

theorem to_zg (z y a : ℂ) :
    (4 * ((z + y * 2 * s + a * s ^ 2) * g ^ 2 / 4) - 4 * ((z - y * 2 * c + a * c ^ 2) * p ^ 2 / 4)
      - 2 * (g ^ 2 - p ^ 2) / (g * p) * ((z - y * (c - s) - a * c * s) * g * p / 2)) / (g ^ 2 + p ^ 2) = y := by
  have e1 := eq_div_of_mul_eq hS hs
  have e2 := eq_div_of_mul_eq hS hc
  subst e1 e2
  field_simp
  ring

variable (w b m : ℂ)

theorem to_W :
    (4 * (g ^ 2 * w + p ^ 2 * b + g * p * m) / (g ^ 2 + p ^ 2) ^ 2
      + (4 * w - 4 * b - 2 * (g ^ 2 - p ^ 2) / (g * p) * m) / (g ^ 2 + p ^ 2) * 2 * s
      + 4 * (w / g ^ 2 + b / p ^ 2 - m / g / p) * s ^ 2) * g ^ 2 / 4 = w := by
  have e1 := eq_div_of_mul_eq hS hs
  have e2 := eq_div_of_mul_eq hS hc
  subst e1 e2
  field_simp
  ring

theorem to_B :
    (4 * (g ^ 2 * w + p ^ 2 * b + g * p * m) / (g ^ 2 + p ^ 2) ^ 2
      - (4 * w - 4 * b - 2 * (g ^ 2 - p ^ 2) / (g * p) * m) / (g ^ 2 + p ^ 2) * 2 * c
      + 4 * (w / g ^ 2 + b / p ^ 2 - m / g / p) * c ^ 2) * p ^ 2 / 4 = b := by
  have e1 := eq_div_of_mul_eq hS hs
  have e2 := eq_div_of_mul_eq hS hc
  subst e1 e2
  field_simp
  ring

theorem to_WB :
    (4 * (g ^ 2 * w + p ^ 2 * b + g * p * m) / (g ^ 2 + p ^ 2) ^ 2
      - (4 * w - 4 * b - 2 * (g ^ 2 - p ^ 2) / (g * p) * m) / (g ^ 2 + p ^ 2) * (c - s)
      - 4 * (w / g ^ 2 + b / p ^ 2 - m / g / p) * c * s) * g * p / 2 = m := by
  have e1 := eq_div_of_mul_eq hS hs
  have e2 := eq_div_of_mul_eq hS hc
  subst e1 e2
  field_simp
  ring

end

end Verif.SmeftHiggs
