import Verif.Model.SmeftHiggs
import Verif.Spec.WetTranslate

/-!
# Coefficients of the Higgs-Warsaw up and Warsaw up bases
-/

set_option autoImplicit false

namespace Verif.SmeftHiggs
open Verif Verif.EFT Verif.TranslateSmeft Verif.WetNames

/-- generation indices of the independent entries of a Hermitian matrix -/
def upper : List String := ["11", "12", "13", "22", "23", "33"]

/-- generation indices of the diagonal -/
def diagonal : List String := ["11", "22", "33"]

/-- all pairs of generation indices -/
def square : List String := cat ["1", "2", "3"] ["1", "2", "3"]

def higgsSingle : List String :=
  ["deltalambda3", "deltacz", "czBox", "czz", "czgamma", "cgammagamma", "cgg", "czztilde", "czgammatilde",
    "cgammagammatilde", "cggtilde"]

def higgsHermitian : List String :=
  ["deltagWlL_", "deltagZeL_", "deltagZeR_", "deltagZuL_", "deltagZdL_", "deltagZuR_", "deltagZdR_"]

/-- the coefficients that only the Higgs-Warsaw up basis has -/
def higgsNames : List String := higgsSingle ++ cat higgsHermitian upper ++ cat ["deltagWqR_"] square

/-- those that are real -/
def higgsReal : List String := higgsSingle ++ cat higgsHermitian diagonal

def warsawSingle : List String :=
  ["phi", "phiBox", "phiD", "phiG", "phiW", "phiB", "phiWB", "phiGtilde", "phiWtilde", "phiBtilde", "phiWtildeB"]

def warsawHermitian : List String := ["phil3_", "phiq3_", "phil1_", "phiq1_", "phie_", "phiu_", "phid_"]

/-- the coefficients that only the Warsaw up basis has -/
def warsawNames : List String := warsawSingle ++ cat warsawHermitian upper ++ cat ["phiud_"] square

/-- those that are real -/
def warsawReal : List String := warsawSingle ++ cat warsawHermitian diagonal

/-- `hb` and `wb` list the coefficients of the two bases: besides the coefficients listed above they
have the same ones, among them `ll_1221`. -/
structure Bases (hb wb : List String) : Prop where
  nodup_h : hb.Nodup
  nodup_w : wb.Nodup
  higgs : ∀ x ∈ higgsNames, x ∈ hb ∧ x ∉ wb
  warsaw : ∀ x ∈ warsawNames, x ∈ wb ∧ x ∉ hb
  common : ∀ x, x ∉ higgsNames → x ∉ warsawNames → (x ∈ hb ↔ x ∈ wb)
  ll : "ll_1221" ∈ hb

/-- The parameters are known and positive, and the equation for the weak mixing angle has a solution with
different couplings. -/
structure Physical (p : Dict String ℝ) : Prop where
  known : ∀ k ∈ ["GF", "m_h", "m_Z", "alpha_e", "alpha_s", "Vus", "Vub", "Vcb", "gamma"], k ∈ p.keys
  pos : ∀ k ∈ ["GF", "m_h", "m_Z", "alpha_e", "alpha_s"], 0 < p.getD k 0
  angle : 4 * Real.pi * p.getD "alpha_e" 0 < Real.sqrt 2 * p.getD "GF" 0 * p.getD "m_Z" 0 ^ 2

end Verif.SmeftHiggs
