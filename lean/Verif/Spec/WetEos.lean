import Verif.Model.WetEos

/-!
# What EOS means by its coefficients

Written down from the operator definitions of EOS, for the coefficients whose real and imaginary parts have
names of their own.
-/

set_option autoImplicit false

namespace Verif.WetEos
open Verif Verif.WetApply

/-- `n / d` times a JMS coefficient or its complex conjugate -/
structure Part where
  n : ℤ
  d : ℕ
  conj : Bool
  name : String

/-- the sum of the parts -/
noncomputable def total (C : Dict String ℂ) : List Part → ℂ
  | [] => 0
  | p :: l => (p.n : ℂ) / (p.d : ℂ) * (if p.conj then star (C.getD p.name 0) else C.getD p.name 0) + total C l

/-- The coefficients for b → s l l, up to their common normalisation; `ll` are the indices of the leptons. -/
def semileptonic (ll : String) : List (String × List Part) := [
  ("c9", [⟨1, 2, false, "VedLL_" ++ ll ++ "23"⟩, ⟨1, 2, false, "VdeLR_23" ++ ll⟩]),
  ("c9'", [⟨1, 2, false, "VedRR_" ++ ll ++ "23"⟩, ⟨1, 2, false, "VedLR_" ++ ll ++ "23"⟩]),
  ("c10", [⟨1, 2, false, "VdeLR_23" ++ ll⟩, ⟨-1, 2, false, "VedLL_" ++ ll ++ "23"⟩]),
  ("c10'", [⟨1, 2, false, "VedRR_" ++ ll ++ "23"⟩, ⟨-1, 2, false, "VedLR_" ++ ll ++ "23"⟩]),
  ("cS", [⟨1, 2, false, "SedRR_" ++ ll ++ "23"⟩, ⟨1, 2, true, "SedRL_" ++ ll ++ "32"⟩]),
  ("cS'", [⟨1, 2, false, "SedRL_" ++ ll ++ "23"⟩, ⟨1, 2, true, "SedRR_" ++ ll ++ "32"⟩]),
  ("cP", [⟨1, 2, false, "SedRR_" ++ ll ++ "23"⟩, ⟨-1, 2, true, "SedRL_" ++ ll ++ "32"⟩]),
  ("cP'", [⟨1, 2, false, "SedRL_" ++ ll ++ "23"⟩, ⟨-1, 2, true, "SedRR_" ++ ll ++ "32"⟩]),
  ("cT", [⟨1, 2, false, "TedRR_" ++ ll ++ "23"⟩, ⟨1, 2, true, "TedRR_" ++ ll ++ "32"⟩]),
  ("cT5", [⟨1, 2, false, "TedRR_" ++ ll ++ "23"⟩, ⟨-1, 2, true, "TedRR_" ++ ll ++ "32"⟩])]

/-- The coefficients for b → s γ, up to their common normalisation. -/
def radiative : List (String × List Part) := [
  ("c7", [⟨1, 1, false, "dgamma_23"⟩]), ("c7'", [⟨1, 1, true, "dgamma_32"⟩])]

/-- √2 / (4 GF Vtb Vts*): coefficients of the Lagrangian in units of 4 GF/√2 Vtb Vts* -/
noncomputable def unit (P : WetApply.Params) : ℂ :=
  (Real.sqrt 2 : ℂ) / (4 * (P.par "GF" : ℂ) * P.ckm 2 2 * star (P.ckm 2 1))

/-- 16 π²/e² -/
noncomputable def perCharge2 (P : WetApply.Params) : ℝ := 16 * Real.pi ^ 2 / (4 * Real.pi * P.par "alpha_e")

/-- 16 π²/(e m_b) -/
noncomputable def perCharge (P : WetApply.Params) : ℝ :=
  16 * Real.pi ^ 2 / (Real.sqrt (4 * Real.pi * P.par "alpha_e") * P.par "m_b")

/-- The coefficient with this name has this value in the EOS normalisation. -/
inductive IsEos (P : WetApply.Params) (C : Dict String ℂ) : String → String → ℂ → Prop
  | semileptonic (l ll : String) (h : (l, ll) ∈ [("ee", "11"), ("mumu", "22")]) (x : String) (ps : List Part)
      (hx : (x, ps) ∈ semileptonic ll) : IsEos P C ("b->s" ++ l) x (unit P * (perCharge2 P * total C ps))
  | radiative (x : String) (ps : List Part) (hx : (x, ps) ∈ radiative) :
      IsEos P C "b->s" x (unit P * (perCharge P * total C ps))

/-- b → u l ν and b → c l ν: the names of EOS and of flavio for the same operator -/
def chargedCurrent : List (String × String) :=
  ["u", "c"].flatMap fun q => ["e", "mu", "tau"].flatMap fun l => ["VL", "VR", "SL", "SR", "T"].map fun x =>
    (q ++ "b" ++ l ++ "nu" ++ l ++ "::c" ++ x, "C" ++ x ++ "_b" ++ q ++ l ++ "nu" ++ l)

/-- the names of EOS and of flavio for the same operators: vector operators -/
def vectorNames : List (String × String) := [("c9", "C9"), ("c9'", "C9p"), ("c10", "C10"), ("c10'", "C10p")]

/-- the scalar operators, which flavio multiplies by the mass of the b quark -/
def scalarNames : List (String × String) := [("cS", "CS"), ("cS'", "CSp"), ("cP", "CP"), ("cP'", "CPp")]

/-- 16 π²/(g_s m_b) -/
noncomputable def perStrong (P : WetApply.Params) : ℝ :=
  16 * Real.pi ^ 2 / (Real.sqrt (4 * Real.pi * P.par "alpha_s") * P.par "m_b")

end Verif.WetEos
