import Verif.Model.Beta
import Verif.Model.WCxf
import Mathlib.Analysis.SpecialFunctions.Sqrt
import Mathlib.Analysis.SpecialFunctions.Complex.Arg
import Mathlib.Analysis.Real.Pi.Bounds
import Mathlib.LinearAlgebra.Matrix.ConjTranspose

/-!
# Model of `wilson/run/smeft/smpar.py`

Extraction of Standard Model parameters from a SMEFT parameter point and back.  Floats are real
numbers; `.other 2` is a ZeroDivisionError.  External functions (`ckmutil`, `scipy`) are
parameters.
-/

open Classical

set_option autoImplicit false

namespace Verif.SmPar

open Verif.Tens (Ten)
open Verif.Beta (Key)

/-- the Standard Model inputs: the dictionary `p` (smpar.py:12-34), which has the same keys as the
result of `smpar` (smpar.py:177-199) -/
structure Inputs where
  GF : ℝ
  alpha_e : ℝ
  alpha_s : ℝ
  Vus : ℝ
  Vub : ℝ
  Vcb : ℝ
  gamma : ℝ
  m_e : ℝ
  m_mu : ℝ
  m_tau : ℝ
  m_u : ℝ
  m_c : ℝ
  m_d : ℝ
  m_s : ℝ
  m_b : ℝ
  m_t : ℝ
  m_W : ℝ
  m_Z : ℝ
  m_h : ℝ

/-- 3×3 complex matrices -/
abbrev M3 := Matrix (Fin 3) (Fin 3) ℂ

/-- a two-dimensional array as a matrix -/
def mat (T : Ten) : M3 := fun i j => T [i, j]

/-- a matrix as an array -/
def ten (M : M3) : Ten
  | [i, j] => M i j
  | _ => 0

/-- a scalar as an array -/
def scal (x : ℂ) : Ten := fun _ => x

/-- External functions. -/
structure Ext where
  /-- `ckmutil.ckm.ckm_tree(Vus, Vub, Vcb, gamma)` -/
  ckm : ℝ → ℝ → ℝ → ℝ → M3
  /-- `ckmutil.diag.msvd(M)`: left unitary matrix, singular values, right unitary matrix -/
  msvd : M3 → M3 × (Fin 3 → ℝ) × M3
  /-- `scipy.optimize.brentq(f, a, b)`; failure raises -/
  brentq : (ℝ → ℝ) → ℝ → ℝ → Except Exc ℝ

/-- division of floats -/
noncomputable def fdiv (a b : ℝ) : Except Exc ℝ :=
  if b = 0 then .error (.other 2) else .ok (a / b)

/-- `math.sqrt` -/
noncomputable def fsqrt (a : ℝ) : Except Exc ℝ :=
  if a < 0 then .error .valueError else .ok (Real.sqrt a)

/-- smpar.py:47, 77: `C['phi'].real` -/
noncomputable def cphi (C : Key → Ten) : ℝ := (C .phi []).re
/-- smpar.py:48, 78: `C['phiBox'].real - C['phiD'].real / 4` -/
noncomputable def ckin (C : Key → Ten) : ℝ := (C .phiBox []).re - (C .phiD []).re / 4

/-- smpar.py:49-55: the squared vacuum expectation value -/
noncomputable def v2Of (m2 Lambda : ℝ) (C : Key → Ten) : Except Exc ℝ :=
  if |cphi C| < 1e-16 then fdiv (2 * m2) Lambda
  else
    let sqrt_arg := Lambda ^ 2 - 12 * cphi C * m2
    if ¬sqrt_arg ≥ 0 then .error .valueError
    else .ok ((Lambda - Real.sqrt sqrt_arg) / (3 * cphi C))

/-- smpar.py:37-61 `m2Lambda_to_vMh2`; returns `(v, Mh2)`. -/
noncomputable def toVMh2 (m2 Lambda : ℝ) (C : Key → Ten) : Except Exc (ℝ × ℝ) :=
  v2Of m2 Lambda C >>= fun v2 =>
  if ¬v2 > 0 then .error .valueError
  else fdiv v2 (1 - 2 * ckin C * v2) >>= fun r =>
    let Mh2 := r * (Lambda - 3 * cphi C * v2)
    if ¬Mh2 > 0 then .error .valueError
    else .ok (Real.sqrt v2, Mh2)

/-- smpar.py:63-81 `vMh2_to_m2Lambda`; returns `(m2, Lambda)`. -/
noncomputable def toM2Lambda (v Mh2 : ℝ) (C : Key → Ten) : Except Exc (ℝ × ℝ) :=
  if ¬v > 0 ∨ ¬Mh2 > 0 then .error .valueError
  else
    let v2 := v ^ 2
    let Lambda := Mh2 / v2 - 2 * ckin C * Mh2 + 3 * cphi C * v2
    let m2 := Lambda * v2 / 2 - 3 / 4 * cphi C * v2 ^ 2
    .ok (m2, Lambda)

/-- the function whose root is searched, smpar.py:90-95 -/
noncomputable def f0 (ebar gbar v : ℝ) (C : Key → Ten) (gpb : ℝ) : ℝ :=
  let eps := (C .phiWB []).re * v ^ 2
  let ebar_calc := gbar * gpb / Real.sqrt (gbar ^ 2 + gpb ^ 2) *
    (1 - eps * gbar * gpb / (gbar ^ 2 + gpb ^ 2))
  ebar_calc - ebar

/-- smpar.py:83-100 `get_gpbar` (the exception of a failed root search is a ValueError). -/
noncomputable def getGpbar (X : Ext) (ebar gbar v : ℝ) (C : Key → Ten) : Except Exc ℝ :=
  (if C .phiWB [] = 0 then
    fsqrt (gbar ^ 2 - ebar ^ 2) >>= fun s => fdiv (ebar * gbar) s
  else
    match X.brentq (f0 ebar gbar v C) 0 3 with
    | .ok x => .ok x
    | .error _ => .error .valueError) >>= fun gpbar =>
  .ok (gpbar * (1 - (C .phiB []).re * v ^ 2))

/-- the quark mass matrices, smpar.py:127-135: `(Mu, Md)` -/
noncomputable def quarkMasses (X : Ext) (p : Inputs) (basis : String) : Except Exc (M3 × M3) :=
  let K := X.ckm p.Vus p.Vub p.Vcb p.gamma
  let Du : M3 := Matrix.diagonal ![(p.m_u : ℂ), p.m_c, p.m_t]
  let Dd : M3 := Matrix.diagonal ![(p.m_d : ℂ), p.m_s, p.m_b]
  if basis = "Warsaw" then .ok (K.conjTranspose * Du, Dd)
  else if basis = "Warsaw up" then .ok (Du, K * Dd)
  else .error .valueError

/-- smpar.py:107-110: the vacuum expectation value from the Fermi constant -/
noncomputable def vevOf (GF : ℝ) : ℝ := Real.sqrt (1 / Real.sqrt 2 / GF)

/-- a Yukawa matrix, smpar.py:137-139: `M / (v / sqrt(2)) + C * (v**2) / 2` -/
noncomputable def yuk (M : M3) (v : ℝ) (T : Ten) : M3 :=
  fun i j => M i j / ((v / Real.sqrt 2 : ℝ) : ℂ) + T [i, j] * ((v ^ 2 : ℝ) : ℂ) / 2

/-- smpar.py:103-140 `smeftpar`; the module dictionary `p` is an argument, the argument `scale` is
not used by the code. -/
noncomputable def smeftpar (X : Ext) (p : Inputs) (C : Key → Ten) (basis : String) :
    Except Exc (Dict Key Ten) :=
  let v := vevOf p.GF
  toM2Lambda v (p.m_h ^ 2) C >>= fun mL =>
  let gsbar := Real.sqrt (4 * Real.pi * p.alpha_s)
  let gs : ℝ := (1 - (C .phiG []).re * v ^ 2) * gsbar
  let gbar := 2 * p.m_W / v
  let g : ℝ := gbar * (1 - (C .phiW []).re * v ^ 2)
  let ebar := Real.sqrt (4 * Real.pi * p.alpha_e)
  getGpbar X ebar gbar v C >>= fun gp =>
  quarkMasses X p basis >>= fun MuMd =>
  let Me : M3 := Matrix.diagonal ![(p.m_e : ℂ), p.m_mu, p.m_tau]
  .ok [(.m2, scal (mL.1 : ℂ)), (.Lambda, scal (mL.2 : ℂ)), (.g, scal (g : ℂ)), (.gp, scal (gp : ℂ)),
    (.gs, scal (gs : ℂ)), (.Gd, ten (yuk MuMd.2 v (C .dphi))), (.Gu, ten (yuk MuMd.1 v (C .uphi))),
    (.Ge, ten (yuk Me v (C .ephi)))]

/-- a physical mass matrix, smpar.py:162-164: `v / sqrt(2) * (G - C * (v**2) / 2)` -/
noncomputable def massMat (v : ℝ) (G T : Ten) : M3 :=
  fun i j => ((v / Real.sqrt 2 : ℝ) : ℂ) * (G [i, j] - T [i, j] * ((v ^ 2 : ℝ) : ℂ) / 2)

/-- the electric charge, smpar.py:169-170 -/
noncomputable def ebOf (gb gpb eps : ℝ) : Except Exc ℝ :=
  fdiv (gb * gpb) (Real.sqrt (gb ^ 2 + gpb ^ 2)) >>= fun a =>
  fdiv (eps * gb * gpb) (gb ^ 2 + gpb ^ 2) >>= fun b => .ok (a * (1 - b))

/-- smpar.py:143-199 `smpar`.  The neutrino masses are computed but not returned and are omitted. -/
noncomputable def smpar (X : Ext) (C : Key → Ten) : Except Exc Inputs :=
  toVMh2 (C .m2 []).re (C .Lambda []).re C >>= fun vM =>
  let v := vM.1
  let Mh2 := vM.2
  fdiv 1 (Real.sqrt 2 * v ^ 2) >>= fun GF =>
  let eps := (C .phiWB []).re * v ^ 2
  fdiv (C .g []).re (1 - (C .phiW []).re * v ^ 2) >>= fun gb =>
  fdiv (C .gp []).re (1 - (C .phiB []).re * v ^ 2) >>= fun gpb =>
  fdiv (C .gs []).re (1 - (C .phiG []).re * v ^ 2) >>= fun gsb =>
  let MW := gb * v / 2
  let ZG0 := 1 + (C .phiD []).re * v ^ 2 / 4
  fdiv (eps * gb * gpb) (gb ^ 2 + gpb ^ 2) >>= fun mix =>
  let MZ := Real.sqrt (gb ^ 2 + gpb ^ 2) / 2 * v * (1 + mix) * ZG0
  let E := X.msvd (massMat v (C .Ge) (C .ephi))
  let U := X.msvd (massMat v (C .Gu) (C .uphi))
  let D := X.msvd (massMat v (C .Gd) (C .dphi))
  ebOf gb gpb eps >>= fun eb =>
  let K : M3 := U.1.conjTranspose * D.1
  .ok {
    GF := GF
    alpha_e := eb ^ 2 / (4 * Real.pi)
    alpha_s := gsb ^ 2 / (4 * Real.pi)
    Vub := ‖K 0 2‖
    Vcb := ‖K 1 2‖
    Vus := ‖K 0 1‖
    gamma := Complex.arg (-K 0 0 * star (K 0 2) / (K 1 0 * star (K 1 2)))
    m_W := MW
    m_Z := MZ
    m_h := Real.sqrt |Mh2|
    m_u := U.2.1 0
    m_c := U.2.1 1
    m_t := U.2.1 2
    m_d := D.2.1 0
    m_s := D.2.1 1
    m_b := D.2.1 2
    m_e := E.2.1 0
    m_mu := E.2.1 1
    m_tau := E.2.1 2 }

end Verif.SmPar
