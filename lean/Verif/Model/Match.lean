import Verif.Gen.MatchTree
import Mathlib.Analysis.Real.Sqrt
import Mathlib.Analysis.Complex.Norm
import Mathlib.Analysis.SpecialFunctions.Trigonometric.Basic

/-!
# Tree-level matching (`/repo/wilson/match/smeft_tree.py`)

The matching conditions themselves are in `Verif.Gen.MatchTree` (generated).

Simplifications: as in `Verif.Model.Tensor` (exact complex numbers); parameters are real
numbers.  `math.sqrt` of a negative number raises `ValueError`; of a complex number numpy
takes the real part (this only happens if `phiWB` or `phiD` is not real).
-/

set_option autoImplicit false

namespace Verif.Match
open Verif Verif.Tens Verif.Beta Verif.Rotation

/-- `d[k]` -/
def item {κ α : Type} [DecidableEq κ] (d : Dict κ α) (k : κ) : Except Exc α :=
  match d.get? k with
  | some v => .ok v
  | none => .error .keyError

/-- `math.sqrt` -/
noncomputable def pySqrt (x : ℝ) : Except Exc ℝ :=
  if x < 0 then .error .valueError else .ok (Real.sqrt x)

/-- the scalars of lines 17-33 -/
structure Scal where
  mW : ℝ
  mZ : ℝ
  vT : ℝ
  g1bar : ℂ

/-- line 19: `GFx` -/
noncomputable def GFx (GF : ℝ) (ll phil3 : Ten) : ℂ :=
  GF - Real.sqrt 2 / 4 * (-ll [1, 0, 0, 1] - ll [0, 1, 1, 0] + 2 * phil3 [1, 1] + 2 * phil3 [0, 0])

/-- lines 28-33, from `vT`, `m_W`, `e` and the values of `phiWB`, `phiD`.  The case `mZ = 0`
raises `ZeroDivisionError` later, at `(2*mW**2)/mZ**2` in line 95. -/
noncomputable def scalars2 (mW vT eb : ℝ) (phiWB phiD : ℂ) : Except Exc Scal :=
  let g2b := 2 * mW / vT
  let diff := g2b ^ 2 - eb ^ 2
  if diff < 0 then .error .valueError
  else if diff = 0 then .error (.other 2)
  else
    let eps : ℂ := phiWB * vT ^ 2
    let g1b : ℂ := eb * g2b / Real.sqrt diff + eb ^ 2 * g2b / diff * eps
    let mZ2 : ℂ := vT ^ 2 / 4 * (1 + vT ^ 2 / 2 * phiD) * (g2b ^ 2 + g1b ^ 2) +
      vT ^ 2 / 2 * eps * g1b * g2b
    if mZ2.re < 0 then .error .valueError
    else if mZ2.re = 0 then .error (.other 2)
    else .ok ⟨mW, Real.sqrt mZ2.re, vT, g1b⟩

/-- lines 17-33.  If `GFx = 0`, numpy gives `vT = inf` and `g2b = 0` and line 29 raises:
`ValueError` if `eb ≠ 0`, `ZeroDivisionError` otherwise. -/
noncomputable def scalars (C : Dict Key Ten) (p : Dict String ℝ) : Except Exc Scal :=
  item p "m_W" >>= fun mW =>
  item p "GF" >>= fun GF =>
  item C .ll >>= fun ll =>
  item C .phil3 >>= fun phil3 =>
  item C .phiWB >>= fun phiWB =>
  item p "alpha_e" >>= fun alpha_e =>
  pySqrt (4 * Real.pi * alpha_e) >>= fun eb =>
  if GFx GF ll phil3 = 0 then
    if eb = 0 then .error (.other 2) else .error .valueError
  else
    item C .phiD >>= fun phiD =>
    scalars2 mW (Real.sqrt (1 / Real.sqrt 2 / ‖GFx GF ll phil3‖)) eb (phiWB []) (phiD [])

/-- the variables of the matching conditions -/
noncomputable def env (C : Dict Key Ten) (s : Scal) : MV → Ten
  | .c k => (C.get? k).getD fun _ => 0
  | .mW => fun _ => s.mW
  | .mZ => fun _ => s.mZ
  | .vT => fun _ => s.vT
  | .g1bar => fun _ => s.g1bar
  | .sqrt2 => fun _ => (Real.sqrt 2 : ℝ)

/-- `_match_all_array(_C, p)`, lines 11-143 -/
noncomputable def matchRaw (C : Dict Key Ten) (p : Dict String ℝ) : Except Exc (Dict WKey Ten) :=
  scalars C p >>= fun s =>
  if treeKeys.all C.mem then .ok (treeProg.map fun ke => (ke.1, eval (env C s) ke.2))
  else .error .keyError

/-- line 148: `{k: 0*v for k, v in C_SMEFT.items()}` -/
noncomputable def zeroed (C : Dict Key Ten) : Dict Key Ten := C.mapVal fun A ix => 0 * A ix

/-- `match_all_array(C_SMEFT, p)`, lines 146-152 -/
noncomputable def matchTree (C : Dict Key Ten) (p : Dict String ℝ) : Except Exc (Dict WKey Ten) :=
  matchRaw C p >>= fun m =>
  matchRaw (zeroed C) p >>= fun m0 =>
  m.mapM fun kv => (item m0 kv.1).map fun B => (kv.1, fun ix => kv.2 ix - B ix)

end Verif.Match
