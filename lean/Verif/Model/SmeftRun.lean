import Verif.Model.Beta
import Verif.Model.WetRun
import Mathlib.Analysis.SpecialFunctions.Log.Basic
import Mathlib.Analysis.Real.Pi.Bounds

/-!
# The SMEFT running (`wilson/run/smeft/rge.py`, `wilson/run/smeft/classes.py`) and continuous solutions

Parameters of the coefficient dictionary (`C_in`) are held in a `Dict Key Ten`.  The numerical
integration (`scipy.integrate.solve_ivp`) is external; only the leading-log solution is computed by
the package itself.
-/

set_option autoImplicit false

open Classical

namespace Verif.SmeftRun

open Verif.Tens Verif.Beta

/-- `log(a / b)` of Python's `math`: division by zero raises ZeroDivisionError (`.other 2`), a
non-positive argument ValueError -/
noncomputable def logRatio (a b : ℝ) : Except Exc ℝ :=
  if b = 0 then .error (.other 2)
  else if a / b ≤ 0 then .error .valueError
  else .ok (Real.log (a / b))

/-- `beta.beta(C, newphys=newphys)` on a dictionary (run/smeft/beta.py:37-163): a missing parameter
raises KeyError; otherwise the function of `Model/Beta.lean` with `HIGHSCALE = 1`.  (Simplification:
with `newphys=False` a few Wilson coefficients are not read and may be missing.) -/
noncomputable def betaDict (cKeys : List Key) (C : Dict Key Ten) (newphys : Bool) :
    Except Exc (Dict Key Ten) :=
  if ∀ k ∈ keys, k ∈ C.keys then
    .ok (beta cKeys (fun k => (C.get? k).getD fun _ => 0) 1 newphys)
  else .error .keyError

/-- run/smeft/rge.py:19-20: the loop `C_out[k] = C + b[k] / (16 * pi**2) * log(scale_out / scale_in)`
over the items of the dictionary -/
noncomputable def llLoop (b : Dict Key Ten) (scale_in scale_out : ℝ) :
    Dict Key Ten → Except Exc (Dict Key Ten)
  | [] => .ok []
  | (k, C) :: rest =>
    match b.get? k with
    | none => .error .keyError
    | some B =>
      logRatio scale_out scale_in >>= fun L =>
      llLoop b scale_in scale_out rest >>= fun out =>
      .ok ((k, fun ix => C ix + B ix / (16 * Real.pi ^ 2 : ℂ) * L) :: out)

/-- run/smeft/rge.py:12-21 `smeft_evolve_leadinglog`. -/
noncomputable def leadinglog (cKeys : List Key) (C_in : Dict Key Ten) (scale_in scale_out : ℝ)
    (newphys : Bool) : Except Exc (Dict Key Ten) :=
  betaDict cKeys C_in newphys >>= fun b => llLoop b scale_in scale_out C_in

/-- wilson/classes.py:306-321 `RGsolution`: a function of the scale (values of type `α`) with
boundaries -/
structure RGsolution (α : Type) where
  sol : ℝ → Except Exc α
  scale_min : ℝ
  scale_max : ℝ

/-- The scale comparison shared by run/smeft/classes.py:279-287 and run/wet/classes.py:109-117 -/
noncomputable def boundaries (scale_in scale : ℝ) : Except Exc (ℝ × ℝ) :=
  if scale = scale_in then .error .valueError
  else if scale < scale_in then .ok (scale, scale_in)
  else .ok (scale_in, scale)

/-- run/smeft/classes.py:277-291 `SMEFT.run_continuous`; `evolve scale_out` is
`rge.smeft_evolve_continuous(C_in, scale_in, scale_out)` (numerical integration, external): the
integration may fail, and yields a function of the scale otherwise -/
noncomputable def smeftContinuous {α : Type} (evolve : ℝ → Except Exc (ℝ → Except Exc α))
    (scale_in scale : ℝ) : Except Exc (RGsolution α) :=
  boundaries scale_in scale >>= fun b =>
  evolve scale >>= fun f =>
  .ok ⟨f, b.1, b.2⟩

/-- run/wet/classes.py:109-125 `WETrunner.run_continuous`. -/
noncomputable def wetContinuous (B : WetRun.Backend) (R : Qcd.RunDec) (P : WetRun.Par)
    (eftSectors : List String) (wc : WC) (qed qcd : ℕ) (scale : ℝ) (sectors : Sectors) :
    Except Exc (RGsolution (Dict String ℂ)) :=
  boundaries wc.scale scale >>= fun b =>
  .ok ⟨fun x => WetRun.runDict B R P eftSectors wc qed qcd x sectors, b.1, b.2⟩

/-- `np.logspace(log(a), log(b), steps, base=e)`, entry `i` (numpy: `start + i * (stop - start) /
(steps - 1)`, one step gives the start) -/
noncomputable def logspace (a b : ℝ) (steps i : ℕ) : ℝ :=
  Real.exp (Real.log a + i * ((Real.log b - Real.log a) / (steps - 1)))

/-- `np.linspace(a, b, steps)`, entry `i` -/
noncomputable def linspace (a b : ℝ) (steps i : ℕ) : ℝ := a + i * ((b - a) / (steps - 1))

/-- wilson/classes.py:323-350 `RGsolution.plotdata`: the points and the values of one coefficient.
Other values of `scale` leave `x` unbound (`.other 1`); `part` other than `'re'`, `'im'` returns
`None`, which is `none` here.  `d[key]` raises KeyError for a missing coefficient. -/
noncomputable def plotdata (S : RGsolution (Dict String ℂ)) (key part scale : String) (steps : ℕ) :
    Except Exc (Option (List ℝ × List ℝ)) :=
  (if scale = "log" then
      (if S.scale_min ≤ 0 ∨ S.scale_max ≤ 0 then .error .valueError
       else .ok ((List.range steps).map (logspace S.scale_min S.scale_max steps)))
    else if scale = "linear" then
      .ok ((List.range steps).map (linspace S.scale_min S.scale_max steps))
    else .error (.other 1)) >>= fun x =>
  x.mapM S.sol >>= fun ds =>
  ds.mapM (fun d => match d.get? key with | some v => Except.ok v | none => .error .keyError)
    >>= fun y =>
  .ok (if part = "re" then some (x, y.map Complex.re)
    else if part = "im" then some (x, y.map Complex.im) else none)

end Verif.SmeftRun
