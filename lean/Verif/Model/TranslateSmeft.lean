import Verif.Model.Bridge

/-!
# Warsaw ↔ Warsaw up (`/repo/wilson/translate/smeft.py` lines 66-105)

`ckm` stands for `ckmutil.ckm.ckm_tree`, a function of `Vus`, `Vub`, `Vcb`, `gamma` (not part
of the repository); `defaults` for `wilson.parameters.p`.
-/

set_option autoImplicit false

namespace Verif.TranslateSmeft
open Verif Verif.EFT Verif.Rotation Verif.Bridge

/-- the type of `ckmutil.ckm.ckm_tree` -/
abbrev Ckm := ℝ → ℝ → ℝ → ℝ → Mat

/-- smeft.py:75-78: `p = default_parameters.copy(); if parameters is not None: p.update(parameters)` -/
def params (defaults : Dict String ℝ) (parameters : Option (Dict String ℝ)) : Dict String ℝ :=
  match parameters with
  | none => defaults
  | some q => defaults.update q

/-- `p[k]` -/
def item (p : Dict String ℝ) (k : String) : Except Exc ℝ :=
  match p.get? k with
  | some v => .ok v
  | none => .error .keyError

/-- smeft.py:80: `V = ckmutil.ckm.ckm_tree(p["Vus"], p["Vub"], p["Vcb"], p["gamma"])` -/
def ckmOf (ckm : Ckm) (p : Dict String ℝ) : Except Exc Mat :=
  item p "Vus" >>= fun us => item p "Vub" >>= fun ub => item p "Vcb" >>= fun cb =>
  item p "gamma" >>= fun ga => .ok (ckm us ub cb ga)

/-- smeft.py:66-84 `warsaw_to_warsaw_up` -/
noncomputable def warsawToWarsawUp (U : Util) (ckm : Ckm) (defaults : Dict String ℝ) (C : Dict Str ℂ)
    (parameters : Option (Dict String ℝ)) : Except Exc (Dict Str ℂ) :=
  lift (U.wcxf2arraysSymmetrized C) >>= fun Cin =>
  ckmOf ckm (params defaults parameters) >>= fun V =>
  flavorRotationStr Cin V.conjTranspose 1 1 1 1 >>= fun Cout =>
  lift (U.arrays2wcxfNonred Cout)

/-- smeft.py:87-105 `warsaw_up_to_warsaw` -/
noncomputable def warsawUpToWarsaw (U : Util) (ckm : Ckm) (defaults : Dict String ℝ) (C : Dict Str ℂ)
    (parameters : Option (Dict String ℝ)) : Except Exc (Dict Str ℂ) :=
  lift (U.wcxf2arraysSymmetrized C) >>= fun Cin =>
  ckmOf ckm (params defaults parameters) >>= fun V =>
  flavorRotationStr Cin V 1 1 1 1 >>= fun Cout =>
  lift (U.arrays2wcxfNonred Cout)

end Verif.TranslateSmeft
