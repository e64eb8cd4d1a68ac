import Verif.Model.Match
import Verif.Model.TranslateSmeft
import Verif.Model.WetJms

/-!
# The SMEFT → WET matcher (`/repo/wilson/match/smeft.py`)

The one-loop matching conditions (`smeft_loop._match_all_array`) are a parameter here, an
arbitrary function of the arrays, the parameters and the scale; `Verif.Model.MatchLoop` models
them.  What `smeft_loop.match_all_array` does with that function is modelled.
-/

set_option autoImplicit false

namespace Verif.Match
open Verif Verif.EFT Verif.Tens Verif.Beta Verif.Rotation Verif.Bridge Verif.TranslateSmeft

/-- the type of `smeft_loop._match_all_array` -/
abbrev LoopRaw := Dict Key Ten → Dict String ℝ → ℝ → Except Exc (Dict WKey Ten)

/-- `smeft_loop.match_all_array`, smeft_loop.py:158-164 -/
noncomputable def matchLoop (raw : LoopRaw) (C : Dict Key Ten) (p : Dict String ℝ) (scale : ℝ) :
    Except Exc (Dict WKey Ten) :=
  raw C p scale >>= fun m =>
  raw (zeroed C) p scale >>= fun m0 =>
  m.mapM fun kv => (item m0 kv.1).map fun B => (kv.1, fun ix => kv.2 ix - B ix)

/-- smeft.py:33: `{k: np.array(C_WET_tree[k] + C_WET_loop[k], complex) for k in C_WET_tree}` -/
noncomputable def addLoop (tree loop : Dict WKey Ten) : Except Exc (Dict WKey Ten) :=
  tree.mapM fun kv => (item loop kv.1).map fun B => (kv.1, fun ix => kv.2 ix + B ix)

/-- the arrays of the matching result with their shapes: scalars, matrices, four-index arrays
with three generations -/
noncomputable def wval (k : WKey) (A : Ten) : Jms.WVal :=
  if Jms.isClass 0 (wkeyName k) then .num (A [])
  else if Jms.isClass 1 (wkeyName k) then .two fun i => A [i.1, i.2]
  else .four fun i => A [i.1, i.2.1, i.2.2.1, i.2.2.2]

/-- the same values as arguments of `EFTutil.arrays2wcxf` -/
noncomputable def toAVal : Jms.WVal → AVal
  | .num z => .num z
  | .two a => .arr (NDArr.ofFn [3, 3] fun idx => match idx with
    | [i, j] => a (Fin.ofNat 3 i, Fin.ofNat 3 j)
    | _ => 0)
  | .four a => .arr (NDArr.ofFn [3, 3, 3, 3] fun idx => match idx with
    | [i, j, k, l] => a (Fin.ofNat 3 i, Fin.ofNat 3 j, Fin.ofNat 3 k, Fin.ofNat 3 l)
    | _ => 0)

/-- smeft.py:29-35: the matched arrays; the loop contribution is added if
`p.get('loop_order') == 1` -/
noncomputable def matchArrays (raw : LoopRaw) (C : Dict Key Ten) (p : Dict String ℝ) (scale : ℝ) :
    Except Exc (Dict WKey Ten) :=
  matchTree C p >>= fun tree =>
  if p.get? "loop_order" = some 1 then matchLoop raw C p scale >>= addLoop tree else .ok tree

/-- smeft.py:36-42: rotation to the down-aligned basis, symmetry factors, names of the basis
(`names` is `wcxf.Basis['WET', 'JMS'].all_wcs`) -/
noncomputable def matchNames (names : List Str) (V : Mat) (W : Dict WKey Ten) : Except Exc (Dict Str ℂ) :=
  rotateDown W V >>= fun R =>
  lift (Jms.unscaleDictWet (R.map fun kv => (wkeyName kv.1, wval kv.1 kv.2))) >>= fun S =>
  .ok ((Util.arrays2wcxf (S.map fun kv => (kv.1, toAVal kv.2))).filterKV fun k _ => decide (k ∈ names))

/-- `match_all(d_SMEFT, scale, parameters)`, smeft.py:15-42; `U` is `smeftutil`, `ckm` is
`ckmutil.ckm.ckm_tree`, `defaults` is `run.smeft.smpar.p` -/
noncomputable def matchAll (U : Util) (names : List Str) (raw : LoopRaw) (ckm : Ckm)
    (defaults : Dict String ℝ) (d : Dict Str ℂ) (scale : ℝ) (parameters : Option (Dict String ℝ)) :
    Except Exc (Dict Str ℂ) :=
  lift (U.wcxf2arraysSymmetrized d) >>= fun C =>
  matchArrays raw (typed C) (params defaults parameters) scale >>= fun W =>
  ckmOf ckm (params defaults parameters) >>= fun V =>
  matchNames names V W

end Verif.Match
