import Verif.Gen.SmeftSimA
import Verif.Gen.SmeftSimB
import Verif.Model.EFTUtil
import Verif.Model.WCxf
import Mathlib.Analysis.SpecialFunctions.Complex.Arg

/-!
# Model of `wilson/wcxf/converters/smeftsim.py`

`smeftsim_card_fill` with both model sets and both input schemes.  Numbers are printed exactly
(the code rounds to seven digits, `'.6e'`).  The constant text before and after the blocks
(`smeftsim_card_text`) is not modelled.
-/

set_option autoImplicit false

namespace Verif.SmeftSim
open Verif Verif.EFT Verif.EFT.Util Verif.Beta Verif.Bridge

/-- the `model_set` argument; the command line admits only these (cli.py:166) -/
inductive ModelSet
  | A | B
  deriving DecidableEq, Repr

/-- the `input_scheme` argument (cli.py:164) -/
inductive Scheme
  | alpha | mw
  deriving DecidableEq, Repr

/-- What is printed: a real number, or a Python complex number (`format` of a `complex`). -/
inductive Cell
  | real (x : ℝ)
  | complex (z : ℂ)

/-- the comment of a row -/
inductive Label
  | coef (stem : Str) (part : Part) (digits : List ℕ)  -- e.g. `# cHl1Abs12`, `# cuHPh1x1`
  | cutoff  -- `# LambdaSMEFT` or `# Lambda`
  | mw      -- `# MW0`
  deriving DecidableEq

/-- a row of the filled card -/
structure Entry where
  block : Str
  pos : List ℕ
  cell : Cell
  label : Label

/-- name of a coefficient, e.g. `phiBox`, `ll_1122` -/
def fullName (k : Key) (fl : List ℕ) : Str := if fl = [] then keyName k else wcName (keyName k) fl

/-- smeftsim.py:94 `_symm_fac = smeftutil.arrays2wcxf(smeftutil._scale_dict)`: the entry of the
table of factors, 1 for keys without a table. -/
def symmFac (U : Util) (k : Key) (fl : List ℕ) : ℕ :=
  match U.scaleTable (keyName k), fl with
  | some d, [a, b, c, e] => d (Fin.ofNat 3 a, Fin.ofNat 3 b, Fin.ofNat 3 c, Fin.ofNat 3 e)
  | _, _ => 1

/-- smeftsim.py:95-99 `scaled_wc` -/
noncomputable def scaledWc (U : Util) (wc : WC) (k : Key) (fl : List ℕ) : ℂ :=
  wc.getItem (String.ofList (fullName k fl)) / symmFac U k fl

/-- Whether `wc[key]` is a Python `complex`: the value is given as a `Re`/`Im` record
(wcxf/classes.py:340-347); a plain number or the default 0 is real. -/
def isComplexTyped (wc : WC) (n : Str) : Prop :=
  ∃ re im, wc.values.get? (String.ofList n) = some (.reim re im)

open Classical in
/-- the formatted expression of a row -/
noncomputable def cellOf (U : Util) (wc : WC) (lam : ℝ) (kind : Kind) (k : Key) (fl : List ℕ) : Cell :=
  match kind with
  | .abs => .real (‖scaledWc U wc k fl‖ * lam ^ 2)
  | .absAll => .real ‖scaledWc U wc k fl * (lam : ℂ) ^ 2‖
  | .plain =>
    if isComplexTyped wc (fullName k fl) then .complex (scaledWc U wc k fl * (lam : ℂ) ^ 2)
    else .real ((scaledWc U wc k fl).re * lam ^ 2)
  | .angle => .real (scaledWc U wc k fl).arg

/-- the row as filled in -/
noncomputable def fillRow (U : Util) (wc : WC) (lam : ℝ) (blocks stems : List String) : Row → Entry
  | .coef b pos kind k fl st part digits =>
    ⟨(blocks.getD b "").toList, pos, cellOf U wc lam kind k fl,
      .coef (stems.getD st "").toList part digits⟩
  | .cutoff b pos => ⟨(blocks.getD b "").toList, pos, .real lam, .cutoff⟩

/-- rows, block names and label stems of a model set -/
def rowsOf : ModelSet → List Row
  | .A => Gen.rowsA
  | .B => Gen.rowsB
def blocksOf : ModelSet → List String
  | .A => Gen.blocksA
  | .B => Gen.blocksB
def stemsOf : ModelSet → List String
  | .A => Gen.stemsA
  | .B => Gen.stemsB

/-- smeftsim.py:92-5324 `smeftsim_card_fill`.  For the `mw` scheme, model set A gets an extra row
(l. 2709-2710; its place among the rows of the block, the last one, is not modelled). -/
noncomputable def cardFill (U : Util) (wc : WC) (set : ModelSet) (lam : ℝ) (scheme : Scheme) : List Entry :=
  (rowsOf set).map (fillRow U wc lam (blocksOf set) (stemsOf set)) ++
    (if set = .A ∧ scheme = .mw then [⟨"FRBlock".toList, [1475], .real 80.387, .mw⟩] else [])

end Verif.SmeftSim
