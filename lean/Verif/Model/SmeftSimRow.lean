import Verif.Model.Bridge

/-!
# Rows of the SMEFTsim parameter card (`wilson/wcxf/converters/smeftsim.py`)
-/

set_option autoImplicit false

namespace Verif.SmeftSim
open Verif.Beta

/-- the expression printed in a row -/
inductive Kind
  | abs     -- `abs(scaled_wc(K)) * lambda_smeft_value**2`
  | absAll  -- `abs(scaled_wc(K) * lambda_smeft_value**2)`
  | plain   -- `scaled_wc(K) * lambda_smeft_value**2`
  | angle   -- `angle(scaled_wc(K))`
  deriving DecidableEq, Repr

/-- the middle part of a label such as `cHl1Abs12`: nothing, `Abs` or `Ph` -/
inductive Part
  | none | abs | ph
  deriving DecidableEq, Repr

/-- One row of `smeftsim_card_fill` (smeftsim.py:102-5322): block, LHA indices, printed
expression, coefficient (operator and flavour indices, counted from 0) and label (stem, part,
flavour indices counted from 0).  Block and stem are positions in the tables of names. -/
inductive Row
  | coef (block : ℕ) (pos : List ℕ) (kind : Kind) (op : Key) (fl : List ℕ) (stem : ℕ) (part : Part)
      (digits : List ℕ)
  | cutoff (block : ℕ) (pos : List ℕ)  -- `[631, format(lambda_smeft_value, '.6e'), '# LambdaSMEFT']`
  deriving DecidableEq, Repr

end Verif.SmeftSim
