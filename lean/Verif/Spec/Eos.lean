import Verif.Model.Dict
import Verif.Model.EFTUtil
import Mathlib.Data.Complex.Basic

/-!
# Specification vocabulary for the EOS export (C60)
-/

set_option autoImplicit false

namespace Verif.Eos
open Verif Verif.EFT

/-- `name` is an EOS name for a part of the coefficient `coeff`: `tag{...}` around a
non-empty piece of it, with no other braces -/
def PartOf (tag name coeff : Str) : Prop :=
  ∃ pre body post, name = pre ++ (tag ++ '{' :: (body ++ '}' :: post)) ∧ coeff = pre ++ (body ++ post) ∧
    body ≠ [] ∧ (∀ c ∈ pre ++ body ++ post, c ≠ '{' ∧ c ≠ '}')

/-- `coeff` is the lepton-universal name `...lnu...` of which `k` is the member with `lep`
instead of `lnu`, e.g. `enue` (and `lnu` occurs only there) -/
def Member (coeff lep k : Str) : Prop :=
  ∃ a b, coeff = a ++ ("lnu".toList ++ b) ∧ k = a ++ (lep ++ b) ∧
    ∀ a' b', coeff = a' ++ ("lnu".toList ++ b') → a' = a

end Verif.Eos
