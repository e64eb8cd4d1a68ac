import Verif.Model.WetApply

/-!
# What it means that one translator undoes another
-/

set_option autoImplicit false

namespace Verif.WetApply
open Verif.Py

/-- Applying `f` and then `g` gives back the coefficients with the names in `X` (and 0 for those that
are missing): for all parameters for which the translators do not divide by zero and all coefficients. -/
def Restores (f g : String) (X : String → Prop) : Prop :=
  ∀ P, Physical P → ∀ C : Dict String ℂ, ∃ D E, run f P C = .ok D ∧ run g P D = .ok E ∧
    ∀ x, X x → E.get? x = some (C.getD x 0)

end Verif.WetApply
