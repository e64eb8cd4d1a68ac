import Verif.Model.SmeftHiggs

/-!
# The composite SMEFT translators (`/repo/wilson/translate/__init__.py` lines 15-29)

The models of the two translators that are composed represent a Python string by a `String` and by a list of
characters; `chars` and `strings` convert the keys of a dictionary and do nothing else.
-/

set_option autoImplicit false

namespace Verif.TranslateInit
open Verif Verif.EFT Verif.Rotation Verif.TranslateSmeft Verif.SmeftHiggs

/-- the same dictionary, keys as lists of characters -/
def chars (C : Dict String ℂ) : Dict Str ℂ := C.map fun e => (e.1.toList, e.2)

/-- the same dictionary, keys as strings -/
def strings (C : Dict Str ℂ) : Dict String ℂ := C.map fun e => (String.ofList e.1, e.2)

/-- translate/__init__.py:15-18 `higgs_up_to_warsaw` -/
noncomputable def higgsUpToWarsaw (U : Util) (hb wb : List String) (ckm : Ckm) (defaults : Dict String ℝ)
    (C : Dict String ℂ) (parameters : Option (Dict String ℝ)) : Except Exc (Dict String ℂ) :=
  higgslikeToWarsawUp hb wb ckm defaults C parameters >>= fun C =>
  warsawUpToWarsaw U ckm defaults (chars C) parameters >>= fun D => .ok (strings D)

/-- translate/__init__.py:26-29 `warsaw_up_to_higgs_up` (registered for `Warsaw` → `Higgs-Warsaw up`) -/
noncomputable def warsawToHiggsUp (U : Util) (hb wb : List String) (ckm : Ckm) (defaults : Dict String ℝ)
    (C : Dict String ℂ) (parameters : Option (Dict String ℝ)) : Except Exc (Dict String ℂ) :=
  warsawToWarsawUp U ckm defaults (chars C) parameters >>= fun C =>
  warsawUpToHiggslike hb wb ckm defaults (strings C) parameters

end Verif.TranslateInit
