import Verif.Model.FlavorKit

/-!
# Names of the FlavorKit basis and of the corresponding JMS coefficients
-/

set_option autoImplicit false

namespace Verif.FlavorKit
open Verif Verif.Py

/-- the coefficients of the FlavorKit basis: those in the data files of the package, two more and the leptonic
dipoles -/
def flavorKitNames : List String :=
  d.keys ++ dConj.keys ++ ["AVLL_2231", "AVRR_2231", "K2R_12", "K2R_13", "K2R_21", "K2R_23", "K2R_31", "K2R_32"]

/-- the JMS coefficients that correspond to them -/
def jmsNames : List String :=
  d.map Prod.snd ++ dConj.map Prod.snd ++
    ["VeeLL_1223", "VeeRR_1223", "egamma_21", "egamma_31", "egamma_12", "egamma_32", "egamma_13", "egamma_23"]

/-- all leptonic dipoles of the JMS basis -/
def egammaNames : List String :=
  ["egamma_11", "egamma_12", "egamma_13", "egamma_21", "egamma_22", "egamma_23", "egamma_31", "egamma_32", "egamma_33"]

end Verif.FlavorKit
