import Verif.Spec.Rotation
import Verif.Spec.BetaSym
import Verif.Model.Match

/-!
# Specification: matching of the SMEFT onto the WET

Symmetry classes of the JMS coefficients and the relation between the fields of the two
theories, written from the operator definitions (arXiv:1709.04486).
-/

set_option autoImplicit false

namespace Verif.Match
open Verif Verif.Tens Verif.Beta Verif.Rotation Verif.Flavour

/-- symmetry class of a JMS coefficient: 4 two identical hermitian currents, 41 two identical
scalar currents, 5 two different hermitian currents, 6 four identical-chirality leptons of one
charge (Fierz), 71 antisymmetric in the first two indices; 0 none -/
def wetClass : WKey → ℕ
  | .VuuRR | .VddRR | .VuuLL | .VddLL => 4
  | .S1ddRR | .S1uuRR | .S8uuRR | .SeeRR | .S8ddRR => 41
  | .VnueLL | .VnuuLL | .VnudLL | .VeuLL | .VedLL | .V1udLL | .V8udLL | .VeuRR | .VedRR | .V1udRR
  | .V8udRR | .VnueLR | .VeeLR | .VnuuLR | .VnudLR | .VeuLR | .VedLR | .VueLR | .VdeLR | .V1uuLR
  | .V8uuLR | .V1udLR | .V8udLR | .V1duLR | .V8duLR | .V1ddLR | .V8ddLR => 5
  | .VeeLL | .VeeRR | .VnunuLL => 6
  | .SuudLR | .SuudRL | .SdduRL => 71
  | _ => 0

/-- the SMEFT multiplet a WET field comes from -/
def parent : WFl → Fl
  | .uL | .dL => .q
  | .uR => .u
  | .dR => .d
  | .eL | .nu => .l
  | .eR => .e

/-- baryon-number violating SMEFT coefficients -/
def bnvSMEFT : List Key := [.duql, .qque, .qqql, .duue]

/-- baryon-number violating JMS coefficients -/
def bnvWET : List WKey :=
  [.SuddLL, .SduuLL, .SduuLR, .SduuRL, .SdudRL, .SduuRR, .SuudLR, .SuudRL, .SdduRL]

/-- value of an array entry, 0 if the coefficient is not in the dictionary -/
noncomputable def val {κ : Type} [DecidableEq κ] (C : Dict κ Ten) (k : κ) : Ten :=
  (C.get? k).getD fun _ => 0

end Verif.Match
