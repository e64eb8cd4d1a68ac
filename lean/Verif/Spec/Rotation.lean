import Verif.Spec.Flavour
import Verif.Spec.Symmetry
import Verif.Gen.Rotation

/-!
# Specification: symmetry classes of the SMEFT coefficients, flavours of the JMS coefficients

Written from the operator definitions (arXiv:1008.4884, arXiv:1405.0486 for the
baryon-number violating ones; arXiv:1709.04486 for the JMS basis).
-/

set_option autoImplicit false

namespace Verif.Spec
open Verif Verif.Tens Verif.Beta

/-- the array obeys the symmetry relations of class `c` (no relation for 0, 1 and 3) -/
def ObeysClass (c : ℕ) (A : Ten) : Prop :=
  (c = 2 → IsClass2 fun i => A [i.1, i.2]) ∧
  (c = 9 → IsClass9 fun i => A [i.1, i.2]) ∧
  (c = 4 → IsClass4 fun i => A [i.1, i.2.1, i.2.2.1, i.2.2.2]) ∧
  (c = 41 → IsClass41 fun i => A [i.1, i.2.1, i.2.2.1, i.2.2.2]) ∧
  (c = 5 → IsClass5 fun i => A [i.1, i.2.1, i.2.2.1, i.2.2.2]) ∧
  (c = 6 → IsClass6 fun i => A [i.1, i.2.1, i.2.2.1, i.2.2.2]) ∧
  (c = 7 → IsClass7 fun i => A [i.1, i.2.1, i.2.2.1, i.2.2.2]) ∧
  (c = 71 → IsClass71 fun i => A [i.1, i.2.1, i.2.2.1, i.2.2.2]) ∧
  (c = 8 → IsClass8 fun i => A [i.1, i.2.1, i.2.2.1, i.2.2.2])

/-- symmetry class of a SMEFT coefficient: 2 hermitian matrix, 9 symmetric matrix, 4 two
identical currents, 5 two different hermitian currents, 6 `ee`, 7 `qque`, 8 `qqql`; no
symmetry (reported as 0) for all others -/
def smeftClass : Key → ℕ
  | .phil1 | .phil3 | .phie | .phiq1 | .phiq3 | .phiu | .phid => 2
  | .llphiphi => 9
  | .ll | .qq1 | .qq3 | .uu | .dd => 4
  | .lq1 | .lq3 | .eu | .ed | .ud1 | .ud8 | .le | .lu | .ld | .qe | .qu1 | .qu8 | .qd1 | .qd8 => 5
  | .ee => 6
  | .qque => 7
  | .qqql => 8
  | _ => 0

end Verif.Spec

namespace Verif.Flavour
open Verif.Tens Verif.Rotation

/-- the chiral fermion fields of the WET -/
inductive WFl
  | uL | uR | dL | dR | eL | eR | nu
  deriving DecidableEq, Repr

namespace WFl
/-- unbarred index -/
abbrev x (f : WFl) : Ty WFl := ⟨f, false⟩
/-- barred index -/
abbrev b (f : WFl) : Ty WFl := ⟨f, true⟩
end WFl

open WFl in
/-- the fields of the JMS operators, in the order of the flavour indices -/
def wetTy : WKey → List (Ty WFl)
  | .G | .Gtilde => []
  | .egamma => [b eL, x eR]
  | .uG | .ugamma => [b uL, x uR]
  | .dG | .dgamma => [b dL, x dR]
  -- scalar and tensor operators
  | .S1udRR | .S8udRR => [b uL, x uR, b dL, x dR]
  | .S1udduRR | .S8udduRR => [b uL, x dR, b dL, x uR]
  | .S1uuRR | .S8uuRR => [b uL, x uR, b uL, x uR]
  | .S1ddRR | .S8ddRR => [b dL, x dR, b dL, x dR]
  | .SeeRR => [b eL, x eR, b eL, x eR]
  | .SedRR | .TedRR => [b eL, x eR, b dL, x dR]
  | .SeuRR | .TeuRR => [b eL, x eR, b uL, x uR]
  | .SedRL => [b eL, x eR, b dR, x dL]
  | .SeuRL => [b eL, x eR, b uR, x uL]
  | .SnueduRR | .TnueduRR => [b nu, x eR, b dL, x uR]
  | .SnueduRL => [b nu, x eR, b dR, x uL]
  -- vector operators
  | .V1udduLR | .V8udduLR => [b uL, x dL, b dR, x uR]
  | .VnueduLL => [b nu, x eL, b dL, x uL]
  | .VnueduLR => [b nu, x eL, b dR, x uR]
  | .VuuRR => [b uR, x uR, b uR, x uR]
  | .VddRR => [b dR, x dR, b dR, x dR]
  | .VuuLL => [b uL, x uL, b uL, x uL]
  | .VddLL => [b dL, x dL, b dL, x dL]
  | .VnueLL => [b nu, x nu, b eL, x eL]
  | .VnuuLL => [b nu, x nu, b uL, x uL]
  | .VnudLL => [b nu, x nu, b dL, x dL]
  | .VeuLL => [b eL, x eL, b uL, x uL]
  | .VedLL => [b eL, x eL, b dL, x dL]
  | .V1udLL | .V8udLL => [b uL, x uL, b dL, x dL]
  | .VeuRR => [b eR, x eR, b uR, x uR]
  | .VedRR => [b eR, x eR, b dR, x dR]
  | .V1udRR | .V8udRR => [b uR, x uR, b dR, x dR]
  | .VnueLR => [b nu, x nu, b eR, x eR]
  | .VeeLR => [b eL, x eL, b eR, x eR]
  | .VnuuLR => [b nu, x nu, b uR, x uR]
  | .VnudLR => [b nu, x nu, b dR, x dR]
  | .VeuLR => [b eL, x eL, b uR, x uR]
  | .VedLR => [b eL, x eL, b dR, x dR]
  | .VueLR => [b uL, x uL, b eR, x eR]
  | .VdeLR => [b dL, x dL, b eR, x eR]
  | .V1uuLR | .V8uuLR => [b uL, x uL, b uR, x uR]
  | .V1udLR | .V8udLR => [b uL, x uL, b dR, x dR]
  | .V1duLR | .V8duLR => [b dL, x dL, b uR, x uR]
  | .V1ddLR | .V8ddLR => [b dL, x dL, b dR, x dR]
  | .VeeLL => [b eL, x eL, b eL, x eL]
  | .VeeRR => [b eR, x eR, b eR, x eR]
  | .VnunuLL => [b nu, x nu, b nu, x nu]
  -- baryon-number violating operators (ψᵀ C ψ)(ψᵀ C ψ)
  | .SuddLL => [x uL, x dL, x dL, x nu]
  | .SduuLL => [x dL, x uL, x uL, x eL]
  | .SduuLR => [x dL, x uL, x uR, x eR]
  | .SduuRL => [x dR, x uR, x uL, x eL]
  | .SdudRL => [x dR, x uR, x dL, x nu]
  | .SduuRR => [x dR, x uR, x uR, x eR]
  | .SuudLR => [x uL, x uL, x dR, x eR]
  | .SuudRL => [x uR, x uR, x dL, x eL]
  | .SdduRL => [x dR, x dR, x uL, x nu]

/-- `V` rotates the left-handed down-type quarks and nothing else -/
def downOnly (V : Matrix (Fin 3) (Fin 3) ℂ) : WFl → Matrix (Fin 3) (Fin 3) ℂ
  | .dL => V
  | _ => 1

end Verif.Flavour
