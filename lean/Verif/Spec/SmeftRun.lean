import Verif.Model.SmeftRun
import Verif.Spec.Beta

/-!
# Specification for the SMEFT running and continuous solutions (C46, C62)
-/

set_option autoImplicit false

namespace Verif.SmeftRun

open Verif.Tens Verif.Beta

/-- a complete parameter point: every Standard Model parameter and Wilson coefficient has exactly one
value -/
structure Complete (C : Dict Key Ten) : Prop where
  nodup : C.NodupKeys
  keys : ∀ k, k ∈ C.keys ↔ k ∈ Beta.keys

/-- the entry of a parameter -/
noncomputable def entry (C : Dict Key Ten) (k : Key) (ix : Ix) : ℂ :=
  ((C.get? k).getD fun _ => 0) ix

/-- the one-loop beta function at the parameter point `C` (`cKeys`: the coefficient list of the
basis) -/
noncomputable def betaAt (cKeys : List Key) (C : Dict Key Ten) (newphys : Bool) (k : Key) (ix : Ix) : ℂ :=
  (((beta cKeys (fun k => (C.get? k).getD fun _ => 0) 1 newphys).get? k).getD fun _ => 0) ix

end Verif.SmeftRun
