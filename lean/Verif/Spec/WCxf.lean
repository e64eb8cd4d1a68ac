import Verif.Model.WCxf

/-! # Specifications for the WCxf data layer (C01-C08) -/

set_option autoImplicit false

namespace Verif.Spec

/-- `e` consists of exactly the non-zero entries of `d`. -/
def IsNonzeroPart (d e : Dict String ℂ) : Prop :=
  ∀ k v, e.get? k = some v ↔ d.get? k = some v ∧ v ≠ 0

/-- `w` is a WC with the given EFT, basis, scale whose coefficients are the non-zero
entries of `out`. -/
def IsResult (w : WC) (eft basis : String) (scale : ℝ) (out : Dict String ℂ) : Prop :=
  w.eft = eft ∧ w.basis = basis ∧ w.scale = scale ∧ IsNonzeroPart out w.dict

/-- Registry API calls. -/
inductive RegOp (κ α : Type)
  | register (name : κ) (x : α)
  | del (name : κ)
  | clearAll

/-- The state after an API call; a raising call leaves it unchanged. -/
def RegOp.apply {κ α : Type} [DecidableEq κ] (r : Registry κ α) : RegOp κ α → Registry κ α
  | .register n x => r.register n x
  | .del n => match r.del n with
    | .ok r' => r'
    | .error _ => r
  | .clearAll => r.clearAll

/-- The call concerns the given name. -/
def RegOp.touches {κ α : Type} (name : κ) : RegOp κ α → Prop
  | .register n _ => n = name
  | .del n => n = name
  | .clearAll => True

end Verif.Spec
