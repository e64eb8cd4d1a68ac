import Verif.Model.Options

/-! # Specification vocabulary for options (C09-C12) -/

set_option autoImplicit false

namespace Verif.Spec

/-- The option names of `Wilson` (classes.py:110-118). -/
def optionNames : List String :=
  ["smeft_accuracy", "qed_order", "qcd_order", "smeft_matching_order", "smeft_matchingscale",
   "mb_matchingscale", "mc_matchingscale", "parameters"]

/-- The parameter dictionary `d` is turned into numbers: same names, each value coerced. -/
def CoercedTo (parse : String → Option ℝ) : Dict String PyVal → Params → Prop
  | [], [] => True
  | (k, v) :: d, (k', x) :: p =>
    k = k' ∧ (v = .num x ∨ ∃ s, v = .str s ∧ parse s = some x) ∧ CoercedTo parse d p
  | _, _ => False

/-- The documented option values: what is stored when `key` is set to `v`.
For `parameters`, `delta` is a synonym of `gamma`. -/
inductive Accepted (parse : String → Option ℝ) : String → PyVal → OptVal → Prop
  | accuracy (s : String) (h : s = "integrate" ∨ s = "leadinglog") :
      Accepted parse "smeft_accuracy" (.str s) (.str s)
  | order (k : String) (x : ℝ) (hk : k = "qed_order" ∨ k = "qcd_order" ∨ k = "smeft_matching_order")
      (hx : x = 0 ∨ x = 1) : Accepted parse k (.num x) (.num x)
  | scaleNum (k : String) (x : ℝ)
      (hk : k = "smeft_matchingscale" ∨ k = "mb_matchingscale" ∨ k = "mc_matchingscale") :
      Accepted parse k (.num x) (.num x)
  | scaleStr (k s : String) (x : ℝ)
      (hk : k = "smeft_matchingscale" ∨ k = "mb_matchingscale" ∨ k = "mc_matchingscale")
      (hs : parse s = some x) : Accepted parse k (.str s) (.num x)
  | parameters (d : Dict String PyVal) (p : Params) (hd : d.get? "delta" = none)
      (hp : CoercedTo parse d p) : Accepted parse "parameters" (.dict d) (.params p)
  | parametersDelta (d : Dict String PyVal) (x : PyVal) (p : Params) (hd : d.get? "delta" = some x)
      (hp : CoercedTo parse ((d.set "gamma" x).erase "delta") p) :
      Accepted parse "parameters" (.dict d) (.params p)

end Verif.Spec
