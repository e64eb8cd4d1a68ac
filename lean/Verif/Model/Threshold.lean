import Verif.Model.WCxf
import Verif.Gen.Registrations

/-!
# The threshold matchers WET → WET-4 → WET-3 → WET-2 (`wilson/match/__init__.py:51-90`)
-/

set_option autoImplicit false

namespace Verif

/-- wilson/match/__init__.py:51-90: the body shared by the seven matchers,
`keys = set(wcxf.Basis[to_eft, basis].all_wcs); return {k: v for k, v in C.items() if k in keys}`.
A basis that is not registered raises KeyError (AttributeError if there are no bases at all). -/
noncomputable def thresholdMatch (st : Bases) (toEft toBasis : String) : MatchFn := fun C _ _ =>
  match st.bases with
  | none => .error .attributeError
  | some _ =>
    match st.bases.get? (toEft, toBasis) with
    | none => .error .keyError
    | some b => b.allWcs >>= fun keys => .ok (C.filterKV fun k _ => decide (k ∈ keys))

/-- wilson/match/__init__.py:51, 57, 63, 69, 75, 81, 87: the seven registrations. -/
def thresholdMatchers : List (String × String × String × String) :=
  [("WET", "flavio", "WET-4", "flavio"), ("WET-4", "flavio", "WET-3", "flavio"),
   ("WET", "Bern", "WET-4", "Bern"), ("WET-4", "Bern", "WET-3", "Bern"),
   ("WET", "JMS", "WET-4", "JMS"), ("WET-4", "JMS", "WET-3", "JMS"),
   ("WET-3", "JMS", "WET-2", "JMS")]

/-- The registered functions: a registry that has the package's threshold matchers. -/
def HasThresholds (st : Bases) (ph : Physics) : Prop :=
  ∀ n ∈ thresholdMatchers, ph.matchers.get? n = some (thresholdMatch st n.2.2.1 n.2.2.2)

end Verif
