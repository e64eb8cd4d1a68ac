import Verif.Model.Wilson

/-! # Specification vocabulary for `match_run` (C13-C17) -/

set_option autoImplicit false
open Classical

namespace Verif.Spec

/-- What `match_run` gives on a newly created instance (empty cache) with coefficients `wc`
and options `o`. -/
noncomputable def fresh (B : Backend) (o : Opts) (wc : WC) (scale : ℝ) (eft basis : String)
    (sectors : Sectors) : Except Exc WC :=
  (matchRun B o wc [] scale eft basis sectors).1.1

/-- The request asks for SMEFT coefficients at another scale, restricted to some sectors, from
SMEFT input in a basis other than Warsaw. -/
def SectorRestrictedSmeft (wc : WC) (scale : ℝ) (eft : String) (sectors : Sectors) : Prop :=
  wc.eft = "SMEFT" ∧ eft = "SMEFT" ∧ sectors ≠ .all ∧ scale ≠ wc.scale ∧ wc.basis ≠ "Warsaw"

/-- The request asks, starting from SMEFT, for the WET coefficients in the JMS basis exactly at
the electroweak matching scale. -/
def AtMatchingScale (o : Opts) (wc : WC) (scale : ℝ) (eft basis : String) (sectors : Sectors) : Prop :=
  wc.eft = "SMEFT" ∧ eft = "WET" ∧ basis = "JMS" ∧ sectors = .all ∧ scale = o.scaleEw

/-- A history in which no request satisfies `Bad` (evaluated with the options current at the
time of the request). -/
def Avoids (Bad : Opts → ℝ → String → String → Sectors → Prop) (B : Backend)
    (parse : String → Option ℝ) (defaults : Dict String OptVal) : Wilson → List Op → Prop
  | _, [] => True
  | s, op :: ops =>
    (match op with
      | .matchRun x e b sec => ¬ Bad (readOpts defaults s.inst) x e b sec
      | _ => True) ∧ Avoids Bad B parse defaults (s.step B parse defaults op) ops

/-! ## Supported transitions -/

/-- The chain of EFTs. -/
def level : String → Option ℕ
  | "SMEFT" => some 0
  | "WET" => some 1
  | "WET-4" => some 2
  | "WET-3" => some 3
  | _ => none

/-- Nothing but (possibly) a translation is needed, or one goes downward (or stays) in the
chain. -/
def Supported (wc : WC) (scale : ℝ) (eft : String) : Prop :=
  (wc.eft = eft ∧ scale = wc.scale) ∨
    ∃ i j, level wc.eft = some i ∧ level eft = some j ∧ i ≤ j

/-! ## Expected physics calls -/

/-- Name of the EFT on a level. -/
def eftName : ℕ → String
  | 0 => "SMEFT"
  | 1 => "WET"
  | 2 => "WET-4"
  | _ => "WET-3"

/-- The matching scale below level `i`. -/
def threshold (o : Opts) : ℕ → ℝ
  | 0 => o.scaleEw
  | 1 => o.mb
  | _ => o.mc

/-- Running in the EFT of level `i`. -/
def runEv (o : Opts) (sectors : Sectors) (i : ℕ) (a b : ℝ) : Ev :=
  if i = 0 then .smeftRun a b o.accuracy else .wetRun (eftName i) a b sectors o.qed o.qcd

/-- Matching from level `i` to level `i+1` at the threshold, starting from basis `b`. -/
def matchEv (o : Opts) (p : Params) (i : ℕ) (b : String) : Ev :=
  .match (eftName i) b (eftName (i + 1)) "JMS" (threshold o i) (some p)

/-- Run down `n` thresholds starting at level `i`, scale `a`, and then to the scale `b`. -/
def descend (o : Opts) (p : Params) (sectors : Sectors) : ℕ → ℕ → ℝ → ℝ → List Ev
  | 0, i, a, b => [runEv o sectors i a b]
  | n + 1, i, a, b =>
    runEv o sectors i a (threshold o i) ::
      matchEv o p i (if i = 0 then "Warsaw" else "JMS") ::
      descend o p sectors n (i + 1) (threshold o i) b

/-- The running and matching calls (translations left out) expected for a request with something
to run: SMEFT coefficients given directly at the matching scale are matched in their own basis. -/
noncomputable def expectedCalls (o : Opts) (p : Params) (wc : WC) (sectors : Sectors) (i j : ℕ) (scale : ℝ) :
    List Ev :=
  if i = 0 ∧ 0 < j ∧ wc.scale = o.scaleEw then
    matchEv o p 0 wc.basis :: descend o p sectors (j - 1) 1 o.scaleEw scale
  else descend o p sectors (j - i) i wc.scale scale

/-- The event is not a basis translation. -/
def notTranslate : Ev → Bool
  | .translate .. => false
  | _ => true

/-! ## Backends whose calls succeed -/

/-- Translating from `b1` to `b2` is possible. -/
def TransOK (B : Backend) (eft b1 b2 : String) : Prop :=
  b2 = b1 ∨ ∃ f, B.ph.translators.get? (eft, b1, b2) = some f ∧
    ∀ d x p s, ∃ out, f d x p s = .ok out

/-- Matching from `(e1, b1)` to `(e2, "JMS")` is possible. -/
def MatchOK (B : Backend) (e1 b1 e2 : String) : Prop :=
  ∃ f, B.ph.matchers.get? (e1, b1, e2, "JMS") = some f ∧ ∀ d x p, ∃ out, f d x p = .ok out

/-- The numerical backend succeeds for input `wc` and target `(eft, basis)`. -/
structure BackendOK (B : Backend) (wc : WC) (eft basis : String) : Prop where
  own : eft = wc.eft → TransOK B wc.eft wc.basis basis
  warsaw : wc.eft = "SMEFT" → TransOK B "SMEFT" wc.basis "Warsaw"
  jms : wc.eft ≠ "SMEFT" → TransOK B wc.eft wc.basis "JMS"
  out : TransOK B eft (if eft = "SMEFT" then "Warsaw" else "JMS") basis
  ew : MatchOK B "SMEFT" "Warsaw" "WET"
  ewOwn : wc.eft = "SMEFT" → MatchOK B "SMEFT" wc.basis "WET"
  mb : MatchOK B "WET" "JMS" "WET-4"
  mc : MatchOK B "WET-4" "JMS" "WET-3"
  smeft : ∀ d a b acc, ∃ out, B.smeftEvolve d a b acc = .ok out
  wet : ∀ e d a b s q1 q2, ∃ out, B.wetEvolve e d a b s q1 q2 = .ok out

end Verif.Spec
