import Verif.Model.Cli

/-!
# Specification of the command line programs (C93, C94)
-/

set_option autoImplicit false

namespace Verif.Cli

/-- the text of the input, if the file exists -/
def textOf (w : World) : Source → Option String
  | .stdin t => some t
  | .file p => w.files p

/-- input and output are not the same file -/
def Apart (i : Source) (t : Target) : Prop := ∀ p, i = .file p → t ≠ .file p

/-- the output consists of this text: a file contains nothing else, standard output nothing else in addition
to what was printed before -/
def Received (w w' : World) (t : Target) (s : String) : Prop :=
  match t with
  | .stdout => w'.stdout = w.stdout ++ s
  | .file p => w'.files p = some s

/-- parsing of a document -/
def document {α : Type} (x : Option α) : Except Exc α :=
  match x with
  | none => .error (.other 0)
  | some d => .ok d

/-- a `WC` object in a format -/
def written (L : Lib) (fmt : String) (l : Loaded) : Except Exc String :=
  if lower fmt = "json" then L.json (L.docOf l)
  else if lower fmt = "yaml" then L.yaml (L.docOf l)
  else .error .valueError

/-- What the user asks for, in terms of the Python API: the text that the calls of the library give for an
input text, or the exception.  Requests for unknown formats or types of files are errors. -/
noncomputable def api (L : Lib) : Cmd → String → Except Exc String
  | .convert fmt _, text =>
    if lower fmt = "json" then do
      let d ← document (L.yamlLoad text)
      L.json d
    else if lower fmt = "yaml" then do
      let d ← document (L.jsonLoad text)
      L.yaml d
    else .error .valueError
  | .translate basis fmt _, text => do
    let d ← document (L.parse text)
    let wc ← L.wcOf d
    let out ← wc.translate L basis
    written L fmt out
  | .match eft basis fmt _, text => do
    let d ← document (L.parse text)
    let wc ← L.wcOf d
    let out ← wc.match L eft basis
    written L fmt out
  | .validate type, text =>
    if type = "eft" then do
      let d ← document (L.parse text)
      let _ ← L.eftOf d
      .ok "Validation successful.\n"
    else if type = "basis" then do
      let d ← document (L.parse text)
      let b ← L.basisOf d
      b.validate L.bases L.latexOk
      .ok "Validation successful.\n"
    else if type = "wc" then do
      let d ← document (L.parse text)
      let wc ← L.wcOf d
      wc.validate L
      .ok "Validation successful.\n"
    else .error .valueError
  | .none, _ => .error .valueError

/-- The failures that `wcxf` does not report: an unknown format or an unreadable file in `convert`, an unknown
type of file in `validate`, a missing subcommand, and every AttributeError. -/
def Silent (L : Lib) (c : Cmd) (text : String) : Prop :=
  (∃ fmt out, c = .convert fmt out ∧
    (lower fmt ≠ "json" ∧ lower fmt ≠ "yaml" ∨ lower fmt = "json" ∧ L.yamlLoad text = none ∨
      lower fmt = "yaml" ∧ L.jsonLoad text = none)) ∨
  (∃ type, c = .validate type ∧ type ≠ "eft" ∧ type ≠ "basis" ∧ type ≠ "wc") ∨
  c = .none ∨ api L c text = .error .attributeError

/-- the file that is written to by a call of `wcxf2eos` -/
def eosTarget (out : Target) (eoshome : Option String) : Target :=
  match eoshome with
  | none => out
  | some h => match out with
    | .stdout => .file (h ++ "/parameters/wcxf.yaml")
    | .file p => .file p

/-- no file except for the output is changed -/
def OthersKept (t : Target) (w w' : World) : Prop := ∀ p, t ≠ .file p → w'.files p = w.files p

end Verif.Cli
