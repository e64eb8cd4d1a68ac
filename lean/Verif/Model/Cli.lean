import Verif.Model.WCxf

/-!
# The command line programs (wcxf/cli.py, wcxf/converters/yamljson.py)

The programs act on a world of text files, standard output and error messages.  The parsers and serialisers
for YAML and JSON, and the converters modelled elsewhere (Model/Eos, Model/SmeftSim, Model/Dsix), are
parameters.  Output is written at once, not buffered; a serialiser that fails writes nothing.
-/

set_option autoImplicit false

namespace Verif.Cli

/-- The world a program acts on: text files, directories, standard output and messages of `logging`. -/
structure World where
  files : String → Option String
  isDir : String → Bool
  stdout : String
  log : List String

/-- an input file argument, `argparse.FileType('r')` with default `sys.stdin` (cli.py:20-22 etc.) -/
inductive Source
  | stdin (text : String)
  | file (path : String)

/-- an output file argument, `argparse.FileType('w')` with default `sys.stdout` (cli.py:23-26 etc.) -/
inductive Target
  | stdout
  | file (path : String)

/-- how a program ends: the exit status, or an uncaught exception -/
inductive Status
  | exit (n : ℕ)
  | traceback (e : Exc)

/-! ## Effects -/

/-- Python code with exceptions; changes of the world survive an exception -/
def M (α : Type) : Type := World → Except Exc α × World

/-- sequencing -/
instance : Monad M where
  pure a := fun w => (.ok a, w)
  bind x f := fun w => match x w with
    | (.ok a, w') => f a w'
    | (.error e, w') => (.error e, w')

/-- `raise`, or a call without side effects -/
def lift {α : Type} (x : Except Exc α) : M α := fun w => (x, w)

/-- `logging.error` -/
def logError (s : String) : M Unit := fun w => (.ok (), { w with log := w.log ++ [s] })

/-- appending text to an output -/
def World.put (w : World) (t : Target) (s : String) : World :=
  match t with
  | .stdout => { w with stdout := w.stdout ++ s }
  | .file p => { w with files := Function.update w.files p (some ((w.files p).getD "" ++ s)) }

/-- `stream.write(s)`, `print(s)` -/
def write (t : Target) (s : String) : M Unit := fun w => (.ok (), w.put t s)

/-- `stream.read()`: the text that the file has when it is read -/
def read (i : Source) : M String := fun w => match i with
  | .stdin t => (.ok t, w)
  | .file p => (.ok ((w.files p).getD ""), w)

/-- opening a file for writing empties it -/
def World.trunc (w : World) : Target → World
  | .stdout => w
  | .file p => { w with files := Function.update w.files p (some "") }

/-- `open(path, 'w')` -/
def openOut (t : Target) : M Unit := fun w => (.ok (), w.trunc t)

/-- opening a file for reading fails if it does not exist (argparse: exit status 2) -/
def missing (w : World) : Source → Bool
  | .stdin _ => false
  | .file p => (w.files p).isNone

/-! ## The library -/

/-- A loaded WCxf file (wcxf/classes.py:162-165, 324-335).  `values` is `none` if that entry of the file is
not a mapping; the constructor accepts it nevertheless. -/
structure Loaded where
  eft : String
  basis : String
  scale : ℝ
  values : Option (Dict String Val)
  extra : Dict String String := []

/-- the `WC` object of a file whose values are a mapping -/
def Loaded.toWC (l : Loaded) (v : Dict String Val) : WC :=
  { eft := l.eft, basis := l.basis, scale := l.scale, values := v, extra := l.extra }

/-- a `WC` object -/
def ofWC (wc : WC) : Loaded :=
  { eft := wc.eft, basis := wc.basis, scale := wc.scale, values := some wc.values, extra := wc.extra }

/-- What the programs call.  `Doc` are the objects that YAML and JSON represent. -/
structure Lib where
  Doc : Type
  /-- `_load_yaml_json` (wcxf/classes.py:30-39): `none` stands for a parser error, as in the next two -/
  parse : String → Option Doc
  /-- `yaml.safe_load` -/
  yamlLoad : String → Option Doc
  /-- `json.load` -/
  jsonLoad : String → Option Doc
  /-- `json.dump(…, indent=2)` -/
  json : Doc → Except Exc String
  /-- `yaml.dump(…, default_flow_style=False)` -/
  yaml : Doc → Except Exc String
  /-- `WC(**doc)` -/
  wcOf : Doc → Except Exc Loaded
  /-- `EFT(**doc)` -/
  eftOf : Doc → Except Exc EFT
  /-- `Basis(**doc)` -/
  basisOf : Doc → Except Exc Basis
  /-- `self.__dict__` without the private attributes (wcxf/classes.py:179) -/
  docOf : Loaded → Doc
  latexOk : Basis → Bool
  bases : Bases
  physics : Physics
  /-- `get_sm_wcs` for an installation prefix, and `wcxf2eos` (cli.py:148-151) -/
  eos : String → Loaded → Except Exc Doc
  /-- the text of the SMEFTsim card (cli.py:187-194) -/
  card : Loaded → Except Exc String
  /-- the DsixTools file (cli.py:210) -/
  dsix : Loaded → Except Exc String
  /-- the WCxf file of DsixTools files (cli.py:223) -/
  undsix : List String → Except Exc String

variable (L : Lib)

/-- `str.lower()`, for ASCII.  (No other character becomes a letter of "json" or "yaml".) -/
def lower (s : String) : String := String.ofList (s.toList.map Char.toLower)

/-- `WC.load` (wcxf/classes.py:162-165) of a text -/
def loadWC (text : String) : Except Exc Loaded := do
  let d ← match L.parse text with
    | none => .error (.other 0)
    | some d => .ok d
  L.wcOf d

/-- wcxf/classes.py:368-380 `WC.validate`; `self.values.keys()` raises AttributeError if the values are not
a mapping. -/
def Loaded.validate (l : Loaded) : Except Exc Unit :=
  match l.values with
  | some v => (l.toWC v).validate L.bases
  | none =>
    match L.bases.efts.get? l.eft, L.bases.bases.get? (l.eft, l.basis) with
    | some _, some _ => .error .attributeError
    | _, _ => .error .valueError

/-- wcxf/classes.py:448-465 `WC.translate`; `self.values.items()` (384) raises AttributeError if the values
are not a mapping. -/
noncomputable def Loaded.translate (l : Loaded) (basis : String) : Except Exc Loaded :=
  match l.values with
  | some v => (WC.translate L.physics (l.toWC v) basis none none).map ofWC
  | none =>
    if basis = l.basis then .ok l
    else match L.physics.translators.get? (l.eft, l.basis, basis) with
      | none => .error .valueError
      | some _ => .error .attributeError

/-- wcxf/classes.py:467-476 `WC.match`; see `translate`. -/
noncomputable def Loaded.match (l : Loaded) (eft basis : String) : Except Exc Loaded :=
  match l.values with
  | some v => (WC.match L.physics (l.toWC v) eft basis none).map ofWC
  | none =>
    if eft = l.eft ∧ basis = l.basis then .ok l
    else match L.physics.matchers.get? (l.eft, l.basis, eft, basis) with
      | none => .error .valueError
      | some _ => .error .attributeError

/-- wcxf/classes.py:167-194 `dump`: the text -/
def dump (fmt : String) (l : Loaded) : Except Exc String :=
  if lower fmt = "json" then L.json (L.docOf l)
  else if lower fmt = "yaml" then L.yaml (L.docOf l)
  else .error .valueError

/-! ## The program `wcxf` -/

/-- the subcommands and their arguments (cli.py:10-76); `none`: no subcommand -/
inductive Cmd
  | convert (fmt : String) (out : Target)
  | translate (basis fmt : String) (out : Target)
  | match (eft basis fmt : String) (out : Target)
  | validate (type : String)
  | none

/-- the argument `--output` -/
def Cmd.out : Cmd → Target
  | .convert _ t => t
  | .translate _ _ t => t
  | .match _ _ _ t => t
  | _ => .stdout

/-- yamljson.py:7-12 `convert_json`, with wcxf/classes.py:48-50.  The result is not used. -/
def convertJson (i : Source) (out : Target) : M Unit := do
  let text ← read i
  match L.yamlLoad text with
  | none => logError "Input file cannot be parsed as YAML."
  | some d => do
    let s ← lift (L.json d)
    write out s

/-- yamljson.py:15-21 `convert_yaml`, with wcxf/classes.py:52-54.  The result is not used. -/
def convertYaml (i : Source) (out : Target) : M Unit := do
  let text ← read i
  match L.jsonLoad text with
  | none => logError "Input file cannot be parsed as JSON."
  | some d => do
    let s ← lift (L.yaml d)
    write out s

/-- cli.py:84-89 `convert` -/
def convert (fmt : String) (i : Source) (out : Target) : M Unit := do
  (if lower fmt = "json" then convertJson L i out else pure ())
  (if lower fmt = "yaml" then convertYaml L i out else pure ())

/-- cli.py:92-95 `translate` -/
noncomputable def translate (basis fmt : String) (i : Source) (out : Target) : M Unit := do
  let text ← read i
  let wc_in ← lift (loadWC L text)
  let wc_out ← lift (wc_in.translate L basis)
  let s ← lift (dump L fmt wc_out)
  write out s

/-- cli.py:98-101 `match` -/
noncomputable def matchCmd (eft basis fmt : String) (i : Source) (out : Target) : M Unit := do
  let text ← read i
  let wc_in ← lift (loadWC L text)
  let wc_out ← lift (wc_in.match L eft basis)
  let s ← lift (dump L fmt wc_out)
  write out s

/-- the text printed by `validate` -/
def successText : String := "Validation successful.\n"

/-- cli.py:104-117 `validate`.  The result is discarded (cli.py:79). -/
def validate (type : String) (i : Source) : M Unit := do
  if type = "eft" then
    let text ← read i
    let d ← lift (match L.parse text with | none => .error (.other 0) | some d => .ok d)
    let _ ← lift (L.eftOf d)
    write .stdout successText
  else if type = "basis" then
    let text ← read i
    let d ← lift (match L.parse text with | none => .error (.other 0) | some d => .ok d)
    let b ← lift (L.basisOf d)
    lift (b.validate L.bases L.latexOk)
    write .stdout successText
  else if type = "wc" then
    let text ← read i
    let wc ← lift (loadWC L text)
    lift (wc.validate L)
    write .stdout successText
  else logError "TYPE should be 'eft', 'basis', or 'wc'"

/-- the subcommand (cli.py:79) -/
noncomputable def runCmd (i : Source) : Cmd → M Unit
  | .convert fmt out => convert L fmt i out
  | .translate basis fmt out => translate L basis fmt i out
  | .match eft basis fmt out => matchCmd L eft basis fmt i out
  | .validate type => validate L type i
  | .none => lift (.error .attributeError)   -- `args.func`

/-- the text printed by `parser.print_help()` -/
def helpText : String := "usage: wcxf [-h] {convert,translate,match,validate} ...\n"

/-- Parsing of the arguments: the files are opened, in the order in which they are on the command line
(`outFirst`).  `none`: the program ends with status 2. -/
def openFiles (i : Source) (out : Target) (outFirst : Bool) (w : World) : Bool × World :=
  if outFirst then (!missing (w.trunc out) i, w.trunc out)
  else if missing w i then (false, w) else (true, w.trunc out)

/-- cli.py:10-81 `wcxf_cli`, entry point of the program `wcxf` (setup.py:46) -/
noncomputable def wcxfCli (i : Source) (c : Cmd) (outFirst : Bool) (w : World) : Status × World :=
  match openFiles i c.out outFirst w with
  | (false, w) => (.exit 2, w)
  | (true, w) =>
    match runCmd L i c w with
    | (.ok _, w) => (.exit 0, w)
    | (.error .attributeError, w) => (.exit 0, w.put .stdout helpText)
    | (.error e, w) => (.traceback e, w)

/-! ## The converters -/

/-- the end of a program without handler for exceptions -/
def finish (x : M ℕ) (w : World) : Status × World :=
  match x w with
  | (.ok n, w) => (.exit n, w)
  | (.error e, w) => (.traceback e, w)

/-- cli.py:145-154: the part of `eos` that follows the opening of the output file -/
def eosBody (i : Source) (eosprefix : String) (out : Target) : M ℕ := do
  let text ← read i
  let wc ← lift (loadWC L text)
  lift (wc.validate L)
  let d ← lift (L.eos eosprefix wc)
  let s ← lift (L.yaml d)
  write out s
  pure 0

/-- cli.py:138-142 the file of the EOS installation that is written.  (`os.path.join` for a directory without
trailing slash.) -/
def eosFile (eoshome : String) : String := eoshome ++ "/parameters/wcxf.yaml"

/-- cli.py:120-154 `eos`, entry point of `wcxf2eos` (setup.py:47) -/
def eos (i : Source) (eosprefix : String) (out : Target) (eoshome : Option String) (outFirst : Bool)
    (w : World) : Status × World :=
  match openFiles i out outFirst w with
  | (false, w) => (.exit 2, w)
  | (true, w) =>
    match out, eoshome with
    | .file _, some _ =>
      finish (do logError "Cannot use --output and --eoshome arguments simultaneously"; pure 1) w
    | .stdout, some h =>
      if w.isDir (h ++ "/parameters") then
        finish (eosBody L i eosprefix (.file (eosFile h))) (w.trunc (.file (eosFile h)))
      else finish (do logError "Output directory does not exist"; pure 1) w
    | o, none => finish (eosBody L i eosprefix o) w

/-- cli.py:176-180 (abbreviated) -/
def warningText : String := "WARNING: The input file must be in the 'Warsaw mass' basis!\n"

/-- cli.py:157-196 `smeftsim`, entry point of `wcxf2smeftsim` (setup.py:50).  `key` is what the user types
when asked; `quit()` ends the program with status 0. -/
def smeftsim (i : Source) (output key : String) (w : World) : Status × World :=
  if missing w i then (.exit 2, w)
  else finish (do
    let text ← read i
    let wc ← lift (loadWC L text)
    lift (wc.validate L)
    (if wc.basis ≠ "Warsaw mass" then write .stdout warningText else pure ())
    if wc.basis ≠ "Warsaw mass" ∧ key ≠ "i" ∧ key ≠ "I" then pure 0
    else do
      openOut (.file output)
      let s ← lift (L.card wc)
      write (.file output) s
      pure 0) w

/-- cli.py:199-211 `wcxf2dsixtools`, entry point of `wcxf2dsixtools` (setup.py:48) -/
def wcxf2dsixtools (i : Source) (out : Target) (outFirst : Bool) (w : World) : Status × World :=
  match openFiles i out outFirst w with
  | (false, w) => (.exit 2, w)
  | (true, w) => finish (do
      let text ← read i
      let wc ← lift (loadWC L text)
      lift (wc.validate L)
      let s ← lift (L.dsix wc)
      write out s
      pure 0) w

/-- reading several files -/
def readAll : List String → M (List String)
  | [] => pure []
  | p :: ps => do
    let t ← read (.file p)
    let ts ← readAll ps
    pure (t :: ts)

/-- cli.py:214-224 `dsixtools2wcxf`, entry point of `dsixtools2wcxf` (setup.py:49); the output is opened
after the input files. -/
def dsixtools2wcxf (paths : List String) (out : Target) (w : World) : Status × World :=
  if paths.any fun p => missing w (.file p) then (.exit 2, w)
  else finish (do
    let texts ← readAll paths
    let s ← lift (L.undsix texts)
    write out s
    pure 0) (w.trunc out)

end Verif.Cli
