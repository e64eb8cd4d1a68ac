import Verif.Model.WetEos
/-! Prints the dictionaries returned by the translators of translate/wet.py as Lean terms
(`lean/Verif/Gen/WetOut*.lean`).  Run `lake env lean ../tools/gen_wetout.lean.txt` in `/verif/lean`. -/
open Verif.Py
def q (n : ℕ) : String := "n!\"" ++ decode n ++ "\""
partial def sh : Sym → String
  | .rat n d => if n < 0 then s!"(.rat ({n}) {d})" else s!"(.rat {n} {d})"
  | .inp k => s!"(.inp {q k})" | .par k => s!"(.par {q k})" | .ckm i j => s!"(.ckm {i} {j})" | .pi => ".pi"
  | .sqrt a => s!"(.sqrt {sh a})"
  | .add a b => s!"(.add {sh a} {sh b})" | .sub a b => s!"(.sub {sh a} {sh b})"
  | .mul a b => s!"(.mul {sh a} {sh b})" | .div a b => s!"(.div {sh a} {sh b})"
  | .neg a => s!"(.neg {sh a})" | .conj a => s!"(.conj {sh a})"
  | .re a => s!"(.re {sh a})" | .im a => s!"(.im {sh a})"
partial def chunks {α : Type} (n : Nat) (l : List α) : List (List α) :=
  if l.isEmpty then [] else l.take n :: chunks n (l.drop n)
def gen (file : String) (f : ℕ) (r : Res (List (ℕ × Sym) × List (ℕ × List Sym))) : IO Unit := do
  let name := decode f
  match r with
  | .error _ => throw (IO.userError name)
  | .ok (l, arrays) =>
    let cs := (chunks 50 l).zipIdx
    let mut out := "import Verif.Model.Py\n\n/-!\n# The dictionary returned by `" ++ name ++ "`\n\n" ++
      "GENERATED by tools/gen_wetout.lean.txt; that this is what the translator returns is proved in\n" ++
      "`Lemmas/WetRuns" ++ file ++ "`.\n-/\n\nset_option autoImplicit false\nset_option maxRecDepth 20000\n\n" ++
      "namespace Verif.Gen.WetOut\nopen Verif.Py\n\n"
    for (c, i) in cs do
      out := out ++ s!"def {name}_{i} : List (ℕ × Sym) := [\n  " ++
        String.intercalate ",\n  " (c.map fun p => s!"({q p.1}, {sh p.2})") ++ "]\n\n"
    out := out ++ "/-- the items returned by `" ++ name ++ "` (in the order of the search tree of the model) -/\n" ++
      s!"def {name} : List (ℕ × Sym) :=\n  " ++
      String.intercalate " ++ (" (cs.map fun c => s!"{name}_{c.2}") ++
      String.join (List.replicate (cs.length - 1) ")") ++ "\n"
    if !arrays.isEmpty then
      out := out ++ s!"\n/-- the arrays returned by `{name}` -/\ndef {name}_arrays : List (ℕ × List Sym) := [\n  " ++
        String.intercalate ",\n  " (arrays.map fun p =>
          s!"({q p.1}, [{String.intercalate ", " (p.2.map sh)}])") ++ "]\n"
    out := out ++ "\nend Verif.Gen.WetOut\n"
    IO.FS.writeFile ("Verif/Gen/WetOut" ++ file ++ ".lean") out
#eval gen "JB" n!"JMS_to_Bern" (outputs n!"JMS_to_Bern" >>- fun l => .ok (l, []))
#eval gen "BJ" n!"Bern_to_JMS" (outputs n!"Bern_to_JMS" >>- fun l => .ok (l, []))
#eval gen "JF" n!"JMS_to_flavio" (outputs n!"JMS_to_flavio" >>- fun l => .ok (l, []))
#eval gen "FJ" n!"flavio_to_JMS" (outputs n!"flavio_to_JMS" >>- fun l => .ok (l, []))
#eval gen "BF" n!"Bern_to_flavio" (outputs n!"Bern_to_flavio" >>- fun l => .ok (l, []))
#eval gen "FB" n!"flavio_to_Bern" (outputs n!"flavio_to_Bern" >>- fun l => .ok (l, []))
#eval gen "FF" n!"JMS_to_FormFlavor" (outputs n!"JMS_to_FormFlavor" >>- fun l => .ok (l, []))
#eval gen "E" n!"JMS_to_EOS" Verif.WetEos.eosOutputs
