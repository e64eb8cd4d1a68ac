import Verif.Model.WetApply
import Verif.Model.WCxf

/-!
# FlavorKit ↔ JMS (`/repo/wilson/translate/wet.py` lines 2220-2279)
-/

set_option autoImplicit false

namespace Verif.FlavorKit
open Verif Verif.Py Verif.WetApply

/-- wet.py:2222: the file `data/flavorkit_jms.json` -/
def d : Dict String String := Gen.WetPy.tableFlavorkit.map fun p => (decode p.1, decode p.2)

/-- wet.py:2223: the file `data/flavorkit_jms_conj.json` -/
def dConj : Dict String String := Gen.WetPy.tableFlavorkitConj.map fun p => (decode p.1, decode p.2)

/-- wet.py:2252, 2254: `{v: k for k, v in d.items()}` -/
def revert (t : Dict String String) : Dict String String := t.foldl (fun r p => r.set p.2 p.1) []

/-- wet.py:2237-2242, 2270-2275: the mass of the lepton.  Simplification: for other characters Python raises
`UnboundLocalError` or uses the mass of the previous coefficient. -/
def mass (p : String → ℝ) (c : Char) : Except Exc ℝ :=
  if c = '1' then .ok (p "m_e") else if c = '2' then .ok (p "m_mu") else if c = '3' then .ok (p "m_tau")
  else .error (.other 1)

/-- `s[i]` -/
def char (s : List Char) (i : ℕ) : Except Exc Char :=
  match s[i]? with
  | some c => .ok c
  | none => .error (.other 2)

/-- `e = sqrt(4 * pi * p['alpha_e'])` -/
noncomputable def charge (p : String → ℝ) : Except Exc ℝ :=
  if 4 * Real.pi * p "alpha_e" < 0 then .error .valueError else .ok (Real.sqrt (4 * Real.pi * p "alpha_e"))

/-- what happens to a coefficient in the loop: nothing, or a new name and a factor or complex conjugation -/
abbrev Rule := Option (String × (ℂ → ℂ))

/-- wet.py:2226-2245: the body of the loop of `FlavorKit_to_JMS`, with the contents of the files as arguments -/
noncomputable def ruleFrom (d dConj : Dict String String) (p : String → ℝ) (k : String) : Except Exc Rule :=
  match d.get? k with
  | some j => .ok (some (j, fun v => v))
  | none =>
    match dConj.get? k with
    | some j => .ok (some (j, fun v => star v))
    | none =>
      if k = "AVLL_2231" then .ok (some ("VeeLL_1223", fun v => v))
      else if k = "AVRR_2231" then .ok (some ("VeeRR_1223", fun v => v))
      else if k.toList.take 4 = "K2R_".toList then
        charge p >>= fun e =>
        char (k.toList.drop 4).reverse 1 >>= fun c =>
        mass p c >>= fun m =>
        .ok (some ("egamma_" ++ String.ofList (k.toList.drop 4).reverse, fun v => 1 / 2 * e * m * v))
      else .error .valueError

/-- `s.split('_')[0]` and `s.split('_')[1]` -/
def split0 (s : String) : List Char := s.toList.takeWhile (· ≠ '_')
def split1 (s : String) : List Char := ((s.toList.dropWhile (· ≠ '_')).drop 1).takeWhile (· ≠ '_')

/-- wet.py:2257-2278: the body of the loop of `JMS_to_FlavorKit`, with the contents of the files as arguments -/
noncomputable def ruleTo (d dConj : Dict String String) (p : String → ℝ) (k : String) : Except Exc Rule :=
  match (revert d).get? k with
  | some j => .ok (some (j, fun v => v))
  | none =>
    match (revert dConj).get? k with
    | some j => .ok (some (j, fun v => star v))
    | none =>
      if k = "VeeLL_1223" then .ok (some ("AVLL_2231", fun v => v))
      else if k = "VeeRR_1223" then .ok (some ("AVRR_2231", fun v => v))
      else if split0 k = "egamma".toList then
        char (split1 k).reverse 0 >>= fun c =>
        char (split1 k).reverse 1 >>= fun c' =>
        if c = c' then .ok none
        else
          charge p >>= fun e =>
          mass p c >>= fun m =>
          if e = 0 ∨ m = 0 then .error (.other 0)
          else .ok (some ("K2R_" ++ String.ofList (split1 k).reverse, fun v => 2 / e / m * v))
      else .ok none

/-- `for k, v in C.items(): ...` -/
noncomputable def loop (rule : String → Except Exc Rule) : Dict String ℂ → Dict String ℂ → Except Exc (Dict String ℂ)
  | out, [] => .ok out
  | out, (k, v) :: C =>
    rule k >>= fun r =>
    match r with
    | none => loop rule out C
    | some (j, f) => loop rule (out.set j (f v)) C

/-- wet.py:2220-2246 -/
noncomputable def flavorKitToJms (P : WetApply.Params) (C : Dict String ℂ) : Except Exc (Dict String ℂ) :=
  loop (ruleFrom d dConj P.par) [] C

/-- wet.py:2249-2279 -/
noncomputable def jmsToFlavorKit (P : WetApply.Params) (C : Dict String ℂ) : Except Exc (Dict String ℂ) :=
  loop (ruleTo d dConj P.par) [] C

end Verif.FlavorKit
