import Verif.Model.Qcd
import Verif.Model.EFTUtil
import Verif.Model.Wilson
import Mathlib.Analysis.SpecialFunctions.Pow.Complex
import Mathlib.Analysis.SpecialFunctions.Sqrt
import Mathlib.LinearAlgebra.Matrix.NonsingularInverse

/-!
# Model of the WET running (`wilson/run/wet/rge.py`, `wilson/run/wet/classes.py`)

Parameters of the model (everything the code takes from data files or external packages):

* the tables `sectors` and `coeffs` of `run/wet/definitions.py`,
* the anomalous dimension functions `adm_s_X`, `adm_e_X` of `run/wet/adm.py`,
* `np.linalg.eig`,
* the JMS basis contents of WET-3 and WET-4,
* RunDec (in `Model/Qcd.lean`).

`Gen/WetTables.lean` and `Gen/Adm.lean` contain the actual tables.  Floats are real/complex numbers;
`np.linalg.inv` is the matrix inverse; division by zero and square roots of negative numbers are
those of Mathlib (the theorems assume the couplings and masses positive where it matters).
`lru_cache` memoises pure functions and is not modelled.
-/

open Classical

set_option autoImplicit false

namespace Verif.WetRun

open Verif.EFT (Str)
open Verif.EFT.Util (splitUS)

/-- The running parameters passed around as the dictionaries `p_in`, `p_out`
(run/wet/classes.py:57-73). -/
structure Par where
  alpha_s : ℝ
  alpha_e : ℝ
  m_u : ℝ
  m_d : ℝ
  m_s : ℝ
  m_c : ℝ
  m_b : ℝ
  m_e : ℝ
  m_mu : ℝ
  m_tau : ℝ

/-- The mass arguments of the ADM functions (adm.py: `mu, md, ms, mc, mb, me, mmu, mtau`). -/
structure Masses where
  u : ℝ
  d : ℝ
  s : ℝ
  c : ℝ
  b : ℝ
  e : ℝ
  mu : ℝ
  tau : ℝ

/-- rge.py:38, 49, 60: the masses among the running parameters, in the order of the ADM
arguments. -/
def Par.masses (p : Par) : Masses := ⟨p.m_u, p.m_d, p.m_s, p.m_c, p.m_b, p.m_e, p.m_mu, p.m_tau⟩

/-- A square `np.ndarray`. -/
structure Mat where
  n : ℕ
  m : Matrix (Fin n) (Fin n) ℂ

/-- Data and external functions used by the running. -/
structure Backend where
  /-- `definitions.sectors`: sector ↦ class -/
  sectors : Dict String String
  /-- `definitions.coeffs`: sector ↦ coefficient names -/
  coeffs : Dict String (List String)
  /-- `adm.adm_s_X(f, masses)` -/
  admS : String → ℕ → Masses → Except Exc Mat
  /-- `adm.adm_e_X(f, masses)` -/
  admE : String → ℕ → Masses → Except Exc Mat
  /-- `np.linalg.eig`: eigenvalues and eigenvectors (columns) -/
  eig : (n : ℕ) → Matrix (Fin n) (Fin n) ℂ → (Fin n → ℂ) × Matrix (Fin n) (Fin n) ℂ
  /-- `wcxf.Basis[f'WET-{f}', 'JMS'].sectors[sector].keys()` -/
  basisKeys : ℕ → String → Except Exc (List String)

variable (B : Backend)

/-- failed table lookup `d[k]` -/
def lookup {α : Type} (d : Dict String α) (k : String) : Except Exc α :=
  match d.get? k with
  | some x => .ok x
  | none => .error .keyError

/-- rge.py:20: the classes with a reduced ADM. -/
def reducedClasses : List String := ["cu", "db", "sb", "sd", "mue", "mutau", "taue", "dF0"]

/-- rge.py:13-33 `get_permissible_wcs`; `none` is the string `'all'`. -/
def permissible (classname : String) (f : ℕ) : Except Exc (Option (List ℕ)) :=
  if classname ∉ reducedClasses ∨ f = 5 then .ok none
  else if f ∉ [3, 4] then .error .valueError
  else do
    let sector := if classname = "dF0" then "dF=0" else classname
    let perm_keys ← B.basisKeys f sector
    let all_keys ← lookup B.coeffs sector
    pure (some ((List.range all_keys.length).filter fun i =>
      decide ((all_keys[i]?.getD "") ∈ perm_keys)))

/-- `A[perm_keys][:, perm_keys]` (an index out of range is an IndexError). -/
def Mat.sub (A : Mat) (perm : List ℕ) : Except Exc Mat :=
  if h : ∀ i ∈ perm, i < A.n then
    .ok ⟨perm.length, fun i j => A.m ⟨perm[i], h _ (List.getElem_mem _)⟩ ⟨perm[j], h _ (List.getElem_mem _)⟩⟩
  else .error (.other 0)

/-- rge.py:43-46, 64-67: remove disallowed rows and columns. -/
def reduce (classname : String) (f : ℕ) (A : Mat) : Except Exc Mat := do
  match ← permissible B classname f with
  | none => pure A
  | some perm => A.sub perm

/-- rge.py:37-48 `admeig`: the reduced QCD ADM with eigenvalues and eigenvectors of its
transpose. -/
def admeig (classname : String) (f : ℕ) (m : Masses) : Except Exc (Σ n : ℕ, (Fin n → ℂ) × Matrix (Fin n) (Fin n) ℂ) := do
  let A ← B.admS classname f m
  let A' ← reduce B classname f A
  pure ⟨A'.n, B.eig A'.n A'.m.transpose⟩

/-- rge.py:55, 69: `b0s = 11 - 2 * f / 3` -/
noncomputable def b0s (f : ℕ) : ℂ := 11 - 2 * (f : ℂ) / 3

/-- rge.py:57: `v @ diag(eta_s**a) @ inv(v)` with `a = w / (2 * b0s)`. -/
noncomputable def usMatrix {n : ℕ} (w : Fin n → ℂ) (v : Matrix (Fin n) (Fin n) ℂ) (eta : ℝ) (f : ℕ) :
    Matrix (Fin n) (Fin n) ℂ :=
  v * Matrix.diagonal (fun i => (eta : ℂ) ^ (w i / (2 * b0s f))) * v⁻¹

/-- rge.py:51-57 `getUs`. -/
noncomputable def getUs (classname : String) (eta : ℝ) (f : ℕ) (p : Par) : Except Exc Mat := do
  let ⟨n, w, v⟩ ← admeig B classname f p.masses
  pure ⟨n, usMatrix w v eta f⟩

/-- rge.py:70-77: the matrix `K` and `-alpha_e / (2 * b0s * alpha_s) * v @ K @ inv(v)`. -/
noncomputable def ueMatrix {n : ℕ} (w : Fin n → ℂ) (v A : Matrix (Fin n) (Fin n) ℂ) (eta : ℝ) (f : ℕ)
    (p : Par) : Matrix (Fin n) (Fin n) ℂ :=
  let a : Fin n → ℂ := fun i => w i / (2 * b0s f)
  let K0 : Matrix (Fin n) (Fin n) ℂ := v⁻¹ * A.transpose * v
  let K : Matrix (Fin n) (Fin n) ℂ := fun i j =>
    if a i - a j ≠ 1 then
      K0 i j * (((eta : ℂ) ^ (a j + 1) - (eta : ℂ) ^ a i) / (a i - a j - 1))
    else K0 i j * ((eta : ℂ) ^ a i * (Real.log (1 / eta) : ℂ))
  (-(p.alpha_e : ℂ) / (2 * b0s f * p.alpha_s)) • (v * K * v⁻¹)

/-- `M` as an `n × n` matrix; a different size makes the array operations raise ValueError.
(numpy broadcasts 1 × 1 arrays; the tables have no such case.) -/
def Mat.sized (M : Mat) (n : ℕ) : Except Exc (Matrix (Fin n) (Fin n) ℂ) :=
  if h : n = M.n then .ok (M.m.submatrix (Fin.cast h) (Fin.cast h)) else .error .valueError

/-- rge.py:60-77 `getUe`. -/
noncomputable def getUe (classname : String) (eta : ℝ) (f : ℕ) (p : Par) : Except Exc Mat := do
  let A ← B.admE classname f p.masses
  let A' ← reduce B classname f A
  let ⟨n, w, v⟩ ← admeig B classname f p.masses
  let A'' ← A'.sized n
  pure ⟨n, ueMatrix w v A'' eta f p⟩

/-- `max(ind)` of a string: its largest character (an empty string raises ValueError) -/
def maxChar : Str → Option Char
  | [] => none
  | c :: cs => some (cs.foldl (fun a b => if a.toNat < b.toNat then b else a) c)

/-- rge.py:86-97 `get_m` and the lookup `p[get_m(key)]`.  `.other 0` is an IndexError. -/
noncomputable def dipoleMass (p : Par) (key : Str) : Except Exc ℝ :=
  let ind := (splitUS key).getLastD []
  match maxChar ind with
  | none => .error .valueError
  | some c =>
    if ¬c.isDigit then .error .valueError
    else
      let gen := c.toNat - '0'.toNat
      if key.take 2 = ['n', 'u'] then .error .keyError
      else if gen > 3 then
        (match key.head? with
          | some 'e' | some 'u' | some 'd' => .error (.other 0)
          | _ => .error .keyError)
      else match key.head? with
        | some 'e' => .ok (if gen = 1 then p.m_e else if gen = 2 then p.m_mu else p.m_tau)
        | some 'u' => if gen = 1 then .ok p.m_u else if gen = 2 then .ok p.m_c else .error .keyError
        | some 'd' => .ok (if gen = 1 then p.m_d else if gen = 2 then p.m_s else p.m_b)
        | _ => .error .keyError

/-- rge.py:80-81 -/
def qG : List Str := ["uG".toList, "dG".toList]
/-- rge.py:81-82 `qgamma + lgamma` -/
def fgamma : List Str := ["ugamma".toList, "dgamma".toList, "egamma".toList, "nugamma".toList]
/-- rge.py:83 -/
def G3 : List Str := ["G".toList, "Gtilde".toList]

/-- rge.py:100-113 `scale_C`. -/
noncomputable def scaleC (key : String) (p : Par) : Except Exc ℝ :=
  let g := Real.sqrt (4 * Real.pi * p.alpha_s)
  let e := Real.sqrt (4 * Real.pi * p.alpha_e)
  let name := (splitUS key.toList).headD []
  if name ∈ qG then do
    let m ← dipoleMass p key.toList
    pure (g / m)
  else if name ∈ fgamma then do
    let m ← dipoleMass p key.toList
    pure (g ^ 2 / e / m)
  else if key.toList ∈ G3 then .ok g
  else .ok 1

/-- rge.py:127-133: the coefficient names of a sector that exist with `f` flavours. -/
def keylist (sector : String) (f : ℕ) : Except Exc (List String) := do
  let all ← lookup B.coeffs sector
  match ← permissible B (if sector = "dF=0" then "dF0" else sector) f with
  | none => pure all
  | some perm => pure (perm.map fun i => all[i]?.getD "")

/-- the scale factors of a list of coefficients -/
noncomputable def scales (keys : List String) (p : Par) : Except Exc (List ℝ) :=
  keys.mapM fun k => scaleC k p

/-- rge.py:142-145: the matrix `Us` used for `n` coefficients.  Orders other than 0 and 1 leave the
variable unbound (`.other 1`). -/
noncomputable def usPart (classname : String) (eta : ℝ) (f : ℕ) (p : Par) (qcd n : ℕ) :
    Except Exc (Matrix (Fin n) (Fin n) ℂ) :=
  if qcd = 0 then .ok 1
  else if qcd = 1 then getUs B classname eta f p >>= fun M => M.sized n
  else .error (.other 1)

/-- rge.py:146-152: the matrix `Ue`; without QCD it is evaluated at `eta_s = 1`. -/
noncomputable def uePart (classname : String) (eta : ℝ) (f : ℕ) (p : Par) (qed qcd n : ℕ) :
    Except Exc (Matrix (Fin n) (Fin n) ℂ) :=
  if qed = 0 then .ok 0
  else if qed = 1 then
    getUe B classname (if qcd = 0 then 1 else eta) f p >>= fun M => M.sized n
  else .error (.other 1)

/-- rge.py:141-153: the evolution matrix `Us + Ue`. -/
noncomputable def evolution (classname : String) (eta : ℝ) (f : ℕ) (p : Par) (qed qcd : ℕ) (n : ℕ) :
    Except Exc (Matrix (Fin n) (Fin n) ℂ) := do
  let Us ← usPart B classname eta f p qcd n
  let Ue ← uePart B classname eta f p qed qcd n
  pure (Us + Ue)

/-- rge.py:116-158 `run_sector`. -/
noncomputable def runSector (sector : String) (C_in : Dict String ℂ) (eta : ℝ) (f : ℕ)
    (p_in p_out : Par) (qed qcd : ℕ) : Except Exc (Dict String ℂ) := do
  let classname ← lookup B.sectors sector
  let keys ← keylist B sector f
  let C_input := keys.map fun k => C_in.getD k 0
  if C_input.all (fun x => decide (x = 0)) ∨ classname = "inv" then
    pure (Dict.update [] (keys.zip C_input))
  else do
    let s_in ← scales keys p_in
    let U ← evolution B classname eta f p_in qed qcd keys.length
    let s_out ← scales keys p_out
    let C_out : List ℂ := List.ofFn fun i : Fin keys.length =>
      (U.mulVec fun j => C_input.getD j 0 * (s_in.getD j 0 : ℂ)) i / (s_out.getD i 0 : ℂ)
    pure (Dict.update [] (keys.zip C_out))

/-- run/wet/classes.py:57-73 `_get_running_parameters`; `P` holds the values of
`self.parameters`. -/
noncomputable def runningPar (R : Qcd.RunDec) (P : Par) (scale : ℝ) (f : ℕ) : Except Exc Par := do
  let alpha_s ← Qcd.alphaS R scale f P.alpha_s 3
  let m_b ← Qcd.mB R P.m_b scale f P.alpha_s 3
  let m_c ← Qcd.mC R P.m_c scale f P.alpha_s 3
  let m_s ← Qcd.mS R P.m_s scale f P.alpha_s 3
  let m_u ← Qcd.mS R P.m_u scale f P.alpha_s 3
  let m_d ← Qcd.mS R P.m_d scale f P.alpha_s 3
  pure ⟨alpha_s, P.alpha_e, m_u, m_d, m_s, m_c, m_b, P.m_e, P.m_mu, P.m_tau⟩

/-- run/wet/classes.py:42-48: the number of flavours.  Another EFT leaves `self.f` undefined
(AttributeError when it is used). -/
def flavours (eft : String) : Except Exc ℕ :=
  if eft = "WET" then .ok 5
  else if eft = "WET-4" then .ok 4
  else if eft = "WET-3" then .ok 3
  else .error .attributeError

/-- the condition `sectors == 'all' or sector in sectors` (run/wet/classes.py:82) -/
def Requested : Sectors → String → Prop
  | .all, _ => True
  | .tuple l, s => s ∈ l

/-- run/wet/classes.py:80-87: the loop over the sectors of the EFT. -/
noncomputable def loop (C_in : Dict String ℂ) (eta : ℝ) (f : ℕ) (p_i p_o : Par) (qed qcd : ℕ)
    (sectors : Sectors) : List String → Dict String ℂ → Except Exc (Dict String ℂ)
  | [], out => .ok out
  | s :: rest, out =>
    if s ∈ B.sectors.keys ∧ Requested sectors s then do
      let d ← runSector B s C_in eta f p_i p_o qed qcd
      loop C_in eta f p_i p_o qed qcd sectors rest (out.update d)
    else loop C_in eta f p_i p_o qed qcd sectors rest out

/-- run/wet/classes.py:75-88 `_run_dict`; `eftSectors` are the sector names of
`wcxf.EFT[self.eft]`. -/
noncomputable def runDict (R : Qcd.RunDec) (P : Par) (eftSectors : List String) (wc : WC)
    (qed qcd : ℕ) (scale_out : ℝ) (sectors : Sectors) : Except Exc (Dict String ℂ) := do
  let f ← flavours wc.eft
  let p_i ← runningPar R P wc.scale f
  let p_o ← runningPar R P scale_out f
  loop B wc.dict (p_i.alpha_s / p_o.alpha_s) f p_i p_o qed qcd sectors eftSectors []

/-- run/wet/classes.py:26-55 (the checks of the constructor) and 90-107 `WETrunner.run`; `allWcs` is
`wcxf.Basis[self.eft, 'JMS'].all_wcs`. -/
noncomputable def run (R : Qcd.RunDec) (P : Par) (eftSectors allWcs : List String) (wc : WC)
    (qed qcd : ℕ) (scale_out : ℝ) (sectors : Sectors) : Except Exc WC := do
  if wc.basis ≠ "JMS" then .error .assertionError
  else do
    let C_out ← runDict B R P eftSectors wc qed qcd scale_out sectors
    let C_out' := C_out.filterKV fun k v => decide (v ≠ 0) && decide (k ∈ allWcs)
    pure { eft := wc.eft, basis := "JMS", scale := scale_out, values := dict2values C_out' }

end Verif.WetRun
