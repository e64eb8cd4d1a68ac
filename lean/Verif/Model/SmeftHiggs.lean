import Verif.Model.TranslateSmeft
import Mathlib.Analysis.Real.Sqrt
import Mathlib.Analysis.SpecialFunctions.Trigonometric.Basic

/-!
# Higgs-Warsaw up ↔ Warsaw up (`/repo/wilson/translate/smeft_higgs.py`)

`ckm` stands for `ckmutil.ckm.ckm_tree`, `defaults` for `wilson.parameters.p` as in `Model/TranslateSmeft`;
`hb` and `wb` for `all_wcs` of the bases, whose definitions are outside the checkout.
-/

set_option autoImplicit false

namespace Verif.SmeftHiggs
open Verif Verif.EFT Verif.Rotation Verif.TranslateSmeft

/-- `math.sqrt` -/
noncomputable def sqrt (x : ℝ) : Except Exc ℝ := if x < 0 then .error .valueError else .ok (Real.sqrt x)

/-- division of two numbers (`ZeroDivisionError`) -/
noncomputable def divide (x y : ℝ) : Except Exc ℝ := if y = 0 then .error (.other 0) else .ok (x / y)

/-- the couplings computed from the parameters -/
structure Couplings where
  lam : ℝ
  gs : ℝ
  gw : ℝ
  gp : ℝ
  s2w : ℝ
  c2w : ℝ

/-- smeft_higgs.py:37-49, 219-231.  The test on `gw2 - gp2`, by which both functions divide later, is moved
here. -/
noncomputable def couplings (p : Dict String ℝ) : Except Exc Couplings :=
  item p "GF" >>= fun GF =>
  sqrt (Real.sqrt 2 * GF) >>= fun a =>
  divide 1 a >>= fun v =>
  item p "m_h" >>= fun mh =>
  divide (mh ^ 2) (2 * v ^ 2) >>= fun lam =>
  item p "alpha_e" >>= fun ae =>
  sqrt (4 * Real.pi * ae) >>= fun e =>
  item p "m_Z" >>= fun mZ =>
  divide (4 * Real.pi * ae) (Real.sqrt 2 * GF * mZ ^ 2) >>= fun r =>
  sqrt (1 - r) >>= fun root =>
  item p "alpha_s" >>= fun as =>
  sqrt (4 * Real.pi * as) >>= fun gs =>
  sqrt (1 / 2 * (1 - root)) >>= fun sw =>
  divide e sw >>= fun gw =>
  sqrt (1 - 1 / 2 * (1 - root)) >>= fun cw =>
  divide e cw >>= fun gp =>
  if gw ^ 2 - gp ^ 2 = 0 then .error (.other 0)
  else .ok ⟨lam, gs, gw, gp, 1 / 2 * (1 - root), 1 - 1 / 2 * (1 - root)⟩

/-- the digit of a generation -/
def digit (i : Fin 3) : String := if i = 0 then "1" else if i = 1 then "2" else "3"

/-- `k + "_{}{}".format(i + 1, j + 1)` -/
def ix (k : String) (i j : Fin 3) : String := k ++ ("_" ++ (digit i ++ digit j))

/-- `for i in range(3): for j in range(3):` -/
def loop {α : Type} (f : Fin 3 → Fin 3 → List α) : List α :=
  [0, 1, 2].flatMap fun i => [0, 1, 2].flatMap fun j => f i j

/-- smeft_higgs.py:165-172, 247-257: the Hermitian matrix whose upper triangle is stored under the names
`k_11`, `k_12`, … : `m + m.T.conjugate() - np.diag(np.diag(m))` with zeros below the diagonal of `m` -/
noncomputable def herm (H : String → ℂ) (k : String) : Mat :=
  let m : Mat := fun i j => if i ≤ j then H (ix k i j) else 0
  fun i j => m i j + star (m j i) - (if i = j then m i i else 0)

section
variable (V : Mat) (q : Couplings) (H : String → ℂ)

/-- smeft_higgs.py:51-53 -/
noncomputable def dM : ℂ := (H "deltagWlL_11" + H "deltagWlL_22" - H "ll_1221" / 2) / 2

/-- smeft_higgs.py:141-150 -/
noncomputable def C1 : ℂ :=
  (H "czBox" * q.gw ^ 2 + H "czz" * q.gp ^ 2 - H "czgamma" * q.gp ^ 2 * (q.c2w - q.s2w)
    - H "cgammagamma" * q.gw ^ 2 * q.s2w ^ 2) * q.gw ^ 2 / (q.gw ^ 2 - q.gp ^ 2)

/-- smeft_higgs.py:152-162 -/
noncomputable def C2 : ℂ :=
  (H "czBox" + H "czz" - H "czgamma" * (q.c2w - q.s2w) - H "cgammagamma" * q.s2w * q.c2w)
    * q.gw ^ 2 * q.gp ^ 2 / (q.gw ^ 2 - q.gp ^ 2)

/-- smeft_higgs.py:173 `deltagZdLrot = V @ deltagZdL @ Vdag` -/
noncomputable def dLrot : Mat := V * herm H "deltagZdL" * V.conjTranspose

/-- smeft_higgs.py:175-176: `np.eye(3) * c` -/
def eye (c : ℂ) (i j : Fin 3) : ℂ := if i = j then c else 0

/-- smeft_higgs.py:55-139: the assignments to `W[...]` outside the loop -/
noncomputable def warsawScalars : Dict String ℂ :=
  [("phi", 3 * q.lam * H "deltacz" + 8 * q.lam * dM H - H "deltalambda3"
      + (H "czBox" * q.gw ^ 2 + H "czz" * q.gp ^ 2 - H "czgamma" * q.gp ^ 2 * (q.c2w - q.s2w)
          - H "cgammagamma" * q.gw ^ 2 * q.s2w ^ 2) * 4 * q.gw ^ 2 * q.lam / (q.gw ^ 2 - q.gp ^ 2)),
   ("phiBox", H "deltacz" + 2 * dM H
      + (H "czBox" * (3 * q.gw ^ 2 - q.gp ^ 2) + 2 * H "czz" * q.gp ^ 2
          - 2 * H "czgamma" * q.gp ^ 2 * (q.c2w - q.s2w)
          - 2 * H "cgammagamma" * q.gw ^ 2 * q.s2w ^ 2) * q.gw ^ 2 / (q.gw ^ 2 - q.gp ^ 2) / 2),
   ("phiD", -(H "czBox" + H "czz" - H "czgamma" * (q.c2w - q.s2w) - H "cgammagamma" * q.s2w * q.c2w)
      * 2 * q.gw ^ 2 * q.gp ^ 2 / (q.gw ^ 2 - q.gp ^ 2) - 4 * dM H),
   ("phiG", H "cgg" * q.gs ^ 2 / 4),
   ("phiW", (H "czz" + H "czgamma" * 2 * q.s2w + H "cgammagamma" * q.s2w ^ 2) * q.gw ^ 2 / 4),
   ("phiB", (H "czz" - H "czgamma" * 2 * q.c2w + H "cgammagamma" * q.c2w ^ 2) * q.gp ^ 2 / 4),
   ("phiWB", (H "czz" - H "czgamma" * (q.c2w - q.s2w) - H "cgammagamma" * q.c2w * q.s2w) * q.gw * q.gp / 2),
   ("phiGtilde", H "cggtilde" * q.gs ^ 2 / 4),
   ("phiWtilde", (H "czztilde" + H "czgammatilde" * 2 * q.s2w + H "cgammagammatilde" * q.s2w ^ 2)
      * q.gw ^ 2 / 4),
   ("phiBtilde", (H "czztilde" - H "czgammatilde" * 2 * q.c2w + H "cgammagammatilde" * q.c2w ^ 2)
      * q.gp ^ 2 / 4),
   ("phiWtildeB", (H "czztilde" - H "czgammatilde" * (q.c2w - q.s2w) - H "cgammagammatilde" * q.c2w * q.s2w)
      * q.gw * q.gp / 2)]

/-- smeft_higgs.py:178-196: the assignments in the loop -/
noncomputable def warsawTensors : Dict String ℂ :=
  loop fun i j =>
    (if i ≤ j then
      [(ix "phil3" i j, H (ix "deltagWlL" i j) + eye (C1 q H) i j / 2),
       (ix "phiq3" i j, H (ix "deltagZuL" i j) - dLrot V H i j + eye (C1 q H) i j / 2),
       (ix "phil1" i j, -2 * H (ix "deltagZeL" i j) - H (ix "deltagWlL" i j) + eye (C2 q H) i j / 2),
       (ix "phiq1" i j, -H (ix "deltagZuL" i j) - dLrot V H i j - eye (C2 q H) i j / 6),
       (ix "phie" i j, -2 * H (ix "deltagZeR" i j) + eye (C2 q H) i j),
       (ix "phiu" i j, -2 * H (ix "deltagZuR" i j) - 2 / 3 * eye (C2 q H) i j),
       (ix "phid" i j, -2 * H (ix "deltagZdR" i j) + 1 / 3 * eye (C2 q H) i j)]
    else []) ++ [(ix "phiud" i j, -2 * H (ix "deltagWqR" i j))]

end

section
variable (V : Mat) (q : Couplings) (W : String → ℂ)

/-- smeft_higgs.py:233-244 `f(T3, Q, i, j)` -/
noncomputable def f (T3 Q : ℂ) (i j : Fin 3) : ℂ :=
  if i = j then
    -q.gw * q.gp / (q.gw ^ 2 - q.gp ^ 2) * W "phiWB" * Q
      + (W "ll_1221" / 4 - ((W "phil3_11").re : ℂ) / 2 - ((W "phil3_22").re : ℂ) / 2 - W "phiD" / 4)
          * (T3 + Q * q.gp ^ 2 / (q.gw ^ 2 - q.gp ^ 2))
  else 0

/-- smeft_higgs.py:258 `Cphiq13rot = Vdag @ (Cphiq3 + Cphiq1) @ V` -/
noncomputable def q13rot : Mat := V.conjTranspose * (herm W "phiq3" + herm W "phiq1") * V

/-- smeft_higgs.py:261-291: the assignments to `H[...]` in the loop -/
noncomputable def higgsTensors : Dict String ℂ :=
  loop fun i j =>
    (if i ≤ j then
      [(ix "deltagWlL" i j, W (ix "phil3" i j) + f q W (1 / 2) 0 i j - f q W (-1 / 2) (-1) i j),
       (ix "deltagZeL" i j, -1 / 2 * W (ix "phil3" i j) - 1 / 2 * W (ix "phil1" i j) + f q W (-1 / 2) (-1) i j),
       (ix "deltagZeR" i j, -1 / 2 * W (ix "phie" i j) + f q W 0 (-1) i j),
       (ix "deltagZuL" i j, 1 / 2 * W (ix "phiq3" i j) - 1 / 2 * W (ix "phiq1" i j) + f q W (1 / 2) (2 / 3) i j),
       (ix "deltagZdL" i j, -1 / 2 * q13rot V W i j + f q W (-1 / 2) (-1 / 3) i j),
       (ix "deltagZuR" i j, -1 / 2 * W (ix "phiu" i j) + f q W 0 (2 / 3) i j),
       (ix "deltagZdR" i j, -1 / 2 * W (ix "phid" i j) + f q W 0 (-1 / 3) i j)]
    else []) ++ [(ix "deltagWqR" i j, -W (ix "phiud" i j) / 2)]

/-- smeft_higgs.py:293-348: the assignments after the loop -/
noncomputable def higgsScalars : Dict String ℂ :=
  [("deltalambda3", q.lam * (3 * W "phiBox" - 3 / 4 * W "phiD" + 1 / 4 * W "ll_1221" - W "phil3_11" / 2
      - W "phil3_22" / 2) - W "phi"),
   ("deltacz", W "phiBox" - W "phiD" / 4 + 3 / 4 * W "ll_1221" - 3 / 2 * W "phil3_11" - 3 / 2 * W "phil3_22"),
   ("czBox", (-W "ll_1221" / 2 + W "phiD" / 2 + W "phil3_11" + W "phil3_22") / q.gw ^ 2),
   ("cgg", 4 / q.gs ^ 2 * W "phiG"),
   ("cgammagamma", 4 * (W "phiW" / q.gw ^ 2 + W "phiB" / q.gp ^ 2 - W "phiWB" / q.gw / q.gp)),
   ("czz", 4 * (q.gw ^ 2 * W "phiW" + q.gp ^ 2 * W "phiB" + q.gw * q.gp * W "phiWB")
      / (q.gw ^ 2 + q.gp ^ 2) ^ 2),
   ("czgamma", (4 * W "phiW" - 4 * W "phiB" - 2 * (q.gw ^ 2 - q.gp ^ 2) / (q.gw * q.gp) * W "phiWB")
      / (q.gw ^ 2 + q.gp ^ 2)),
   ("cggtilde", 4 / q.gs ^ 2 * W "phiGtilde"),
   ("cgammagammatilde", 4 * (W "phiWtilde" / q.gw ^ 2 + W "phiBtilde" / q.gp ^ 2 - W "phiWtildeB" / q.gw / q.gp)),
   ("czztilde", 4 * (q.gw ^ 2 * W "phiWtilde" + q.gp ^ 2 * W "phiBtilde" + q.gw * q.gp * W "phiWtildeB")
      / (q.gw ^ 2 + q.gp ^ 2) ^ 2),
   ("czgammatilde", (4 * W "phiWtilde" - 4 * W "phiBtilde"
      - 2 * (q.gw ^ 2 - q.gp ^ 2) / (q.gw * q.gp) * W "phiWtildeB") / (q.gw ^ 2 + q.gp ^ 2))]

end

/-- the names read as `H["..."]` by `higgslike_to_warsaw_up` -/
def readsHiggs : List String :=
  ["ll_1221", "deltalambda3", "deltacz", "czBox", "cgg", "cgammagamma", "czz", "czgamma", "cggtilde",
    "cgammagammatilde", "czztilde", "czgammatilde"] ++
  loop fun i j =>
    (if i ≤ j then ["deltagWlL", "deltagZeL", "deltagZeR", "deltagZuL", "deltagZdL", "deltagZuR", "deltagZdR"].map
      (ix · i j) else []) ++ [ix "deltagWqR" i j]

/-- the names read as `W["..."]` by `warsaw_up_to_higgslike` -/
def readsWarsaw : List String :=
  ["ll_1221", "phi", "phiBox", "phiD", "phiG", "phiW", "phiB", "phiWB", "phiGtilde", "phiWtilde", "phiBtilde",
    "phiWtildeB"] ++
  loop fun i j =>
    (if i ≤ j then ["phil3", "phiq3", "phil1", "phiq1", "phie", "phiu", "phid"].map (ix · i j) else []) ++
      [ix "phiud" i j]

/-- smeft_higgs.py:23, 206: `H = {k: C.get(k, 0) for k in basis.all_wcs}` -/
def fill (basis : List String) (C : Dict String ℂ) : Dict String ℂ := basis.map fun k => (k, C.getD k 0)

/-- smeft_higgs.py:18-200 `higgslike_to_warsaw_up`.  Simplification: a `KeyError` for one of the names read
from the dictionary is raised at the beginning. -/
noncomputable def higgslikeToWarsawUp (hb wb : List String) (ckm : Ckm) (defaults : Dict String ℝ)
    (C : Dict String ℂ) (parameters : Option (Dict String ℝ)) : Except Exc (Dict String ℂ) :=
  ckmOf ckm (params defaults parameters) >>= fun V =>
  couplings (params defaults parameters) >>= fun q =>
  if readsHiggs.all (fun k => decide (k ∈ hb)) then
    let H := fun k => (fill hb C).getD k 0
    .ok (((fill hb C).update (warsawScalars q H ++ warsawTensors V q H)).filterKV fun k _ => decide (k ∈ wb))
  else .error .keyError

/-- smeft_higgs.py:203-352 `warsaw_up_to_higgslike` -/
noncomputable def warsawUpToHiggslike (hb wb : List String) (ckm : Ckm) (defaults : Dict String ℝ)
    (C : Dict String ℂ) (parameters : Option (Dict String ℝ)) : Except Exc (Dict String ℂ) :=
  ckmOf ckm (params defaults parameters) >>= fun V =>
  couplings (params defaults parameters) >>= fun q =>
  if readsWarsaw.all (fun k => decide (k ∈ wb)) then
    let W := fun k => (fill wb C).getD k 0
    divide 4 (q.gs ^ 2) >>= fun _ =>
    .ok (((fill wb C).update (higgsTensors V q W ++ higgsScalars q W)).filterKV fun k _ => decide (k ∈ hb))
  else .error .keyError

end Verif.SmeftHiggs
