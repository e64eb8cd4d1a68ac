import Verif.Gen.LoopProg
import Verif.Model.MatchAll

/-!
# One-loop matching (`/repo/wilson/match/smeft_loop.py`)

The matching conditions are in `Verif.Gen.LoopProg` (generated): every one of them is a sum
of arrays multiplied by scalar factors.  This file gives them their meaning.

Simplifications: as in `Verif.Model.Match` (exact numbers; an array is a function of its index
tuple).  The order of the summands of a sum and of the factors of a product is not kept: the generator
collects the terms with equal arrays.  Division by zero is an error here; in the code it raises an
exception if both operands are Python numbers, while numpy gives infinite or undefined entries.  The
order in which missing inputs are detected is simplified (all of them raise `KeyError`).
-/

set_option autoImplicit false

namespace Verif.Loop
open Verif Verif.Tens Verif.Beta Verif.Rotation Verif.Match Verif.TranslateSmeft

/-- the value of a scalar, by number -/
noncomputable def atomVal (S : LEnv) (n : ℕ) : ℂ := if n = 0 then S.g1bar else (atomR S n : ℝ)

/-- `+1`, `-1`, `complex(0,1)`, `-complex(0,1)` -/
noncomputable def flagVal (n : ℕ) : ℂ :=
  if n = 0 then 1 else if n = 1 then -1 else if n = 2 then Complex.I else -Complex.I

/-- a power of a scalar: `64 * number of the scalar + exponent + 32` -/
noncomputable def facVal (S : LEnv) (n : ℕ) : ℂ := atomVal S (n / 64) ^ ((n % 64 : ℕ) - 32 : ℤ)

/-- a monomial `[flag, numerator, denominator, powers of scalars …]` -/
noncomputable def monoVal (S : LEnv) : List ℕ → ℂ
  | f :: n :: d :: fs => flagVal f * ((n : ℂ) / (d : ℂ)) * (fs.map (facVal S)).prod
  | _ => 0

/-- the scalar factor with the given number -/
noncomputable def coefVal (S : LEnv) (n : ℕ) : ℂ := ((coefTab.getD n []).map (monoVal S)).sum

/-- `kd`, `kdt`: lines 9, 10 -/
def kdtT : Ten
  | [i, j] => if i = 2 ∧ j = 2 then 1 else 0
  | _ => 0

/-- lines 45-54: the conjugate transpose of a matrix, or of the two pairs of indices -/
noncomputable def dagT (A : Ten) : Ten
  | [p, r] => (starRingEnd ℂ) (A [r, p])
  | [p, r, s, t] => (starRingEnd ℂ) (A [r, p, t, s])
  | _ => 0

/-- `np.diag` of a vector -/
noncomputable def diagT (m : Fin 3 → ℝ) : Ten
  | [i, j] => if i = j then (m i : ℂ) else 0
  | _ => 0

/-- a vector -/
noncomputable def vecT (m : Fin 3 → ℝ) : Ten
  | [i] => (m i : ℂ)
  | _ => 0

/-- a matrix -/
def matrixT (M : Fin 3 → Fin 3 → ℂ) : Ten
  | [i, j] => M i j
  | _ => 0

/-- the operands of `einsum` -/
noncomputable def opVal (C : Key → Ten) (S : LEnv) : Op → Ten
  | .c k => C k
  | .dag k => dagT (C k)
  | .kd => eyeT
  | .kdt => kdtT
  | .V => matrixT S.V
  | .Vdag => matrixT fun i j => (starRingEnd ℂ) (S.V j i)
  | .diagU => diagT S.mu
  | .diagD => diagT S.md
  | .diagE => diagT S.me
  | .mu => vecT S.mu
  | .md => vecT S.md
  | .me => vecT S.me
  | .c22 k => fun _ => C k [2, 2]
  | .dag22 k => fun _ => dagT (C k) [2, 2]

/-- the number of subscript letters -/
def nLetters : ℕ := 11

/-- the output subscripts: the explicit ones, or in implicit mode those occurring exactly once,
in alphabetical order -/
def Tn.outs (t : Tn) : List ℕ :=
  match t.out with
  | some o => o
  | none => (List.range nLetters).filter fun a => (t.ops.flatMap Prod.fst).count a = 1

/-- the subscripts summed over -/
def Tn.inner (t : Tn) : List ℕ :=
  (List.range nLetters).filter fun a => a ∈ t.ops.flatMap Prod.fst ∧ a ∉ t.outs

/-- an assignment of values to subscripts with one value changed -/
def upd {α : Type} (ρ : ℕ → α) (a : ℕ) (i : α) : ℕ → α := fun b => bif Nat.beq b a then i else ρ b

/-- the assignment given by an index tuple -/
def assign {α : Type} (z : α) : List ℕ → List α → ℕ → α
  | a :: as, i :: is => upd (assign z as is) a i
  | _, _ => fun _ => z

/-- sum over all values of the given subscripts -/
noncomputable def sumOver : List ℕ → ((ℕ → Fin 3) → ℂ) → (ℕ → Fin 3) → ℂ
  | [], F, ρ => F ρ
  | a :: as, F, ρ => ∑ i : Fin 3, sumOver as F (upd ρ a i)

/-- `C["k"] * … * einsum("…", …)` -/
noncomputable def tnVal (C : Key → Ten) (S : LEnv) (t : Tn) : Ten := fun ix =>
  (t.sc.map fun k => C k []).prod *
    sumOver t.inner (fun ρ => (t.ops.map fun o => opVal C S o.2 (o.1.map ρ)).prod) (assign 0 t.outs ix)

/-- the array with the given number -/
def tn (n : ℕ) : Tn := tens.getD n ⟨[], [], none⟩

/-- a matching condition before line 152 -/
noncomputable def formVal (C : Key → Ten) (S : LEnv) (f : List (ℕ × ℕ)) : Ten := fun ix =>
  (f.map fun x => coefVal S x.2 * tnVal C S (tn x.1) ix).sum

/-- a matching condition; lines 152, 153 for the down-type dipoles -/
noncomputable def loopVal (C : Key → Ten) (S : LEnv) (w : WKey) (f : List (ℕ × ℕ)) : Ten :=
  if w ∈ rotated then matT (matrixT S.V) (formVal C S f) else formVal C S f

/-- all results, line 155 -/
noncomputable def loopArrays (C : Key → Ten) (S : LEnv) : Dict WKey Ten :=
  loopProg.map fun wf => (wf.1, loopVal C S wf.1 wf.2)

/-- `C[k]` -/
noncomputable def cval (C : Dict Key Ten) (k : Key) : Ten := (C.get? k).getD fun _ => 0

/-- three parameters as a vector -/
noncomputable def vec3 (p : Dict String ℝ) (a b c : String) : Except Exc (Fin 3 → ℝ) :=
  Match.item p a >>= fun x => Match.item p b >>= fun y => Match.item p c >>= fun z => .ok ![x, y, z]

/-- lines 17-42 and 140 -/
noncomputable def loopEnv (ckm : Ckm) (C : Dict Key Ten) (p : Dict String ℝ) (scale : ℝ) :
    Except Exc LEnv :=
  scalars C p >>= fun s =>
  vec3 p "m_u" "m_c" "m_t" >>= fun mu =>
  vec3 p "m_d" "m_s" "m_b" >>= fun md =>
  vec3 p "m_e" "m_mu" "m_tau" >>= fun me =>
  Match.item p "alpha_s" >>= fun alpha_s =>
  pySqrt (4 * Real.pi * alpha_s) >>= fun g3 =>
  ckmOf ckm p >>= fun V =>
  .ok { mW := s.mW, mZ := s.mZ, vT := s.vT, g1bar := s.g1bar, g2bar := 2 * s.mW / s.vT, g3bar := g3,
        scale := scale, mu := mu, md := md, me := me, V := V }

open Classical in
/-- `_match_all_array(_C, par, scale)`, lines 15-155 -/
noncomputable def loopRaw (ckm : Ckm) : LoopRaw := fun C p scale =>
  loopEnv ckm C p scale >>= fun S =>
  if loopKeys.all C.mem then
    if S.scale = 0 then .error .valueError
    else if S.mW = 0 ∨ ∃ n ∈ divAtoms, atomR S n = 0 then .error (.other 2)
    else .ok (loopArrays (cval C) S)
  else .error .keyError

end Verif.Loop
