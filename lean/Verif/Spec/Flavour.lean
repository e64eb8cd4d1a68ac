import Verif.Gen.Beta
import Mathlib.LinearAlgebra.Matrix.ConjTranspose
import Mathlib.LinearAlgebra.UnitaryGroup

/-!
# Specification: flavour transformations

Written without reference to the code: the flavour of each index of each SMEFT
coefficient (arXiv:1008.4884, 1704.03888 table 4) and the transformation of an array
under rotations of the five fermion fields, ψ_f → U_f ψ_f.
-/

set_option autoImplicit false

namespace Verif.Flavour
open Verif.Tens Verif.Beta BigOperators

/-- an index: which fermion field it belongs to, and whether the field is barred -/
structure Ty (F : Type) where
  f : F
  bar : Bool
  deriving DecidableEq, Repr

/-- the index of the conjugate field -/
def Ty.flip {F : Type} (t : Ty F) : Ty F := ⟨t.f, !t.bar⟩

/-- the factor of an index under ψ → U ψ: `U[j,i]`, conjugated for a barred field -/
noncomputable def fac {F : Type} (U : F → Matrix (Fin 3) (Fin 3) ℂ) (t : Ty F) (j i : Fin 3) : ℂ :=
  if t.bar then (starRingEnd ℂ) (U t.f j i) else U t.f j i

/-- rotation of every index:
`(rot U [t₁,…,tₙ] A)[i₁,…,iₙ] = ∑ j₁…jₙ, fac t₁ j₁ i₁ ⋯ fac tₙ jₙ iₙ A[j₁,…,jₙ]` -/
noncomputable def rot {F : Type} (U : F → Matrix (Fin 3) (Fin 3) ℂ) : List (Ty F) → Ten → Ten
  | [], A => fun _ => A []
  | t :: τ, A => fun ix => match ix with
    | i :: is => ∑ j, fac U t j i * rot U τ (fun js => A (j :: js)) is
    | [] => 0

/-- the five SM fermion multiplets -/
inductive Fl
  | q | u | d | l | e
  deriving DecidableEq, Repr

namespace Fl
/-- unbarred index -/
abbrev x (f : Fl) : Ty Fl := ⟨f, false⟩
/-- barred index -/
abbrev b (f : Fl) : Ty Fl := ⟨f, true⟩
end Fl

open Fl in
/-- flavour of the indices of the SMEFT coefficients and Yukawa matrices (Warsaw basis);
auxiliary variables of the code have no entry here -/
def smeftTy : Key → Option (List (Ty Fl))
  | .g | .gp | .gs | .Lambda | .m2 => some []
  | .G | .Gtilde | .W | .Wtilde | .phi | .phiBox | .phiD | .phiG | .phiB | .phiW | .phiWB
  | .phiGtilde | .phiBtilde | .phiWtilde | .phiWtildeB => some []
  | .Gu | .uphi | .uG | .uW | .uB => some [b q, x u]
  | .Gd | .dphi | .dG | .dW | .dB => some [b q, x d]
  | .Ge | .ephi | .eW | .eB => some [b l, x e]
  | .phil1 | .phil3 => some [b l, x l]
  | .phie => some [b e, x e]
  | .phiq1 | .phiq3 => some [b q, x q]
  | .phiu => some [b u, x u]
  | .phid => some [b d, x d]
  | .phiud => some [b u, x d]
  | .llphiphi => some [x l, x l]
  | .ll => some [b l, x l, b l, x l]
  | .qq1 | .qq3 => some [b q, x q, b q, x q]
  | .lq1 | .lq3 => some [b l, x l, b q, x q]
  | .ee => some [b e, x e, b e, x e]
  | .uu => some [b u, x u, b u, x u]
  | .dd => some [b d, x d, b d, x d]
  | .eu => some [b e, x e, b u, x u]
  | .ed => some [b e, x e, b d, x d]
  | .ud1 | .ud8 => some [b u, x u, b d, x d]
  | .le => some [b l, x l, b e, x e]
  | .lu => some [b l, x l, b u, x u]
  | .ld => some [b l, x l, b d, x d]
  | .qe => some [b q, x q, b e, x e]
  | .qu1 | .qu8 => some [b q, x q, b u, x u]
  | .qd1 | .qd8 => some [b q, x q, b d, x d]
  | .ledq => some [b l, x e, b d, x q]
  | .quqd1 | .quqd8 => some [b q, x u, b q, x d]
  | .lequ1 | .lequ3 => some [b l, x e, b q, x u]
  | .duql => some [x d, x u, x q, x l]
  | .qque => some [x q, x q, x u, x e]
  | .qqql => some [x q, x q, x q, x l]
  | .duue => some [x d, x u, x u, x e]
  | _ => none

end Verif.Flavour
