import Verif.Spec.WetOps
import Verif.Spec.WetRun

/-!
# Symmetries of the WET running: CP (C92), and the vocabulary for the symmetries of whole runs
-/

set_option autoImplicit false

namespace Verif.WetTab
open Verif Verif.Rotation Verif.WetRun

/-- CP: the fields are replaced by those of the antiparticles, which turns every operator with fermions
into its Hermitian conjugate, so that the coefficients become complex conjugated; the three-gluon
operator with the dual field strength changes sign. -/
def cpSym : Sym := fun a a' c n => a' = a ∧ c = true ∧ n = decide (a.1 = .Gtilde)

/-- CP conservation: real coefficients, and no CP-odd three-gluon operator -/
def CPEven (C : Coef → ℂ) : Prop := ∀ a ∈ allCoefs, (C a).im = 0 ∧ (a.1 = .Gtilde → C a = 0)

/-! ## Runs -/

/-- the values of the coefficients in a dictionary -/
noncomputable def vals (C : Dict String ℂ) : Coef → ℂ := fun a => val C (nameOf a)

/-- the coefficient exists with `f` flavours -/
def Live (eig : (n : ℕ) → Matrix (Fin n) (Fin n) ℂ → (Fin n → ℂ) × Matrix (Fin n) (Fin n) ℂ)
    (basisKeys : ℕ → String → Except Exc (List String)) (f : ℕ) (a : Coef) : Prop :=
  ∃ s, Kept (backend eig basisKeys) s f (nameOf a)

/-- the eigendecomposition returned for the QCD anomalous dimensions of a sector is correct -/
def EigFor (eig : (n : ℕ) → Matrix (Fin n) (Fin n) ℂ → (Fin n → ℂ) × Matrix (Fin n) (Fin n) ℂ)
    (basisKeys : ℕ → String → Except Exc (List String)) (s : String) (f : ℕ) (m : Masses) : Prop :=
  ∀ cls, Dict.get? sectorTable s = some cls → ∀ n M, QcdAdm (backend eig basisKeys) cls f m n M →
    Diagonalises M.transpose (eig n M.transpose)

/-- WET-3 and WET-4 do not contain all coefficients: a symmetry has to map those that exist to each other -/
def Respects (eig : (n : ℕ) → Matrix (Fin n) (Fin n) ℂ → (Fin n → ℂ) × Matrix (Fin n) (Fin n) ℂ)
    (basisKeys : ℕ → String → Except Exc (List String)) (f : ℕ) (T : Sym) : Prop :=
  f = 5 ∨ ∀ a ∈ allCoefs, ∀ a' ∈ allCoefs, ∀ c n, T a a' c n →
    (Live eig basisKeys f a ↔ Live eig basisKeys f a')

/-- the masses of the quarks or leptons of one charge change by the same factor between two scales -/
def CommonRunning (p q : Par) : Prop :=
  ∀ x ∈ flavours, ∀ y ∈ flavours, x.1 = y.1 → mass q x * mass p y = mass q y * mass p x

/-- a whole run is physical: the parameters that the runner computes at the two scales are positive, and the
eigendecompositions in the requested sectors are correct -/
def Runnable (eig : (n : ℕ) → Matrix (Fin n) (Fin n) ℂ → (Fin n → ℂ) × Matrix (Fin n) (Fin n) ℂ)
    (basisKeys : ℕ → String → Except Exc (List String)) (R : Qcd.RunDec) (P : Par) (eft : String)
    (scale_in scale_out : ℝ) (sectors : Verif.Sectors) : Prop :=
  ∀ f, WetRun.flavours eft = .ok f →
    (∀ p, runningPar R P scale_in f = .ok p → p.Positive ∧
      ∀ s, Requested sectors s → EigFor eig basisKeys s f p.masses) ∧
    (∀ q, runningPar R P scale_out f = .ok q → q.Positive)

end Verif.WetTab
