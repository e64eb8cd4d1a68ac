import Verif.Model.WetRun

/-!
# Specification vocabulary for the WET running (C49-C53)
-/

set_option autoImplicit false

namespace Verif.WetRun

/-- the class name under which the code looks up a sector's restrictions -/
def classOfSector (s : String) : String := if s = "dF=0" then "dF0" else s

/-- Well-formed sector tables: no name is listed twice in a sector or in two sectors, and the sectors
with a reduced ADM are exactly those whose class carries their own name.  (`Props/WetTables.lean`
shows that the tables of the package are well formed.) -/
structure Tables (B : Backend) : Prop where
  nodup : ∀ s l, B.coeffs.get? s = some l → l.Nodup
  disjoint : ∀ s s' l l', B.coeffs.get? s = some l → B.coeffs.get? s' = some l' → s ≠ s' →
    List.Disjoint l l'
  noDF0 : B.coeffs.get? "dF0" = none
  aligned : ∀ s c, B.sectors.get? s = some c →
    c = classOfSector s ∨ (c ∉ reducedClasses ∧ classOfSector s ∉ reducedClasses)

/-- The coefficients of a sector that exist with `f` flavours: all of them, except that WET-3 and
WET-4 keep only those of their JMS basis in the sectors with a reduced ADM. -/
inductive Kept (B : Backend) (sector : String) (f : ℕ) (k : String) : Prop
  | all (l : List String) (hl : B.coeffs.get? sector = some l) (hk : k ∈ l)
      (h : classOfSector sector ∉ reducedClasses ∨ f = 5)
  | reduced (l b : List String) (hl : B.coeffs.get? sector = some l) (hk : k ∈ l)
      (h : classOfSector sector ∈ reducedClasses) (hf : f = 3 ∨ f = 4)
      (hb : B.basisKeys f sector = .ok b) (hkb : k ∈ b)

/-- The value of a coefficient: absent coefficients vanish. -/
noncomputable def val (C : Dict String ℂ) (k : String) : ℂ := (C.get? k).getD 0

/-- `np.linalg.eig` applied to `M`: the columns of `v` are linearly independent eigenvectors. -/
def Diagonalises {n : ℕ} (M : Matrix (Fin n) (Fin n) ℂ)
    (wv : (Fin n → ℂ) × Matrix (Fin n) (Fin n) ℂ) : Prop :=
  IsUnit wv.2 ∧ M * wv.2 = wv.2 * Matrix.diagonal wv.1

/-- the QCD ADM of a class, reduced to the coefficients that exist, is the `n × n` matrix `M` -/
def QcdAdm (B : Backend) (cls : String) (f : ℕ) (m : Masses) (n : ℕ)
    (M : Matrix (Fin n) (Fin n) ℂ) : Prop :=
  ∃ A, B.admS cls f m = .ok A ∧ reduce B cls f A = .ok ⟨n, M⟩

/-- the QED ADM of a class, reduced to the coefficients that exist, is the `n × n` matrix `M` -/
def QedAdm (B : Backend) (cls : String) (f : ℕ) (m : Masses) (n : ℕ)
    (M : Matrix (Fin n) (Fin n) ℂ) : Prop :=
  ∃ A, B.admE cls f m = .ok A ∧ reduce B cls f A = .ok ⟨n, M⟩

/-- the eigendecompositions returned for the QCD ADMs with `f` flavours and masses `m` are correct -/
def EigOK (B : Backend) (f : ℕ) (m : Masses) : Prop :=
  ∀ cls n M, QcdAdm B cls f m n M → Diagonalises M.transpose (B.eig n M.transpose)

/-- physical values: positive couplings and masses -/
def Par.Positive (p : Par) : Prop :=
  0 < p.alpha_s ∧ 0 < p.alpha_e ∧ 0 < p.m_u ∧ 0 < p.m_d ∧ 0 < p.m_s ∧ 0 < p.m_c ∧ 0 < p.m_b ∧
    0 < p.m_e ∧ 0 < p.m_mu ∧ 0 < p.m_tau

end Verif.WetRun
