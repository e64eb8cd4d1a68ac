import Verif.Model.WetTables
import Mathlib.Algebra.Group.End
import Mathlib.Data.List.Forall2

/-!
# The operators of the WET in the JMS basis (specification for C68, C69, C71, C76-C80)

What the coefficient names of the JMS basis mean: the fields of each operator (Jenkins, Manohar,
Stoffer, arXiv:1709.04486, and the conventions of the WCxf basis file), and the relations between the
components of a coefficient that follow from it.
-/

set_option autoImplicit false

namespace Verif.WetTab
open Verif Verif.Rotation Verif.WetRun

/-- particle species with several generations -/
inductive Sp | u | d | e | nu
  deriving DecidableEq, Repr

/-- chirality -/
inductive Ch | L | R
  deriving DecidableEq, Repr

/-- a fermion field in an operator -/
structure Fld where
  sp : Sp
  ch : Ch
  /-- a conjugate field ψ̄ -/
  bar : Bool
  deriving DecidableEq, Repr

/-- (x̄_A γ y_A)(z̄_B γ w_B) -/
def vector (x y z w : Sp) (A B : Ch) : List Fld :=
  [⟨x, A, true⟩, ⟨y, A, false⟩, ⟨z, B, true⟩, ⟨w, B, false⟩]
/-- (x̄_L y_R)(z̄_L w_R), also with σ -/
def scalarRR (x y z w : Sp) : List Fld :=
  [⟨x, .L, true⟩, ⟨y, .R, false⟩, ⟨z, .L, true⟩, ⟨w, .R, false⟩]
/-- (x̄_L y_R)(z̄_R w_L) -/
def scalarRL (x y z w : Sp) : List Fld :=
  [⟨x, .L, true⟩, ⟨y, .R, false⟩, ⟨z, .R, true⟩, ⟨w, .L, false⟩]
/-- x̄_L σF x_R -/
def dipole (x : Sp) : List Fld := [⟨x, .L, true⟩, ⟨x, .R, false⟩]
/-- (x_A y_A)(z_B w_B), violating baryon number -/
def baryon (x y z w : Sp) (A B : Ch) : List Fld :=
  [⟨x, A, false⟩, ⟨y, A, false⟩, ⟨z, B, false⟩, ⟨w, B, false⟩]

/-- the fields of the operator of each name, in the order of the indices -/
def fields : WKey → List Fld
  | .G => []
  | .Gtilde => []
  | .egamma => dipole .e
  | .uG => dipole .u
  | .dG => dipole .d
  | .ugamma => dipole .u
  | .dgamma => dipole .d
  | .S1udRR => scalarRR .u .u .d .d
  | .S1udduRR => scalarRR .u .d .d .u
  | .S8udRR => scalarRR .u .u .d .d
  | .S8udduRR => scalarRR .u .d .d .u
  | .SedRL => scalarRL .e .e .d .d
  | .SedRR => scalarRR .e .e .d .d
  | .SeuRL => scalarRL .e .e .u .u
  | .SeuRR => scalarRR .e .e .u .u
  | .SnueduRL => scalarRL .nu .e .d .u
  | .SnueduRR => scalarRR .nu .e .d .u
  | .TedRR => scalarRR .e .e .d .d
  | .TeuRR => scalarRR .e .e .u .u
  | .TnueduRR => scalarRR .nu .e .d .u
  | .V1udduLR => vector .u .d .d .u .L .R
  | .V8udduLR => vector .u .d .d .u .L .R
  | .VnueduLL => vector .nu .e .d .u .L .L
  | .VnueduLR => vector .nu .e .d .u .L .R
  | .SuddLL => baryon .u .d .d .nu .L .L
  | .SduuLL => baryon .d .u .u .e .L .L
  | .SduuLR => baryon .d .u .u .e .L .R
  | .SduuRL => baryon .d .u .u .e .R .L
  | .SdudRL => baryon .d .u .d .nu .R .L
  | .SduuRR => baryon .d .u .u .e .R .R
  | .VuuRR => vector .u .u .u .u .R .R
  | .VddRR => vector .d .d .d .d .R .R
  | .VuuLL => vector .u .u .u .u .L .L
  | .VddLL => vector .d .d .d .d .L .L
  | .S1ddRR => scalarRR .d .d .d .d
  | .S1uuRR => scalarRR .u .u .u .u
  | .S8uuRR => scalarRR .u .u .u .u
  | .SeeRR => scalarRR .e .e .e .e
  | .S8ddRR => scalarRR .d .d .d .d
  | .VnueLL => vector .nu .nu .e .e .L .L
  | .VnuuLL => vector .nu .nu .u .u .L .L
  | .VnudLL => vector .nu .nu .d .d .L .L
  | .VeuLL => vector .e .e .u .u .L .L
  | .VedLL => vector .e .e .d .d .L .L
  | .V1udLL => vector .u .u .d .d .L .L
  | .V8udLL => vector .u .u .d .d .L .L
  | .VeuRR => vector .e .e .u .u .R .R
  | .VedRR => vector .e .e .d .d .R .R
  | .V1udRR => vector .u .u .d .d .R .R
  | .V8udRR => vector .u .u .d .d .R .R
  | .VnueLR => vector .nu .nu .e .e .L .R
  | .VeeLR => vector .e .e .e .e .L .R
  | .VnuuLR => vector .nu .nu .u .u .L .R
  | .VnudLR => vector .nu .nu .d .d .L .R
  | .VeuLR => vector .e .e .u .u .L .R
  | .VedLR => vector .e .e .d .d .L .R
  | .VueLR => vector .u .u .e .e .L .R
  | .VdeLR => vector .d .d .e .e .L .R
  | .V1uuLR => vector .u .u .u .u .L .R
  | .V8uuLR => vector .u .u .u .u .L .R
  | .V1udLR => vector .u .u .d .d .L .R
  | .V8udLR => vector .u .u .d .d .L .R
  | .V1duLR => vector .d .d .u .u .L .R
  | .V8duLR => vector .d .d .u .u .L .R
  | .V1ddLR => vector .d .d .d .d .L .R
  | .V8ddLR => vector .d .d .d .d .L .R
  | .VeeLL => vector .e .e .e .e .L .L
  | .VeeRR => vector .e .e .e .e .R .R
  | .VnunuLL => vector .nu .nu .nu .nu .L .L
  | .SuudLR => baryon .u .u .d .e .L .R
  | .SuudRL => baryon .u .u .d .e .R .L
  | .SdduRL => baryon .d .d .u .nu .R .L

/-- the number of generations in the WET (the top quark is not part of it) -/
def Sp.gens : Sp → ℕ
  | .u => 2
  | _ => 3

/-- index tuples that belong to a name -/
def Valid (k : WKey) (ix : List ℕ) : Prop :=
  List.Forall₂ (fun (F : Fld) i => 1 ≤ i ∧ i ≤ F.sp.gens) (fields k) ix

/-- the relations between the components of a coefficient -/
inductive Step
  /-- the two factors of the operator are equal and commute -/
  | swap
  /-- the operator's Hermitian conjugate is the operator with transposed indices -/
  | adj
  /-- a product of two equal chiral lepton currents can be Fierz-rearranged -/
  | fierz
  /-- ψ_p ψ_r with two fields of the same kind and chirality is antisymmetric (colour) -/
  | anti
  /-- the operator is Hermitian -/
  | real
  deriving DecidableEq, Repr

/-- on indices -/
def Step.act : Step → List ℕ → List ℕ
  | .swap, [p, r, s, t] => [s, t, p, r]
  | .adj, [p, r, s, t] => [r, p, t, s]
  | .fierz, [p, r, s, t] => [p, t, s, r]
  | .anti, [p, r, s, t] => [r, p, s, t]
  | _, ix => ix

/-- complex conjugation is involved -/
def Step.conj : Step → Bool
  | .adj | .real => true
  | _ => false

/-- a minus sign is involved -/
def Step.neg : Step → Bool
  | .anti => true
  | _ => false

/-- which relation holds for which operator -/
def allowed (k : WKey) : Step → Bool
  | .swap => match fields k with
    | [a, b, c, d] => a.bar && decide (a = c) && decide (b = d)
    | _ => false
  | .adj => match fields k with
    | [a, b, c, d] => a.bar && c.bar && decide (b = { a with bar := false }) &&
        decide (d = { c with bar := false })
    | _ => false
  | .fierz => match fields k with
    | [a, b, c, d] => (decide (a.sp = .e) || decide (a.sp = .nu)) && a.bar && decide (a = c) &&
        decide (b = d) && decide (b = { a with bar := false })
    | _ => false
  | .anti => match fields k with
    | [a, b, _, _] => !a.bar && decide (a = b)
    | _ => false
  | .real => decide (fields k = [])

/-- `Same k ix ix' c n`: the coefficient of the operator `k` with indices `ix` is that with indices
`ix'`, complex conjugated if `c`, with the opposite sign if `n`. -/
inductive Same (k : WKey) (ix : List ℕ) : List ℕ → Bool → Bool → Prop
  | refl : Same k ix ix false false
  | step {ix' : List ℕ} {c n : Bool} (s : Step) (hs : allowed k s = true) (h : Same k ix ix' c n) :
      Same k ix (s.act ix') (xor c s.conj) (xor n s.neg)

/-- the component vanishes because it is its own negative -/
def Vanishes (k : WKey) (ix : List ℕ) : Prop := ∃ c, Same k ix ix c true

/-- the coefficient is real -/
def IsReal (k : WKey) (ix : List ℕ) : Prop := Same k ix ix true false

/-- position of a coefficient in the sector tables -/
def Listed (c : Coef) (s : String) (i : ℕ) : Prop :=
  ∃ l, (s, l) ∈ coefTable ∧ l[i]? = some c

/-! ## Flavour charges (C68, C76) -/

/-- the charged flavours of the WET -/
def flavours : List (Sp × ℕ) :=
  [(.u, 1), (.u, 2), (.d, 1), (.d, 2), (.d, 3), (.e, 1), (.e, 2), (.e, 3)]

/-- the number of fields of flavour `x` minus the number of conjugate ones in the operator -/
def charge (c : Coef) (x : Sp × ℕ) : ℤ :=
  (((fields c.1).zip (ixOf c)).map fun Fi =>
    if (Fi.1.sp, Fi.2) = x then (if Fi.1.bar then (-1 : ℤ) else 1) else 0).sum

/-- the number of neutrinos in the operator -/
def neutrinos (c : Coef) : ℕ := ((fields c.1).filter fun F => decide (F.sp = .nu)).length

/-- the operators, or one and the Hermitian conjugate of the other, change the same flavours and
have as many neutrinos -/
def SameFlavour (a b : Coef) : Prop :=
  neutrinos a = neutrinos b ∧
    ((∀ x ∈ flavours, charge a x = charge b x) ∨ (∀ x ∈ flavours, charge a x = -charge b x))

/-! ## Mixing -/

/-- QCD or QED -/
inductive Force | qcd | qed
  deriving DecidableEq, Repr

/-- the anomalous dimension function of the package -/
noncomputable def adm : Force → String → ℕ → Masses → Except Exc WetRun.Mat
  | .qcd => admOf admSTable
  | .qed => admOf admETable

/-- an entry of a matrix given by its position -/
noncomputable def cell (A : WetRun.Mat) (i j : ℕ) : ℂ :=
  if h : i < A.n ∧ j < A.n then A.m ⟨i, h.1⟩ ⟨j, h.2⟩ else 0

/-- The contribution of the coefficient `a` (row) to the derivative of the coefficient `b`
(column), in the normalisation of the JMS basis: the anomalous dimension matrix of their common
sector's class, with the factors `scale_C` that the running puts on before and takes off after
the evolution.  Coefficients in different sectors do not mix. -/
inductive Mixing (F : Force) (f : ℕ) (p : Par) (a b : Coef) : ℂ → Prop
  | same {s cls : String} {i j : ℕ} {A : WetRun.Mat} {x y : ℝ} (ha : Listed a s i) (hb : Listed b s j)
      (hc : (s, cls) ∈ sectorTable) (hA : adm F cls f p.masses = .ok A)
      (hx : scaleC (nameOf a) p = .ok x) (hy : scaleC (nameOf b) p = .ok y) :
      Mixing F f p a b (cell A i j * (x / y))
  | other {s s' : String} {i j : ℕ} (ha : Listed a s i) (hb : Listed b s' j) (h : s ≠ s') :
      Mixing F f p a b 0

/-- the same as a function -/
noncomputable def mix (F : Force) (f : ℕ) (p : Par) (a b : Coef) : ℂ := by
  classical exact if h : ∃ z, Mixing F f p a b z then h.choose else 0

/-- all coefficients of the tables -/
def allCoefs : List Coef := coefTable.flatMap Prod.snd

/-- the derivative of the coefficient `b` in the direction of the force `F` for given values of all
coefficients: the right-hand side of the renormalisation group equation that the running solves -/
noncomputable def rate (F : Force) (f : ℕ) (p : Par) (C : Coef → ℂ) (b : Coef) : ℂ :=
  (allCoefs.map fun a => C a * mix F f p a b).sum

/-- the coefficients of Hermitian operators are real -/
def RealOnReal (C : Coef → ℂ) : Prop := ∀ a ∈ allCoefs, IsReal a.1 (ixOf a) → (C a).im = 0

/-! ## Exchange of generations (C69) -/

/-- a permutation of the generations of each species; the WET has two up-type quarks -/
structure Relabel where
  perm : Sp → Equiv.Perm (Fin 3)
  top : perm .u 2 = 2

/-- on an index -/
def Relabel.ix (σ : Relabel) (x : Sp) : ℕ → ℕ
  | 1 => (σ.perm x 0).val + 1
  | 2 => (σ.perm x 1).val + 1
  | 3 => (σ.perm x 2).val + 1
  | i => i

/-- on the indices of an operator -/
def Relabel.act (σ : Relabel) (k : WKey) (ix : List ℕ) : List ℕ :=
  List.zipWith (fun F i => σ.ix F.sp i) (fields k) ix

/-- the mass of a fermion -/
def mass (p : Par) : Sp × ℕ → ℝ
  | (.u, 1) => p.m_u | (.u, 2) => p.m_c
  | (.d, 1) => p.m_d | (.d, 2) => p.m_s | (.d, 3) => p.m_b
  | (.e, 1) => p.m_e | (.e, 2) => p.m_mu | (.e, 3) => p.m_tau
  | _ => 0

/-- `p'` has the masses of `p`, assigned to the relabelled generations, and the same couplings -/
def Relabelled (σ : Relabel) (p p' : Par) : Prop :=
  p'.alpha_s = p.alpha_s ∧ p'.alpha_e = p.alpha_e ∧
    ∀ x ∈ flavours, mass p' (x.1, σ.ix x.1 x.2) = mass p x

/-- a sign -/
def sgn (n : Bool) : ℂ := if n then -1 else 1

/-- complex conjugation, if asked for -/
noncomputable def conjIf (c : Bool) (z : ℂ) : ℂ := if c then (starRingEnd ℂ) z else z

/-- no fermion of the WET is massless, except the neutrinos -/
def NoMassless (p : Par) : Prop := ∀ x ∈ flavours, mass p x ≠ 0

/-- how coefficients are transformed by a symmetry: the coefficient, its image, whether the image
is complex conjugated and whether it has the opposite sign -/
abbrev Sym := Coef → Coef → Bool → Bool → Prop

/-- relabelling of the generations, with the image expressed by the coefficient of the basis -/
def Relabel.sym (σ : Relabel) : Sym := fun a a' c n =>
  a'.1 = a.1 ∧ Same a.1 (σ.act a.1 (ixOf a)) (ixOf a') c n

/-- `C'` are the transformed coefficients -/
def Transformed (T : Sym) (C C' : Coef → ℂ) : Prop :=
  ∀ a ∈ allCoefs, ∀ a' ∈ allCoefs, ∀ c n, T a a' c n → C' a' = sgn n * conjIf c (C a)

/-! ## Parity (C71) -/

/-- The image of an operator under the exchange of left- and right-handed fields (neutrinos are
spectators): name, indices, whether the coefficient gets complex conjugated (when the image is
the Hermitian conjugate of an operator of the basis) and whether it changes sign.  `none`: the
image involves right-handed neutrinos. -/
def parity : WKey → List ℕ → Option (WKey × List ℕ × Bool × Bool)
  | .G, ix => some (.G, ix, false, false)
  | .Gtilde, ix => some (.Gtilde, ix, false, true)
  -- (x̄_R σF x_L)_{pr} is the conjugate of (x̄_L σF x_R)_{rp}
  | .uG, [p, r] => some (.uG, [r, p], true, false)
  | .dG, [p, r] => some (.dG, [r, p], true, false)
  | .ugamma, [p, r] => some (.ugamma, [r, p], true, false)
  | .dgamma, [p, r] => some (.dgamma, [r, p], true, false)
  | .egamma, [p, r] => some (.egamma, [r, p], true, false)
  -- (x̄_R x_L)(ȳ_R y_L) is the conjugate of (x̄_L x_R)(ȳ_L y_R) with transposed indices
  | .S1udRR, [p, r, s, t] => some (.S1udRR, [r, p, t, s], true, false)
  | .S8udRR, [p, r, s, t] => some (.S8udRR, [r, p, t, s], true, false)
  | .S1ddRR, [p, r, s, t] => some (.S1ddRR, [r, p, t, s], true, false)
  | .S8ddRR, [p, r, s, t] => some (.S8ddRR, [r, p, t, s], true, false)
  | .S1uuRR, [p, r, s, t] => some (.S1uuRR, [r, p, t, s], true, false)
  | .S8uuRR, [p, r, s, t] => some (.S8uuRR, [r, p, t, s], true, false)
  | .SeeRR, [p, r, s, t] => some (.SeeRR, [r, p, t, s], true, false)
  | .SedRR, [p, r, s, t] => some (.SedRR, [r, p, t, s], true, false)
  | .SedRL, [p, r, s, t] => some (.SedRL, [r, p, t, s], true, false)
  | .SeuRR, [p, r, s, t] => some (.SeuRR, [r, p, t, s], true, false)
  | .SeuRL, [p, r, s, t] => some (.SeuRL, [r, p, t, s], true, false)
  | .TedRR, [p, r, s, t] => some (.TedRR, [r, p, t, s], true, false)
  | .TeuRR, [p, r, s, t] => some (.TeuRR, [r, p, t, s], true, false)
  -- (ū_R d_L)(d̄_R u_L) is the conjugate of (ū_L d_R)(d̄_L u_R) with reversed indices
  | .S1udduRR, [p, r, s, t] => some (.S1udduRR, [t, s, r, p], true, false)
  | .S8udduRR, [p, r, s, t] => some (.S8udduRR, [t, s, r, p], true, false)
  | .V1udduLR, [p, r, s, t] => some (.V1udduLR, [t, s, r, p], true, false)
  | .V8udduLR, [p, r, s, t] => some (.V8udduLR, [t, s, r, p], true, false)
  -- currents of one chirality
  | .VuuLL, ix => some (.VuuRR, ix, false, false)
  | .VuuRR, ix => some (.VuuLL, ix, false, false)
  | .VddLL, ix => some (.VddRR, ix, false, false)
  | .VddRR, ix => some (.VddLL, ix, false, false)
  | .VeeLL, ix => some (.VeeRR, ix, false, false)
  | .VeeRR, ix => some (.VeeLL, ix, false, false)
  | .VeuLL, ix => some (.VeuRR, ix, false, false)
  | .VeuRR, ix => some (.VeuLL, ix, false, false)
  | .VedLL, ix => some (.VedRR, ix, false, false)
  | .VedRR, ix => some (.VedLL, ix, false, false)
  | .V1udLL, ix => some (.V1udRR, ix, false, false)
  | .V1udRR, ix => some (.V1udLL, ix, false, false)
  | .V8udLL, ix => some (.V8udRR, ix, false, false)
  | .V8udRR, ix => some (.V8udLL, ix, false, false)
  -- currents of opposite chirality change places
  | .VeeLR, [p, r, s, t] => some (.VeeLR, [s, t, p, r], false, false)
  | .V1uuLR, [p, r, s, t] => some (.V1uuLR, [s, t, p, r], false, false)
  | .V8uuLR, [p, r, s, t] => some (.V8uuLR, [s, t, p, r], false, false)
  | .V1ddLR, [p, r, s, t] => some (.V1ddLR, [s, t, p, r], false, false)
  | .V8ddLR, [p, r, s, t] => some (.V8ddLR, [s, t, p, r], false, false)
  | .VeuLR, [p, r, s, t] => some (.VueLR, [s, t, p, r], false, false)
  | .VueLR, [p, r, s, t] => some (.VeuLR, [s, t, p, r], false, false)
  | .VedLR, [p, r, s, t] => some (.VdeLR, [s, t, p, r], false, false)
  | .VdeLR, [p, r, s, t] => some (.VedLR, [s, t, p, r], false, false)
  | .V1udLR, [p, r, s, t] => some (.V1duLR, [s, t, p, r], false, false)
  | .V1duLR, [p, r, s, t] => some (.V1udLR, [s, t, p, r], false, false)
  | .V8udLR, [p, r, s, t] => some (.V8duLR, [s, t, p, r], false, false)
  | .V8duLR, [p, r, s, t] => some (.V8udLR, [s, t, p, r], false, false)
  -- neutral currents of neutrinos
  | .VnueLL, ix => some (.VnueLR, ix, false, false)
  | .VnueLR, ix => some (.VnueLL, ix, false, false)
  | .VnuuLL, ix => some (.VnuuLR, ix, false, false)
  | .VnuuLR, ix => some (.VnuuLL, ix, false, false)
  | .VnudLL, ix => some (.VnudLR, ix, false, false)
  | .VnudLR, ix => some (.VnudLL, ix, false, false)
  -- violation of baryon number with charged leptons
  | .SduuLL, ix => some (.SduuRR, ix, false, false)
  | .SduuRR, ix => some (.SduuLL, ix, false, false)
  | .SduuLR, ix => some (.SduuRL, ix, false, false)
  | .SduuRL, ix => some (.SduuLR, ix, false, false)
  | .SuudLR, ix => some (.SuudRL, ix, false, false)
  | .SuudRL, ix => some (.SuudLR, ix, false, false)
  | _, _ => none

/-- parity, with the image expressed by the coefficient of the basis -/
def paritySym : Sym := fun a a' c n =>
  ∃ k ix c0 n0, parity a.1 (ixOf a) = some (k, ix, c0, n0) ∧ a'.1 = k ∧
    ∃ c1 n1, Same k ix (ixOf a') c1 n1 ∧ c = xor c1 c0 ∧ n = xor n1 n0

/-! ## Colour (C80) -/

/-- leptons -/
def Sp.Lepton (x : Sp) : Prop := x = .e ∨ x = .nu

/-- Four-fermion operators of leptons only, and products of one vector current of quarks with one of
leptons: the strong interaction does not renormalise them (the currents are conserved). -/
def ColourInert (k : WKey) : Prop :=
  ((fields k).length = 4 ∧ ∀ F ∈ fields k, F.sp.Lepton) ∨
    ∃ x y z w A B, fields k = vector x y z w A B ∧
      (x.Lepton ∧ y.Lepton ∧ ¬z.Lepton ∧ ¬w.Lepton ∨ ¬x.Lepton ∧ ¬y.Lepton ∧ z.Lepton ∧ w.Lepton)

/-! ## Rephasing (C76) -/

/-- all flavours, with those of the neutrinos -/
def allFlavours : List (Sp × ℕ) := flavours ++ [(.nu, 1), (.nu, 2), (.nu, 3)]

/-- The factor by which a coefficient changes when the field of each flavour `x` is multiplied by
`φ x`. -/
noncomputable def rephase (φ : Sp × ℕ → ℂ) (a : Coef) : ℂ :=
  (allFlavours.map fun x => φ x ^ charge a x).prod

end Verif.WetTab
