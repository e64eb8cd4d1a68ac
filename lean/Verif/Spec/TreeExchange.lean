import Verif.Gen.Rotation
import Verif.Gen.Beta
import Mathlib.Algebra.DualNumber
import Mathlib.Data.Complex.Basic

/-!
# Specification of the tree-level matching (C84)

Below the electroweak scale the Z and the W are integrated out at tree level,

  L = L_contact - (g_Z²/(2 m_Z²)) J_Z·J_Z - (g₂²/(2 m_W²)) J_W·J_W†,

  J_Z = Σ_ψ [Z_ψ]_pr (ψ̄_p γ ψ_r),   J_W = [W_l]_pr (ν̄_p γ e_r) + [W_q]_pr (ū_p γ d_r) + [W_R]_pr (ū_R,p γ d_R,r),

  [Z_ψ]_pr = (T₃ - Q sin²θ) δ_pr - (v²/2) (shift from ψ̄ψ φ†Dφ operators),

and every WET coefficient is the coefficient of its operator in this Lagrangian, to first order in
the SMEFT coefficients.  "First order" is expressed by dual numbers `a + b ε` with `ε² = 0`: every
SMEFT coefficient carries a factor `ε`.  (Jenkins, Manohar, Stoffer, arXiv:1709.04486.)
-/

set_option autoImplicit false

namespace Verif.Exchange
open Verif.Tens Verif.Beta Verif.Rotation

/-- a quantity to first order in the SMEFT coefficients -/
abbrev Lin := DualNumber ℂ

/-- zeroth and first order -/
def lin (a b : ℂ) : Lin := TrivSqZeroExt.inl a + TrivSqZeroExt.inr b

/-- the sum of the zeroth and first order -/
def total (x : Lin) : ℂ := x.fst + x.snd

/-- masses, vacuum expectation value, U(1) coupling and SMEFT coefficients -/
structure Inp where
  mW : ℂ
  mZ : ℂ
  v : ℂ
  g1 : ℂ
  C : Key → Ten

variable (P : Inp)

/-- the coefficient of an operator without flavour indices -/
def Inp.c0 (k : Key) : ℂ := P.C k []

/-- `g_Z²/m_Z² = 4/(v² (1 + v² C_φD/2))` -/
noncomputable def gZ2 : Lin := lin (4 / P.v ^ 2) (-2 * P.c0 .phiD)

/-- `sin²θ`, in terms of the masses of W and Z (`Props/TreeInputs.lean` derives this from the mass
and kinetic matrices of the neutral gauge bosons) -/
noncomputable def sin2 : Lin :=
  lin (1 - P.mW ^ 2 / P.mZ ^ 2)
    (-(P.mW ^ 2 / P.mZ ^ 2) * (P.v ^ 2 / 2 * P.c0 .phiD + P.g1 * P.v ^ 3 / (2 * P.mW) * P.c0 .phiWB))

def delta (p r : Fin 3) : ℂ := if p = r then 1 else 0

/-- coupling of a fermion with isospin `T3` and charge `Q` to the Z -/
noncomputable def zed (T3 Q : ℂ) (shift : Fin 3 → Fin 3 → ℂ) (p r : Fin 3) : Lin :=
  (lin T3 0 - lin Q 0 * sin2 P) * lin (delta p r) 0 + lin 0 (-(P.v ^ 2 / 2) * shift p r)

/-- Z couplings of the seven fermions -/
noncomputable def zNu := zed P (1 / 2) 0 fun p r => P.C .phil1 [p, r] - P.C .phil3 [p, r]
noncomputable def zEL := zed P (-1 / 2) (-1) fun p r => P.C .phil1 [p, r] + P.C .phil3 [p, r]
noncomputable def zUL := zed P (1 / 2) (2 / 3) fun p r => P.C .phiq1 [p, r] - P.C .phiq3 [p, r]
noncomputable def zDL := zed P (-1 / 2) (-1 / 3) fun p r => P.C .phiq1 [p, r] + P.C .phiq3 [p, r]
noncomputable def zER := zed P 0 (-1) fun p r => P.C .phie [p, r]
noncomputable def zUR := zed P 0 (2 / 3) fun p r => P.C .phiu [p, r]
noncomputable def zDR := zed P 0 (-1 / 3) fun p r => P.C .phid [p, r]

/-- W couplings of the left-handed doublets (Hermitian) -/
noncomputable def wL (p r : Fin 3) : Lin := lin (delta p r) (P.v ^ 2 * P.C .phil3 [p, r])
noncomputable def wQ (p r : Fin 3) : Lin := lin (delta p r) (P.v ^ 2 * P.C .phiq3 [p, r])
/-- conjugate W coupling of the right-handed quarks: `[W_R]†_st`, for `d̄_R,s γ u_R,t` -/
noncomputable def wRdag (s t : Fin 3) : Lin :=
  lin 0 (P.v ^ 2 / 2 * (starRingEnd ℂ) (P.C .phiud [t, s]))

/-- a contact term -/
def contact (c : ℂ) : Lin := lin 0 c

/-- Z exchange between the currents `a_pr` and `b_st` of two different fermions (both orders of
`J_Z·J_Z` contribute) -/
noncomputable def zz (a b : Fin 3 → Fin 3 → Lin) (p r s t : Fin 3) : Lin := -gZ2 P * a p r * b s t

/-- W exchange, `g₂²/(2 m_W²) = 2/v²` -/
noncomputable def ww (a b : Lin) : Lin := lin (-(2 / P.v ^ 2)) 0 * a * b

/-- the coefficient of an operator with two equal currents is symmetric in them -/
noncomputable def sym2 (X : Fin 3 → Fin 3 → Fin 3 → Fin 3 → Lin) (p r s t : Fin 3) : Lin :=
  lin (1 / 2) 0 * (X p r s t + X s t p r)

/-- ... and, without colour, also under exchange of the two fields or the two conjugate fields
(Fierz identity) -/
noncomputable def sym4 (X : Fin 3 → Fin 3 → Fin 3 → Fin 3 → Lin) (p r s t : Fin 3) : Lin :=
  lin (1 / 2) 0 * (sym2 X p r s t + sym2 X p t s r)

/-- a contact coefficient -/
noncomputable def ct (k : Key) (p r s t : Fin 3) : Lin := contact (P.C k [p, r, s, t])

/-- charged-current quark operator `(ū_p γ d_t)(d̄_s γ u_r)`: `C_qq3` in both orders with
`τ^I τ^I ∋ 2 (τ⁺τ⁻ + τ⁻τ⁺)`, and W exchange.  By the Fierz identity it is `1/N_c` times the singlet
operator and `2` times the octet operator `(ū_p γ u_r)(d̄_s γ d_t)`. -/
noncomputable def chargedQuarks (p r s t : Fin 3) : Lin :=
  lin 2 0 * (ct P .qq3 p t s r + ct P .qq3 s r p t) + ww P (wQ P p t) (wQ P s r)

/-- the WET coefficients with two vector currents -/
noncomputable def vector (p r s t : Fin 3) : WKey → Option Lin
  -- four left-handed fermions; the triplet operators contribute `±1` for equal or different isospin
  | .VnunuLL => some (sym4 (fun p r s t => ct P .ll p r s t + lin (1 / 2) 0 * zz P (zNu P) (zNu P) p r s t) p r s t)
  | .VeeLL => some (sym4 (fun p r s t => ct P .ll p r s t + lin (1 / 2) 0 * zz P (zEL P) (zEL P) p r s t) p r s t)
  | .VnueLL => some (ct P .ll p r s t + ct P .ll s t p r + zz P (zNu P) (zEL P) p r s t
      + ww P (wL P p t) (wL P s r))
  | .VnuuLL => some (ct P .lq1 p r s t + ct P .lq3 p r s t + zz P (zNu P) (zUL P) p r s t)
  | .VnudLL => some (ct P .lq1 p r s t - ct P .lq3 p r s t + zz P (zNu P) (zDL P) p r s t)
  | .VeuLL => some (ct P .lq1 p r s t - ct P .lq3 p r s t + zz P (zEL P) (zUL P) p r s t)
  | .VedLL => some (ct P .lq1 p r s t + ct P .lq3 p r s t + zz P (zEL P) (zDL P) p r s t)
  | .VnueduLL => some (lin 2 0 * ct P .lq3 p r s t + ww P (wL P p r) (wQ P s t))
  | .VuuLL => some (sym2 (fun p r s t => ct P .qq1 p r s t + ct P .qq3 p r s t
      + lin (1 / 2) 0 * zz P (zUL P) (zUL P) p r s t) p r s t)
  | .VddLL => some (sym2 (fun p r s t => ct P .qq1 p r s t + ct P .qq3 p r s t
      + lin (1 / 2) 0 * zz P (zDL P) (zDL P) p r s t) p r s t)
  | .V1udLL => some (ct P .qq1 p r s t + ct P .qq1 s t p r - ct P .qq3 p r s t - ct P .qq3 s t p r
      + zz P (zUL P) (zDL P) p r s t + lin (1 / 3) 0 * chargedQuarks P p r s t)
  | .V8udLL => some (lin 2 0 * chargedQuarks P p r s t)
  -- four right-handed fermions
  | .VeeRR => some (sym4 (fun p r s t => ct P .ee p r s t + lin (1 / 2) 0 * zz P (zER P) (zER P) p r s t) p r s t)
  | .VeuRR => some (ct P .eu p r s t + zz P (zER P) (zUR P) p r s t)
  | .VedRR => some (ct P .ed p r s t + zz P (zER P) (zDR P) p r s t)
  | .VuuRR => some (sym2 (fun p r s t => ct P .uu p r s t + lin (1 / 2) 0 * zz P (zUR P) (zUR P) p r s t) p r s t)
  | .VddRR => some (sym2 (fun p r s t => ct P .dd p r s t + lin (1 / 2) 0 * zz P (zDR P) (zDR P) p r s t) p r s t)
  | .V1udRR => some (ct P .ud1 p r s t + zz P (zUR P) (zDR P) p r s t)
  | .V8udRR => some (ct P .ud8 p r s t)
  -- a left-handed and a right-handed current
  | .VnueLR => some (ct P .le p r s t + zz P (zNu P) (zER P) p r s t)
  | .VeeLR => some (ct P .le p r s t + zz P (zEL P) (zER P) p r s t)
  | .VnuuLR => some (ct P .lu p r s t + zz P (zNu P) (zUR P) p r s t)
  | .VnudLR => some (ct P .ld p r s t + zz P (zNu P) (zDR P) p r s t)
  | .VeuLR => some (ct P .lu p r s t + zz P (zEL P) (zUR P) p r s t)
  | .VedLR => some (ct P .ld p r s t + zz P (zEL P) (zDR P) p r s t)
  | .VueLR => some (ct P .qe p r s t + zz P (zUL P) (zER P) p r s t)
  | .VdeLR => some (ct P .qe p r s t + zz P (zDL P) (zER P) p r s t)
  | .V1uuLR => some (ct P .qu1 p r s t + zz P (zUL P) (zUR P) p r s t)
  | .V1udLR => some (ct P .qd1 p r s t + zz P (zUL P) (zDR P) p r s t)
  | .V1duLR => some (ct P .qu1 p r s t + zz P (zDL P) (zUR P) p r s t)
  | .V1ddLR => some (ct P .qd1 p r s t + zz P (zDL P) (zDR P) p r s t)
  | .V8uuLR | .V8duLR => some (ct P .qu8 p r s t)
  | .V8udLR | .V8ddLR => some (ct P .qd8 p r s t)
  | .VnueduLR => some (ww P (wL P p r) (wRdag P s t))
  | .V1udduLR => some (ww P (wQ P p r) (wRdag P s t))
  | .V8udduLR => some 0
  | _ => none

/-- the WET coefficients with two scalar or tensor currents.  `(l̄ᵃ e)(d̄ qᵃ)` has the two components
of the doublets; `(q̄ᵃ u) ε_ab (q̄ᵇ d)` and `(l̄ᵃ e) ε_ab (q̄ᵇ u)` have opposite signs for the two. -/
noncomputable def scalar (p r s t : Fin 3) : WKey → Option Lin
  | .SedRL | .SnueduRL => some (ct P .ledq p r s t)
  | .S1udRR => some (ct P .quqd1 p r s t)
  | .S1udduRR => some (-ct P .quqd1 s t p r)
  | .S8udRR => some (ct P .quqd8 p r s t)
  | .S8udduRR => some (-ct P .quqd8 s t p r)
  | .SeuRR => some (-ct P .lequ1 p r s t)
  | .SnueduRR => some (ct P .lequ1 p r s t)
  | .TeuRR => some (-ct P .lequ3 p r s t)
  | .TnueduRR => some (ct P .lequ3 p r s t)
  | .S1ddRR | .S1uuRR | .S8ddRR | .S8uuRR | .SedRR | .SeeRR | .TedRR | .SeuRL => some 0
  | _ => none

/-- the baryon number violating WET coefficients -/
noncomputable def baryon (p r s t : Fin 3) : WKey → Option Lin
  | .SduuLL | .SuddLL => some (ct P .qqql r p s t - ct P .qqql r s p t + ct P .qqql s r p t)
  | .SduuLR => some (-ct P .qque p r s t - ct P .qque r p s t)
  | .SduuRL => some (ct P .duql p r s t)
  | .SdudRL => some (-ct P .duql p r s t)
  | .SduuRR => some (ct P .duue p r s t)
  | .SuudLR | .SuudRL | .SdduRL => some 0
  | _ => none

/-- the dipole coefficients: the photon is `cos θ B ± sin θ W₃` with
`cos θ = g₂ v/(2 m_Z) = m_W/m_Z`, `sin θ = g₁ v/(2 m_Z)`; the Higgs field is `v/√2` -/
noncomputable def dipole (sqrt2 : ℂ) (p r : Fin 3) : WKey → Option Lin
  | .egamma => some (contact (P.v / sqrt2 *
      (P.mW / P.mZ * P.C .eB [p, r] - P.g1 * P.v / (2 * P.mZ) * P.C .eW [p, r])))
  | .dgamma => some (contact (P.v / sqrt2 *
      (P.mW / P.mZ * P.C .dB [p, r] - P.g1 * P.v / (2 * P.mZ) * P.C .dW [p, r])))
  | .ugamma => some (contact (P.v / sqrt2 *
      (P.mW / P.mZ * P.C .uB [p, r] + P.g1 * P.v / (2 * P.mZ) * P.C .uW [p, r])))
  | .uG => some (contact (P.v / sqrt2 * P.C .uG [p, r]))
  | .dG => some (contact (P.v / sqrt2 * P.C .dG [p, r]))
  | _ => none

/-- the three-gluon coefficients -/
def gluon : WKey → Option Lin
  | .G => some (contact (P.c0 .G))
  | .Gtilde => some (contact (P.c0 .Gtilde))
  | _ => none

/-- the coefficient `K` with flavour indices `ix` (`none` if it has another number of indices) -/
noncomputable def coefficient (sqrt2 : ℂ) (K : WKey) : Ix → Option Lin
  | [] => gluon P K
  | [p, r] => dipole P sqrt2 p r K
  | [p, r, s, t] => vector P p r s t K <|> scalar P p r s t K <|> baryon P p r s t K
  | _ => none

end Verif.Exchange
