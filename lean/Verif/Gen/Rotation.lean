import Verif.Gen.Beta
import Verif.Model.Rotation

/-!
# The flavour-rotation functions, generated

GENERATED by tools/gen_rotation.py from /repo/wilson/util/smeft_warsaw.py
(`flavor_rotation`), /repo/wilson/run/smeft/classes.py (`SMEFT._flavor_rotation`) and
/repo/wilson/util/wet_jms.py (`rotate_down`, `C_symm_keys`); do not edit.  One entry per
assignment `C[k] = ...`: the key, whether it is guarded by `if k in C_in`, the right-hand side.
-/

set_option autoImplicit false

namespace Verif.Rotation
open Verif.Tens Verif.Beta

/-- arguments of `flavor_rotation`: `Uq`, `Uu`, `Ud`, `Ul`, `Ue` -/
inductive Arg
  | q | u | d | l | e
  deriving DecidableEq, Repr

/-- the only rotation matrix of `rotate_down`, `UdL` -/
inductive Arg1
  | UdL
  deriving DecidableEq, Repr

/-- /repo/wilson/util/smeft_warsaw.py lines 8-103 -/
def flavorRotationProg : List (Stmt Key Arg) :=
   [⟨.G, true, .copy⟩,
    ⟨.Gtilde, true, .copy⟩,
    ⟨.W, true, .copy⟩,
    ⟨.Wtilde, true, .copy⟩,
    ⟨.phi, true, .copy⟩,
    ⟨.phiBox, true, .copy⟩,
    ⟨.phiD, true, .copy⟩,
    ⟨.phiG, true, .copy⟩,
    ⟨.phiB, true, .copy⟩,
    ⟨.phiW, true, .copy⟩,
    ⟨.phiWB, true, .copy⟩,
    ⟨.phiGtilde, true, .copy⟩,
    ⟨.phiBtilde, true, .copy⟩,
    ⟨.phiWtilde, true, .copy⟩,
    ⟨.phiWtildeB, true, .copy⟩,
    ⟨.ephi, true, (.sand (.tr (.conj (.U .l))) (.U .e))⟩,
    ⟨.eW, true, (.sand (.tr (.conj (.U .l))) (.U .e))⟩,
    ⟨.eB, true, (.sand (.tr (.conj (.U .l))) (.U .e))⟩,
    ⟨.uphi, true, (.sand (.tr (.conj (.U .q))) (.U .u))⟩,
    ⟨.uW, true, (.sand (.tr (.conj (.U .q))) (.U .u))⟩,
    ⟨.uB, true, (.sand (.tr (.conj (.U .q))) (.U .u))⟩,
    ⟨.uG, true, (.sand (.tr (.conj (.U .q))) (.U .u))⟩,
    ⟨.dphi, true, (.sand (.tr (.conj (.U .q))) (.U .d))⟩,
    ⟨.dW, true, (.sand (.tr (.conj (.U .q))) (.U .d))⟩,
    ⟨.dB, true, (.sand (.tr (.conj (.U .q))) (.U .d))⟩,
    ⟨.dG, true, (.sand (.tr (.conj (.U .q))) (.U .d))⟩,
    ⟨.phil1, true, (.sand (.tr (.conj (.U .l))) (.U .l))⟩,
    ⟨.phil3, true, (.sand (.tr (.conj (.U .l))) (.U .l))⟩,
    ⟨.phiq1, true, (.sand (.tr (.conj (.U .q))) (.U .q))⟩,
    ⟨.phiq3, true, (.sand (.tr (.conj (.U .q))) (.U .q))⟩,
    ⟨.llphiphi, true, (.sand (.tr (.U .l)) (.U .l))⟩,
    ⟨.phie, true, (.sand (.tr (.conj (.U .e))) (.U .e))⟩,
    ⟨.phiu, true, (.sand (.tr (.conj (.U .u))) (.U .u))⟩,
    ⟨.phid, true, (.sand (.tr (.conj (.U .d))) (.U .d))⟩,
    ⟨.phiud, true, (.sand (.tr (.conj (.U .u))) (.U .d))⟩,
    ⟨.ll, true, (.ein [([.j,.b], (.U .l)), ([.l,.d], (.U .l)), ([.i,.a], (.conj (.U .l))), ([.k,.c], (.conj (.U .l)))] [.i,.j,.k,.l] [.a,.b,.c,.d])⟩,
    ⟨.ee, true, (.ein [([.j,.b], (.U .e)), ([.l,.d], (.U .e)), ([.i,.a], (.conj (.U .e))), ([.k,.c], (.conj (.U .e)))] [.i,.j,.k,.l] [.a,.b,.c,.d])⟩,
    ⟨.le, true, (.ein [([.j,.b], (.U .l)), ([.l,.d], (.U .e)), ([.i,.a], (.conj (.U .l))), ([.k,.c], (.conj (.U .e)))] [.i,.j,.k,.l] [.a,.b,.c,.d])⟩,
    ⟨.qq1, true, (.ein [([.j,.b], (.U .q)), ([.l,.d], (.U .q)), ([.i,.a], (.conj (.U .q))), ([.k,.c], (.conj (.U .q)))] [.i,.j,.k,.l] [.a,.b,.c,.d])⟩,
    ⟨.qq3, true, (.ein [([.j,.b], (.U .q)), ([.l,.d], (.U .q)), ([.i,.a], (.conj (.U .q))), ([.k,.c], (.conj (.U .q)))] [.i,.j,.k,.l] [.a,.b,.c,.d])⟩,
    ⟨.dd, true, (.ein [([.j,.b], (.U .d)), ([.l,.d], (.U .d)), ([.i,.a], (.conj (.U .d))), ([.k,.c], (.conj (.U .d)))] [.i,.j,.k,.l] [.a,.b,.c,.d])⟩,
    ⟨.uu, true, (.ein [([.j,.b], (.U .u)), ([.l,.d], (.U .u)), ([.i,.a], (.conj (.U .u))), ([.k,.c], (.conj (.U .u)))] [.i,.j,.k,.l] [.a,.b,.c,.d])⟩,
    ⟨.ud8, true, (.ein [([.j,.b], (.U .u)), ([.l,.d], (.U .d)), ([.i,.a], (.conj (.U .u))), ([.k,.c], (.conj (.U .d)))] [.i,.j,.k,.l] [.a,.b,.c,.d])⟩,
    ⟨.ud1, true, (.ein [([.j,.b], (.U .u)), ([.l,.d], (.U .d)), ([.i,.a], (.conj (.U .u))), ([.k,.c], (.conj (.U .d)))] [.i,.j,.k,.l] [.a,.b,.c,.d])⟩,
    ⟨.qu1, true, (.ein [([.j,.b], (.U .q)), ([.l,.d], (.U .u)), ([.i,.a], (.conj (.U .q))), ([.k,.c], (.conj (.U .u)))] [.i,.j,.k,.l] [.a,.b,.c,.d])⟩,
    ⟨.qu8, true, (.ein [([.j,.b], (.U .q)), ([.l,.d], (.U .u)), ([.i,.a], (.conj (.U .q))), ([.k,.c], (.conj (.U .u)))] [.i,.j,.k,.l] [.a,.b,.c,.d])⟩,
    ⟨.qd1, true, (.ein [([.j,.b], (.U .q)), ([.l,.d], (.U .d)), ([.i,.a], (.conj (.U .q))), ([.k,.c], (.conj (.U .d)))] [.i,.j,.k,.l] [.a,.b,.c,.d])⟩,
    ⟨.qd8, true, (.ein [([.j,.b], (.U .q)), ([.l,.d], (.U .d)), ([.i,.a], (.conj (.U .q))), ([.k,.c], (.conj (.U .d)))] [.i,.j,.k,.l] [.a,.b,.c,.d])⟩,
    ⟨.quqd1, true, (.ein [([.j,.b], (.U .u)), ([.l,.d], (.U .d)), ([.i,.a], (.conj (.U .q))), ([.k,.c], (.conj (.U .q)))] [.i,.j,.k,.l] [.a,.b,.c,.d])⟩,
    ⟨.quqd8, true, (.ein [([.j,.b], (.U .u)), ([.l,.d], (.U .d)), ([.i,.a], (.conj (.U .q))), ([.k,.c], (.conj (.U .q)))] [.i,.j,.k,.l] [.a,.b,.c,.d])⟩,
    ⟨.lq1, true, (.ein [([.j,.b], (.U .l)), ([.l,.d], (.U .q)), ([.i,.a], (.conj (.U .l))), ([.k,.c], (.conj (.U .q)))] [.i,.j,.k,.l] [.a,.b,.c,.d])⟩,
    ⟨.lq3, true, (.ein [([.j,.b], (.U .l)), ([.l,.d], (.U .q)), ([.i,.a], (.conj (.U .l))), ([.k,.c], (.conj (.U .q)))] [.i,.j,.k,.l] [.a,.b,.c,.d])⟩,
    ⟨.ld, true, (.ein [([.j,.b], (.U .l)), ([.l,.d], (.U .d)), ([.i,.a], (.conj (.U .l))), ([.k,.c], (.conj (.U .d)))] [.i,.j,.k,.l] [.a,.b,.c,.d])⟩,
    ⟨.lu, true, (.ein [([.j,.b], (.U .l)), ([.l,.d], (.U .u)), ([.i,.a], (.conj (.U .l))), ([.k,.c], (.conj (.U .u)))] [.i,.j,.k,.l] [.a,.b,.c,.d])⟩,
    ⟨.qe, true, (.ein [([.j,.b], (.U .q)), ([.l,.d], (.U .e)), ([.i,.a], (.conj (.U .q))), ([.k,.c], (.conj (.U .e)))] [.i,.j,.k,.l] [.a,.b,.c,.d])⟩,
    ⟨.ed, true, (.ein [([.j,.b], (.U .e)), ([.l,.d], (.U .d)), ([.i,.a], (.conj (.U .e))), ([.k,.c], (.conj (.U .d)))] [.i,.j,.k,.l] [.a,.b,.c,.d])⟩,
    ⟨.eu, true, (.ein [([.j,.b], (.U .e)), ([.l,.d], (.U .u)), ([.i,.a], (.conj (.U .e))), ([.k,.c], (.conj (.U .u)))] [.i,.j,.k,.l] [.a,.b,.c,.d])⟩,
    ⟨.ledq, true, (.ein [([.j,.b], (.U .e)), ([.l,.d], (.U .q)), ([.i,.a], (.conj (.U .l))), ([.k,.c], (.conj (.U .d)))] [.i,.j,.k,.l] [.a,.b,.c,.d])⟩,
    ⟨.lequ1, true, (.ein [([.j,.b], (.U .e)), ([.l,.d], (.U .u)), ([.i,.a], (.conj (.U .l))), ([.k,.c], (.conj (.U .q)))] [.i,.j,.k,.l] [.a,.b,.c,.d])⟩,
    ⟨.lequ3, true, (.ein [([.j,.b], (.U .e)), ([.l,.d], (.U .u)), ([.i,.a], (.conj (.U .l))), ([.k,.c], (.conj (.U .q)))] [.i,.j,.k,.l] [.a,.b,.c,.d])⟩,
    ⟨.duql, true, (.ein [([.j,.b], (.U .u)), ([.l,.d], (.U .l)), ([.i,.a], (.U .d)), ([.k,.c], (.U .q))] [.i,.j,.k,.l] [.a,.b,.c,.d])⟩,
    ⟨.qque, true, (.ein [([.j,.b], (.U .q)), ([.l,.d], (.U .e)), ([.i,.a], (.U .q)), ([.k,.c], (.U .u))] [.i,.j,.k,.l] [.a,.b,.c,.d])⟩,
    ⟨.qqql, true, (.ein [([.j,.b], (.U .q)), ([.l,.d], (.U .l)), ([.i,.a], (.U .q)), ([.k,.c], (.U .q))] [.i,.j,.k,.l] [.a,.b,.c,.d])⟩,
    ⟨.duue, true, (.ein [([.j,.b], (.U .u)), ([.l,.d], (.U .e)), ([.i,.a], (.U .d)), ([.k,.c], (.U .u))] [.i,.j,.k,.l] [.a,.b,.c,.d])⟩]

/-- /repo/wilson/run/smeft/classes.py lines 146-152, executed `if sm_parameters` -/
def smeftRotationSM : List (Stmt Key Arg) :=
   [⟨.g, false, .copy⟩,
    ⟨.gp, false, .copy⟩,
    ⟨.gs, false, .copy⟩,
    ⟨.Lambda, false, .copy⟩,
    ⟨.m2, false, .copy⟩,
    ⟨.Ge, false, (.sand (.tr (.conj (.U .l))) (.U .e))⟩,
    ⟨.Gu, false, (.sand (.tr (.conj (.U .q))) (.U .u))⟩,
    ⟨.Gd, false, (.sand (.tr (.conj (.U .q))) (.U .d))⟩]

/-- /repo/wilson/run/smeft/classes.py lines 153-205 -/
def smeftRotationWC : List (Stmt Key Arg) :=
   [⟨.G, false, .copy⟩,
    ⟨.Gtilde, false, .copy⟩,
    ⟨.W, false, .copy⟩,
    ⟨.Wtilde, false, .copy⟩,
    ⟨.phi, false, .copy⟩,
    ⟨.phiBox, false, .copy⟩,
    ⟨.phiD, false, .copy⟩,
    ⟨.phiG, false, .copy⟩,
    ⟨.phiB, false, .copy⟩,
    ⟨.phiW, false, .copy⟩,
    ⟨.phiWB, false, .copy⟩,
    ⟨.phiGtilde, false, .copy⟩,
    ⟨.phiBtilde, false, .copy⟩,
    ⟨.phiWtilde, false, .copy⟩,
    ⟨.phiWtildeB, false, .copy⟩,
    ⟨.ephi, false, (.sand (.tr (.conj (.U .l))) (.U .e))⟩,
    ⟨.eW, false, (.sand (.tr (.conj (.U .l))) (.U .e))⟩,
    ⟨.eB, false, (.sand (.tr (.conj (.U .l))) (.U .e))⟩,
    ⟨.uphi, false, (.sand (.tr (.conj (.U .q))) (.U .u))⟩,
    ⟨.uW, false, (.sand (.tr (.conj (.U .q))) (.U .u))⟩,
    ⟨.uB, false, (.sand (.tr (.conj (.U .q))) (.U .u))⟩,
    ⟨.uG, false, (.sand (.tr (.conj (.U .q))) (.U .u))⟩,
    ⟨.dphi, false, (.sand (.tr (.conj (.U .q))) (.U .d))⟩,
    ⟨.dW, false, (.sand (.tr (.conj (.U .q))) (.U .d))⟩,
    ⟨.dB, false, (.sand (.tr (.conj (.U .q))) (.U .d))⟩,
    ⟨.dG, false, (.sand (.tr (.conj (.U .q))) (.U .d))⟩,
    ⟨.phil1, false, (.sand (.tr (.conj (.U .l))) (.U .l))⟩,
    ⟨.phil3, false, (.sand (.tr (.conj (.U .l))) (.U .l))⟩,
    ⟨.phiq1, false, (.sand (.tr (.conj (.U .q))) (.U .q))⟩,
    ⟨.phiq3, false, (.sand (.tr (.conj (.U .q))) (.U .q))⟩,
    ⟨.llphiphi, false, (.sand (.tr (.U .l)) (.U .l))⟩,
    ⟨.phie, false, (.sand (.tr (.conj (.U .e))) (.U .e))⟩,
    ⟨.phiu, false, (.sand (.tr (.conj (.U .u))) (.U .u))⟩,
    ⟨.phid, false, (.sand (.tr (.conj (.U .d))) (.U .d))⟩,
    ⟨.phiud, false, (.sand (.tr (.conj (.U .u))) (.U .d))⟩,
    ⟨.ll, false, (.ein [([.j,.b], (.U .l)), ([.l,.d], (.U .l)), ([.i,.a], (.conj (.U .l))), ([.k,.c], (.conj (.U .l)))] [.i,.j,.k,.l] [.a,.b,.c,.d])⟩,
    ⟨.ee, false, (.ein [([.j,.b], (.U .e)), ([.l,.d], (.U .e)), ([.i,.a], (.conj (.U .e))), ([.k,.c], (.conj (.U .e)))] [.i,.j,.k,.l] [.a,.b,.c,.d])⟩,
    ⟨.le, false, (.ein [([.j,.b], (.U .l)), ([.l,.d], (.U .e)), ([.i,.a], (.conj (.U .l))), ([.k,.c], (.conj (.U .e)))] [.i,.j,.k,.l] [.a,.b,.c,.d])⟩,
    ⟨.qq1, false, (.ein [([.j,.b], (.U .q)), ([.l,.d], (.U .q)), ([.i,.a], (.conj (.U .q))), ([.k,.c], (.conj (.U .q)))] [.i,.j,.k,.l] [.a,.b,.c,.d])⟩,
    ⟨.qq3, false, (.ein [([.j,.b], (.U .q)), ([.l,.d], (.U .q)), ([.i,.a], (.conj (.U .q))), ([.k,.c], (.conj (.U .q)))] [.i,.j,.k,.l] [.a,.b,.c,.d])⟩,
    ⟨.dd, false, (.ein [([.j,.b], (.U .d)), ([.l,.d], (.U .d)), ([.i,.a], (.conj (.U .d))), ([.k,.c], (.conj (.U .d)))] [.i,.j,.k,.l] [.a,.b,.c,.d])⟩,
    ⟨.uu, false, (.ein [([.j,.b], (.U .u)), ([.l,.d], (.U .u)), ([.i,.a], (.conj (.U .u))), ([.k,.c], (.conj (.U .u)))] [.i,.j,.k,.l] [.a,.b,.c,.d])⟩,
    ⟨.ud1, false, (.ein [([.j,.b], (.U .u)), ([.l,.d], (.U .d)), ([.i,.a], (.conj (.U .u))), ([.k,.c], (.conj (.U .d)))] [.i,.j,.k,.l] [.a,.b,.c,.d])⟩,
    ⟨.ud8, false, (.ein [([.j,.b], (.U .u)), ([.l,.d], (.U .d)), ([.i,.a], (.conj (.U .u))), ([.k,.c], (.conj (.U .d)))] [.i,.j,.k,.l] [.a,.b,.c,.d])⟩,
    ⟨.qu1, false, (.ein [([.j,.b], (.U .q)), ([.l,.d], (.U .u)), ([.i,.a], (.conj (.U .q))), ([.k,.c], (.conj (.U .u)))] [.i,.j,.k,.l] [.a,.b,.c,.d])⟩,
    ⟨.qu8, false, (.ein [([.j,.b], (.U .q)), ([.l,.d], (.U .u)), ([.i,.a], (.conj (.U .q))), ([.k,.c], (.conj (.U .u)))] [.i,.j,.k,.l] [.a,.b,.c,.d])⟩,
    ⟨.qd1, false, (.ein [([.j,.b], (.U .q)), ([.l,.d], (.U .d)), ([.i,.a], (.conj (.U .q))), ([.k,.c], (.conj (.U .d)))] [.i,.j,.k,.l] [.a,.b,.c,.d])⟩,
    ⟨.qd8, false, (.ein [([.j,.b], (.U .q)), ([.l,.d], (.U .d)), ([.i,.a], (.conj (.U .q))), ([.k,.c], (.conj (.U .d)))] [.i,.j,.k,.l] [.a,.b,.c,.d])⟩,
    ⟨.quqd1, false, (.ein [([.j,.b], (.U .u)), ([.l,.d], (.U .d)), ([.i,.a], (.conj (.U .q))), ([.k,.c], (.conj (.U .q)))] [.i,.j,.k,.l] [.a,.b,.c,.d])⟩,
    ⟨.quqd8, false, (.ein [([.j,.b], (.U .u)), ([.l,.d], (.U .d)), ([.i,.a], (.conj (.U .q))), ([.k,.c], (.conj (.U .q)))] [.i,.j,.k,.l] [.a,.b,.c,.d])⟩,
    ⟨.lq1, false, (.ein [([.j,.b], (.U .l)), ([.l,.d], (.U .q)), ([.i,.a], (.conj (.U .l))), ([.k,.c], (.conj (.U .q)))] [.i,.j,.k,.l] [.a,.b,.c,.d])⟩,
    ⟨.lq3, false, (.ein [([.j,.b], (.U .l)), ([.l,.d], (.U .q)), ([.i,.a], (.conj (.U .l))), ([.k,.c], (.conj (.U .q)))] [.i,.j,.k,.l] [.a,.b,.c,.d])⟩,
    ⟨.ld, false, (.ein [([.j,.b], (.U .l)), ([.l,.d], (.U .d)), ([.i,.a], (.conj (.U .l))), ([.k,.c], (.conj (.U .d)))] [.i,.j,.k,.l] [.a,.b,.c,.d])⟩,
    ⟨.lu, false, (.ein [([.j,.b], (.U .l)), ([.l,.d], (.U .u)), ([.i,.a], (.conj (.U .l))), ([.k,.c], (.conj (.U .u)))] [.i,.j,.k,.l] [.a,.b,.c,.d])⟩,
    ⟨.qe, false, (.ein [([.j,.b], (.U .q)), ([.l,.d], (.U .e)), ([.i,.a], (.conj (.U .q))), ([.k,.c], (.conj (.U .e)))] [.i,.j,.k,.l] [.a,.b,.c,.d])⟩,
    ⟨.ed, false, (.ein [([.j,.b], (.U .e)), ([.l,.d], (.U .d)), ([.i,.a], (.conj (.U .e))), ([.k,.c], (.conj (.U .d)))] [.i,.j,.k,.l] [.a,.b,.c,.d])⟩,
    ⟨.eu, false, (.ein [([.j,.b], (.U .e)), ([.l,.d], (.U .u)), ([.i,.a], (.conj (.U .e))), ([.k,.c], (.conj (.U .u)))] [.i,.j,.k,.l] [.a,.b,.c,.d])⟩,
    ⟨.ledq, false, (.ein [([.j,.b], (.U .e)), ([.l,.d], (.U .q)), ([.i,.a], (.conj (.U .l))), ([.k,.c], (.conj (.U .d)))] [.i,.j,.k,.l] [.a,.b,.c,.d])⟩,
    ⟨.lequ1, false, (.ein [([.j,.b], (.U .e)), ([.l,.d], (.U .u)), ([.i,.a], (.conj (.U .l))), ([.k,.c], (.conj (.U .q)))] [.i,.j,.k,.l] [.a,.b,.c,.d])⟩,
    ⟨.lequ3, false, (.ein [([.j,.b], (.U .e)), ([.l,.d], (.U .u)), ([.i,.a], (.conj (.U .l))), ([.k,.c], (.conj (.U .q)))] [.i,.j,.k,.l] [.a,.b,.c,.d])⟩,
    ⟨.duql, false, (.ein [([.j,.b], (.U .u)), ([.l,.d], (.U .l)), ([.i,.a], (.U .d)), ([.k,.c], (.U .q))] [.i,.j,.k,.l] [.a,.b,.c,.d])⟩,
    ⟨.qque, false, (.ein [([.j,.b], (.U .q)), ([.l,.d], (.U .e)), ([.i,.a], (.U .q)), ([.k,.c], (.U .u))] [.i,.j,.k,.l] [.a,.b,.c,.d])⟩,
    ⟨.qqql, false, (.ein [([.j,.b], (.U .q)), ([.l,.d], (.U .l)), ([.i,.a], (.U .q)), ([.k,.c], (.U .q))] [.i,.j,.k,.l] [.a,.b,.c,.d])⟩,
    ⟨.duue, false, (.ein [([.j,.b], (.U .u)), ([.l,.d], (.U .e)), ([.i,.a], (.U .d)), ([.k,.c], (.U .u))] [.i,.j,.k,.l] [.a,.b,.c,.d])⟩]

/-- the names in `wet_jms.C_symm_keys` (/repo/wilson/util/wet_jms.py lines 12-38) -/
inductive WKey
  | G | Gtilde | egamma | uG | dG | ugamma | dgamma | S1udRR | S1udduRR | S8udRR | S8udduRR
  | SedRL | SedRR | SeuRL | SeuRR | SnueduRL | SnueduRR | TedRR | TeuRR | TnueduRR | V1udduLR
  | V8udduLR | VnueduLL | VnueduLR | SuddLL | SduuLL | SduuLR | SduuRL | SdudRL | SduuRR | VuuRR
  | VddRR | VuuLL | VddLL | S1ddRR | S1uuRR | S8uuRR | SeeRR | S8ddRR | VnueLL | VnuuLL | VnudLL
  | VeuLL | VedLL | V1udLL | V8udLL | VeuRR | VedRR | V1udRR | V8udRR | VnueLR | VeeLR | VnuuLR
  | VnudLR | VeuLR | VedLR | VueLR | VdeLR | V1uuLR | V8uuLR | V1udLR | V8udLR | V1duLR | V8duLR
  | V1ddLR | V8ddLR | VeeLL | VeeRR | VnunuLL | SuudLR | SuudRL | SdduRL
  deriving DecidableEq, Repr

/-- all of them -/
def WKey.all : List WKey :=
   [.G, .Gtilde, .egamma, .uG, .dG, .ugamma, .dgamma, .S1udRR, .S1udduRR, .S8udRR, .S8udduRR,
    .SedRL, .SedRR, .SeuRL, .SeuRR, .SnueduRL, .SnueduRR, .TedRR, .TeuRR, .TnueduRR, .V1udduLR,
    .V8udduLR, .VnueduLL, .VnueduLR, .SuddLL, .SduuLL, .SduuLR, .SduuRL, .SdudRL, .SduuRR, .VuuRR,
    .VddRR, .VuuLL, .VddLL, .S1ddRR, .S1uuRR, .S8uuRR, .SeeRR, .S8ddRR, .VnueLL, .VnuuLL, .VnudLL,
    .VeuLL, .VedLL, .V1udLL, .V8udLL, .VeuRR, .VedRR, .V1udRR, .V8udRR, .VnueLR, .VeeLR, .VnuuLR,
    .VnudLR, .VeuLR, .VedLR, .VueLR, .VdeLR, .V1uuLR, .V8uuLR, .V1udLR, .V8udLR, .V1duLR, .V8duLR,
    .V1ddLR, .V8ddLR, .VeeLL, .VeeRR, .VnunuLL, .SuudLR, .SuudRL, .SdduRL]

/-- `C_symm_keys` (/repo/wilson/util/wet_jms.py lines 12-38): class number, names -/
def symmKeysWet : List (ℕ × List WKey) :=
   [(0, [.G, .Gtilde]),
    (1, [.egamma, .uG, .dG, .ugamma, .dgamma]),
    (3, [.S1udRR, .S1udduRR, .S8udRR, .S8udduRR, .SedRL, .SedRR, .SeuRL, .SeuRR, .SnueduRL, .SnueduRR,
      .TedRR, .TeuRR, .TnueduRR, .V1udduLR, .V8udduLR, .VnueduLL, .VnueduLR, .SuddLL, .SduuLL,
      .SduuLR, .SduuRL, .SdudRL, .SduuRR]),
    (4, [.VuuRR, .VddRR, .VuuLL, .VddLL]),
    (41, [.S1ddRR, .S1uuRR, .S8uuRR, .SeeRR, .S8ddRR]),
    (5, [.VnueLL, .VnuuLL, .VnudLL, .VeuLL, .VedLL, .V1udLL, .V8udLL, .VeuRR, .VedRR, .V1udRR, .V8udRR,
      .VnueLR, .VeeLR, .VnuuLR, .VnudLR, .VeuLR, .VedLR, .VueLR, .VdeLR, .V1uuLR, .V8uuLR, .V1udLR,
      .V8udLR, .V1duLR, .V8duLR, .V1ddLR, .V8ddLR]),
    (6, [.VeeLL, .VeeRR, .VnunuLL]),
    (71, [.SuudLR, .SuudRL, .SdduRL])]

/-- /repo/wilson/util/wet_jms.py lines 149-216 -/
def rotateDownProg : List (Stmt WKey Arg1) :=
   [⟨.dgamma, false, (.ein [([.i,.a], (.conj (.U .UdL)))] [.i,.j] [.a,.j])⟩,
    ⟨.dG, false, (.ein [([.i,.a], (.conj (.U .UdL)))] [.i,.j] [.a,.j])⟩,
    ⟨.VddLL, false, (.ein [([.i,.a], (.conj (.U .UdL))), ([.j,.b], (.U .UdL)), ([.k,.c], (.conj (.U .UdL))), ([.l,.d], (.U .UdL))] [.i,.j,.k,.l] [.a,.b,.c,.d])⟩,
    ⟨.V1udLL, false, (.ein [([.k,.c], (.conj (.U .UdL))), ([.l,.d], (.U .UdL))] [.i,.j,.k,.l] [.i,.j,.c,.d])⟩,
    ⟨.V8udLL, false, (.ein [([.k,.c], (.conj (.U .UdL))), ([.l,.d], (.U .UdL))] [.i,.j,.k,.l] [.i,.j,.c,.d])⟩,
    ⟨.VedLL, false, (.ein [([.k,.c], (.conj (.U .UdL))), ([.l,.d], (.U .UdL))] [.i,.j,.k,.l] [.i,.j,.c,.d])⟩,
    ⟨.VnudLL, false, (.ein [([.k,.c], (.conj (.U .UdL))), ([.l,.d], (.U .UdL))] [.i,.j,.k,.l] [.i,.j,.c,.d])⟩,
    ⟨.V1ddLR, false, (.ein [([.i,.a], (.conj (.U .UdL))), ([.j,.b], (.U .UdL))] [.i,.j,.k,.l] [.a,.b,.k,.l])⟩,
    ⟨.V1duLR, false, (.ein [([.i,.a], (.conj (.U .UdL))), ([.j,.b], (.U .UdL))] [.i,.j,.k,.l] [.a,.b,.k,.l])⟩,
    ⟨.V8ddLR, false, (.ein [([.i,.a], (.conj (.U .UdL))), ([.j,.b], (.U .UdL))] [.i,.j,.k,.l] [.a,.b,.k,.l])⟩,
    ⟨.V8duLR, false, (.ein [([.i,.a], (.conj (.U .UdL))), ([.j,.b], (.U .UdL))] [.i,.j,.k,.l] [.a,.b,.k,.l])⟩,
    ⟨.VdeLR, false, (.ein [([.i,.a], (.conj (.U .UdL))), ([.j,.b], (.U .UdL))] [.i,.j,.k,.l] [.a,.b,.k,.l])⟩,
    ⟨.S1ddRR, false, (.ein [([.i,.a], (.conj (.U .UdL))), ([.k,.c], (.conj (.U .UdL)))] [.i,.j,.k,.l] [.a,.j,.c,.l])⟩,
    ⟨.S8ddRR, false, (.ein [([.i,.a], (.conj (.U .UdL))), ([.k,.c], (.conj (.U .UdL)))] [.i,.j,.k,.l] [.a,.j,.c,.l])⟩,
    ⟨.V1udduLR, false, (.ein [([.j,.b], (.U .UdL))] [.i,.j,.k,.l] [.i,.b,.k,.l])⟩,
    ⟨.V8udduLR, false, (.ein [([.j,.b], (.U .UdL))] [.i,.j,.k,.l] [.i,.b,.k,.l])⟩,
    ⟨.VnueduLL, false, (.ein [([.k,.c], (.conj (.U .UdL)))] [.i,.j,.k,.l] [.i,.j,.c,.l])⟩,
    ⟨.SedRR, false, (.ein [([.k,.c], (.conj (.U .UdL)))] [.i,.j,.k,.l] [.i,.j,.c,.l])⟩,
    ⟨.TedRR, false, (.ein [([.k,.c], (.conj (.U .UdL)))] [.i,.j,.k,.l] [.i,.j,.c,.l])⟩,
    ⟨.SnueduRR, false, (.ein [([.k,.c], (.conj (.U .UdL)))] [.i,.j,.k,.l] [.i,.j,.c,.l])⟩,
    ⟨.TnueduRR, false, (.ein [([.k,.c], (.conj (.U .UdL)))] [.i,.j,.k,.l] [.i,.j,.c,.l])⟩,
    ⟨.S1udRR, false, (.ein [([.k,.c], (.conj (.U .UdL)))] [.i,.j,.k,.l] [.i,.j,.c,.l])⟩,
    ⟨.S8udRR, false, (.ein [([.k,.c], (.conj (.U .UdL)))] [.i,.j,.k,.l] [.i,.j,.c,.l])⟩,
    ⟨.S1udduRR, false, (.ein [([.k,.c], (.conj (.U .UdL)))] [.i,.j,.k,.l] [.i,.j,.c,.l])⟩,
    ⟨.S8udduRR, false, (.ein [([.k,.c], (.conj (.U .UdL)))] [.i,.j,.k,.l] [.i,.j,.c,.l])⟩,
    ⟨.SedRL, false, (.ein [([.l,.d], (.U .UdL))] [.i,.j,.k,.l] [.i,.j,.k,.d])⟩,
    ⟨.SduuLL, false, (.ein [([.i,.a], (.U .UdL))] [.i,.j,.k,.l] [.a,.j,.k,.l])⟩,
    ⟨.SduuLR, false, (.ein [([.i,.a], (.U .UdL))] [.i,.j,.k,.l] [.a,.j,.k,.l])⟩,
    ⟨.SuudRL, false, (.ein [([.k,.c], (.U .UdL))] [.i,.j,.k,.l] [.i,.j,.c,.l])⟩,
    ⟨.SdudRL, false, (.ein [([.k,.c], (.U .UdL))] [.i,.j,.k,.l] [.i,.j,.c,.l])⟩,
    ⟨.SuddLL, false, (.ein [([.j,.b], (.U .UdL)), ([.k,.c], (.U .UdL))] [.i,.j,.k,.l] [.i,.b,.c,.l])⟩]

end Verif.Rotation
