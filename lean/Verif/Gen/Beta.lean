import Verif.Model.Tensor

/-!
# The SMEFT beta functions, generated

GENERATED by tools/gen_beta.py from /repo/wilson/run/smeft/beta.py (`beta`); do not edit.
Every definition below transcribes one assignment of `beta` operator by operator;
`C["k"]` and the aliases `g = C["g"]`, ... are the keys of `Key`.
-/

set_option autoImplicit false

namespace Verif.Beta
open Verif.Tens

/-- the keys of the dictionary `C` (lines 37-), followed by the local variables of `beta`
and its argument `HIGHSCALE` -/
inductive Key
  | g | gp | gs | Lambda | m2 | Gu | Gd | Ge | G | Gtilde | W | Wtilde | phi | phiBox 
  | phiD | phiG | phiB | phiW | phiWB | phiGtilde | phiBtilde | phiWtilde | phiWtildeB 
  | uphi | dphi | ephi | eW | eB | uG | uW | uB | dG | dW | dB | phil1 | phil3 | phie 
  | phiq1 | phiq3 | phiu | phid | phiud | llphiphi | ll | qq1 | qq3 | lq1 | lq3 | ee 
  | uu | dd | eu | ed | ud1 | ud8 | le | lu | ld | qe | qu1 | qd1 | qu8 | qd8 | ledq 
  | quqd1 | quqd8 | lequ1 | lequ3 | duql | qque | qqql | duue | Eta1 | Eta2 | Eta3 | Eta4 
  | Eta5 | GammaH | Gammaq | Gammau | Gammad | Gammal | Gammae | XiB | Xie | Xid | Xiu 
  | HIGHSCALE 
  deriving DecidableEq, Repr

/-- keys of `C`, in the order of the first assignment to `Beta[k]` -/
def keys : List Key :=
  [.g, .gp, .gs, .Lambda, .m2, .Gu, .Gd, .Ge, .G, .Gtilde, .W, .Wtilde, .phi, .phiBox, .phiD,
    .phiG, .phiB, .phiW, .phiWB, .phiGtilde, .phiBtilde, .phiWtilde, .phiWtildeB, .uphi, .dphi,
    .ephi, .eW, .eB, .uG, .uW, .uB, .dG, .dW, .dB, .phil1, .phil3, .phie, .phiq1, .phiq3,
    .phiu, .phid, .phiud, .llphiphi, .ll, .qq1, .qq3, .lq1, .lq3, .ee, .uu, .dd, .eu, .ed,
    .ud1, .ud8, .le, .lu, .ld, .qe, .qu1, .qd1, .qu8, .qd8, .ledq, .quqd1, .quqd8, .lequ1,
    .lequ3, .duql, .qque, .qqql, .duue]

/-- /repo/wilson/run/smeft/beta.py lines 51-56 -/
def loc_Eta1 : E Key :=
  (.div (.add (.add (.add (.add (.add (.mul (.num 3) (.trace (.mat (.t .uphi) (.tr (.conj (.t
    .Gu)))))) (.mul (.num 3) (.trace (.mat (.t .dphi) (.tr (.conj (.t .Gd))))))) (.trace (.mat
    (.t .ephi) (.tr (.conj (.t .Ge)))))) (.mul (.num 3) (.conj (.trace (.mat (.t .uphi) (.tr
    (.conj (.t .Gu)))))))) (.mul (.num 3) (.conj (.trace (.mat (.t .dphi) (.tr (.conj (.t
    .Gd)))))))) (.conj (.trace (.mat (.t .ephi) (.tr (.conj (.t .Ge))))))) (.num 2))

/-- /repo/wilson/run/smeft/beta.py lines 57-61 -/
def loc_Eta2 : E Key :=
  (.add (.sub (.sub (.mul (.neg (.num 6)) (.trace (.mat (.mat (.t .phiq3) (.t .Gu)) (.tr (.conj
    (.t .Gu)))))) (.mul (.num 6) (.trace (.mat (.mat (.t .phiq3) (.t .Gd)) (.tr (.conj (.t
    .Gd))))))) (.mul (.num 2) (.trace (.mat (.mat (.t .phil3) (.t .Ge)) (.tr (.conj (.t
    .Ge))))))) (.mul (.num 3) (.add (.trace (.mat (.mat (.t .phiud) (.tr (.conj (.t .Gd)))) (.t
    .Gu))) (.conj (.trace (.mat (.mat (.t .phiud) (.tr (.conj (.t .Gd)))) (.t .Gu)))))))

/-- /repo/wilson/run/smeft/beta.py lines 62-72 -/
def loc_Eta3 : E Key :=
  (.sub (.add (.add (.sub (.sub (.add (.add (.add (.sub (.mul (.num 3) (.trace (.mat (.mat (.t
    .phiq1) (.t .Gd)) (.tr (.conj (.t .Gd)))))) (.mul (.num 3) (.trace (.mat (.mat (.t .phiq1)
    (.t .Gu)) (.tr (.conj (.t .Gu))))))) (.mul (.num 9) (.trace (.mat (.mat (.t .phiq3) (.t
    .Gd)) (.tr (.conj (.t .Gd))))))) (.mul (.num 9) (.trace (.mat (.mat (.t .phiq3) (.t .Gu))
    (.tr (.conj (.t .Gu))))))) (.mul (.num 3) (.trace (.mat (.mat (.t .phiu) (.tr (.conj (.t
    .Gu)))) (.t .Gu))))) (.mul (.num 3) (.trace (.mat (.mat (.t .phid) (.tr (.conj (.t .Gd))))
    (.t .Gd))))) (.mul (.num 3) (.add (.trace (.mat (.mat (.t .phiud) (.tr (.conj (.t .Gd))))
    (.t .Gu))) (.conj (.trace (.mat (.mat (.t .phiud) (.tr (.conj (.t .Gd)))) (.t .Gu)))))))
    (.trace (.mat (.mat (.t .phil1) (.t .Ge)) (.tr (.conj (.t .Ge)))))) (.mul (.num 3) (.trace
    (.mat (.mat (.t .phil3) (.t .Ge)) (.tr (.conj (.t .Ge))))))) (.trace (.mat (.mat (.t .phie)
    (.tr (.conj (.t .Ge)))) (.t .Ge))))

/-- /repo/wilson/run/smeft/beta.py lines 73-80 -/
def loc_Eta4 : E Key :=
  (.sub (.add (.add (.sub (.add (.sub (.mul (.num 12) (.trace (.mat (.mat (.t .phiq1) (.t .Gd))
    (.tr (.conj (.t .Gd)))))) (.mul (.num 12) (.trace (.mat (.mat (.t .phiq1) (.t .Gu)) (.tr
    (.conj (.t .Gu))))))) (.mul (.num 12) (.trace (.mat (.mat (.t .phiu) (.tr (.conj (.t
    .Gu)))) (.t .Gu))))) (.mul (.num 12) (.trace (.mat (.mat (.t .phid) (.tr (.conj (.t .Gd))))
    (.t .Gd))))) (.mul (.num 6) (.add (.trace (.mat (.mat (.t .phiud) (.tr (.conj (.t .Gd))))
    (.t .Gu))) (.conj (.trace (.mat (.mat (.t .phiud) (.tr (.conj (.t .Gd)))) (.t .Gu)))))))
    (.mul (.num 4) (.trace (.mat (.mat (.t .phil1) (.t .Ge)) (.tr (.conj (.t .Ge))))))) (.mul
    (.num 4) (.trace (.mat (.mat (.t .phie) (.tr (.conj (.t .Ge)))) (.t .Ge)))))

/-- /repo/wilson/run/smeft/beta.py lines 81-86 -/
def loc_Eta5 : E Key :=
  (.add (.sub (.mul (.div (.mul .i (.num 3)) (.num 2)) (.sub (.trace (.mat (.t .Gd) (.tr (.conj
    (.t .dphi))))) (.conj (.trace (.mat (.t .Gd) (.tr (.conj (.t .dphi)))))))) (.mul (.div
    (.mul .i (.num 3)) (.num 2)) (.sub (.trace (.mat (.t .Gu) (.tr (.conj (.t .uphi))))) (.conj
    (.trace (.mat (.t .Gu) (.tr (.conj (.t .uphi))))))))) (.mul (.div (.mul .i (.num 1)) (.num
    2)) (.sub (.trace (.mat (.t .Ge) (.tr (.conj (.t .ephi))))) (.conj (.trace (.mat (.t .Ge)
    (.tr (.conj (.t .ephi)))))))))

/-- /repo/wilson/run/smeft/beta.py lines 88-88 -/
def loc_GammaH : E Key :=
  (.trace (.add (.add (.mat (.mul (.num 3) (.t .Gu)) (.tr (.conj (.t .Gu)))) (.mat (.mul (.num
    3) (.t .Gd)) (.tr (.conj (.t .Gd))))) (.mat (.t .Ge) (.tr (.conj (.t .Ge))))))

/-- /repo/wilson/run/smeft/beta.py lines 89-89 -/
def loc_Gammaq : E Key :=
  (.mul (.div (.num 1) (.num 2)) (.add (.mat (.t .Gu) (.tr (.conj (.t .Gu)))) (.mat (.t .Gd)
    (.tr (.conj (.t .Gd))))))

/-- /repo/wilson/run/smeft/beta.py lines 90-90 -/
def loc_Gammau : E Key :=
  (.mat (.tr (.conj (.t .Gu))) (.t .Gu))

/-- /repo/wilson/run/smeft/beta.py lines 91-91 -/
def loc_Gammad : E Key :=
  (.mat (.tr (.conj (.t .Gd))) (.t .Gd))

/-- /repo/wilson/run/smeft/beta.py lines 92-92 -/
def loc_Gammal : E Key :=
  (.mat (.mul (.div (.num 1) (.num 2)) (.t .Ge)) (.tr (.conj (.t .Ge))))

/-- /repo/wilson/run/smeft/beta.py lines 93-93 -/
def loc_Gammae : E Key :=
  (.mat (.tr (.conj (.t .Ge))) (.t .Ge))

/-- local variables assigned before `Beta`, in order -/
def locProg : List (Key × E Key) :=
  [(.Eta1, loc_Eta1), (.Eta2, loc_Eta2), (.Eta3, loc_Eta3), (.Eta4, loc_Eta4), (.Eta5,
    loc_Eta5), (.GammaH, loc_GammaH), (.Gammaq, loc_Gammaq), (.Gammau, loc_Gammau), (.Gammad,
    loc_Gammad), (.Gammal, loc_Gammal), (.Gammae, loc_Gammae)]

/-- /repo/wilson/run/smeft/beta.py lines 97-97 -/
def sm_g : E Key :=
  (.sub (.mul (.div (.neg (.num 19)) (.num 6)) (.pow (.s .g) 3)) (.mul (.div (.mul (.mul (.num
    8) (.s .g)) (.s .m2)) (.pow (.s .HIGHSCALE) 2)) (.s .phiW)))

/-- /repo/wilson/run/smeft/beta.py lines 99-99 -/
def sm_gp : E Key :=
  (.sub (.mul (.div (.num 41) (.num 6)) (.pow (.s .gp) 3)) (.mul (.div (.mul (.mul (.num 8) (.s
    .gp)) (.s .m2)) (.pow (.s .HIGHSCALE) 2)) (.s .phiB)))

/-- /repo/wilson/run/smeft/beta.py lines 101-101 -/
def sm_gs : E Key :=
  (.sub (.mul (.neg (.num 7)) (.pow (.s .gs) 3)) (.mul (.div (.mul (.mul (.num 8) (.s .gs)) (.s
    .m2)) (.pow (.s .HIGHSCALE) 2)) (.s .phiG)))

/-- /repo/wilson/run/smeft/beta.py lines 103-117 -/
def sm_Lambda : E Key :=
  (.add (.sub (.add (.sub (.add (.add (.add (.mul (.num 12) (.pow (.s .Lambda) 2)) (.mul (.div
    (.num 3) (.num 4)) (.pow (.s .gp) 4))) (.mul (.mul (.div (.num 3) (.num 2)) (.pow (.s .g)
    2)) (.pow (.s .gp) 2))) (.mul (.div (.num 9) (.num 4)) (.pow (.s .g) 4))) (.mul (.mul (.num
    3) (.add (.pow (.s .gp) 2) (.mul (.num 3) (.pow (.s .g) 2)))) (.s .Lambda))) (.mul (.mul
    (.num 4) (.s .Lambda)) (.s .GammaH))) (.mul (.num 4) (.add (.add (.mul (.num 3) (.trace
    (.mat (.mat (.mat (.t .Gd) (.tr (.conj (.t .Gd)))) (.t .Gd)) (.tr (.conj (.t .Gd))))))
    (.mul (.num 3) (.trace (.mat (.mat (.mat (.t .Gu) (.tr (.conj (.t .Gu)))) (.t .Gu)) (.tr
    (.conj (.t .Gu))))))) (.trace (.mat (.mat (.mat (.t .Ge) (.tr (.conj (.t .Ge)))) (.t .Ge))
    (.tr (.conj (.t .Ge)))))))) (.mul (.div (.mul (.num 4) (.s .m2)) (.pow (.s .HIGHSCALE) 2))
    (.add (.add (.add (.add (.add (.add (.add (.mul (.num 12) (.s .phi)) (.mul (.add (.mul
    (.neg (.num 16)) (.s .Lambda)) (.mul (.div (.num 10) (.num 3)) (.pow (.s .g) 2))) (.s
    .phiBox))) (.mul (.add (.mul (.num 6) (.s .Lambda)) (.mul (.div (.num 3) (.num 2)) (.sub
    (.pow (.s .gp) 2) (.pow (.s .g) 2)))) (.s .phiD))) (.mul (.num 2) (.add (.s .Eta1) (.s
    .Eta2)))) (.mul (.mul (.num 9) (.pow (.s .g) 2)) (.s .phiW))) (.mul (.mul (.num 3) (.pow
    (.s .gp) 2)) (.s .phiB))) (.mul (.mul (.mul (.num 3) (.s .g)) (.s .gp)) (.s .phiWB))) (.mul
    (.mul (.div (.num 4) (.num 3)) (.pow (.s .g) 2)) (.add (.trace (.t .phil3)) (.mul (.num 3)
    (.trace (.t .phiq3))))))))

/-- /repo/wilson/run/smeft/beta.py lines 119-121 -/
def sm_m2 : E Key :=
  (.mul (.s .m2) (.add (.add (.sub (.sub (.mul (.num 6) (.s .Lambda)) (.mul (.div (.num 9)
    (.num 2)) (.pow (.s .g) 2))) (.mul (.div (.num 3) (.num 2)) (.pow (.s .gp) 2))) (.mul (.num
    2) (.s .GammaH))) (.mul (.div (.mul (.num 4) (.s .m2)) (.pow (.s .HIGHSCALE) 2)) (.sub (.s
    .phiD) (.mul (.num 2) (.s .phiBox))))))

/-- /repo/wilson/run/smeft/beta.py lines 123-136 -/
def sm_Gu : E Key :=
  (.add (.add (.mul (.div (.num 3) (.num 2)) (.sub (.mat (.mat (.t .Gu) (.tr (.conj (.t .Gu))))
    (.t .Gu)) (.mat (.mat (.t .Gd) (.tr (.conj (.t .Gd)))) (.t .Gu)))) (.mul (.sub (.sub (.sub
    (.s .GammaH) (.mul (.div (.num 9) (.num 4)) (.pow (.s .g) 2))) (.mul (.div (.num 17) (.num
    12)) (.pow (.s .gp) 2))) (.mul (.num 8) (.pow (.s .gs) 2))) (.t .Gu))) (.mul (.div (.mul
    (.num 2) (.s .m2)) (.pow (.s .HIGHSCALE) 2)) (.add (.add (.sub (.sub (.sub (.add (.add
    (.sub (.add (.mul (.num 3) (.t .uphi)) (.mul (.mul (.div (.num 1) (.num 2)) (.sub (.s
    .phiD) (.mul (.num 2) (.s .phiBox)))) (.t .Gu))) (.mat (.tr (.conj (.t .phiq1))) (.t .Gu)))
    (.mat (.mul (.num 3) (.tr (.conj (.t .phiq3)))) (.t .Gu))) (.mat (.t .Gu) (.tr (.conj (.t
    .phiu))))) (.mat (.t .Gd) (.tr (.conj (.t .phiud))))) (.mul (.num 2) (.add (.ein
    [.r,.p,.t,.s] (.t .qu1) [.p,.t] (.t .Gu) [] (.num 1)) (.mul (.div (.num 4) (.num 3)) (.ein
    [.r,.p,.t,.s] (.t .qu8) [.p,.t] (.t .Gu) [] (.num 1)))))) (.ein [.p,.t,.r,.s] (.t .lequ1)
    [.p,.t] (.conj (.t .Ge)) [] (.num 1))) (.mul (.num 3) (.ein [.r,.s,.p,.t] (.t .quqd1)
    [.p,.t] (.conj (.t .Gd)) [] (.num 1)))) (.mul (.div (.num 1) (.num 2)) (.add (.ein
    [.p,.s,.r,.t] (.t .quqd1) [.p,.t] (.conj (.t .Gd)) [] (.num 1)) (.mul (.div (.num 4) (.num
    3)) (.ein [.p,.s,.r,.t] (.t .quqd8) [.p,.t] (.conj (.t .Gd)) [] (.num 1))))))))

/-- /repo/wilson/run/smeft/beta.py lines 138-151 -/
def sm_Gd : E Key :=
  (.add (.add (.mul (.div (.num 3) (.num 2)) (.sub (.mat (.mat (.t .Gd) (.tr (.conj (.t .Gd))))
    (.t .Gd)) (.mat (.mat (.t .Gu) (.tr (.conj (.t .Gu)))) (.t .Gd)))) (.mul (.sub (.sub (.sub
    (.s .GammaH) (.mul (.div (.num 9) (.num 4)) (.pow (.s .g) 2))) (.mul (.div (.num 5) (.num
    12)) (.pow (.s .gp) 2))) (.mul (.num 8) (.pow (.s .gs) 2))) (.t .Gd))) (.mul (.div (.mul
    (.num 2) (.s .m2)) (.pow (.s .HIGHSCALE) 2)) (.add (.add (.add (.sub (.sub (.sub (.add
    (.add (.add (.mul (.num 3) (.t .dphi)) (.mul (.mul (.div (.num 1) (.num 2)) (.sub (.s
    .phiD) (.mul (.num 2) (.s .phiBox)))) (.t .Gd))) (.mat (.tr (.conj (.t .phiq1))) (.t .Gd)))
    (.mat (.mul (.num 3) (.tr (.conj (.t .phiq3)))) (.t .Gd))) (.mat (.t .Gd) (.tr (.conj (.t
    .phid))))) (.mat (.t .Gu) (.t .phiud))) (.mul (.num 2) (.add (.ein [.r,.p,.t,.s] (.t .qd1)
    [.p,.t] (.t .Gd) [] (.num 1)) (.mul (.div (.num 4) (.num 3)) (.ein [.r,.p,.t,.s] (.t .qd8)
    [.p,.t] (.t .Gd) [] (.num 1)))))) (.ein [.p,.t,.s,.r] (.conj (.t .ledq)) [.p,.t] (.t .Ge)
    [] (.num 1))) (.mul (.num 3) (.ein [.p,.t,.r,.s] (.t .quqd1) [.p,.t] (.conj (.t .Gu)) []
    (.num 1)))) (.mul (.div (.num 1) (.num 2)) (.add (.ein [.r,.p,.t,.s] (.t .quqd1) [.t,.p]
    (.conj (.t .Gu)) [] (.num 1)) (.mul (.div (.num 4) (.num 3)) (.ein [.r,.p,.t,.s] (.t
    .quqd8) [.t,.p] (.conj (.t .Gu)) [] (.num 1))))))))

/-- /repo/wilson/run/smeft/beta.py lines 153-161 -/
def sm_Ge : E Key :=
  (.add (.add (.mat (.mat (.mul (.div (.num 3) (.num 2)) (.t .Ge)) (.tr (.conj (.t .Ge)))) (.t
    .Ge)) (.mul (.sub (.s .GammaH) (.mul (.div (.num 3) (.num 4)) (.add (.mul (.num 3) (.pow
    (.s .g) 2)) (.mul (.num 5) (.pow (.s .gp) 2))))) (.t .Ge))) (.mul (.div (.mul (.num 2) (.s
    .m2)) (.pow (.s .HIGHSCALE) 2)) (.sub (.add (.sub (.sub (.add (.add (.add (.mul (.num 3)
    (.t .ephi)) (.mul (.mul (.div (.num 1) (.num 2)) (.sub (.s .phiD) (.mul (.num 2) (.s
    .phiBox)))) (.t .Ge))) (.mat (.tr (.conj (.t .phil1))) (.t .Ge))) (.mat (.mul (.num 3) (.tr
    (.conj (.t .phil3)))) (.t .Ge))) (.mat (.t .Ge) (.tr (.conj (.t .phie))))) (.mul (.num 2)
    (.ein [.r,.p,.t,.s] (.t .le) [.p,.t] (.t .Ge) [] (.num 1)))) (.mul (.num 3) (.ein
    [.r,.s,.p,.t] (.t .ledq) [.t,.p] (.t .Gd) [] (.num 1)))) (.mul (.num 3) (.ein [.r,.s,.p,.t]
    (.t .lequ1) [.p,.t] (.conj (.t .Gu)) [] (.num 1))))))

/-- assignments to `Beta` before the `newphys` test, in order -/
def smProg : List (Key × E Key) :=
  [(.g, sm_g), (.gp, sm_gp), (.gs, sm_gs), (.Lambda, sm_Lambda), (.m2, sm_m2), (.Gu, sm_Gu),
    (.Gd, sm_Gd), (.Ge, sm_Ge)]

/-- /repo/wilson/run/smeft/beta.py lines 171-174 -/
def loc2_XiB : E Key :=
  (.add (.mul (.div (.num 2) (.num 3)) (.add (.s .phiBox) (.s .phiD))) (.mul (.div (.num 8)
    (.num 3)) (.sub (.add (.sub (.add (.neg (.trace (.t .phil1))) (.trace (.t .phiq1))) (.trace
    (.t .phie))) (.mul (.num 2) (.trace (.t .phiu)))) (.trace (.t .phid)))))

/-- /repo/wilson/run/smeft/beta.py lines 175-177 -/
def loc2_Xie : E Key :=
  (.add (.sub (.mul (.num 2) (.ein [.p,.r,.s,.t] (.t .le) [.r,.s] (.t .Ge) [] (.num 1))) (.mul
    (.num 3) (.ein [.p,.t,.s,.r] (.t .ledq) [.r,.s] (.t .Gd) [] (.num 1)))) (.mul (.num 3)
    (.ein [.p,.t,.s,.r] (.t .lequ1) [.s,.r] (.conj (.t .Gu)) [] (.num 1))))

/-- /repo/wilson/run/smeft/beta.py lines 178-183 -/
def loc2_Xid : E Key :=
  (.sub (.sub (.mul (.num 2) (.add (.ein [.p,.r,.s,.t] (.t .qd1) [.r,.s] (.t .Gd) [] (.num 1))
    (.mul (.div (.num 4) (.num 3)) (.ein [.p,.r,.s,.t] (.t .qd8) [.r,.s] (.t .Gd) [] (.num
    1))))) (.add (.mul (.num 3) (.ein [.s,.r,.p,.t] (.t .quqd1) [.s,.r] (.conj (.t .Gu)) []
    (.num 1))) (.mul (.div (.num 1) (.num 2)) (.add (.ein [.p,.r,.s,.t] (.t .quqd1) [.s,.r]
    (.conj (.t .Gu)) [] (.num 1)) (.mul (.div (.num 4) (.num 3)) (.ein [.p,.r,.s,.t] (.t
    .quqd8) [.s,.r] (.conj (.t .Gu)) [] (.num 1))))))) (.ein [.s,.r,.t,.p] (.conj (.t .ledq))
    [.s,.r] (.t .Ge) [] (.num 1)))

/-- /repo/wilson/run/smeft/beta.py lines 184-189 -/
def loc2_Xiu : E Key :=
  (.add (.sub (.mul (.num 2) (.add (.ein [.p,.r,.s,.t] (.t .qu1) [.r,.s] (.t .Gu) [] (.num 1))
    (.mul (.div (.num 4) (.num 3)) (.ein [.p,.r,.s,.t] (.t .qu8) [.r,.s] (.t .Gu) [] (.num
    1))))) (.add (.mul (.num 3) (.ein [.p,.t,.s,.r] (.t .quqd1) [.s,.r] (.conj (.t .Gd)) []
    (.num 1))) (.mul (.div (.num 1) (.num 2)) (.add (.ein [.s,.t,.p,.r] (.t .quqd1) [.s,.r]
    (.conj (.t .Gd)) [] (.num 1)) (.mul (.div (.num 4) (.num 3)) (.ein [.s,.t,.p,.r] (.t
    .quqd8) [.s,.r] (.conj (.t .Gd)) [] (.num 1))))))) (.ein [.s,.r,.p,.t] (.t .lequ1) [.s,.r]
    (.conj (.t .Ge)) [] (.num 1)))

/-- local variables assigned after the `newphys` test, in order -/
def loc2Prog : List (Key × E Key) :=
  [(.XiB, loc2_XiB), (.Xie, loc2_Xie), (.Xid, loc2_Xid), (.Xiu, loc2_Xiu)]

/-- /repo/wilson/run/smeft/beta.py lines 191-191 -/
def np_G : E Key :=
  (.mul (.mul (.num 15) (.pow (.s .gs) 2)) (.s .G))

/-- /repo/wilson/run/smeft/beta.py lines 193-193 -/
def np_Gtilde : E Key :=
  (.mul (.mul (.num 15) (.pow (.s .gs) 2)) (.s .Gtilde))

/-- /repo/wilson/run/smeft/beta.py lines 195-195 -/
def np_W : E Key :=
  (.mul (.mul (.div (.num 29) (.num 2)) (.pow (.s .g) 2)) (.s .W))

/-- /repo/wilson/run/smeft/beta.py lines 197-197 -/
def np_Wtilde : E Key :=
  (.mul (.mul (.div (.num 29) (.num 2)) (.pow (.s .g) 2)) (.s .Wtilde))

/-- /repo/wilson/run/smeft/beta.py lines 200-229 -/
def np_phi : E Key :=
  (.add (.sub (.add (.add (.sub (.add (.add (.sub (.sub (.sub (.add (.sub (.add (.mul (.mul
    (.div (.neg (.num 9)) (.num 2)) (.add (.mul (.num 3) (.pow (.s .g) 2)) (.pow (.s .gp) 2)))
    (.s .phi)) (.mul (.s .Lambda) (.add (.mul (.mul (.div (.num 20) (.num 3)) (.pow (.s .g) 2))
    (.s .phiBox)) (.mul (.mul (.num 3) (.sub (.pow (.s .gp) 2) (.pow (.s .g) 2))) (.s
    .phiD))))) (.mul (.mul (.div (.num 3) (.num 4)) (.pow (.add (.pow (.s .g) 2) (.pow (.s .gp)
    2)) 2)) (.s .phiD))) (.mul (.mul (.num 6) (.s .Lambda)) (.add (.add (.mul (.mul (.num 3)
    (.pow (.s .g) 2)) (.s .phiW)) (.mul (.pow (.s .gp) 2) (.s .phiB))) (.mul (.mul (.s .g) (.s
    .gp)) (.s .phiWB))))) (.mul (.mul (.num 3) (.add (.mul (.pow (.s .g) 2) (.pow (.s .gp) 2))
    (.mul (.num 3) (.pow (.s .g) 4)))) (.s .phiW))) (.mul (.mul (.num 3) (.add (.pow (.s .gp)
    4) (.mul (.pow (.s .g) 2) (.pow (.s .gp) 2)))) (.s .phiB))) (.mul (.mul (.num 3) (.add
    (.mul (.s .g) (.pow (.s .gp) 3)) (.mul (.pow (.s .g) 3) (.s .gp)))) (.s .phiWB))) (.mul
    (.mul (.mul (.div (.num 8) (.num 3)) (.s .Lambda)) (.pow (.s .g) 2)) (.add (.trace (.t
    .phil3)) (.mul (.num 3) (.trace (.t .phiq3)))))) (.mul (.mul (.num 54) (.s .Lambda)) (.s
    .phi))) (.mul (.mul (.num 40) (.pow (.s .Lambda) 2)) (.s .phiBox))) (.mul (.mul (.num 12)
    (.pow (.s .Lambda) 2)) (.s .phiD))) (.mul (.mul (.num 4) (.s .Lambda)) (.add (.s .Eta1) (.s
    .Eta2)))) (.mul (.num 4) (.add (.add (.add (.add (.add (.mul (.num 3) (.trace (.mat (.mat
    (.mat (.t .uphi) (.tr (.conj (.t .Gu)))) (.t .Gu)) (.tr (.conj (.t .Gu)))))) (.mul (.num 3)
    (.trace (.mat (.mat (.mat (.t .dphi) (.tr (.conj (.t .Gd)))) (.t .Gd)) (.tr (.conj (.t
    .Gd))))))) (.trace (.mat (.mat (.mat (.t .ephi) (.tr (.conj (.t .Ge)))) (.t .Ge)) (.tr
    (.conj (.t .Ge)))))) (.mul (.num 3) (.conj (.trace (.mat (.mat (.mat (.t .uphi) (.tr (.conj
    (.t .Gu)))) (.t .Gu)) (.tr (.conj (.t .Gu)))))))) (.mul (.num 3) (.conj (.trace (.mat (.mat
    (.mat (.t .dphi) (.tr (.conj (.t .Gd)))) (.t .Gd)) (.tr (.conj (.t .Gd)))))))) (.conj
    (.trace (.mat (.mat (.mat (.t .ephi) (.tr (.conj (.t .Ge)))) (.t .Ge)) (.tr (.conj (.t
    .Ge))))))))) (.mul (.mul (.num 6) (.s .GammaH)) (.s .phi)))

/-- /repo/wilson/run/smeft/beta.py lines 231-243 -/
def np_phiBox : E Key :=
  (.add (.sub (.add (.add (.add (.add (.mul (.neg (.add (.mul (.num 4) (.pow (.s .g) 2)) (.mul
    (.div (.num 4) (.num 3)) (.pow (.s .gp) 2)))) (.s .phiBox)) (.mul (.mul (.div (.num 5)
    (.num 3)) (.pow (.s .gp) 2)) (.s .phiD))) (.mul (.mul (.num 2) (.pow (.s .g) 2)) (.add
    (.trace (.t .phil3)) (.mul (.num 3) (.trace (.t .phiq3)))))) (.mul (.mul (.div (.num 2)
    (.num 3)) (.pow (.s .gp) 2)) (.sub (.add (.sub (.sub (.mul (.num 2) (.trace (.t .phiu)))
    (.trace (.t .phid))) (.trace (.t .phie))) (.trace (.t .phiq1))) (.trace (.t .phil1)))))
    (.mul (.mul (.num 12) (.s .Lambda)) (.s .phiBox))) (.mul (.num 2) (.s .Eta3))) (.mul (.mul
    (.num 4) (.s .GammaH)) (.s .phiBox)))

/-- /repo/wilson/run/smeft/beta.py lines 245-255 -/
def np_phiD : E Key :=
  (.add (.sub (.add (.add (.add (.mul (.mul (.div (.num 20) (.num 3)) (.pow (.s .gp) 2)) (.s
    .phiBox)) (.mul (.sub (.mul (.div (.num 9) (.num 2)) (.pow (.s .g) 2)) (.mul (.div (.num 5)
    (.num 6)) (.pow (.s .gp) 2))) (.s .phiD))) (.mul (.mul (.div (.num 8) (.num 3)) (.pow (.s
    .gp) 2)) (.sub (.add (.sub (.sub (.mul (.num 2) (.trace (.t .phiu))) (.trace (.t .phid)))
    (.trace (.t .phie))) (.trace (.t .phiq1))) (.trace (.t .phil1))))) (.mul (.mul (.num 6) (.s
    .Lambda)) (.s .phiD))) (.mul (.num 2) (.s .Eta4))) (.mul (.mul (.num 4) (.s .GammaH)) (.s
    .phiD)))

/-- /repo/wilson/run/smeft/beta.py lines 258-266 -/
def np_phiG : E Key :=
  (.add (.sub (.add (.mul (.sub (.sub (.mul (.div (.neg (.num 3)) (.num 2)) (.pow (.s .gp) 2))
    (.mul (.div (.num 9) (.num 2)) (.pow (.s .g) 2))) (.mul (.num 14) (.pow (.s .gs) 2))) (.s
    .phiG)) (.mul (.mul (.num 6) (.s .Lambda)) (.s .phiG))) (.mul (.mul (.num 2) (.s .gs))
    (.add (.add (.add (.trace (.mat (.t .uG) (.tr (.conj (.t .Gu))))) (.trace (.mat (.t .dG)
    (.tr (.conj (.t .Gd)))))) (.conj (.trace (.mat (.t .uG) (.tr (.conj (.t .Gu))))))) (.conj
    (.trace (.mat (.t .dG) (.tr (.conj (.t .Gd))))))))) (.mul (.mul (.num 2) (.s .GammaH)) (.s
    .phiG)))

/-- /repo/wilson/run/smeft/beta.py lines 269-280 -/
def np_phiB : E Key :=
  (.add (.add (.add (.add (.mul (.sub (.mul (.div (.num 85) (.num 6)) (.pow (.s .gp) 2)) (.mul
    (.div (.num 9) (.num 2)) (.pow (.s .g) 2))) (.s .phiB)) (.mul (.mul (.mul (.num 3) (.s .g))
    (.s .gp)) (.s .phiWB))) (.mul (.mul (.num 6) (.s .Lambda)) (.s .phiB))) (.mul (.s .gp)
    (.add (.add (.sub (.add (.add (.mul (.neg (.num 5)) (.trace (.mat (.t .uB) (.tr (.conj (.t
    .Gu)))))) (.trace (.mat (.t .dB) (.tr (.conj (.t .Gd)))))) (.mul (.num 3) (.trace (.mat (.t
    .eB) (.tr (.conj (.t .Ge))))))) (.mul (.num 5) (.conj (.trace (.mat (.t .uB) (.tr (.conj
    (.t .Gu)))))))) (.conj (.trace (.mat (.t .dB) (.tr (.conj (.t .Gd))))))) (.mul (.num 3)
    (.conj (.trace (.mat (.t .eB) (.tr (.conj (.t .Ge)))))))))) (.mul (.mul (.num 2) (.s
    .GammaH)) (.s .phiB)))

/-- /repo/wilson/run/smeft/beta.py lines 283-294 -/
def np_phiW : E Key :=
  (.add (.sub (.add (.sub (.add (.mul (.sub (.mul (.div (.neg (.num 3)) (.num 2)) (.pow (.s
    .gp) 2)) (.mul (.div (.num 53) (.num 6)) (.pow (.s .g) 2))) (.s .phiW)) (.mul (.mul (.s .g)
    (.s .gp)) (.s .phiWB))) (.mul (.mul (.num 15) (.pow (.s .g) 3)) (.s .W))) (.mul (.mul (.num
    6) (.s .Lambda)) (.s .phiW))) (.mul (.s .g) (.add (.add (.add (.add (.add (.mul (.num 3)
    (.trace (.mat (.t .uW) (.tr (.conj (.t .Gu)))))) (.mul (.num 3) (.trace (.mat (.t .dW) (.tr
    (.conj (.t .Gd))))))) (.trace (.mat (.t .eW) (.tr (.conj (.t .Ge)))))) (.mul (.num 3)
    (.conj (.trace (.mat (.t .uW) (.tr (.conj (.t .Gu)))))))) (.mul (.num 3) (.conj (.trace
    (.mat (.t .dW) (.tr (.conj (.t .Gd)))))))) (.conj (.trace (.mat (.t .eW) (.tr (.conj (.t
    .Ge))))))))) (.mul (.mul (.num 2) (.s .GammaH)) (.s .phiW)))

/-- /repo/wilson/run/smeft/beta.py lines 297-315 -/
def np_phiWB : E Key :=
  (.add (.add (.add (.add (.add (.add (.mul (.add (.mul (.div (.num 19) (.num 3)) (.pow (.s
    .gp) 2)) (.mul (.div (.num 4) (.num 3)) (.pow (.s .g) 2))) (.s .phiWB)) (.mul (.mul (.mul
    (.num 2) (.s .g)) (.s .gp)) (.add (.s .phiB) (.s .phiW)))) (.mul (.mul (.mul (.num 3) (.pow
    (.s .g) 2)) (.s .gp)) (.s .W))) (.mul (.mul (.num 2) (.s .Lambda)) (.s .phiWB))) (.mul (.s
    .g) (.sub (.sub (.add (.sub (.sub (.mul (.num 3) (.trace (.mat (.t .uB) (.tr (.conj (.t
    .Gu)))))) (.mul (.num 3) (.trace (.mat (.t .dB) (.tr (.conj (.t .Gd))))))) (.trace (.mat
    (.t .eB) (.tr (.conj (.t .Ge)))))) (.mul (.num 3) (.conj (.trace (.mat (.t .uB) (.tr (.conj
    (.t .Gu)))))))) (.mul (.num 3) (.conj (.trace (.mat (.t .dB) (.tr (.conj (.t .Gd))))))))
    (.conj (.trace (.mat (.t .eB) (.tr (.conj (.t .Ge))))))))) (.mul (.s .gp) (.add (.add (.add
    (.add (.add (.mul (.num 5) (.trace (.mat (.t .uW) (.tr (.conj (.t .Gu)))))) (.trace (.mat
    (.t .dW) (.tr (.conj (.t .Gd)))))) (.mul (.num 3) (.trace (.mat (.t .eW) (.tr (.conj (.t
    .Ge))))))) (.mul (.num 5) (.conj (.trace (.mat (.t .uW) (.tr (.conj (.t .Gu)))))))) (.conj
    (.trace (.mat (.t .dW) (.tr (.conj (.t .Gd))))))) (.mul (.num 3) (.conj (.trace (.mat (.t
    .eW) (.tr (.conj (.t .Ge)))))))))) (.mul (.mul (.num 2) (.s .GammaH)) (.s .phiWB)))

/-- /repo/wilson/run/smeft/beta.py lines 318-326 -/
def np_phiGtilde : E Key :=
  (.add (.add (.add (.mul (.sub (.sub (.mul (.div (.neg (.num 3)) (.num 2)) (.pow (.s .gp) 2))
    (.mul (.div (.num 9) (.num 2)) (.pow (.s .g) 2))) (.mul (.num 14) (.pow (.s .gs) 2))) (.s
    .phiGtilde)) (.mul (.mul (.num 6) (.s .Lambda)) (.s .phiGtilde))) (.mul (.mul (.mul (.num
    2) .i) (.s .gs)) (.sub (.sub (.add (.trace (.mat (.t .uG) (.tr (.conj (.t .Gu))))) (.trace
    (.mat (.t .dG) (.tr (.conj (.t .Gd)))))) (.conj (.trace (.mat (.t .uG) (.tr (.conj (.t
    .Gu))))))) (.conj (.trace (.mat (.t .dG) (.tr (.conj (.t .Gd))))))))) (.mul (.mul (.num 2)
    (.s .GammaH)) (.s .phiGtilde)))

/-- /repo/wilson/run/smeft/beta.py lines 329-340 -/
def np_phiBtilde : E Key :=
  (.add (.sub (.add (.add (.mul (.sub (.mul (.div (.num 85) (.num 6)) (.pow (.s .gp) 2)) (.mul
    (.div (.num 9) (.num 2)) (.pow (.s .g) 2))) (.s .phiBtilde)) (.mul (.mul (.mul (.num 3) (.s
    .g)) (.s .gp)) (.s .phiWtildeB))) (.mul (.mul (.num 6) (.s .Lambda)) (.s .phiBtilde)))
    (.mul (.mul .i (.s .gp)) (.sub (.sub (.add (.add (.add (.mul (.neg (.num 5)) (.trace (.mat
    (.t .uB) (.tr (.conj (.t .Gu)))))) (.trace (.mat (.t .dB) (.tr (.conj (.t .Gd)))))) (.mul
    (.num 3) (.trace (.mat (.t .eB) (.tr (.conj (.t .Ge))))))) (.mul (.num 5) (.conj (.trace
    (.mat (.t .uB) (.tr (.conj (.t .Gu)))))))) (.conj (.trace (.mat (.t .dB) (.tr (.conj (.t
    .Gd))))))) (.mul (.num 3) (.conj (.trace (.mat (.t .eB) (.tr (.conj (.t .Ge)))))))))) (.mul
    (.mul (.num 2) (.s .GammaH)) (.s .phiBtilde)))

/-- /repo/wilson/run/smeft/beta.py lines 343-354 -/
def np_phiWtilde : E Key :=
  (.add (.add (.add (.sub (.add (.mul (.sub (.mul (.div (.neg (.num 3)) (.num 2)) (.pow (.s
    .gp) 2)) (.mul (.div (.num 53) (.num 6)) (.pow (.s .g) 2))) (.s .phiWtilde)) (.mul (.mul
    (.s .g) (.s .gp)) (.s .phiWtildeB))) (.mul (.mul (.num 15) (.pow (.s .g) 3)) (.s .Wtilde)))
    (.mul (.mul (.num 6) (.s .Lambda)) (.s .phiWtilde))) (.mul (.mul .i (.s .g)) (.sub (.sub
    (.sub (.add (.add (.mul (.num 3) (.trace (.mat (.t .uW) (.tr (.conj (.t .Gu)))))) (.mul
    (.num 3) (.trace (.mat (.t .dW) (.tr (.conj (.t .Gd))))))) (.trace (.mat (.t .eW) (.tr
    (.conj (.t .Ge)))))) (.mul (.num 3) (.conj (.trace (.mat (.t .uW) (.tr (.conj (.t
    .Gu)))))))) (.mul (.num 3) (.conj (.trace (.mat (.t .dW) (.tr (.conj (.t .Gd)))))))) (.conj
    (.trace (.mat (.t .eW) (.tr (.conj (.t .Ge))))))))) (.mul (.mul (.num 2) (.s .GammaH)) (.s
    .phiWtilde)))

/-- /repo/wilson/run/smeft/beta.py lines 357-375 -/
def np_phiWtildeB : E Key :=
  (.add (.sub (.sub (.add (.add (.add (.mul (.add (.mul (.div (.num 19) (.num 3)) (.pow (.s
    .gp) 2)) (.mul (.div (.num 4) (.num 3)) (.pow (.s .g) 2))) (.s .phiWtildeB)) (.mul (.mul
    (.mul (.num 2) (.s .g)) (.s .gp)) (.add (.s .phiBtilde) (.s .phiWtilde)))) (.mul (.mul
    (.mul (.num 3) (.pow (.s .g) 2)) (.s .gp)) (.s .Wtilde))) (.mul (.mul (.num 2) (.s
    .Lambda)) (.s .phiWtildeB))) (.mul (.mul .i (.s .g)) (.add (.add (.sub (.sub (.sub (.mul
    (.num 3) (.trace (.mat (.t .uB) (.tr (.conj (.t .Gu)))))) (.mul (.num 3) (.trace (.mat (.t
    .dB) (.tr (.conj (.t .Gd))))))) (.trace (.mat (.t .eB) (.tr (.conj (.t .Ge)))))) (.mul
    (.num 3) (.conj (.trace (.mat (.t .uB) (.tr (.conj (.t .Gu)))))))) (.mul (.num 3) (.conj
    (.trace (.mat (.t .dB) (.tr (.conj (.t .Gd)))))))) (.conj (.trace (.mat (.t .eB) (.tr
    (.conj (.t .Ge))))))))) (.mul (.mul .i (.s .gp)) (.sub (.sub (.sub (.add (.add (.mul (.num
    5) (.trace (.mat (.t .uW) (.tr (.conj (.t .Gu)))))) (.trace (.mat (.t .dW) (.tr (.conj (.t
    .Gd)))))) (.mul (.num 3) (.trace (.mat (.t .eW) (.tr (.conj (.t .Ge))))))) (.mul (.num 5)
    (.conj (.trace (.mat (.t .uW) (.tr (.conj (.t .Gu)))))))) (.conj (.trace (.mat (.t .dW)
    (.tr (.conj (.t .Gd))))))) (.mul (.num 3) (.conj (.trace (.mat (.t .eW) (.tr (.conj (.t
    .Ge)))))))))) (.mul (.mul (.num 2) (.s .GammaH)) (.s .phiWtildeB)))

/-- /repo/wilson/run/smeft/beta.py lines 379-447 -/
def np_uphi : E Key :=
  (.add (.add (.add (.sub (.sub (.sub (.add (.add (.add (.sub (.sub (.add (.sub (.add (.add
    (.sub (.add (.add (.add (.sub (.sub (.sub (.sub (.sub (.sub (.add (.add (.sub (.add (.sub
    (.sub (.mul (.add (.sub (.add (.add (.add (.add (.mul (.mul (.div (.num 10) (.num 3)) (.pow
    (.s .g) 2)) (.s .phiBox)) (.mul (.mul (.div (.num 3) (.num 2)) (.sub (.pow (.s .gp) 2)
    (.pow (.s .g) 2))) (.s .phiD))) (.mul (.mul (.num 32) (.pow (.s .gs) 2)) (.add (.s .phiG)
    (.mul .i (.s .phiGtilde))))) (.mul (.mul (.num 9) (.pow (.s .g) 2)) (.add (.s .phiW) (.mul
    .i (.s .phiWtilde))))) (.mul (.mul (.div (.num 17) (.num 3)) (.pow (.s .gp) 2)) (.add (.s
    .phiB) (.mul .i (.s .phiBtilde))))) (.mul (.mul (.s .g) (.s .gp)) (.add (.s .phiWB) (.mul
    .i (.s .phiWtildeB))))) (.mul (.mul (.div (.num 4) (.num 3)) (.pow (.s .g) 2)) (.add
    (.trace (.t .phil3)) (.mul (.num 3) (.trace (.t .phiq3)))))) (.t .Gu)) (.mul (.add (.add
    (.mul (.div (.num 35) (.num 12)) (.pow (.s .gp) 2)) (.mul (.div (.num 27) (.num 4)) (.pow
    (.s .g) 2))) (.mul (.num 8) (.pow (.s .gs) 2))) (.t .uphi))) (.mul (.mul (.s .gp) (.sub
    (.mul (.num 5) (.pow (.s .gp) 2)) (.mul (.num 3) (.pow (.s .g) 2)))) (.t .uB))) (.mul (.mul
    (.s .g) (.sub (.mul (.num 5) (.pow (.s .gp) 2)) (.mul (.num 9) (.pow (.s .g) 2)))) (.t
    .uW))) (.mat (.mul (.sub (.mul (.num 3) (.pow (.s .g) 2)) (.pow (.s .gp) 2)) (.t .Gu)) (.t
    .phiu))) (.mat (.mul (.mul (.num 3) (.pow (.s .g) 2)) (.t .Gd)) (.tr (.conj (.t .phiud)))))
    (.mat (.mul (.mul (.num 4) (.pow (.s .gp) 2)) (.t .phiq1)) (.t .Gu))) (.mat (.mul (.mul
    (.num 4) (.pow (.s .gp) 2)) (.t .phiq3)) (.t .Gu))) (.mul (.mul (.num 5) (.s .gp)) (.add
    (.mat (.mat (.t .uB) (.tr (.conj (.t .Gu)))) (.t .Gu)) (.mat (.mat (.t .Gu) (.tr (.conj (.t
    .Gu)))) (.t .uB))))) (.mul (.mul (.num 3) (.s .g)) (.sub (.mat (.mat (.t .uW) (.tr (.conj
    (.t .Gu)))) (.t .Gu)) (.mat (.mat (.t .Gu) (.tr (.conj (.t .Gu)))) (.t .uW))))) (.mul (.mul
    (.num 16) (.s .gs)) (.add (.mat (.mat (.t .uG) (.tr (.conj (.t .Gu)))) (.t .Gu)) (.mat
    (.mat (.t .Gu) (.tr (.conj (.t .Gu)))) (.t .uG))))) (.mat (.mat (.mul (.mul (.num 12) (.s
    .g)) (.t .Gd)) (.tr (.conj (.t .Gd)))) (.t .uW))) (.mat (.mat (.mul (.mul (.num 6) (.s .g))
    (.t .dW)) (.tr (.conj (.t .Gd)))) (.t .Gu))) (.mul (.s .Lambda) (.add (.add (.add (.sub
    (.sub (.sub (.add (.sub (.sub (.add (.add (.sub (.mul (.num 12) (.t .uphi)) (.mat (.mul
    (.num 2) (.t .phiq1)) (.t .Gu))) (.mat (.mul (.num 6) (.t .phiq3)) (.t .Gu))) (.mat (.mul
    (.num 2) (.t .Gu)) (.t .phiu))) (.mat (.mul (.num 2) (.t .Gd)) (.tr (.conj (.t .phiud)))))
    (.mul (.mul (.num 2) (.s .phiBox)) (.t .Gu))) (.mul (.s .phiD) (.t .Gu))) (.mul (.num 4)
    (.ein [.r,.p,.t,.s] (.t .qu1) [.p,.t] (.t .Gu) [] (.num 1)))) (.mul (.div (.num 16) (.num
    3)) (.ein [.r,.p,.t,.s] (.t .qu8) [.p,.t] (.t .Gu) [] (.num 1)))) (.mul (.num 2) (.ein
    [.p,.t,.r,.s] (.t .lequ1) [.p,.t] (.conj (.t .Ge)) [] (.num 1)))) (.mul (.num 6) (.ein
    [.r,.s,.p,.t] (.t .quqd1) [.p,.t] (.conj (.t .Gd)) [] (.num 1)))) (.ein [.p,.s,.r,.t] (.t
    .quqd1) [.p,.t] (.conj (.t .Gd)) [] (.num 1))) (.mul (.div (.num 4) (.num 3)) (.ein
    [.p,.s,.r,.t] (.t .quqd8) [.p,.t] (.conj (.t .Gd)) [] (.num 1)))))) (.mul (.mul (.num 2)
    (.sub (.add (.s .Eta1) (.s .Eta2)) (.mul .i (.s .Eta5)))) (.t .Gu))) (.mat (.mat (.mul
    (.sub (.s .phiD) (.mul (.num 6) (.s .phiBox))) (.t .Gu)) (.tr (.conj (.t .Gu)))) (.t .Gu)))
    (.mat (.mat (.mat (.mul (.num 2) (.t .phiq1)) (.t .Gu)) (.tr (.conj (.t .Gu)))) (.t .Gu)))
    (.mat (.mat (.mat (.mul (.num 6) (.t .phiq3)) (.t .Gd)) (.tr (.conj (.t .Gd)))) (.t .Gu)))
    (.mat (.mat (.mat (.mul (.num 2) (.t .Gu)) (.tr (.conj (.t .Gu)))) (.t .Gu)) (.t .phiu)))
    (.mat (.mat (.mat (.mul (.num 2) (.t .Gd)) (.tr (.conj (.t .Gd)))) (.t .Gd)) (.tr (.conj
    (.t .phiud))))) (.mul (.num 8) (.add (.ein [.r,.p,.t,.s] (.t .qu1) [.p,.t] (.mat (.mat (.t
    .Gu) (.tr (.conj (.t .Gu)))) (.t .Gu)) [] (.num 1)) (.mul (.div (.num 4) (.num 3)) (.ein
    [.r,.p,.t,.s] (.t .qu8) [.p,.t] (.mat (.mat (.t .Gu) (.tr (.conj (.t .Gu)))) (.t .Gu)) []
    (.num 1)))))) (.mul (.num 2) (.add (.ein [.t,.s,.r,.p] (.t .quqd1) [.p,.t] (.mat (.mat (.tr
    (.conj (.t .Gd))) (.t .Gd)) (.tr (.conj (.t .Gd)))) [] (.num 1)) (.mul (.div (.num 4) (.num
    3)) (.ein [.t,.s,.r,.p] (.t .quqd8) [.p,.t] (.mat (.mat (.tr (.conj (.t .Gd))) (.t .Gd))
    (.tr (.conj (.t .Gd)))) [] (.num 1)))))) (.mul (.num 12) (.ein [.r,.s,.t,.p] (.t .quqd1)
    [.p,.t] (.mat (.mat (.tr (.conj (.t .Gd))) (.t .Gd)) (.tr (.conj (.t .Gd)))) [] (.num 1))))
    (.mul (.num 4) (.ein [.t,.p,.r,.s] (.t .lequ1) [.p,.t] (.mat (.mat (.tr (.conj (.t .Ge)))
    (.t .Ge)) (.tr (.conj (.t .Ge)))) [] (.num 1)))) (.mat (.mat (.mul (.num 4) (.t .uphi))
    (.tr (.conj (.t .Gu)))) (.t .Gu))) (.mat (.mat (.mul (.num 5) (.t .Gu)) (.tr (.conj (.t
    .Gu)))) (.t .uphi))) (.mat (.mat (.mul (.num 2) (.t .Gd)) (.tr (.conj (.t .dphi)))) (.t
    .Gu))) (.mat (.mat (.t .dphi) (.tr (.conj (.t .Gd)))) (.t .Gu))) (.mat (.mat (.mul (.num 2)
    (.t .Gd)) (.tr (.conj (.t .Gd)))) (.t .uphi))) (.mul (.mul (.num 3) (.s .GammaH)) (.t
    .uphi))) (.mat (.t .Gammaq) (.t .uphi))) (.mat (.t .uphi) (.t .Gammau)))

/-- /repo/wilson/run/smeft/beta.py lines 450-518 -/
def np_dphi : E Key :=
  (.add (.add (.add (.sub (.sub (.sub (.add (.add (.sub (.sub (.sub (.add (.sub (.sub (.add
    (.add (.add (.add (.add (.sub (.sub (.sub (.sub (.add (.sub (.sub (.add (.add (.sub (.sub
    (.sub (.mul (.add (.add (.add (.add (.add (.add (.mul (.mul (.div (.num 10) (.num 3)) (.pow
    (.s .g) 2)) (.s .phiBox)) (.mul (.mul (.div (.num 3) (.num 2)) (.sub (.pow (.s .gp) 2)
    (.pow (.s .g) 2))) (.s .phiD))) (.mul (.mul (.num 32) (.pow (.s .gs) 2)) (.add (.s .phiG)
    (.mul .i (.s .phiGtilde))))) (.mul (.mul (.num 9) (.pow (.s .g) 2)) (.add (.s .phiW) (.mul
    .i (.s .phiWtilde))))) (.mul (.mul (.div (.num 5) (.num 3)) (.pow (.s .gp) 2)) (.add (.s
    .phiB) (.mul .i (.s .phiBtilde))))) (.mul (.mul (.s .g) (.s .gp)) (.add (.s .phiWB) (.mul
    .i (.s .phiWtildeB))))) (.mul (.mul (.div (.num 4) (.num 3)) (.pow (.s .g) 2)) (.add
    (.trace (.t .phil3)) (.mul (.num 3) (.trace (.t .phiq3)))))) (.t .Gd)) (.mul (.add (.add
    (.mul (.div (.num 23) (.num 12)) (.pow (.s .gp) 2)) (.mul (.div (.num 27) (.num 4)) (.pow
    (.s .g) 2))) (.mul (.num 8) (.pow (.s .gs) 2))) (.t .dphi))) (.mul (.mul (.s .gp) (.sub
    (.mul (.num 3) (.pow (.s .g) 2)) (.pow (.s .gp) 2))) (.t .dB))) (.mul (.mul (.s .g) (.sub
    (.mul (.num 9) (.pow (.s .g) 2)) (.pow (.s .gp) 2))) (.t .dW))) (.mat (.mul (.add (.mul
    (.num 3) (.pow (.s .g) 2)) (.pow (.s .gp) 2)) (.t .Gd)) (.t .phid))) (.mat (.mul (.mul
    (.num 3) (.pow (.s .g) 2)) (.t .Gu)) (.t .phiud))) (.mat (.mul (.mul (.num 2) (.pow (.s
    .gp) 2)) (.t .phiq1)) (.t .Gd))) (.mat (.mul (.mul (.num 2) (.pow (.s .gp) 2)) (.t .phiq3))
    (.t .Gd))) (.mul (.s .gp) (.add (.mat (.mat (.t .dB) (.tr (.conj (.t .Gd)))) (.t .Gd))
    (.mat (.mat (.t .Gd) (.tr (.conj (.t .Gd)))) (.t .dB))))) (.mul (.mul (.num 3) (.s .g))
    (.sub (.mat (.mat (.t .dW) (.tr (.conj (.t .Gd)))) (.t .Gd)) (.mat (.mat (.t .Gd) (.tr
    (.conj (.t .Gd)))) (.t .dW))))) (.mul (.mul (.num 16) (.s .gs)) (.add (.mat (.mat (.t .dG)
    (.tr (.conj (.t .Gd)))) (.t .Gd)) (.mat (.mat (.t .Gd) (.tr (.conj (.t .Gd)))) (.t .dG)))))
    (.mat (.mat (.mul (.mul (.num 12) (.s .g)) (.t .Gu)) (.tr (.conj (.t .Gu)))) (.t .dW)))
    (.mat (.mat (.mul (.mul (.num 6) (.s .g)) (.t .uW)) (.tr (.conj (.t .Gu)))) (.t .Gd)))
    (.mul (.s .Lambda) (.add (.add (.add (.add (.sub (.sub (.add (.sub (.sub (.sub (.add (.add
    (.mul (.num 12) (.t .dphi)) (.mat (.mul (.num 2) (.t .phiq1)) (.t .Gd))) (.mat (.mul (.num
    6) (.t .phiq3)) (.t .Gd))) (.mat (.mul (.num 2) (.t .Gd)) (.t .phid))) (.mat (.mul (.num 2)
    (.t .Gu)) (.t .phiud))) (.mul (.mul (.num 2) (.s .phiBox)) (.t .Gd))) (.mul (.s .phiD) (.t
    .Gd))) (.mul (.num 4) (.ein [.r,.p,.t,.s] (.t .qd1) [.p,.t] (.t .Gd) [] (.num 1)))) (.mul
    (.div (.num 16) (.num 3)) (.ein [.r,.p,.t,.s] (.t .qd8) [.p,.t] (.t .Gd) [] (.num 1))))
    (.mul (.num 2) (.ein [.p,.t,.s,.r] (.conj (.t .ledq)) [.p,.t] (.t .Ge) [] (.num 1)))) (.mul
    (.num 6) (.ein [.p,.t,.r,.s] (.t .quqd1) [.p,.t] (.conj (.t .Gu)) [] (.num 1)))) (.ein
    [.r,.t,.p,.s] (.t .quqd1) [.p,.t] (.conj (.t .Gu)) [] (.num 1))) (.mul (.div (.num 4) (.num
    3)) (.ein [.r,.t,.p,.s] (.t .quqd8) [.p,.t] (.conj (.t .Gu)) [] (.num 1)))))) (.mul (.mul
    (.num 2) (.add (.add (.s .Eta1) (.s .Eta2)) (.mul .i (.s .Eta5)))) (.t .Gd))) (.mat (.mat
    (.mul (.sub (.s .phiD) (.mul (.num 6) (.s .phiBox))) (.t .Gd)) (.tr (.conj (.t .Gd)))) (.t
    .Gd))) (.mat (.mat (.mat (.mul (.num 2) (.t .phiq1)) (.t .Gd)) (.tr (.conj (.t .Gd)))) (.t
    .Gd))) (.mat (.mat (.mat (.mul (.num 6) (.t .phiq3)) (.t .Gu)) (.tr (.conj (.t .Gu)))) (.t
    .Gd))) (.mat (.mat (.mat (.mul (.num 2) (.t .Gd)) (.tr (.conj (.t .Gd)))) (.t .Gd)) (.t
    .phid))) (.mat (.mat (.mat (.mul (.num 2) (.t .Gu)) (.tr (.conj (.t .Gu)))) (.t .Gu)) (.t
    .phiud))) (.mul (.num 8) (.add (.ein [.r,.p,.t,.s] (.t .qd1) [.p,.t] (.mat (.mat (.t .Gd)
    (.tr (.conj (.t .Gd)))) (.t .Gd)) [] (.num 1)) (.mul (.div (.num 4) (.num 3)) (.ein
    [.r,.p,.t,.s] (.t .qd8) [.p,.t] (.mat (.mat (.t .Gd) (.tr (.conj (.t .Gd)))) (.t .Gd)) []
    (.num 1)))))) (.mul (.num 2) (.add (.ein [.r,.p,.t,.s] (.t .quqd1) [.p,.t] (.mat (.mat (.tr
    (.conj (.t .Gu))) (.t .Gu)) (.tr (.conj (.t .Gu)))) [] (.num 1)) (.mul (.div (.num 4) (.num
    3)) (.ein [.r,.p,.t,.s] (.t .quqd8) [.p,.t] (.mat (.mat (.tr (.conj (.t .Gu))) (.t .Gu))
    (.tr (.conj (.t .Gu)))) [] (.num 1)))))) (.mul (.num 12) (.ein [.t,.p,.r,.s] (.t .quqd1)
    [.p,.t] (.mat (.mat (.t .Gu) (.tr (.conj (.t .Gu)))) (.t .Gu)) [] (.num 1)))) (.mul (.num
    4) (.ein [.p,.t,.s,.r] (.conj (.t .ledq)) [.p,.t] (.mat (.mat (.t .Ge) (.tr (.conj (.t
    .Ge)))) (.t .Ge)) [] (.num 1)))) (.mat (.mat (.mul (.num 4) (.t .dphi)) (.tr (.conj (.t
    .Gd)))) (.t .Gd))) (.mat (.mat (.mul (.num 5) (.t .Gd)) (.tr (.conj (.t .Gd)))) (.t
    .dphi))) (.mat (.mat (.mul (.num 2) (.t .Gu)) (.tr (.conj (.t .uphi)))) (.t .Gd))) (.mat
    (.mat (.t .uphi) (.tr (.conj (.t .Gu)))) (.t .Gd))) (.mat (.mat (.mul (.num 2) (.t .Gu))
    (.tr (.conj (.t .Gu)))) (.t .dphi))) (.mul (.mul (.num 3) (.s .GammaH)) (.t .dphi))) (.mat
    (.t .Gammaq) (.t .dphi))) (.mat (.t .dphi) (.t .Gammad)))

/-- /repo/wilson/run/smeft/beta.py lines 521-569 -/
def np_ephi : E Key :=
  (.add (.add (.add (.add (.add (.add (.sub (.add (.sub (.add (.add (.add (.add (.sub (.add
    (.sub (.sub (.add (.sub (.sub (.sub (.mul (.add (.sub (.add (.add (.add (.mul (.mul (.div
    (.num 10) (.num 3)) (.pow (.s .g) 2)) (.s .phiBox)) (.mul (.mul (.div (.num 3) (.num 2))
    (.sub (.pow (.s .gp) 2) (.pow (.s .g) 2))) (.s .phiD))) (.mul (.mul (.num 9) (.pow (.s .g)
    2)) (.add (.s .phiW) (.mul .i (.s .phiWtilde))))) (.mul (.mul (.num 15) (.pow (.s .gp) 2))
    (.add (.s .phiB) (.mul .i (.s .phiBtilde))))) (.mul (.mul (.mul (.num 3) (.s .g)) (.s .gp))
    (.add (.s .phiWB) (.mul .i (.s .phiWtildeB))))) (.mul (.mul (.div (.num 4) (.num 3)) (.pow
    (.s .g) 2)) (.add (.trace (.t .phil3)) (.mul (.num 3) (.trace (.t .phiq3)))))) (.t .Ge))
    (.mul (.mul (.div (.num 3) (.num 4)) (.add (.mul (.num 7) (.pow (.s .gp) 2)) (.mul (.num 9)
    (.pow (.s .g) 2)))) (.t .ephi))) (.mul (.mul (.mul (.num 3) (.s .gp)) (.sub (.pow (.s .g)
    2) (.mul (.num 3) (.pow (.s .gp) 2)))) (.t .eB))) (.mul (.mul (.mul (.num 9) (.s .g)) (.sub
    (.pow (.s .g) 2) (.pow (.s .gp) 2))) (.t .eW))) (.mat (.mul (.mul (.num 3) (.sub (.pow (.s
    .g) 2) (.pow (.s .gp) 2))) (.t .Ge)) (.t .phie))) (.mat (.mul (.mul (.num 6) (.pow (.s .gp)
    2)) (.t .phil1)) (.t .Ge))) (.mat (.mul (.mul (.num 6) (.pow (.s .gp) 2)) (.t .phil3)) (.t
    .Ge))) (.mul (.mul (.num 9) (.s .gp)) (.add (.mat (.mat (.t .eB) (.tr (.conj (.t .Ge))))
    (.t .Ge)) (.mat (.mat (.t .Ge) (.tr (.conj (.t .Ge)))) (.t .eB))))) (.mul (.mul (.num 3)
    (.s .g)) (.sub (.mat (.mat (.t .eW) (.tr (.conj (.t .Ge)))) (.t .Ge)) (.mat (.mat (.t .Ge)
    (.tr (.conj (.t .Ge)))) (.t .eW))))) (.mul (.s .Lambda) (.sub (.add (.sub (.add (.sub (.sub
    (.add (.add (.mul (.num 12) (.t .ephi)) (.mat (.mul (.num 2) (.t .phil1)) (.t .Ge))) (.mat
    (.mul (.num 6) (.t .phil3)) (.t .Ge))) (.mat (.mul (.num 2) (.t .Ge)) (.t .phie))) (.mul
    (.mul (.num 2) (.s .phiBox)) (.t .Ge))) (.mul (.s .phiD) (.t .Ge))) (.mul (.num 4) (.ein
    [.r,.p,.t,.s] (.t .le) [.p,.t] (.t .Ge) [] (.num 1)))) (.mul (.num 6) (.ein [.r,.s,.p,.t]
    (.t .ledq) [.t,.p] (.t .Gd) [] (.num 1)))) (.mul (.num 6) (.ein [.r,.s,.p,.t] (.t .lequ1)
    [.p,.t] (.conj (.t .Gu)) [] (.num 1)))))) (.mul (.mul (.num 2) (.add (.add (.s .Eta1) (.s
    .Eta2)) (.mul .i (.s .Eta5)))) (.t .Ge))) (.mat (.mat (.mul (.sub (.s .phiD) (.mul (.num 6)
    (.s .phiBox))) (.t .Ge)) (.tr (.conj (.t .Ge)))) (.t .Ge))) (.mat (.mat (.mat (.mul (.num
    2) (.t .phil1)) (.t .Ge)) (.tr (.conj (.t .Ge)))) (.t .Ge))) (.mat (.mat (.mat (.mul (.num
    2) (.t .Ge)) (.tr (.conj (.t .Ge)))) (.t .Ge)) (.t .phie))) (.mul (.num 8) (.ein
    [.r,.p,.t,.s] (.t .le) [.p,.t] (.mat (.mat (.t .Ge) (.tr (.conj (.t .Ge)))) (.t .Ge)) []
    (.num 1)))) (.mul (.num 12) (.ein [.r,.s,.p,.t] (.t .ledq) [.t,.p] (.mat (.mat (.t .Gd)
    (.tr (.conj (.t .Gd)))) (.t .Gd)) [] (.num 1)))) (.mul (.num 12) (.ein [.r,.s,.t,.p] (.t
    .lequ1) [.p,.t] (.mat (.mat (.tr (.conj (.t .Gu))) (.t .Gu)) (.tr (.conj (.t .Gu)))) []
    (.num 1)))) (.mat (.mat (.mul (.num 4) (.t .ephi)) (.tr (.conj (.t .Ge)))) (.t .Ge))) (.mat
    (.mat (.mul (.num 5) (.t .Ge)) (.tr (.conj (.t .Ge)))) (.t .ephi))) (.mul (.mul (.num 3)
    (.s .GammaH)) (.t .ephi))) (.mat (.t .Gammal) (.t .ephi))) (.mat (.t .ephi) (.t .Gammae)))

/-- /repo/wilson/run/smeft/beta.py lines 572-583 -/
def np_eW : E Key :=
  (.add (.add (.add (.add (.sub (.sub (.sub (.mul (.mul (.div (.num 1) (.num 12)) (.sub (.mul
    (.num 3) (.pow (.s .gp) 2)) (.mul (.num 11) (.pow (.s .g) 2)))) (.t .eW)) (.mul (.mul (.mul
    (.div (.num 1) (.num 2)) (.s .g)) (.s .gp)) (.t .eB))) (.mul (.sub (.mul (.s .g) (.add (.s
    .phiW) (.mul .i (.s .phiWtilde)))) (.mul (.mul (.div (.num 3) (.num 2)) (.s .gp)) (.add (.s
    .phiWB) (.mul .i (.s .phiWtildeB))))) (.t .Ge))) (.mul (.mul (.num 6) (.s .g)) (.ein
    [.r,.s,.p,.t] (.t .lequ3) [.p,.t] (.conj (.t .Gu)) [] (.num 1)))) (.mat (.mat (.t .eW) (.tr
    (.conj (.t .Ge)))) (.t .Ge))) (.mul (.s .GammaH) (.t .eW))) (.mat (.t .Gammal) (.t .eW)))
    (.mat (.t .eW) (.t .Gammae)))

/-- /repo/wilson/run/smeft/beta.py lines 586-598 -/
def np_eB : E Key :=
  (.add (.add (.add (.add (.add (.add (.sub (.sub (.mul (.mul (.div (.num 1) (.num 4)) (.sub
    (.mul (.div (.num 151) (.num 3)) (.pow (.s .gp) 2)) (.mul (.num 9) (.pow (.s .g) 2)))) (.t
    .eB)) (.mul (.mul (.mul (.div (.num 3) (.num 2)) (.s .g)) (.s .gp)) (.t .eW))) (.mul (.sub
    (.mul (.mul (.div (.num 3) (.num 2)) (.s .g)) (.add (.s .phiWB) (.mul .i (.s
    .phiWtildeB)))) (.mul (.mul (.num 3) (.s .gp)) (.add (.s .phiB) (.mul .i (.s
    .phiBtilde))))) (.t .Ge))) (.mul (.mul (.num 10) (.s .gp)) (.ein [.r,.s,.p,.t] (.t .lequ3)
    [.p,.t] (.conj (.t .Gu)) [] (.num 1)))) (.mat (.mat (.t .eB) (.tr (.conj (.t .Ge)))) (.t
    .Ge))) (.mat (.mat (.mul (.num 2) (.t .Ge)) (.tr (.conj (.t .Ge)))) (.t .eB))) (.mul (.s
    .GammaH) (.t .eB))) (.mat (.t .Gammal) (.t .eB))) (.mat (.t .eB) (.t .Gammae)))

/-- /repo/wilson/run/smeft/beta.py lines 601-618 -/
def np_uG : E Key :=
  (.add (.add (.add (.add (.sub (.sub (.add (.sub (.sub (.add (.add (.mul (.mul (.div (.neg
    (.num 1)) (.num 36)) (.add (.add (.mul (.num 81) (.pow (.s .g) 2)) (.mul (.num 19) (.pow
    (.s .gp) 2))) (.mul (.num 204) (.pow (.s .gs) 2)))) (.t .uG)) (.mul (.mul (.mul (.num 6)
    (.s .g)) (.s .gs)) (.t .uW))) (.mul (.mul (.mul (.div (.num 10) (.num 3)) (.s .gp)) (.s
    .gs)) (.t .uB))) (.mul (.mul (.s .gs) (.sub (.mul (.num 4) (.add (.s .phiG) (.mul .i (.s
    .phiGtilde)))) (.mul (.mul (.num 9) (.s .gs)) (.add (.s .G) (.mul .i (.s .Gtilde)))))) (.t
    .Gu))) (.mul (.s .gs) (.sub (.ein [.p,.s,.r,.t] (.t .quqd1) [.p,.t] (.conj (.t .Gd)) []
    (.num 1)) (.mul (.div (.num 1) (.num 6)) (.ein [.p,.s,.r,.t] (.t .quqd8) [.p,.t] (.conj (.t
    .Gd)) [] (.num 1)))))) (.mat (.mat (.mul (.num 2) (.t .Gu)) (.tr (.conj (.t .Gu)))) (.t
    .uG))) (.mat (.mat (.mul (.num 2) (.t .Gd)) (.tr (.conj (.t .Gd)))) (.t .uG))) (.mat (.mat
    (.t .dG) (.tr (.conj (.t .Gd)))) (.t .Gu))) (.mat (.mat (.t .uG) (.tr (.conj (.t .Gu))))
    (.t .Gu))) (.mul (.s .GammaH) (.t .uG))) (.mat (.t .Gammaq) (.t .uG))) (.mat (.t .uG) (.t
    .Gammau)))

/-- /repo/wilson/run/smeft/beta.py lines 621-638 -/
def np_uW : E Key :=
  (.add (.add (.add (.add (.sub (.add (.sub (.add (.sub (.sub (.add (.mul (.mul (.div (.neg
    (.num 1)) (.num 36)) (.sub (.add (.mul (.num 33) (.pow (.s .g) 2)) (.mul (.num 19) (.pow
    (.s .gp) 2))) (.mul (.num 96) (.pow (.s .gs) 2)))) (.t .uW)) (.mul (.mul (.mul (.div (.num
    8) (.num 3)) (.s .g)) (.s .gs)) (.t .uG))) (.mul (.mul (.mul (.div (.num 1) (.num 6)) (.s
    .g)) (.s .gp)) (.t .uB))) (.mul (.sub (.mul (.s .g) (.add (.s .phiW) (.mul .i (.s
    .phiWtilde)))) (.mul (.mul (.div (.num 5) (.num 6)) (.s .gp)) (.add (.s .phiWB) (.mul .i
    (.s .phiWtildeB))))) (.t .Gu))) (.mul (.div (.s .g) (.num 4)) (.add (.ein [.p,.s,.r,.t] (.t
    .quqd1) [.p,.t] (.conj (.t .Gd)) [] (.num 1)) (.mul (.div (.num 4) (.num 3)) (.ein
    [.p,.s,.r,.t] (.t .quqd8) [.p,.t] (.conj (.t .Gd)) [] (.num 1)))))) (.mul (.mul (.num 2)
    (.s .g)) (.ein [.p,.t,.r,.s] (.t .lequ3) [.p,.t] (.conj (.t .Ge)) [] (.num 1)))) (.mat
    (.mat (.mul (.num 2) (.t .Gd)) (.tr (.conj (.t .Gd)))) (.t .uW))) (.mat (.mat (.t .dW) (.tr
    (.conj (.t .Gd)))) (.t .Gu))) (.mat (.mat (.t .uW) (.tr (.conj (.t .Gu)))) (.t .Gu))) (.mul
    (.s .GammaH) (.t .uW))) (.mat (.t .Gammaq) (.t .uW))) (.mat (.t .uW) (.t .Gammau)))

/-- /repo/wilson/run/smeft/beta.py lines 641-659 -/
def np_uB : E Key :=
  (.add (.add (.add (.add (.sub (.sub (.add (.sub (.add (.sub (.sub (.add (.mul (.mul (.div
    (.neg (.num 1)) (.num 36)) (.sub (.sub (.mul (.num 81) (.pow (.s .g) 2)) (.mul (.num 313)
    (.pow (.s .gp) 2))) (.mul (.num 96) (.pow (.s .gs) 2)))) (.t .uB)) (.mul (.mul (.mul (.div
    (.num 40) (.num 9)) (.s .gp)) (.s .gs)) (.t .uG))) (.mul (.mul (.mul (.div (.num 1) (.num
    2)) (.s .g)) (.s .gp)) (.t .uW))) (.mul (.add (.mul (.mul (.div (.neg (.num 3)) (.num 2))
    (.s .g)) (.add (.s .phiWB) (.mul .i (.s .phiWtildeB)))) (.mul (.mul (.div (.num 5) (.num
    3)) (.s .gp)) (.add (.s .phiB) (.mul .i (.s .phiBtilde))))) (.t .Gu))) (.mul (.div (.s .gp)
    (.num 12)) (.add (.ein [.p,.s,.r,.t] (.t .quqd1) [.p,.t] (.conj (.t .Gd)) [] (.num 1))
    (.mul (.div (.num 4) (.num 3)) (.ein [.p,.s,.r,.t] (.t .quqd8) [.p,.t] (.conj (.t .Gd)) []
    (.num 1)))))) (.mul (.mul (.num 6) (.s .gp)) (.ein [.p,.t,.r,.s] (.t .lequ3) [.p,.t] (.conj
    (.t .Ge)) [] (.num 1)))) (.mat (.mat (.mul (.num 2) (.t .Gu)) (.tr (.conj (.t .Gu)))) (.t
    .uB))) (.mat (.mat (.mul (.num 2) (.t .Gd)) (.tr (.conj (.t .Gd)))) (.t .uB))) (.mat (.mat
    (.t .dB) (.tr (.conj (.t .Gd)))) (.t .Gu))) (.mat (.mat (.t .uB) (.tr (.conj (.t .Gu))))
    (.t .Gu))) (.mul (.s .GammaH) (.t .uB))) (.mat (.t .Gammaq) (.t .uB))) (.mat (.t .uB) (.t
    .Gammau)))

/-- /repo/wilson/run/smeft/beta.py lines 662-679 -/
def np_dG : E Key :=
  (.add (.add (.add (.add (.sub (.add (.sub (.sub (.sub (.sub (.add (.mul (.mul (.div (.neg
    (.num 1)) (.num 36)) (.add (.add (.mul (.num 81) (.pow (.s .g) 2)) (.mul (.num 31) (.pow
    (.s .gp) 2))) (.mul (.num 204) (.pow (.s .gs) 2)))) (.t .dG)) (.mul (.mul (.mul (.num 6)
    (.s .g)) (.s .gs)) (.t .dW))) (.mul (.mul (.mul (.div (.num 2) (.num 3)) (.s .gp)) (.s
    .gs)) (.t .dB))) (.mul (.mul (.s .gs) (.sub (.mul (.num 4) (.add (.s .phiG) (.mul .i (.s
    .phiGtilde)))) (.mul (.mul (.num 9) (.s .gs)) (.add (.s .G) (.mul .i (.s .Gtilde)))))) (.t
    .Gd))) (.mul (.s .gs) (.sub (.ein [.r,.t,.p,.s] (.t .quqd1) [.p,.t] (.conj (.t .Gu)) []
    (.num 1)) (.mul (.div (.num 1) (.num 6)) (.ein [.r,.t,.p,.s] (.t .quqd8) [.p,.t] (.conj (.t
    .Gu)) [] (.num 1)))))) (.mat (.mat (.mul (.num 2) (.t .Gu)) (.tr (.conj (.t .Gu)))) (.t
    .dG))) (.mat (.mat (.mul (.num 2) (.t .Gd)) (.tr (.conj (.t .Gd)))) (.t .dG))) (.mat (.mat
    (.t .uG) (.tr (.conj (.t .Gu)))) (.t .Gd))) (.mat (.mat (.t .dG) (.tr (.conj (.t .Gd))))
    (.t .Gd))) (.mul (.s .GammaH) (.t .dG))) (.mat (.t .Gammaq) (.t .dG))) (.mat (.t .dG) (.t
    .Gammad)))

/-- /repo/wilson/run/smeft/beta.py lines 682-698 -/
def np_dW : E Key :=
  (.add (.add (.add (.add (.sub (.add (.add (.sub (.add (.add (.mul (.mul (.div (.neg (.num 1))
    (.num 36)) (.sub (.add (.mul (.num 33) (.pow (.s .g) 2)) (.mul (.num 31) (.pow (.s .gp)
    2))) (.mul (.num 96) (.pow (.s .gs) 2)))) (.t .dW)) (.mul (.mul (.mul (.div (.num 8) (.num
    3)) (.s .g)) (.s .gs)) (.t .dG))) (.mul (.mul (.mul (.div (.num 5) (.num 6)) (.s .g)) (.s
    .gp)) (.t .dB))) (.mul (.sub (.mul (.s .g) (.add (.s .phiW) (.mul .i (.s .phiWtilde))))
    (.mul (.div (.s .gp) (.num 6)) (.add (.s .phiWB) (.mul .i (.s .phiWtildeB))))) (.t .Gd)))
    (.mul (.div (.s .g) (.num 4)) (.add (.ein [.r,.t,.p,.s] (.t .quqd1) [.p,.t] (.conj (.t
    .Gu)) [] (.num 1)) (.mul (.div (.num 4) (.num 3)) (.ein [.r,.t,.p,.s] (.t .quqd8) [.p,.t]
    (.conj (.t .Gu)) [] (.num 1)))))) (.mat (.mat (.mul (.num 2) (.t .Gu)) (.tr (.conj (.t
    .Gu)))) (.t .dW))) (.mat (.mat (.t .uW) (.tr (.conj (.t .Gu)))) (.t .Gd))) (.mat (.mat (.t
    .dW) (.tr (.conj (.t .Gd)))) (.t .Gd))) (.mul (.s .GammaH) (.t .dW))) (.mat (.t .Gammaq)
    (.t .dW))) (.mat (.t .dW) (.t .Gammad)))

/-- /repo/wilson/run/smeft/beta.py lines 701-718 -/
def np_dB : E Key :=
  (.add (.add (.add (.add (.sub (.add (.sub (.sub (.sub (.add (.sub (.mul (.mul (.div (.neg
    (.num 1)) (.num 36)) (.sub (.sub (.mul (.num 81) (.pow (.s .g) 2)) (.mul (.num 253) (.pow
    (.s .gp) 2))) (.mul (.num 96) (.pow (.s .gs) 2)))) (.t .dB)) (.mul (.mul (.mul (.div (.num
    8) (.num 9)) (.s .gp)) (.s .gs)) (.t .dG))) (.mul (.mul (.mul (.div (.num 5) (.num 2)) (.s
    .g)) (.s .gp)) (.t .dW))) (.mul (.sub (.mul (.mul (.div (.num 3) (.num 2)) (.s .g)) (.add
    (.s .phiWB) (.mul .i (.s .phiWtildeB)))) (.mul (.div (.s .gp) (.num 3)) (.add (.s .phiB)
    (.mul .i (.s .phiBtilde))))) (.t .Gd))) (.mul (.mul (.div (.num 5) (.num 12)) (.s .gp))
    (.add (.ein [.r,.t,.p,.s] (.t .quqd1) [.p,.t] (.conj (.t .Gu)) [] (.num 1)) (.mul (.div
    (.num 4) (.num 3)) (.ein [.r,.t,.p,.s] (.t .quqd8) [.p,.t] (.conj (.t .Gu)) [] (.num
    1)))))) (.mat (.mat (.mul (.num 2) (.t .Gu)) (.tr (.conj (.t .Gu)))) (.t .dB))) (.mat (.mat
    (.mul (.num 2) (.t .Gd)) (.tr (.conj (.t .Gd)))) (.t .dB))) (.mat (.mat (.t .uB) (.tr
    (.conj (.t .Gu)))) (.t .Gd))) (.mat (.mat (.t .dB) (.tr (.conj (.t .Gd)))) (.t .Gd))) (.mul
    (.s .GammaH) (.t .dB))) (.mat (.t .Gammaq) (.t .dB))) (.mat (.t .dB) (.t .Gammad)))

/-- /repo/wilson/run/smeft/beta.py lines 721-745 -/
def np_phil1 : E Key :=
  (.add (.add (.add (.add (.sub (.add (.sub (.sub (.add (.add (.sub (.sub (.sub (.add (.mul
    (.mul (.mul (.div (.neg (.num 1)) (.num 4)) (.s .XiB)) (.pow (.s .gp) 2)) .eye) (.mul (.mul
    (.div (.num 1) (.num 3)) (.pow (.s .gp) 2)) (.t .phil1))) (.mul (.mul (.div (.num 2) (.num
    3)) (.pow (.s .gp) 2)) (.sub (.sub (.add (.add (.add (.ein [.r,.s,.t,.t] (.t .ld) [] (.num
    1) [] (.num 1)) (.ein [.r,.s,.t,.t] (.t .le) [] (.num 1) [] (.num 1))) (.mul (.num 2) (.ein
    [.r,.s,.t,.t] (.t .ll) [] (.num 1) [] (.num 1)))) (.ein [.r,.t,.t,.s] (.t .ll) [] (.num 1)
    [] (.num 1))) (.ein [.r,.s,.t,.t] (.t .lq1) [] (.num 1) [] (.num 1))) (.mul (.num 2) (.ein
    [.r,.s,.t,.t] (.t .lu) [] (.num 1) [] (.num 1)))))) (.mat (.mul (.mul (.div (.num 1) (.num
    2)) (.add (.s .phiBox) (.s .phiD))) (.t .Ge)) (.tr (.conj (.t .Ge))))) (.mat (.mat (.t .Ge)
    (.t .phie)) (.tr (.conj (.t .Ge))))) (.mul (.div (.num 3) (.num 2)) (.add (.add (.add (.mat
    (.mat (.t .Ge) (.tr (.conj (.t .Ge)))) (.t .phil1)) (.mat (.mat (.t .phil1) (.t .Ge)) (.tr
    (.conj (.t .Ge))))) (.mat (.mat (.mul (.num 3) (.t .Ge)) (.tr (.conj (.t .Ge)))) (.t
    .phil3))) (.mat (.mat (.mul (.num 3) (.t .phil3)) (.t .Ge)) (.tr (.conj (.t .Ge)))))))
    (.mul (.num 2) (.ein [.r,.s,.p,.t] (.t .le) [.t,.p] (.mat (.tr (.conj (.t .Ge))) (.t .Ge))
    [] (.num 1)))) (.mul (.num 2) (.add (.mul (.num 2) (.ein [.r,.s,.p,.t] (.t .ll) [.t,.p]
    (.mat (.t .Ge) (.tr (.conj (.t .Ge)))) [] (.num 1))) (.ein [.r,.t,.p,.s] (.t .ll) [.t,.p]
    (.mat (.t .Ge) (.tr (.conj (.t .Ge)))) [] (.num 1))))) (.mul (.num 6) (.ein [.r,.s,.p,.t]
    (.t .lq1) [.t,.p] (.mat (.t .Gd) (.tr (.conj (.t .Gd)))) [] (.num 1)))) (.mul (.num 6)
    (.ein [.r,.s,.p,.t] (.t .lq1) [.t,.p] (.mat (.t .Gu) (.tr (.conj (.t .Gu)))) [] (.num 1))))
    (.mul (.num 6) (.ein [.r,.s,.p,.t] (.t .lu) [.t,.p] (.mat (.tr (.conj (.t .Gu))) (.t .Gu))
    [] (.num 1)))) (.mul (.num 6) (.ein [.r,.s,.p,.t] (.t .ld) [.t,.p] (.mat (.tr (.conj (.t
    .Gd))) (.t .Gd)) [] (.num 1)))) (.mul (.mul (.num 2) (.s .GammaH)) (.t .phil1))) (.mat (.t
    .Gammal) (.t .phil1))) (.mat (.t .phil1) (.t .Gammal)))

/-- /repo/wilson/run/smeft/beta.py lines 748-764 -/
def np_phil3 : E Key :=
  (.add (.add (.add (.sub (.sub (.sub (.add (.sub (.add (.add (.sub (.mul (.mul (.mul (.div
    (.num 2) (.num 3)) (.pow (.s .g) 2)) (.add (.add (.mul (.div (.num 1) (.num 4)) (.s
    .phiBox)) (.trace (.t .phil3))) (.mul (.num 3) (.trace (.t .phiq3))))) .eye) (.mul (.mul
    (.div (.num 17) (.num 3)) (.pow (.s .g) 2)) (.t .phil3))) (.mul (.mul (.div (.num 2) (.num
    3)) (.pow (.s .g) 2)) (.ein [.r,.t,.t,.s] (.t .ll) [] (.num 1) [] (.num 1)))) (.mul (.mul
    (.num 2) (.pow (.s .g) 2)) (.ein [.r,.s,.t,.t] (.t .lq3) [] (.num 1) [] (.num 1)))) (.mat
    (.mul (.mul (.div (.num 1) (.num 2)) (.s .phiBox)) (.t .Ge)) (.tr (.conj (.t .Ge))))) (.mul
    (.div (.num 1) (.num 2)) (.add (.add (.add (.mat (.mat (.mul (.num 3) (.t .Ge)) (.tr (.conj
    (.t .Ge)))) (.t .phil1)) (.mat (.mat (.mul (.num 3) (.t .phil1)) (.t .Ge)) (.tr (.conj (.t
    .Ge))))) (.mat (.mat (.t .Ge) (.tr (.conj (.t .Ge)))) (.t .phil3))) (.mat (.mat (.t .phil3)
    (.t .Ge)) (.tr (.conj (.t .Ge))))))) (.mul (.num 2) (.ein [.r,.t,.p,.s] (.t .ll) [.t,.p]
    (.mat (.t .Ge) (.tr (.conj (.t .Ge)))) [] (.num 1)))) (.mul (.num 6) (.ein [.r,.s,.p,.t]
    (.t .lq3) [.t,.p] (.mat (.t .Gd) (.tr (.conj (.t .Gd)))) [] (.num 1)))) (.mul (.num 6)
    (.ein [.r,.s,.p,.t] (.t .lq3) [.t,.p] (.mat (.t .Gu) (.tr (.conj (.t .Gu)))) [] (.num 1))))
    (.mul (.mul (.num 2) (.s .GammaH)) (.t .phil3))) (.mat (.t .Gammal) (.t .phil3))) (.mat (.t
    .phil3) (.t .Gammal)))

/-- /repo/wilson/run/smeft/beta.py lines 767-787 -/
def np_phie : E Key :=
  (.add (.add (.add (.add (.sub (.add (.sub (.add (.sub (.add (.sub (.add (.sub (.add (.mul
    (.mul (.mul (.div (.neg (.num 1)) (.num 2)) (.s .XiB)) (.pow (.s .gp) 2)) .eye) (.mul (.mul
    (.div (.num 1) (.num 3)) (.pow (.s .gp) 2)) (.t .phie))) (.mul (.mul (.div (.num 2) (.num
    3)) (.pow (.s .gp) 2)) (.sub (.add (.sub (.add (.ein [.r,.s,.t,.t] (.t .ed) [] (.num 1) []
    (.num 1)) (.mul (.num 4) (.ein [.r,.s,.t,.t] (.t .ee) [] (.num 1) [] (.num 1)))) (.mul
    (.num 2) (.ein [.r,.s,.t,.t] (.t .eu) [] (.num 1) [] (.num 1)))) (.ein [.t,.t,.r,.s] (.t
    .le) [] (.num 1) [] (.num 1))) (.ein [.t,.t,.r,.s] (.t .qe) [] (.num 1) [] (.num 1)))))
    (.mat (.mul (.add (.s .phiBox) (.s .phiD)) (.tr (.conj (.t .Ge)))) (.t .Ge))) (.mat (.mat
    (.mul (.num 2) (.tr (.conj (.t .Ge)))) (.t .phil1)) (.t .Ge))) (.mul (.num 3) (.add (.mat
    (.mat (.tr (.conj (.t .Ge))) (.t .Ge)) (.t .phie)) (.mat (.mat (.t .phie) (.tr (.conj (.t
    .Ge)))) (.t .Ge))))) (.mul (.num 2) (.ein [.p,.t,.r,.s] (.t .le) [.t,.p] (.mat (.t .Ge)
    (.tr (.conj (.t .Ge)))) [] (.num 1)))) (.mul (.num 8) (.ein [.r,.s,.p,.t] (.t .ee) [.t,.p]
    (.mat (.tr (.conj (.t .Ge))) (.t .Ge)) [] (.num 1)))) (.mul (.num 6) (.ein [.r,.s,.p,.t]
    (.t .eu) [.t,.p] (.mat (.tr (.conj (.t .Gu))) (.t .Gu)) [] (.num 1)))) (.mul (.num 6) (.ein
    [.r,.s,.p,.t] (.t .ed) [.t,.p] (.mat (.tr (.conj (.t .Gd))) (.t .Gd)) [] (.num 1)))) (.mul
    (.num 6) (.ein [.p,.t,.r,.s] (.t .qe) [.t,.p] (.mat (.t .Gd) (.tr (.conj (.t .Gd)))) []
    (.num 1)))) (.mul (.num 6) (.ein [.p,.t,.r,.s] (.t .qe) [.t,.p] (.mat (.t .Gu) (.tr (.conj
    (.t .Gu)))) [] (.num 1)))) (.mul (.mul (.num 2) (.s .GammaH)) (.t .phie))) (.mat (.t
    .Gammae) (.t .phie))) (.mat (.t .phie) (.t .Gammae)))

/-- /repo/wilson/run/smeft/beta.py lines 790-824 -/
def np_phiq1 : E Key :=
  (.add (.add (.add (.add (.sub (.sub (.add (.sub (.add (.sub (.sub (.add (.sub (.add (.mul
    (.mul (.mul (.div (.num 1) (.num 12)) (.s .XiB)) (.pow (.s .gp) 2)) .eye) (.mul (.mul (.div
    (.num 1) (.num 3)) (.pow (.s .gp) 2)) (.t .phiq1))) (.mul (.mul (.div (.num 2) (.num 3))
    (.pow (.s .gp) 2)) (.sub (.sub (.sub (.add (.sub (.add (.ein [.t,.t,.r,.s] (.t .lq1) []
    (.num 1) [] (.num 1)) (.ein [.r,.s,.t,.t] (.t .qd1) [] (.num 1) [] (.num 1))) (.mul (.num
    2) (.ein [.r,.s,.t,.t] (.t .qu1) [] (.num 1) [] (.num 1)))) (.ein [.r,.s,.t,.t] (.t .qe) []
    (.num 1) [] (.num 1))) (.mul (.num 2) (.ein [.r,.s,.t,.t] (.t .qq1) [] (.num 1) [] (.num
    1)))) (.mul (.div (.num 1) (.num 3)) (.ein [.r,.t,.t,.s] (.t .qq1) [] (.num 1) [] (.num
    1)))) (.ein [.r,.t,.t,.s] (.t .qq3) [] (.num 1) [] (.num 1))))) (.mul (.mul (.div (.num 1)
    (.num 2)) (.add (.s .phiBox) (.s .phiD))) (.sub (.mat (.t .Gu) (.tr (.conj (.t .Gu))))
    (.mat (.t .Gd) (.tr (.conj (.t .Gd))))))) (.mat (.mat (.t .Gu) (.t .phiu)) (.tr (.conj (.t
    .Gu))))) (.mat (.mat (.t .Gd) (.t .phid)) (.tr (.conj (.t .Gd))))) (.mul (.num 2) (.ein
    [.r,.s,.p,.t] (.t .qe) [.t,.p] (.mat (.tr (.conj (.t .Ge))) (.t .Ge)) [] (.num 1)))) (.mul
    (.num 2) (.ein [.p,.t,.r,.s] (.t .lq1) [.t,.p] (.mat (.t .Ge) (.tr (.conj (.t .Ge)))) []
    (.num 1)))) (.mul (.div (.num 3) (.num 2)) (.sub (.add (.sub (.add (.add (.add (.add (.mat
    (.mat (.t .Gd) (.tr (.conj (.t .Gd)))) (.t .phiq1)) (.mat (.mat (.t .Gu) (.tr (.conj (.t
    .Gu)))) (.t .phiq1))) (.mat (.mat (.t .phiq1) (.t .Gd)) (.tr (.conj (.t .Gd))))) (.mat
    (.mat (.t .phiq1) (.t .Gu)) (.tr (.conj (.t .Gu))))) (.mat (.mat (.mul (.num 3) (.t .Gd))
    (.tr (.conj (.t .Gd)))) (.t .phiq3))) (.mat (.mat (.mul (.num 3) (.t .Gu)) (.tr (.conj (.t
    .Gu)))) (.t .phiq3))) (.mat (.mat (.mul (.num 3) (.t .phiq3)) (.t .Gd)) (.tr (.conj (.t
    .Gd))))) (.mat (.mat (.mul (.num 3) (.t .phiq3)) (.t .Gu)) (.tr (.conj (.t .Gu))))))) (.mul
    (.num 2) (.sub (.sub (.sub (.add (.add (.mul (.num 6) (.ein [.p,.t,.r,.s] (.t .qq1) [.t,.p]
    (.mat (.t .Gd) (.tr (.conj (.t .Gd)))) [] (.num 1))) (.ein [.p,.s,.r,.t] (.t .qq1) [.t,.p]
    (.mat (.t .Gd) (.tr (.conj (.t .Gd)))) [] (.num 1))) (.mul (.num 3) (.ein [.p,.s,.r,.t] (.t
    .qq3) [.t,.p] (.mat (.t .Gd) (.tr (.conj (.t .Gd)))) [] (.num 1)))) (.mul (.num 6) (.ein
    [.p,.t,.r,.s] (.t .qq1) [.t,.p] (.mat (.t .Gu) (.tr (.conj (.t .Gu)))) [] (.num 1)))) (.ein
    [.p,.s,.r,.t] (.t .qq1) [.t,.p] (.mat (.t .Gu) (.tr (.conj (.t .Gu)))) [] (.num 1))) (.mul
    (.num 3) (.ein [.p,.s,.r,.t] (.t .qq3) [.t,.p] (.mat (.t .Gu) (.tr (.conj (.t .Gu)))) []
    (.num 1)))))) (.mul (.num 6) (.ein [.r,.s,.p,.t] (.t .qu1) [.t,.p] (.mat (.tr (.conj (.t
    .Gu))) (.t .Gu)) [] (.num 1)))) (.mul (.num 6) (.ein [.r,.s,.p,.t] (.t .qd1) [.t,.p] (.mat
    (.tr (.conj (.t .Gd))) (.t .Gd)) [] (.num 1)))) (.mul (.mul (.num 2) (.s .GammaH)) (.t
    .phiq1))) (.mat (.t .Gammaq) (.t .phiq1))) (.mat (.t .phiq1) (.t .Gammaq)))

/-- /repo/wilson/run/smeft/beta.py lines 827-854 -/
def np_phiq3 : E Key :=
  (.add (.add (.add (.sub (.sub (.add (.sub (.add (.sub (.mul (.mul (.mul (.div (.num 2) (.num
    3)) (.pow (.s .g) 2)) (.add (.add (.mul (.div (.num 1) (.num 4)) (.s .phiBox)) (.trace (.t
    .phil3))) (.mul (.num 3) (.trace (.t .phiq3))))) .eye) (.mul (.mul (.div (.num 17) (.num
    3)) (.pow (.s .g) 2)) (.t .phiq3))) (.mul (.mul (.div (.num 2) (.num 3)) (.pow (.s .g) 2))
    (.sub (.add (.add (.ein [.t,.t,.r,.s] (.t .lq3) [] (.num 1) [] (.num 1)) (.ein
    [.r,.t,.t,.s] (.t .qq1) [] (.num 1) [] (.num 1))) (.mul (.num 6) (.ein [.r,.s,.t,.t] (.t
    .qq3) [] (.num 1) [] (.num 1)))) (.ein [.r,.t,.t,.s] (.t .qq3) [] (.num 1) [] (.num 1)))))
    (.mul (.mul (.div (.num 1) (.num 2)) (.s .phiBox)) (.add (.mat (.t .Gu) (.tr (.conj (.t
    .Gu)))) (.mat (.t .Gd) (.tr (.conj (.t .Gd))))))) (.mul (.div (.num 1) (.num 2)) (.add
    (.add (.add (.add (.sub (.add (.sub (.mat (.mat (.mul (.num 3) (.t .Gd)) (.tr (.conj (.t
    .Gd)))) (.t .phiq1)) (.mat (.mat (.mul (.num 3) (.t .Gu)) (.tr (.conj (.t .Gu)))) (.t
    .phiq1))) (.mat (.mat (.mul (.num 3) (.t .phiq1)) (.t .Gd)) (.tr (.conj (.t .Gd))))) (.mat
    (.mat (.mul (.num 3) (.t .phiq1)) (.t .Gu)) (.tr (.conj (.t .Gu))))) (.mat (.mat (.t .Gd)
    (.tr (.conj (.t .Gd)))) (.t .phiq3))) (.mat (.mat (.t .Gu) (.tr (.conj (.t .Gu)))) (.t
    .phiq3))) (.mat (.mat (.t .phiq3) (.t .Gd)) (.tr (.conj (.t .Gd))))) (.mat (.mat (.t
    .phiq3) (.t .Gu)) (.tr (.conj (.t .Gu))))))) (.mul (.num 2) (.sub (.add (.add (.sub (.add
    (.mul (.num 6) (.ein [.r,.s,.p,.t] (.t .qq3) [.t,.p] (.mat (.t .Gd) (.tr (.conj (.t .Gd))))
    [] (.num 1))) (.ein [.r,.t,.p,.s] (.t .qq1) [.t,.p] (.mat (.t .Gd) (.tr (.conj (.t .Gd))))
    [] (.num 1))) (.ein [.r,.t,.p,.s] (.t .qq3) [.t,.p] (.mat (.t .Gd) (.tr (.conj (.t .Gd))))
    [] (.num 1))) (.mul (.num 6) (.ein [.r,.s,.p,.t] (.t .qq3) [.t,.p] (.mat (.t .Gu) (.tr
    (.conj (.t .Gu)))) [] (.num 1)))) (.ein [.r,.t,.p,.s] (.t .qq1) [.t,.p] (.mat (.t .Gu) (.tr
    (.conj (.t .Gu)))) [] (.num 1))) (.ein [.r,.t,.p,.s] (.t .qq3) [.t,.p] (.mat (.t .Gu) (.tr
    (.conj (.t .Gu)))) [] (.num 1))))) (.mul (.num 2) (.ein [.p,.t,.r,.s] (.t .lq3) [.t,.p]
    (.mat (.t .Ge) (.tr (.conj (.t .Ge)))) [] (.num 1)))) (.mul (.mul (.num 2) (.s .GammaH))
    (.t .phiq3))) (.mat (.t .Gammaq) (.t .phiq3))) (.mat (.t .phiq3) (.t .Gammaq)))

/-- /repo/wilson/run/smeft/beta.py lines 857-881 -/
def np_phiu : E Key :=
  (.add (.add (.add (.add (.sub (.add (.sub (.add (.sub (.add (.add (.add (.sub (.sub (.sub
    (.add (.mul (.mul (.mul (.div (.num 1) (.num 3)) (.s .XiB)) (.pow (.s .gp) 2)) .eye) (.mul
    (.mul (.div (.num 1) (.num 3)) (.pow (.s .gp) 2)) (.t .phiu))) (.mul (.mul (.div (.num 2)
    (.num 3)) (.pow (.s .gp) 2)) (.sub (.sub (.add (.sub (.add (.ein [.t,.t,.r,.s] (.t .eu) []
    (.num 1) [] (.num 1)) (.ein [.t,.t,.r,.s] (.t .lu) [] (.num 1) [] (.num 1))) (.ein
    [.t,.t,.r,.s] (.t .qu1) [] (.num 1) [] (.num 1))) (.ein [.r,.s,.t,.t] (.t .ud1) [] (.num 1)
    [] (.num 1))) (.mul (.num 4) (.ein [.r,.s,.t,.t] (.t .uu) [] (.num 1) [] (.num 1)))) (.mul
    (.div (.num 4) (.num 3)) (.ein [.r,.t,.t,.s] (.t .uu) [] (.num 1) [] (.num 1)))))) (.mat
    (.mul (.add (.s .phiBox) (.s .phiD)) (.tr (.conj (.t .Gu)))) (.t .Gu))) (.mat (.mat (.mul
    (.num 2) (.tr (.conj (.t .Gu)))) (.t .phiq1)) (.t .Gu))) (.mul (.num 3) (.add (.mat (.mat
    (.tr (.conj (.t .Gu))) (.t .Gu)) (.t .phiu)) (.mat (.mat (.t .phiu) (.tr (.conj (.t .Gu))))
    (.t .Gu))))) (.mat (.mat (.tr (.conj (.t .Gu))) (.t .Gd)) (.tr (.conj (.t .phiud))))) (.mat
    (.mat (.t .phiud) (.tr (.conj (.t .Gd)))) (.t .Gu))) (.mul (.num 4) (.add (.mul (.num 3)
    (.ein [.r,.s,.p,.t] (.t .uu) [.t,.p] (.mat (.tr (.conj (.t .Gu))) (.t .Gu)) [] (.num 1)))
    (.ein [.r,.t,.p,.s] (.t .uu) [.t,.p] (.mat (.tr (.conj (.t .Gu))) (.t .Gu)) [] (.num 1)))))
    (.mul (.num 2) (.ein [.p,.t,.r,.s] (.t .eu) [.t,.p] (.mat (.tr (.conj (.t .Ge))) (.t .Ge))
    [] (.num 1)))) (.mul (.num 2) (.ein [.p,.t,.r,.s] (.t .lu) [.t,.p] (.mat (.t .Ge) (.tr
    (.conj (.t .Ge)))) [] (.num 1)))) (.mul (.num 6) (.ein [.r,.s,.p,.t] (.t .ud1) [.t,.p]
    (.mat (.tr (.conj (.t .Gd))) (.t .Gd)) [] (.num 1)))) (.mul (.num 6) (.ein [.p,.t,.r,.s]
    (.t .qu1) [.t,.p] (.mat (.t .Gd) (.tr (.conj (.t .Gd)))) [] (.num 1)))) (.mul (.num 6)
    (.ein [.p,.t,.r,.s] (.t .qu1) [.t,.p] (.mat (.t .Gu) (.tr (.conj (.t .Gu)))) [] (.num 1))))
    (.mul (.mul (.num 2) (.s .GammaH)) (.t .phiu))) (.mat (.t .Gammau) (.t .phiu))) (.mat (.t
    .phiu) (.t .Gammau)))

/-- /repo/wilson/run/smeft/beta.py lines 884-908 -/
def np_phid : E Key :=
  (.add (.add (.add (.add (.sub (.sub (.sub (.add (.add (.sub (.sub (.add (.sub (.add (.sub
    (.add (.mul (.mul (.mul (.div (.neg (.num 1)) (.num 6)) (.s .XiB)) (.pow (.s .gp) 2)) .eye)
    (.mul (.mul (.div (.num 1) (.num 3)) (.pow (.s .gp) 2)) (.t .phid))) (.mul (.mul (.div
    (.num 2) (.num 3)) (.pow (.s .gp) 2)) (.sub (.sub (.add (.add (.add (.mul (.num 2) (.ein
    [.r,.s,.t,.t] (.t .dd) [] (.num 1) [] (.num 1))) (.mul (.div (.num 2) (.num 3)) (.ein
    [.r,.t,.t,.s] (.t .dd) [] (.num 1) [] (.num 1)))) (.ein [.t,.t,.r,.s] (.t .ed) [] (.num 1)
    [] (.num 1))) (.ein [.t,.t,.r,.s] (.t .ld) [] (.num 1) [] (.num 1))) (.ein [.t,.t,.r,.s]
    (.t .qd1) [] (.num 1) [] (.num 1))) (.mul (.num 2) (.ein [.t,.t,.r,.s] (.t .ud1) [] (.num
    1) [] (.num 1)))))) (.mat (.mul (.add (.s .phiBox) (.s .phiD)) (.tr (.conj (.t .Gd)))) (.t
    .Gd))) (.mat (.mat (.mul (.num 2) (.tr (.conj (.t .Gd)))) (.t .phiq1)) (.t .Gd))) (.mul
    (.num 3) (.add (.mat (.mat (.tr (.conj (.t .Gd))) (.t .Gd)) (.t .phid)) (.mat (.mat (.t
    .phid) (.tr (.conj (.t .Gd)))) (.t .Gd))))) (.mat (.mat (.tr (.conj (.t .Gd))) (.t .Gu))
    (.t .phiud))) (.mat (.mat (.tr (.conj (.t .phiud))) (.tr (.conj (.t .Gu)))) (.t .Gd)))
    (.mul (.num 4) (.add (.mul (.num 3) (.ein [.r,.s,.p,.t] (.t .dd) [.t,.p] (.mat (.tr (.conj
    (.t .Gd))) (.t .Gd)) [] (.num 1))) (.ein [.r,.t,.p,.s] (.t .dd) [.t,.p] (.mat (.tr (.conj
    (.t .Gd))) (.t .Gd)) [] (.num 1))))) (.mul (.num 2) (.ein [.p,.t,.r,.s] (.t .ed) [.t,.p]
    (.mat (.tr (.conj (.t .Ge))) (.t .Ge)) [] (.num 1)))) (.mul (.num 2) (.ein [.p,.t,.r,.s]
    (.t .ld) [.t,.p] (.mat (.t .Ge) (.tr (.conj (.t .Ge)))) [] (.num 1)))) (.mul (.num 6) (.ein
    [.p,.t,.r,.s] (.t .ud1) [.t,.p] (.mat (.tr (.conj (.t .Gu))) (.t .Gu)) [] (.num 1)))) (.mul
    (.num 6) (.ein [.p,.t,.r,.s] (.t .qd1) [.t,.p] (.mat (.t .Gd) (.tr (.conj (.t .Gd)))) []
    (.num 1)))) (.mul (.num 6) (.ein [.p,.t,.r,.s] (.t .qd1) [.t,.p] (.mat (.t .Gu) (.tr (.conj
    (.t .Gu)))) [] (.num 1)))) (.mul (.mul (.num 2) (.s .GammaH)) (.t .phid))) (.mat (.t
    .Gammad) (.t .phid))) (.mat (.t .phid) (.t .Gammad)))

/-- /repo/wilson/run/smeft/beta.py lines 911-922 -/
def np_phiud : E Key :=
  (.add (.add (.add (.add (.add (.add (.add (.sub (.add (.mul (.mul (.neg (.num 3)) (.pow (.s
    .gp) 2)) (.t .phiud)) (.mat (.mul (.sub (.mul (.num 2) (.s .phiBox)) (.s .phiD)) (.tr
    (.conj (.t .Gu)))) (.t .Gd))) (.mat (.mat (.mul (.num 2) (.tr (.conj (.t .Gu)))) (.t .Gd))
    (.t .phid))) (.mat (.mat (.mul (.num 2) (.t .phiu)) (.tr (.conj (.t .Gu)))) (.t .Gd)))
    (.mul (.num 4) (.add (.ein [.r,.t,.p,.s] (.t .ud1) [.t,.p] (.mat (.tr (.conj (.t .Gu))) (.t
    .Gd)) [] (.num 1)) (.mul (.div (.num 4) (.num 3)) (.ein [.r,.t,.p,.s] (.t .ud8) [.t,.p]
    (.mat (.tr (.conj (.t .Gu))) (.t .Gd)) [] (.num 1)))))) (.mat (.mat (.mul (.num 2) (.tr
    (.conj (.t .Gu)))) (.t .Gu)) (.t .phiud))) (.mat (.mat (.mul (.num 2) (.t .phiud)) (.tr
    (.conj (.t .Gd)))) (.t .Gd))) (.mul (.mul (.num 2) (.s .GammaH)) (.t .phiud))) (.mat (.t
    .Gammau) (.t .phiud))) (.mat (.t .phiud) (.t .Gammad)))

/-- /repo/wilson/run/smeft/beta.py lines 925-928 -/
def np_llphiphi : E Key :=
  (.sub (.mul (.add (.sub (.mul (.num 2) (.s .Lambda)) (.mul (.num 3) (.pow (.s .g) 2))) (.mul
    (.num 2) (.s .GammaH))) (.t .llphiphi)) (.mul (.div (.num 3) (.num 2)) (.add (.mat (.mat
    (.t .llphiphi) (.t .Ge)) (.tr (.conj (.t .Ge)))) (.mat (.mat (.conj (.t .Ge)) (.tr (.t
    .Ge))) (.t .llphiphi)))))

/-- /repo/wilson/run/smeft/beta.py lines 932-974 -/
def np_ll : E Key :=
  (.add (.add (.add (.add (.sub (.sub (.sub (.add (.add (.sub (.sub (.add (.sub (.add (.sub
    (.sub (.add (.add (.sub (.sub (.sub (.add (.add (.sub (.sub (.add (.sub (.add (.sub (.mul
    (.mul (.div (.neg (.num 1)) (.num 6)) (.pow (.s .gp) 2)) (.ein [.s,.t] (.t .phil1) [.p,.r]
    .eye [] (.num 1))) (.mul (.mul (.div (.num 1) (.num 6)) (.pow (.s .g) 2)) (.sub (.ein
    [.s,.t] (.t .phil3) [.p,.r] .eye [] (.num 1)) (.mul (.num 2) (.ein [.s,.r] (.t .phil3)
    [.p,.t] .eye [] (.num 1)))))) (.mul (.mul (.div (.num 1) (.num 3)) (.pow (.s .gp) 2)) (.add
    (.mul (.num 2) (.ein [.p,.r,.w,.w] (.t .ll) [.s,.t] .eye [] (.num 1))) (.ein [.p,.w,.w,.r]
    (.t .ll) [.s,.t] .eye [] (.num 1))))) (.mul (.mul (.div (.num 1) (.num 3)) (.pow (.s .g)
    2)) (.ein [.p,.w,.w,.r] (.t .ll) [.s,.t] .eye [] (.num 1)))) (.mul (.mul (.div (.num 2)
    (.num 3)) (.pow (.s .g) 2)) (.ein [.s,.w,.w,.r] (.t .ll) [.p,.t] .eye [] (.num 1)))) (.mul
    (.mul (.div (.num 1) (.num 3)) (.pow (.s .gp) 2)) (.ein [.p,.r,.w,.w] (.t .lq1) [.s,.t]
    .eye [] (.num 1)))) (.mul (.pow (.s .g) 2) (.ein [.p,.r,.w,.w] (.t .lq3) [.s,.t] .eye []
    (.num 1)))) (.mul (.mul (.num 2) (.pow (.s .g) 2)) (.ein [.p,.t,.w,.w] (.t .lq3) [.r,.s]
    .eye [] (.num 1)))) (.mul (.mul (.div (.num 1) (.num 3)) (.pow (.s .gp) 2)) (.add (.add
    (.mul (.neg (.num 2)) (.ein [.p,.r,.w,.w] (.t .lu) [.s,.t] .eye [] (.num 1))) (.ein
    [.p,.r,.w,.w] (.t .ld) [.s,.t] .eye [] (.num 1))) (.ein [.p,.r,.w,.w] (.t .le) [.s,.t] .eye
    [] (.num 1))))) (.mul (.div (.num 1) (.num 2)) (.sub (.ein [.p,.r] (.mat (.t .Ge) (.tr
    (.conj (.t .Ge)))) [.s,.t] (.t .phil1) [] (.num 1)) (.ein [.p,.r] (.mat (.t .Ge) (.tr
    (.conj (.t .Ge)))) [.s,.t] (.t .phil3) [] (.num 1))))) (.ein [.p,.t] (.mat (.t .Ge) (.tr
    (.conj (.t .Ge)))) [.s,.r] (.t .phil3) [] (.num 1))) (.mul (.div (.num 1) (.num 2)) (.ein
    [.s,.v] (.t .Ge) [.t,.w] (.conj (.t .Ge)) [.p,.r,.v,.w] (.t .le)))) (.ein [.p,.v] (.t
    .Gammal) [.v,.r,.s,.t] (.t .ll) [] (.num 1))) (.ein [.p,.v,.s,.t] (.t .ll) [.v,.r] (.t
    .Gammal) [] (.num 1))) (.mul (.mul (.div (.num 1) (.num 6)) (.pow (.s .gp) 2)) (.ein
    [.p,.r] (.t .phil1) [.s,.t] .eye [] (.num 1)))) (.mul (.mul (.div (.num 1) (.num 6)) (.pow
    (.s .g) 2)) (.sub (.ein [.p,.r] (.t .phil3) [.s,.t] .eye [] (.num 1)) (.mul (.num 2) (.ein
    [.p,.t] (.t .phil3) [.s,.r] .eye [] (.num 1)))))) (.mul (.mul (.div (.num 1) (.num 3))
    (.pow (.s .gp) 2)) (.add (.mul (.num 2) (.ein [.s,.t,.w,.w] (.t .ll) [.p,.r] .eye [] (.num
    1))) (.ein [.s,.w,.w,.t] (.t .ll) [.p,.r] .eye [] (.num 1))))) (.mul (.mul (.div (.num 1)
    (.num 3)) (.pow (.s .g) 2)) (.ein [.s,.w,.w,.t] (.t .ll) [.p,.r] .eye [] (.num 1)))) (.mul
    (.mul (.div (.num 2) (.num 3)) (.pow (.s .g) 2)) (.ein [.p,.w,.w,.t] (.t .ll) [.s,.r] .eye
    [] (.num 1)))) (.mul (.mul (.div (.num 1) (.num 3)) (.pow (.s .gp) 2)) (.ein [.s,.t,.w,.w]
    (.t .lq1) [.p,.r] .eye [] (.num 1)))) (.mul (.pow (.s .g) 2) (.ein [.s,.t,.w,.w] (.t .lq3)
    [.p,.r] .eye [] (.num 1)))) (.mul (.mul (.num 2) (.pow (.s .g) 2)) (.ein [.s,.r,.w,.w] (.t
    .lq3) [.t,.p] .eye [] (.num 1)))) (.mul (.mul (.div (.num 1) (.num 3)) (.pow (.s .gp) 2))
    (.add (.add (.mul (.neg (.num 2)) (.ein [.s,.t,.w,.w] (.t .lu) [.p,.r] .eye [] (.num 1)))
    (.ein [.s,.t,.w,.w] (.t .ld) [.p,.r] .eye [] (.num 1))) (.ein [.s,.t,.w,.w] (.t .le)
    [.p,.r] .eye [] (.num 1))))) (.mul (.div (.num 1) (.num 2)) (.sub (.ein [.s,.t] (.mat (.t
    .Ge) (.tr (.conj (.t .Ge)))) [.p,.r] (.t .phil1) [] (.num 1)) (.ein [.s,.t] (.mat (.t .Ge)
    (.tr (.conj (.t .Ge)))) [.p,.r] (.t .phil3) [] (.num 1))))) (.ein [.s,.r] (.mat (.t .Ge)
    (.tr (.conj (.t .Ge)))) [.p,.t] (.t .phil3) [] (.num 1))) (.mul (.div (.num 1) (.num 2))
    (.ein [.p,.v] (.t .Ge) [.r,.w] (.conj (.t .Ge)) [.s,.t,.v,.w] (.t .le)))) (.ein [.s,.v] (.t
    .Gammal) [.v,.t,.p,.r] (.t .ll) [] (.num 1))) (.ein [.s,.v,.p,.r] (.t .ll) [.v,.t] (.t
    .Gammal) [] (.num 1))) (.mul (.mul (.num 6) (.pow (.s .g) 2)) (.ein [.p,.t,.s,.r] (.t .ll)
    [] (.num 1) [] (.num 1)))) (.mul (.mul (.num 3) (.sub (.pow (.s .gp) 2) (.pow (.s .g) 2)))
    (.ein [.p,.r,.s,.t] (.t .ll) [] (.num 1) [] (.num 1))))

/-- /repo/wilson/run/smeft/beta.py lines 976-1044 -/
def np_qq1 : E Key :=
  (.add (.sub (.add (.add (.add (.add (.sub (.sub (.sub (.sub (.sub (.add (.sub (.sub (.add
    (.sub (.add (.sub (.add (.add (.sub (.add (.add (.add (.add (.sub (.sub (.sub (.sub (.sub
    (.add (.sub (.sub (.add (.sub (.add (.sub (.add (.add (.sub (.mul (.mul (.div (.num 1)
    (.num 18)) (.pow (.s .gp) 2)) (.ein [.s,.t] (.t .phiq1) [.p,.r] .eye [] (.num 1))) (.mul
    (.mul (.div (.num 1) (.num 9)) (.pow (.s .gp) 2)) (.ein [.w,.w,.s,.t] (.t .lq1) [.p,.r]
    .eye [] (.num 1)))) (.mul (.mul (.div (.num 1) (.num 9)) (.pow (.s .gp) 2)) (.add (.mul
    (.num 2) (.ein [.p,.r,.w,.w] (.t .qq1) [.s,.t] .eye [] (.num 1))) (.mul (.div (.num 1)
    (.num 3)) (.add (.ein [.p,.w,.w,.r] (.t .qq1) [.s,.t] .eye [] (.num 1)) (.mul (.num 3)
    (.ein [.p,.w,.w,.r] (.t .qq3) [.s,.t] .eye [] (.num 1)))))))) (.mul (.mul (.div (.num 1)
    (.num 3)) (.pow (.s .gs) 2)) (.add (.ein [.s,.w,.w,.r] (.t .qq1) [.p,.t] .eye [] (.num 1))
    (.mul (.num 3) (.ein [.s,.w,.w,.r] (.t .qq3) [.p,.t] .eye [] (.num 1)))))) (.mul (.mul
    (.div (.num 2) (.num 9)) (.pow (.s .gs) 2)) (.add (.ein [.p,.w,.w,.r] (.t .qq1) [.s,.t]
    .eye [] (.num 1)) (.mul (.num 3) (.ein [.p,.w,.w,.r] (.t .qq3) [.s,.t] .eye [] (.num
    1)))))) (.mul (.mul (.div (.num 2) (.num 9)) (.pow (.s .gp) 2)) (.ein [.p,.r,.w,.w] (.t
    .qu1) [.s,.t] .eye [] (.num 1)))) (.mul (.mul (.div (.num 1) (.num 9)) (.pow (.s .gp) 2))
    (.ein [.p,.r,.w,.w] (.t .qd1) [.s,.t] .eye [] (.num 1)))) (.mul (.mul (.div (.num 1) (.num
    12)) (.pow (.s .gs) 2)) (.add (.ein [.s,.r,.w,.w] (.t .qu8) [.p,.t] .eye [] (.num 1)) (.ein
    [.s,.r,.w,.w] (.t .qd8) [.p,.t] .eye [] (.num 1))))) (.mul (.mul (.div (.num 1) (.num 18))
    (.pow (.s .gs) 2)) (.add (.ein [.p,.r,.w,.w] (.t .qu8) [.s,.t] .eye [] (.num 1)) (.ein
    [.p,.r,.w,.w] (.t .qd8) [.s,.t] .eye [] (.num 1))))) (.mul (.mul (.div (.num 1) (.num 9))
    (.pow (.s .gp) 2)) (.ein [.p,.r,.w,.w] (.t .qe) [.s,.t] .eye [] (.num 1)))) (.mul (.div
    (.num 1) (.num 2)) (.sub (.ein [.p,.r] (.mat (.t .Gu) (.tr (.conj (.t .Gu)))) [.s,.t] (.t
    .phiq1) [] (.num 1)) (.ein [.p,.r] (.mat (.t .Gd) (.tr (.conj (.t .Gd)))) [.s,.t] (.t
    .phiq1) [] (.num 1))))) (.mul (.div (.num 1) (.num 2)) (.sub (.ein [.p,.v] (.t .Gu) [.r,.w]
    (.conj (.t .Gu)) [.s,.t,.v,.w] (.t .qu1)) (.mul (.div (.num 1) (.num 6)) (.ein [.p,.v] (.t
    .Gu) [.r,.w] (.conj (.t .Gu)) [.s,.t,.v,.w] (.t .qu8)))))) (.mul (.div (.num 1) (.num 2))
    (.sub (.ein [.p,.v] (.t .Gd) [.r,.w] (.conj (.t .Gd)) [.s,.t,.v,.w] (.t .qd1)) (.mul (.div
    (.num 1) (.num 6)) (.ein [.p,.v] (.t .Gd) [.r,.w] (.conj (.t .Gd)) [.s,.t,.v,.w] (.t
    .qd8)))))) (.mul (.div (.num 1) (.num 8)) (.add (.ein [.p,.v] (.t .Gu) [.t,.w] (.conj (.t
    .Gu)) [.s,.r,.v,.w] (.t .qu8)) (.ein [.p,.v] (.t .Gd) [.t,.w] (.conj (.t .Gd))
    [.s,.r,.v,.w] (.t .qd8))))) (.mul (.div (.num 1) (.num 8)) (.sub (.ein [.t,.w] (.conj (.t
    .Gd)) [.r,.v] (.conj (.t .Gu)) [.p,.v,.s,.w] (.t .quqd1)) (.mul (.div (.num 1) (.num 6))
    (.ein [.t,.w] (.conj (.t .Gd)) [.r,.v] (.conj (.t .Gu)) [.p,.v,.s,.w] (.t .quqd8))))))
    (.mul (.div (.num 1) (.num 8)) (.sub (.ein [.s,.w] (.t .Gd) [.p,.v] (.t .Gu) [.r,.v,.t,.w]
    (.conj (.t .quqd1))) (.mul (.div (.num 1) (.num 6)) (.ein [.s,.w] (.t .Gd) [.p,.v] (.t .Gu)
    [.r,.v,.t,.w] (.conj (.t .quqd8))))))) (.mul (.div (.num 1) (.num 16)) (.add (.ein [.t,.w]
    (.conj (.t .Gd)) [.r,.v] (.conj (.t .Gu)) [.s,.v,.p,.w] (.t .quqd8)) (.ein [.s,.w] (.t .Gd)
    [.p,.v] (.t .Gu) [.t,.v,.r,.w] (.conj (.t .quqd8)))))) (.ein [.p,.v] (.t .Gammaq)
    [.v,.r,.s,.t] (.t .qq1) [] (.num 1))) (.ein [.p,.v,.s,.t] (.t .qq1) [.v,.r] (.t .Gammaq) []
    (.num 1))) (.mul (.mul (.div (.num 1) (.num 18)) (.pow (.s .gp) 2)) (.ein [.p,.r] (.t
    .phiq1) [.s,.t] .eye [] (.num 1)))) (.mul (.mul (.div (.num 1) (.num 9)) (.pow (.s .gp) 2))
    (.ein [.w,.w,.p,.r] (.t .lq1) [.s,.t] .eye [] (.num 1)))) (.mul (.mul (.div (.num 1) (.num
    9)) (.pow (.s .gp) 2)) (.add (.mul (.num 2) (.ein [.s,.t,.w,.w] (.t .qq1) [.p,.r] .eye []
    (.num 1))) (.mul (.div (.num 1) (.num 3)) (.add (.ein [.s,.w,.w,.t] (.t .qq1) [.p,.r] .eye
    [] (.num 1)) (.mul (.num 3) (.ein [.s,.w,.w,.t] (.t .qq3) [.p,.r] .eye [] (.num 1))))))))
    (.mul (.mul (.div (.num 1) (.num 3)) (.pow (.s .gs) 2)) (.add (.ein [.p,.w,.w,.t] (.t .qq1)
    [.s,.r] .eye [] (.num 1)) (.mul (.num 3) (.ein [.p,.w,.w,.t] (.t .qq3) [.s,.r] .eye []
    (.num 1)))))) (.mul (.mul (.div (.num 2) (.num 9)) (.pow (.s .gs) 2)) (.add (.ein
    [.s,.w,.w,.t] (.t .qq1) [.p,.r] .eye [] (.num 1)) (.mul (.num 3) (.ein [.s,.w,.w,.t] (.t
    .qq3) [.p,.r] .eye [] (.num 1)))))) (.mul (.mul (.div (.num 2) (.num 9)) (.pow (.s .gp) 2))
    (.ein [.s,.t,.w,.w] (.t .qu1) [.p,.r] .eye [] (.num 1)))) (.mul (.mul (.div (.num 1) (.num
    9)) (.pow (.s .gp) 2)) (.ein [.s,.t,.w,.w] (.t .qd1) [.p,.r] .eye [] (.num 1)))) (.mul
    (.mul (.div (.num 1) (.num 12)) (.pow (.s .gs) 2)) (.add (.ein [.p,.t,.w,.w] (.t .qu8)
    [.s,.r] .eye [] (.num 1)) (.ein [.p,.t,.w,.w] (.t .qd8) [.s,.r] .eye [] (.num 1))))) (.mul
    (.mul (.div (.num 1) (.num 18)) (.pow (.s .gs) 2)) (.add (.ein [.s,.t,.w,.w] (.t .qu8)
    [.p,.r] .eye [] (.num 1)) (.ein [.s,.t,.w,.w] (.t .qd8) [.p,.r] .eye [] (.num 1))))) (.mul
    (.mul (.div (.num 1) (.num 9)) (.pow (.s .gp) 2)) (.ein [.s,.t,.w,.w] (.t .qe) [.p,.r] .eye
    [] (.num 1)))) (.mul (.div (.num 1) (.num 2)) (.sub (.ein [.s,.t] (.mat (.t .Gu) (.tr
    (.conj (.t .Gu)))) [.p,.r] (.t .phiq1) [] (.num 1)) (.ein [.s,.t] (.mat (.t .Gd) (.tr
    (.conj (.t .Gd)))) [.p,.r] (.t .phiq1) [] (.num 1))))) (.mul (.div (.num 1) (.num 2)) (.sub
    (.ein [.s,.v] (.t .Gu) [.t,.w] (.conj (.t .Gu)) [.p,.r,.v,.w] (.t .qu1)) (.mul (.div (.num
    1) (.num 6)) (.ein [.s,.v] (.t .Gu) [.t,.w] (.conj (.t .Gu)) [.p,.r,.v,.w] (.t .qu8))))))
    (.mul (.div (.num 1) (.num 2)) (.sub (.ein [.s,.v] (.t .Gd) [.t,.w] (.conj (.t .Gd))
    [.p,.r,.v,.w] (.t .qd1)) (.mul (.div (.num 1) (.num 6)) (.ein [.s,.v] (.t .Gd) [.t,.w]
    (.conj (.t .Gd)) [.p,.r,.v,.w] (.t .qd8)))))) (.mul (.div (.num 1) (.num 8)) (.add (.ein
    [.s,.v] (.t .Gu) [.r,.w] (.conj (.t .Gu)) [.p,.t,.v,.w] (.t .qu8)) (.ein [.s,.v] (.t .Gd)
    [.r,.w] (.conj (.t .Gd)) [.p,.t,.v,.w] (.t .qd8))))) (.mul (.div (.num 1) (.num 8)) (.sub
    (.ein [.r,.w] (.conj (.t .Gd)) [.t,.v] (.conj (.t .Gu)) [.s,.v,.p,.w] (.t .quqd1)) (.mul
    (.div (.num 1) (.num 6)) (.ein [.r,.w] (.conj (.t .Gd)) [.t,.v] (.conj (.t .Gu))
    [.s,.v,.p,.w] (.t .quqd8)))))) (.mul (.div (.num 1) (.num 8)) (.sub (.ein [.p,.w] (.t .Gd)
    [.s,.v] (.t .Gu) [.t,.v,.r,.w] (.conj (.t .quqd1))) (.mul (.div (.num 1) (.num 6)) (.ein
    [.p,.w] (.t .Gd) [.s,.v] (.t .Gu) [.t,.v,.r,.w] (.conj (.t .quqd8))))))) (.mul (.div (.num
    1) (.num 16)) (.add (.ein [.r,.w] (.conj (.t .Gd)) [.t,.v] (.conj (.t .Gu)) [.p,.v,.s,.w]
    (.t .quqd8)) (.ein [.p,.w] (.t .Gd) [.s,.v] (.t .Gu) [.r,.v,.t,.w] (.conj (.t .quqd8))))))
    (.ein [.s,.v] (.t .Gammaq) [.v,.t,.p,.r] (.t .qq1) [] (.num 1))) (.ein [.s,.v,.p,.r] (.t
    .qq1) [.v,.t] (.t .Gammaq) [] (.num 1))) (.mul (.mul (.num 9) (.pow (.s .g) 2)) (.ein
    [.p,.r,.s,.t] (.t .qq3) [] (.num 1) [] (.num 1)))) (.mul (.mul (.num 2) (.sub (.pow (.s
    .gs) 2) (.mul (.div (.num 1) (.num 6)) (.pow (.s .gp) 2)))) (.ein [.p,.r,.s,.t] (.t .qq1)
    [] (.num 1) [] (.num 1)))) (.mul (.mul (.num 3) (.pow (.s .gs) 2)) (.add (.ein
    [.p,.t,.s,.r] (.t .qq1) [] (.num 1) [] (.num 1)) (.mul (.num 3) (.ein [.p,.t,.s,.r] (.t
    .qq3) [] (.num 1) [] (.num 1))))))

/-- /repo/wilson/run/smeft/beta.py lines 1046-1093 -/
def np_qq3 : E Key :=
  (.add (.sub (.add (.add (.add (.sub (.add (.add (.sub (.sub (.add (.add (.add (.add (.add
    (.add (.add (.add (.sub (.add (.add (.sub (.sub (.add (.add (.add (.add (.add (.mul (.mul
    (.div (.num 1) (.num 6)) (.pow (.s .g) 2)) (.ein [.s,.t] (.t .phiq3) [.p,.r] .eye [] (.num
    1))) (.mul (.mul (.div (.num 1) (.num 3)) (.pow (.s .g) 2)) (.ein [.w,.w,.s,.t] (.t .lq3)
    [.p,.r] .eye [] (.num 1)))) (.mul (.mul (.div (.num 1) (.num 3)) (.pow (.s .g) 2)) (.sub
    (.ein [.p,.w,.w,.r] (.t .qq1) [.s,.t] .eye [] (.num 1)) (.ein [.p,.w,.w,.r] (.t .qq3)
    [.s,.t] .eye [] (.num 1))))) (.mul (.mul (.num 2) (.pow (.s .g) 2)) (.ein [.p,.r,.w,.w] (.t
    .qq3) [.s,.t] .eye [] (.num 1)))) (.mul (.mul (.div (.num 1) (.num 3)) (.pow (.s .gs) 2))
    (.add (.ein [.s,.w,.w,.r] (.t .qq1) [.p,.t] .eye [] (.num 1)) (.mul (.num 3) (.ein
    [.s,.w,.w,.r] (.t .qq3) [.p,.t] .eye [] (.num 1)))))) (.mul (.mul (.div (.num 1) (.num 12))
    (.pow (.s .gs) 2)) (.add (.ein [.s,.r,.w,.w] (.t .qu8) [.p,.t] .eye [] (.num 1)) (.ein
    [.s,.r,.w,.w] (.t .qd8) [.p,.t] .eye [] (.num 1))))) (.mul (.div (.num 1) (.num 2)) (.add
    (.ein [.p,.r] (.mat (.t .Gu) (.tr (.conj (.t .Gu)))) [.s,.t] (.t .phiq3) [] (.num 1)) (.ein
    [.p,.r] (.mat (.t .Gd) (.tr (.conj (.t .Gd)))) [.s,.t] (.t .phiq3) [] (.num 1))))) (.mul
    (.div (.num 1) (.num 8)) (.add (.ein [.p,.v] (.t .Gu) [.t,.w] (.conj (.t .Gu))
    [.s,.r,.v,.w] (.t .qu8)) (.ein [.p,.v] (.t .Gd) [.t,.w] (.conj (.t .Gd)) [.s,.r,.v,.w] (.t
    .qd8))))) (.mul (.div (.num 1) (.num 8)) (.sub (.ein [.t,.w] (.conj (.t .Gd)) [.r,.v]
    (.conj (.t .Gu)) [.p,.v,.s,.w] (.t .quqd1)) (.mul (.div (.num 1) (.num 6)) (.ein [.t,.w]
    (.conj (.t .Gd)) [.r,.v] (.conj (.t .Gu)) [.p,.v,.s,.w] (.t .quqd8)))))) (.mul (.div (.num
    1) (.num 8)) (.sub (.ein [.s,.w] (.t .Gd) [.p,.v] (.t .Gu) [.r,.v,.t,.w] (.conj (.t
    .quqd1))) (.mul (.div (.num 1) (.num 6)) (.ein [.s,.w] (.t .Gd) [.p,.v] (.t .Gu)
    [.r,.v,.t,.w] (.conj (.t .quqd8))))))) (.mul (.div (.num 1) (.num 16)) (.add (.ein [.t,.w]
    (.conj (.t .Gd)) [.r,.v] (.conj (.t .Gu)) [.s,.v,.p,.w] (.t .quqd8)) (.ein [.s,.w] (.t .Gd)
    [.p,.v] (.t .Gu) [.t,.v,.r,.w] (.conj (.t .quqd8)))))) (.ein [.p,.v] (.t .Gammaq)
    [.v,.r,.s,.t] (.t .qq3) [] (.num 1))) (.ein [.p,.v,.s,.t] (.t .qq3) [.v,.r] (.t .Gammaq) []
    (.num 1))) (.mul (.mul (.div (.num 1) (.num 6)) (.pow (.s .g) 2)) (.ein [.p,.r] (.t .phiq3)
    [.s,.t] .eye [] (.num 1)))) (.mul (.mul (.div (.num 1) (.num 3)) (.pow (.s .g) 2)) (.ein
    [.w,.w,.p,.r] (.t .lq3) [.s,.t] .eye [] (.num 1)))) (.mul (.mul (.div (.num 1) (.num 3))
    (.pow (.s .g) 2)) (.sub (.ein [.s,.w,.w,.t] (.t .qq1) [.p,.r] .eye [] (.num 1)) (.ein
    [.s,.w,.w,.t] (.t .qq3) [.p,.r] .eye [] (.num 1))))) (.mul (.mul (.num 2) (.pow (.s .g) 2))
    (.ein [.s,.t,.w,.w] (.t .qq3) [.p,.r] .eye [] (.num 1)))) (.mul (.mul (.div (.num 1) (.num
    3)) (.pow (.s .gs) 2)) (.add (.ein [.p,.w,.w,.t] (.t .qq1) [.s,.r] .eye [] (.num 1)) (.mul
    (.num 3) (.ein [.p,.w,.w,.t] (.t .qq3) [.s,.r] .eye [] (.num 1)))))) (.mul (.mul (.div
    (.num 1) (.num 12)) (.pow (.s .gs) 2)) (.add (.ein [.p,.t,.w,.w] (.t .qu8) [.s,.r] .eye []
    (.num 1)) (.ein [.p,.t,.w,.w] (.t .qd8) [.s,.r] .eye [] (.num 1))))) (.mul (.div (.num 1)
    (.num 2)) (.add (.ein [.s,.t] (.mat (.t .Gu) (.tr (.conj (.t .Gu)))) [.p,.r] (.t .phiq3) []
    (.num 1)) (.ein [.s,.t] (.mat (.t .Gd) (.tr (.conj (.t .Gd)))) [.p,.r] (.t .phiq3) [] (.num
    1))))) (.mul (.div (.num 1) (.num 8)) (.add (.ein [.s,.v] (.t .Gu) [.r,.w] (.conj (.t .Gu))
    [.p,.t,.v,.w] (.t .qu8)) (.ein [.s,.v] (.t .Gd) [.r,.w] (.conj (.t .Gd)) [.p,.t,.v,.w] (.t
    .qd8))))) (.mul (.div (.num 1) (.num 8)) (.sub (.ein [.r,.w] (.conj (.t .Gd)) [.t,.v]
    (.conj (.t .Gu)) [.s,.v,.p,.w] (.t .quqd1)) (.mul (.div (.num 1) (.num 6)) (.ein [.r,.w]
    (.conj (.t .Gd)) [.t,.v] (.conj (.t .Gu)) [.s,.v,.p,.w] (.t .quqd8)))))) (.mul (.div (.num
    1) (.num 8)) (.sub (.ein [.p,.w] (.t .Gd) [.s,.v] (.t .Gu) [.t,.v,.r,.w] (.conj (.t
    .quqd1))) (.mul (.div (.num 1) (.num 6)) (.ein [.p,.w] (.t .Gd) [.s,.v] (.t .Gu)
    [.t,.v,.r,.w] (.conj (.t .quqd8))))))) (.mul (.div (.num 1) (.num 16)) (.add (.ein [.r,.w]
    (.conj (.t .Gd)) [.t,.v] (.conj (.t .Gu)) [.p,.v,.s,.w] (.t .quqd8)) (.ein [.p,.w] (.t .Gd)
    [.s,.v] (.t .Gu) [.r,.v,.t,.w] (.conj (.t .quqd8)))))) (.ein [.s,.v] (.t .Gammaq)
    [.v,.t,.p,.r] (.t .qq3) [] (.num 1))) (.ein [.s,.v,.p,.r] (.t .qq3) [.v,.t] (.t .Gammaq) []
    (.num 1))) (.mul (.mul (.num 3) (.pow (.s .gs) 2)) (.sub (.ein [.p,.t,.s,.r] (.t .qq1) []
    (.num 1) [] (.num 1)) (.ein [.p,.t,.s,.r] (.t .qq3) [] (.num 1) [] (.num 1))))) (.mul (.mul
    (.num 2) (.sub (.add (.pow (.s .gs) 2) (.mul (.num 3) (.pow (.s .g) 2))) (.mul (.div (.num
    1) (.num 6)) (.pow (.s .gp) 2)))) (.ein [.p,.r,.s,.t] (.t .qq3) [] (.num 1) [] (.num 1))))
    (.mul (.mul (.num 3) (.pow (.s .g) 2)) (.ein [.p,.r,.s,.t] (.t .qq1) [] (.num 1) [] (.num
    1))))

/-- /repo/wilson/run/smeft/beta.py lines 1096-1128 -/
def np_lq1 : E Key :=
  (.add (.add (.add (.add (.add (.sub (.sub (.sub (.add (.sub (.add (.sub (.add (.sub (.add
    (.sub (.sub (.add (.add (.sub (.add (.mul (.mul (.div (.neg (.num 1)) (.num 3)) (.pow (.s
    .gp) 2)) (.ein [.s,.t] (.t .phiq1) [.p,.r] .eye [] (.num 1))) (.mul (.mul (.div (.num 1)
    (.num 9)) (.pow (.s .gp) 2)) (.ein [.p,.r] (.t .phil1) [.s,.t] .eye [] (.num 1)))) (.mul
    (.mul (.div (.num 2) (.num 9)) (.pow (.s .gp) 2)) (.add (.mul (.num 2) (.ein [.p,.r,.w,.w]
    (.t .ll) [.s,.t] .eye [] (.num 1))) (.ein [.p,.w,.w,.r] (.t .ll) [.s,.t] .eye [] (.num
    1))))) (.mul (.mul (.div (.num 2) (.num 9)) (.pow (.s .gp) 2)) (.ein [.p,.r,.w,.w] (.t
    .lq1) [.s,.t] .eye [] (.num 1)))) (.mul (.mul (.div (.num 2) (.num 3)) (.pow (.s .gp) 2))
    (.ein [.w,.w,.s,.t] (.t .lq1) [.p,.r] .eye [] (.num 1)))) (.mul (.mul (.div (.num 2) (.num
    9)) (.pow (.s .gp) 2)) (.add (.add (.mul (.num 6) (.ein [.s,.t,.w,.w] (.t .qq1) [.p,.r]
    .eye [] (.num 1))) (.ein [.s,.w,.w,.t] (.t .qq1) [.p,.r] .eye [] (.num 1))) (.mul (.num 3)
    (.ein [.s,.w,.w,.t] (.t .qq3) [.p,.r] .eye [] (.num 1)))))) (.mul (.mul (.div (.num 2)
    (.num 3)) (.pow (.s .gp) 2)) (.sub (.sub (.mul (.num 2) (.ein [.s,.t,.w,.w] (.t .qu1)
    [.p,.r] .eye [] (.num 1))) (.ein [.s,.t,.w,.w] (.t .qd1) [.p,.r] .eye [] (.num 1))) (.ein
    [.s,.t,.w,.w] (.t .qe) [.p,.r] .eye [] (.num 1))))) (.mul (.mul (.div (.num 2) (.num 9))
    (.pow (.s .gp) 2)) (.sub (.sub (.mul (.num 2) (.ein [.p,.r,.w,.w] (.t .lu) [.s,.t] .eye []
    (.num 1))) (.ein [.p,.r,.w,.w] (.t .ld) [.s,.t] .eye [] (.num 1))) (.ein [.p,.r,.w,.w] (.t
    .le) [.s,.t] .eye [] (.num 1))))) (.mul (.pow (.s .gp) 2) (.ein [.p,.r,.s,.t] (.t .lq1) []
    (.num 1) [] (.num 1)))) (.mul (.mul (.num 9) (.pow (.s .g) 2)) (.ein [.p,.r,.s,.t] (.t
    .lq3) [] (.num 1) [] (.num 1)))) (.ein [.p,.r] (.mat (.t .Ge) (.tr (.conj (.t .Ge))))
    [.s,.t] (.t .phiq1) [] (.num 1))) (.ein [.s,.t] (.mat (.t .Gu) (.tr (.conj (.t .Gu))))
    [.p,.r] (.t .phil1) [] (.num 1))) (.ein [.s,.t] (.mat (.t .Gd) (.tr (.conj (.t .Gd))))
    [.p,.r] (.t .phil1) [] (.num 1))) (.mul (.div (.num 1) (.num 4)) (.sub (.add (.sub (.ein
    [.t,.w] (.conj (.t .Gu)) [.r,.v] (.conj (.t .Ge)) [.p,.v,.s,.w] (.t .lequ1)) (.mul (.num
    12) (.ein [.t,.w] (.conj (.t .Gu)) [.r,.v] (.conj (.t .Ge)) [.p,.v,.s,.w] (.t .lequ3))))
    (.ein [.s,.w] (.t .Gu) [.p,.v] (.t .Ge) [.r,.v,.t,.w] (.conj (.t .lequ1)))) (.mul (.num 12)
    (.ein [.s,.w] (.t .Gu) [.p,.v] (.t .Ge) [.r,.v,.t,.w] (.conj (.t .lequ3))))))) (.ein
    [.s,.v] (.t .Gu) [.t,.w] (.conj (.t .Gu)) [.p,.r,.v,.w] (.t .lu))) (.ein [.s,.v] (.t .Gd)
    [.t,.w] (.conj (.t .Gd)) [.p,.r,.v,.w] (.t .ld))) (.ein [.p,.v] (.t .Ge) [.r,.w] (.conj (.t
    .Ge)) [.s,.t,.v,.w] (.t .qe))) (.mul (.div (.num 1) (.num 4)) (.add (.ein [.s,.w] (.t .Gd)
    [.r,.v] (.conj (.t .Ge)) [.p,.v,.w,.t] (.t .ledq)) (.ein [.p,.v] (.t .Ge) [.t,.w] (.conj
    (.t .Gd)) [.r,.v,.w,.s] (.conj (.t .ledq)))))) (.ein [.p,.v] (.t .Gammal) [.v,.r,.s,.t] (.t
    .lq1) [] (.num 1))) (.ein [.s,.v] (.t .Gammaq) [.p,.r,.v,.t] (.t .lq1) [] (.num 1))) (.ein
    [.p,.v,.s,.t] (.t .lq1) [.v,.r] (.t .Gammal) [] (.num 1))) (.ein [.p,.r,.s,.v] (.t .lq1)
    [.v,.t] (.t .Gammaq) [] (.num 1)))

/-- /repo/wilson/run/smeft/beta.py lines 1130-1153 -/
def np_lq3 : E Key :=
  (.add (.add (.add (.add (.add (.sub (.sub (.sub (.sub (.sub (.add (.add (.add (.add (.mul
    (.mul (.div (.num 1) (.num 3)) (.pow (.s .g) 2)) (.add (.ein [.s,.t] (.t .phiq3) [.p,.r]
    .eye [] (.num 1)) (.ein [.p,.r] (.t .phil3) [.s,.t] .eye [] (.num 1)))) (.mul (.mul (.div
    (.num 2) (.num 3)) (.pow (.s .g) 2)) (.add (.mul (.num 3) (.ein [.p,.r,.w,.w] (.t .lq3)
    [.s,.t] .eye [] (.num 1))) (.ein [.w,.w,.s,.t] (.t .lq3) [.p,.r] .eye [] (.num 1))))) (.mul
    (.mul (.div (.num 2) (.num 3)) (.pow (.s .g) 2)) (.sub (.add (.mul (.num 6) (.ein
    [.s,.t,.w,.w] (.t .qq3) [.p,.r] .eye [] (.num 1))) (.ein [.s,.w,.w,.t] (.t .qq1) [.p,.r]
    .eye [] (.num 1))) (.ein [.s,.w,.w,.t] (.t .qq3) [.p,.r] .eye [] (.num 1))))) (.mul (.mul
    (.div (.num 2) (.num 3)) (.pow (.s .g) 2)) (.ein [.p,.w,.w,.r] (.t .ll) [.s,.t] .eye []
    (.num 1)))) (.mul (.mul (.num 3) (.pow (.s .g) 2)) (.ein [.p,.r,.s,.t] (.t .lq1) [] (.num
    1) [] (.num 1)))) (.mul (.add (.mul (.num 6) (.pow (.s .g) 2)) (.pow (.s .gp) 2)) (.ein
    [.p,.r,.s,.t] (.t .lq3) [] (.num 1) [] (.num 1)))) (.ein [.p,.r] (.mat (.t .Ge) (.tr (.conj
    (.t .Ge)))) [.s,.t] (.t .phiq3) [] (.num 1))) (.ein [.s,.t] (.mat (.t .Gu) (.tr (.conj (.t
    .Gu)))) [.p,.r] (.t .phil3) [] (.num 1))) (.ein [.s,.t] (.mat (.t .Gd) (.tr (.conj (.t
    .Gd)))) [.p,.r] (.t .phil3) [] (.num 1))) (.mul (.div (.num 1) (.num 4)) (.sub (.add (.sub
    (.ein [.t,.w] (.conj (.t .Gu)) [.r,.v] (.conj (.t .Ge)) [.p,.v,.s,.w] (.t .lequ1)) (.mul
    (.num 12) (.ein [.t,.w] (.conj (.t .Gu)) [.r,.v] (.conj (.t .Ge)) [.p,.v,.s,.w] (.t
    .lequ3)))) (.ein [.s,.w] (.t .Gu) [.p,.v] (.t .Ge) [.r,.v,.t,.w] (.conj (.t .lequ1))))
    (.mul (.num 12) (.ein [.s,.w] (.t .Gu) [.p,.v] (.t .Ge) [.r,.v,.t,.w] (.conj (.t
    .lequ3))))))) (.mul (.div (.num 1) (.num 4)) (.add (.ein [.s,.w] (.t .Gd) [.r,.v] (.conj
    (.t .Ge)) [.p,.v,.w,.t] (.t .ledq)) (.ein [.p,.v] (.t .Ge) [.t,.w] (.conj (.t .Gd))
    [.r,.v,.w,.s] (.conj (.t .ledq)))))) (.ein [.p,.v] (.t .Gammal) [.v,.r,.s,.t] (.t .lq3) []
    (.num 1))) (.ein [.s,.v] (.t .Gammaq) [.p,.r,.v,.t] (.t .lq3) [] (.num 1))) (.ein
    [.p,.v,.s,.t] (.t .lq3) [.v,.r] (.t .Gammal) [] (.num 1))) (.ein [.p,.r,.s,.v] (.t .lq3)
    [.v,.t] (.t .Gammaq) [] (.num 1)))

/-- /repo/wilson/run/smeft/beta.py lines 1156-1176 -/
def np_ee : E Key :=
  (.add (.add (.add (.sub (.add (.add (.sub (.add (.add (.sub (.add (.add (.mul (.mul (.div
    (.neg (.num 1)) (.num 3)) (.pow (.s .gp) 2)) (.ein [.s,.t] (.t .phie) [.p,.r] .eye [] (.num
    1))) (.mul (.mul (.div (.num 2) (.num 3)) (.pow (.s .gp) 2)) (.add (.add (.sub (.sub (.ein
    [.w,.w,.p,.r] (.t .le) [.s,.t] .eye [] (.num 1)) (.ein [.w,.w,.p,.r] (.t .qe) [.s,.t] .eye
    [] (.num 1))) (.mul (.num 2) (.ein [.p,.r,.w,.w] (.t .eu) [.s,.t] .eye [] (.num 1)))) (.ein
    [.p,.r,.w,.w] (.t .ed) [.s,.t] .eye [] (.num 1))) (.mul (.num 4) (.ein [.p,.r,.w,.w] (.t
    .ee) [.s,.t] .eye [] (.num 1)))))) (.ein [.p,.r] (.mat (.tr (.conj (.t .Ge))) (.t .Ge))
    [.s,.t] (.t .phie) [] (.num 1))) (.ein [.w,.r] (.t .Ge) [.v,.p] (.conj (.t .Ge))
    [.v,.w,.s,.t] (.t .le))) (.ein [.p,.v] (.t .Gammae) [.v,.r,.s,.t] (.t .ee) [] (.num 1)))
    (.ein [.p,.v,.s,.t] (.t .ee) [.v,.r] (.t .Gammae) [] (.num 1))) (.mul (.mul (.div (.num 1)
    (.num 3)) (.pow (.s .gp) 2)) (.ein [.p,.r] (.t .phie) [.s,.t] .eye [] (.num 1)))) (.mul
    (.mul (.div (.num 2) (.num 3)) (.pow (.s .gp) 2)) (.add (.add (.sub (.sub (.ein
    [.w,.w,.s,.t] (.t .le) [.p,.r] .eye [] (.num 1)) (.ein [.w,.w,.s,.t] (.t .qe) [.p,.r] .eye
    [] (.num 1))) (.mul (.num 2) (.ein [.s,.t,.w,.w] (.t .eu) [.p,.r] .eye [] (.num 1)))) (.ein
    [.s,.t,.w,.w] (.t .ed) [.p,.r] .eye [] (.num 1))) (.mul (.num 4) (.ein [.w,.w,.s,.t] (.t
    .ee) [.p,.r] .eye [] (.num 1)))))) (.ein [.s,.t] (.mat (.tr (.conj (.t .Ge))) (.t .Ge))
    [.p,.r] (.t .phie) [] (.num 1))) (.ein [.w,.t] (.t .Ge) [.v,.s] (.conj (.t .Ge))
    [.v,.w,.p,.r] (.t .le))) (.ein [.s,.v] (.t .Gammae) [.v,.t,.p,.r] (.t .ee) [] (.num 1)))
    (.ein [.s,.v,.p,.r] (.t .ee) [.v,.t] (.t .Gammae) [] (.num 1))) (.mul (.mul (.num 12) (.pow
    (.s .gp) 2)) (.ein [.p,.r,.s,.t] (.t .ee) [] (.num 1) [] (.num 1))))

/-- /repo/wilson/run/smeft/beta.py lines 1179-1219 -/
def np_uu : E Key :=
  (.add (.add (.add (.add (.sub (.sub (.sub (.sub (.sub (.sub (.add (.sub (.sub (.add (.add
    (.add (.sub (.sub (.sub (.sub (.sub (.sub (.add (.sub (.sub (.mul (.mul (.div (.num 2)
    (.num 9)) (.pow (.s .gp) 2)) (.ein [.s,.t] (.t .phiu) [.p,.r] .eye [] (.num 1))) (.mul
    (.mul (.div (.num 4) (.num 9)) (.pow (.s .gp) 2)) (.sub (.sub (.sub (.add (.ein
    [.w,.w,.s,.t] (.t .eu) [.p,.r] .eye [] (.num 1)) (.ein [.w,.w,.s,.t] (.t .lu) [.p,.r] .eye
    [] (.num 1))) (.ein [.w,.w,.s,.t] (.t .qu1) [.p,.r] .eye [] (.num 1))) (.mul (.num 4) (.ein
    [.w,.w,.s,.t] (.t .uu) [.p,.r] .eye [] (.num 1)))) (.mul (.div (.num 4) (.num 3)) (.ein
    [.s,.w,.w,.t] (.t .uu) [.p,.r] .eye [] (.num 1)))))) (.mul (.mul (.div (.num 1) (.num 9))
    (.pow (.s .gs) 2)) (.sub (.ein [.w,.w,.s,.t] (.t .qu8) [.p,.r] .eye [] (.num 1)) (.mul
    (.num 3) (.ein [.w,.w,.s,.r] (.t .qu8) [.p,.t] .eye [] (.num 1)))))) (.mul (.mul (.div
    (.num 2) (.num 3)) (.pow (.s .gs) 2)) (.ein [.p,.w,.w,.t] (.t .uu) [.r,.s] .eye [] (.num
    1)))) (.mul (.mul (.div (.num 2) (.num 9)) (.pow (.s .gs) 2)) (.ein [.s,.w,.w,.t] (.t .uu)
    [.p,.r] .eye [] (.num 1)))) (.mul (.mul (.div (.num 4) (.num 9)) (.pow (.s .gp) 2)) (.ein
    [.s,.t,.w,.w] (.t .ud1) [.p,.r] .eye [] (.num 1)))) (.mul (.mul (.div (.num 1) (.num 18))
    (.pow (.s .gs) 2)) (.sub (.ein [.s,.t,.w,.w] (.t .ud8) [.p,.r] .eye [] (.num 1)) (.mul
    (.num 3) (.ein [.s,.r,.w,.w] (.t .ud8) [.p,.t] .eye [] (.num 1)))))) (.ein [.p,.r] (.mat
    (.tr (.conj (.t .Gu))) (.t .Gu)) [.s,.t] (.t .phiu) [] (.num 1))) (.sub (.ein [.w,.r] (.t
    .Gu) [.v,.p] (.conj (.t .Gu)) [.v,.w,.s,.t] (.t .qu1)) (.mul (.div (.num 1) (.num 6)) (.ein
    [.w,.r] (.t .Gu) [.v,.p] (.conj (.t .Gu)) [.v,.w,.s,.t] (.t .qu8))))) (.mul (.div (.num 1)
    (.num 2)) (.ein [.w,.r] (.t .Gu) [.v,.s] (.conj (.t .Gu)) [.v,.w,.p,.t] (.t .qu8)))) (.ein
    [.p,.v] (.t .Gammau) [.v,.r,.s,.t] (.t .uu) [] (.num 1))) (.ein [.p,.v,.s,.t] (.t .uu)
    [.v,.r] (.t .Gammau) [] (.num 1))) (.mul (.mul (.div (.num 2) (.num 9)) (.pow (.s .gp) 2))
    (.ein [.p,.r] (.t .phiu) [.s,.t] .eye [] (.num 1)))) (.mul (.mul (.div (.num 4) (.num 9))
    (.pow (.s .gp) 2)) (.sub (.sub (.sub (.add (.ein [.w,.w,.p,.r] (.t .eu) [.s,.t] .eye []
    (.num 1)) (.ein [.w,.w,.p,.r] (.t .lu) [.s,.t] .eye [] (.num 1))) (.ein [.w,.w,.p,.r] (.t
    .qu1) [.s,.t] .eye [] (.num 1))) (.mul (.num 4) (.ein [.w,.w,.p,.r] (.t .uu) [.s,.t] .eye
    [] (.num 1)))) (.mul (.div (.num 4) (.num 3)) (.ein [.p,.w,.w,.r] (.t .uu) [.s,.t] .eye []
    (.num 1)))))) (.mul (.mul (.div (.num 1) (.num 9)) (.pow (.s .gs) 2)) (.sub (.ein
    [.w,.w,.p,.r] (.t .qu8) [.s,.t] .eye [] (.num 1)) (.mul (.num 3) (.ein [.w,.w,.p,.t] (.t
    .qu8) [.s,.r] .eye [] (.num 1)))))) (.mul (.mul (.div (.num 2) (.num 3)) (.pow (.s .gs) 2))
    (.ein [.s,.w,.w,.r] (.t .uu) [.t,.p] .eye [] (.num 1)))) (.mul (.mul (.div (.num 2) (.num
    9)) (.pow (.s .gs) 2)) (.ein [.p,.w,.w,.r] (.t .uu) [.s,.t] .eye [] (.num 1)))) (.mul (.mul
    (.div (.num 4) (.num 9)) (.pow (.s .gp) 2)) (.ein [.p,.r,.w,.w] (.t .ud1) [.s,.t] .eye []
    (.num 1)))) (.mul (.mul (.div (.num 1) (.num 18)) (.pow (.s .gs) 2)) (.sub (.ein
    [.p,.r,.w,.w] (.t .ud8) [.s,.t] .eye [] (.num 1)) (.mul (.num 3) (.ein [.p,.t,.w,.w] (.t
    .ud8) [.s,.r] .eye [] (.num 1)))))) (.ein [.s,.t] (.mat (.tr (.conj (.t .Gu))) (.t .Gu))
    [.p,.r] (.t .phiu) [] (.num 1))) (.sub (.ein [.w,.t] (.t .Gu) [.v,.s] (.conj (.t .Gu))
    [.v,.w,.p,.r] (.t .qu1)) (.mul (.div (.num 1) (.num 6)) (.ein [.w,.t] (.t .Gu) [.v,.s]
    (.conj (.t .Gu)) [.v,.w,.p,.r] (.t .qu8))))) (.mul (.div (.num 1) (.num 2)) (.ein [.w,.t]
    (.t .Gu) [.v,.p] (.conj (.t .Gu)) [.v,.w,.s,.r] (.t .qu8)))) (.ein [.s,.v] (.t .Gammau)
    [.v,.t,.p,.r] (.t .uu) [] (.num 1))) (.ein [.s,.v,.p,.r] (.t .uu) [.v,.t] (.t .Gammau) []
    (.num 1))) (.mul (.mul (.num 2) (.sub (.mul (.div (.num 8) (.num 3)) (.pow (.s .gp) 2))
    (.pow (.s .gs) 2))) (.ein [.p,.r,.s,.t] (.t .uu) [] (.num 1) [] (.num 1)))) (.mul (.mul
    (.num 6) (.pow (.s .gs) 2)) (.ein [.p,.t,.s,.r] (.t .uu) [] (.num 1) [] (.num 1))))

/-- /repo/wilson/run/smeft/beta.py lines 1222-1262 -/
def np_dd : E Key :=
  (.add (.add (.add (.add (.sub (.sub (.add (.sub (.sub (.sub (.add (.sub (.add (.sub (.add
    (.add (.sub (.sub (.add (.sub (.sub (.sub (.add (.sub (.add (.mul (.mul (.div (.neg (.num
    1)) (.num 9)) (.pow (.s .gp) 2)) (.ein [.s,.t] (.t .phid) [.p,.r] .eye [] (.num 1))) (.mul
    (.mul (.div (.num 2) (.num 9)) (.pow (.s .gp) 2)) (.add (.add (.sub (.add (.ein
    [.w,.w,.s,.t] (.t .ed) [.p,.r] .eye [] (.num 1)) (.ein [.w,.w,.s,.t] (.t .ld) [.p,.r] .eye
    [] (.num 1))) (.ein [.w,.w,.s,.t] (.t .qd1) [.p,.r] .eye [] (.num 1))) (.mul (.num 2) (.ein
    [.w,.w,.s,.t] (.t .dd) [.p,.r] .eye [] (.num 1)))) (.mul (.div (.num 2) (.num 3)) (.ein
    [.s,.w,.w,.t] (.t .dd) [.p,.r] .eye [] (.num 1)))))) (.mul (.mul (.div (.num 1) (.num 9))
    (.pow (.s .gs) 2)) (.sub (.ein [.w,.w,.s,.t] (.t .qd8) [.p,.r] .eye [] (.num 1)) (.mul
    (.num 3) (.ein [.w,.w,.s,.r] (.t .qd8) [.p,.t] .eye [] (.num 1)))))) (.mul (.mul (.div
    (.num 2) (.num 3)) (.pow (.s .gs) 2)) (.ein [.p,.w,.w,.t] (.t .dd) [.r,.s] .eye [] (.num
    1)))) (.mul (.mul (.div (.num 2) (.num 9)) (.pow (.s .gs) 2)) (.ein [.s,.w,.w,.t] (.t .dd)
    [.p,.r] .eye [] (.num 1)))) (.mul (.mul (.div (.num 4) (.num 9)) (.pow (.s .gp) 2)) (.ein
    [.w,.w,.s,.t] (.t .ud1) [.p,.r] .eye [] (.num 1)))) (.mul (.mul (.div (.num 1) (.num 18))
    (.pow (.s .gs) 2)) (.sub (.ein [.w,.w,.s,.t] (.t .ud8) [.p,.r] .eye [] (.num 1)) (.mul
    (.num 3) (.ein [.w,.w,.s,.r] (.t .ud8) [.p,.t] .eye [] (.num 1)))))) (.ein [.p,.r] (.mat
    (.tr (.conj (.t .Gd))) (.t .Gd)) [.s,.t] (.t .phid) [] (.num 1))) (.sub (.ein [.w,.r] (.t
    .Gd) [.v,.p] (.conj (.t .Gd)) [.v,.w,.s,.t] (.t .qd1)) (.mul (.div (.num 1) (.num 6)) (.ein
    [.w,.r] (.t .Gd) [.v,.p] (.conj (.t .Gd)) [.v,.w,.s,.t] (.t .qd8))))) (.mul (.div (.num 1)
    (.num 2)) (.ein [.w,.r] (.t .Gd) [.v,.s] (.conj (.t .Gd)) [.v,.w,.p,.t] (.t .qd8)))) (.ein
    [.p,.v] (.t .Gammad) [.v,.r,.s,.t] (.t .dd) [] (.num 1))) (.ein [.p,.v,.s,.t] (.t .dd)
    [.v,.r] (.t .Gammad) [] (.num 1))) (.mul (.mul (.div (.num 1) (.num 9)) (.pow (.s .gp) 2))
    (.ein [.p,.r] (.t .phid) [.s,.t] .eye [] (.num 1)))) (.mul (.mul (.div (.num 2) (.num 9))
    (.pow (.s .gp) 2)) (.add (.add (.sub (.add (.ein [.w,.w,.p,.r] (.t .ed) [.s,.t] .eye []
    (.num 1)) (.ein [.w,.w,.p,.r] (.t .ld) [.s,.t] .eye [] (.num 1))) (.ein [.w,.w,.p,.r] (.t
    .qd1) [.s,.t] .eye [] (.num 1))) (.mul (.num 2) (.ein [.w,.w,.p,.r] (.t .dd) [.s,.t] .eye
    [] (.num 1)))) (.mul (.div (.num 2) (.num 3)) (.ein [.p,.w,.w,.r] (.t .dd) [.s,.t] .eye []
    (.num 1)))))) (.mul (.mul (.div (.num 1) (.num 9)) (.pow (.s .gs) 2)) (.sub (.ein
    [.w,.w,.p,.r] (.t .qd8) [.s,.t] .eye [] (.num 1)) (.mul (.num 3) (.ein [.w,.w,.p,.t] (.t
    .qd8) [.s,.r] .eye [] (.num 1)))))) (.mul (.mul (.div (.num 2) (.num 3)) (.pow (.s .gs) 2))
    (.ein [.s,.w,.w,.r] (.t .dd) [.t,.p] .eye [] (.num 1)))) (.mul (.mul (.div (.num 2) (.num
    9)) (.pow (.s .gs) 2)) (.ein [.p,.w,.w,.r] (.t .dd) [.s,.t] .eye [] (.num 1)))) (.mul (.mul
    (.div (.num 4) (.num 9)) (.pow (.s .gp) 2)) (.ein [.w,.w,.p,.r] (.t .ud1) [.s,.t] .eye []
    (.num 1)))) (.mul (.mul (.div (.num 1) (.num 18)) (.pow (.s .gs) 2)) (.sub (.ein
    [.w,.w,.p,.r] (.t .ud8) [.s,.t] .eye [] (.num 1)) (.mul (.num 3) (.ein [.w,.w,.p,.t] (.t
    .ud8) [.s,.r] .eye [] (.num 1)))))) (.ein [.s,.t] (.mat (.tr (.conj (.t .Gd))) (.t .Gd))
    [.p,.r] (.t .phid) [] (.num 1))) (.sub (.ein [.w,.t] (.t .Gd) [.v,.s] (.conj (.t .Gd))
    [.v,.w,.p,.r] (.t .qd1)) (.mul (.div (.num 1) (.num 6)) (.ein [.w,.t] (.t .Gd) [.v,.s]
    (.conj (.t .Gd)) [.v,.w,.p,.r] (.t .qd8))))) (.mul (.div (.num 1) (.num 2)) (.ein [.w,.t]
    (.t .Gd) [.v,.p] (.conj (.t .Gd)) [.v,.w,.s,.r] (.t .qd8)))) (.ein [.s,.v] (.t .Gammad)
    [.v,.t,.p,.r] (.t .dd) [] (.num 1))) (.ein [.s,.v,.p,.r] (.t .dd) [.v,.t] (.t .Gammad) []
    (.num 1))) (.mul (.mul (.num 2) (.sub (.mul (.div (.num 2) (.num 3)) (.pow (.s .gp) 2))
    (.pow (.s .gs) 2))) (.ein [.p,.r,.s,.t] (.t .dd) [] (.num 1) [] (.num 1)))) (.mul (.mul
    (.num 6) (.pow (.s .gs) 2)) (.ein [.p,.t,.s,.r] (.t .dd) [] (.num 1) [] (.num 1))))

/-- /repo/wilson/run/smeft/beta.py lines 1264-1289 -/
def np_eu : E Key :=
  (.add (.add (.add (.add (.sub (.sub (.sub (.add (.sub (.add (.sub (.add (.sub (.add (.mul
    (.mul (.div (.neg (.num 2)) (.num 3)) (.pow (.s .gp) 2)) (.add (.add (.ein [.s,.t] (.t
    .phiu) [.p,.r] .eye [] (.num 1)) (.mul (.num 2) (.sub (.sub (.add (.sub (.ein [.w,.w,.s,.t]
    (.t .qu1) [.p,.r] .eye [] (.num 1)) (.ein [.w,.w,.s,.t] (.t .lu) [.p,.r] .eye [] (.num 1)))
    (.mul (.num 4) (.ein [.w,.w,.s,.t] (.t .uu) [.p,.r] .eye [] (.num 1)))) (.ein [.w,.w,.s,.t]
    (.t .eu) [.p,.r] .eye [] (.num 1))) (.ein [.s,.t,.w,.w] (.t .ud1) [.p,.r] .eye [] (.num
    1))))) (.mul (.div (.num 8) (.num 3)) (.ein [.s,.w,.w,.t] (.t .uu) [.p,.r] .eye [] (.num
    1))))) (.mul (.mul (.div (.num 4) (.num 9)) (.pow (.s .gp) 2)) (.add (.ein [.p,.r] (.t
    .phie) [.s,.t] .eye [] (.num 1)) (.mul (.num 2) (.sub (.add (.sub (.sub (.ein [.w,.w,.p,.r]
    (.t .qe) [.s,.t] .eye [] (.num 1)) (.ein [.w,.w,.p,.r] (.t .le) [.s,.t] .eye [] (.num 1)))
    (.mul (.num 4) (.ein [.p,.r,.w,.w] (.t .ee) [.s,.t] .eye [] (.num 1)))) (.mul (.num 2)
    (.ein [.p,.r,.w,.w] (.t .eu) [.s,.t] .eye [] (.num 1)))) (.ein [.p,.r,.w,.w] (.t .ed)
    [.s,.t] .eye [] (.num 1))))))) (.mul (.mul (.num 8) (.pow (.s .gp) 2)) (.ein [.p,.r,.s,.t]
    (.t .eu) [] (.num 1) [] (.num 1)))) (.mul (.num 2) (.ein [.p,.r] (.mat (.tr (.conj (.t
    .Ge))) (.t .Ge)) [.s,.t] (.t .phiu) [] (.num 1)))) (.mul (.num 2) (.ein [.s,.t] (.mat (.tr
    (.conj (.t .Gu))) (.t .Gu)) [.p,.r] (.t .phie) [] (.num 1)))) (.ein [.v,.p] (.conj (.t
    .Ge)) [.w,.s] (.conj (.t .Gu)) [.v,.r,.w,.t] (.t .lequ1))) (.mul (.num 12) (.ein [.v,.p]
    (.conj (.t .Ge)) [.w,.s] (.conj (.t .Gu)) [.v,.r,.w,.t] (.t .lequ3)))) (.ein [.v,.r] (.t
    .Ge) [.w,.t] (.t .Gu) [.v,.p,.w,.s] (.conj (.t .lequ1)))) (.mul (.num 12) (.ein [.v,.r] (.t
    .Ge) [.w,.t] (.t .Gu) [.v,.p,.w,.s] (.conj (.t .lequ3))))) (.mul (.num 2) (.ein [.v,.p]
    (.conj (.t .Ge)) [.w,.r] (.t .Ge) [.v,.w,.s,.t] (.t .lu)))) (.mul (.num 2) (.ein [.v,.s]
    (.conj (.t .Gu)) [.w,.t] (.t .Gu) [.v,.w,.p,.r] (.t .qe)))) (.ein [.p,.v] (.t .Gammae)
    [.v,.r,.s,.t] (.t .eu) [] (.num 1))) (.ein [.s,.v] (.t .Gammau) [.p,.r,.v,.t] (.t .eu) []
    (.num 1))) (.ein [.p,.v,.s,.t] (.t .eu) [.v,.r] (.t .Gammae) [] (.num 1))) (.ein
    [.p,.r,.s,.v] (.t .eu) [.v,.t] (.t .Gammau) [] (.num 1)))

/-- /repo/wilson/run/smeft/beta.py lines 1291-1314 -/
def np_ed : E Key :=
  (.add (.add (.add (.add (.add (.add (.sub (.sub (.add (.add (.add (.sub (.mul (.mul (.div
    (.neg (.num 2)) (.num 3)) (.pow (.s .gp) 2)) (.sub (.add (.ein [.s,.t] (.t .phid) [.p,.r]
    .eye [] (.num 1)) (.mul (.num 2) (.add (.sub (.sub (.sub (.ein [.w,.w,.s,.t] (.t .qd1)
    [.p,.r] .eye [] (.num 1)) (.ein [.w,.w,.s,.t] (.t .ld) [.p,.r] .eye [] (.num 1))) (.mul
    (.num 2) (.ein [.w,.w,.s,.t] (.t .dd) [.p,.r] .eye [] (.num 1)))) (.ein [.w,.w,.s,.t] (.t
    .ed) [.p,.r] .eye [] (.num 1))) (.mul (.num 2) (.ein [.w,.w,.s,.t] (.t .ud1) [.p,.r] .eye
    [] (.num 1)))))) (.mul (.div (.num 4) (.num 3)) (.ein [.s,.w,.w,.t] (.t .dd) [.p,.r] .eye
    [] (.num 1))))) (.mul (.mul (.div (.num 2) (.num 9)) (.pow (.s .gp) 2)) (.add (.ein [.p,.r]
    (.t .phie) [.s,.t] .eye [] (.num 1)) (.mul (.num 2) (.add (.sub (.sub (.sub (.ein
    [.w,.w,.p,.r] (.t .qe) [.s,.t] .eye [] (.num 1)) (.ein [.w,.w,.p,.r] (.t .le) [.s,.t] .eye
    [] (.num 1))) (.mul (.num 4) (.ein [.p,.r,.w,.w] (.t .ee) [.s,.t] .eye [] (.num 1)))) (.ein
    [.p,.r,.w,.w] (.t .ed) [.s,.t] .eye [] (.num 1))) (.mul (.num 2) (.ein [.p,.r,.w,.w] (.t
    .eu) [.s,.t] .eye [] (.num 1)))))))) (.mul (.mul (.num 4) (.pow (.s .gp) 2)) (.ein
    [.p,.r,.s,.t] (.t .ed) [] (.num 1) [] (.num 1)))) (.mul (.num 2) (.ein [.p,.r] (.mat (.tr
    (.conj (.t .Ge))) (.t .Ge)) [.s,.t] (.t .phid) [] (.num 1)))) (.mul (.num 2) (.ein [.s,.t]
    (.mat (.tr (.conj (.t .Gd))) (.t .Gd)) [.p,.r] (.t .phie) [] (.num 1)))) (.mul (.num 2)
    (.ein [.v,.p] (.conj (.t .Ge)) [.w,.r] (.t .Ge) [.v,.w,.s,.t] (.t .ld)))) (.mul (.num 2)
    (.ein [.v,.s] (.conj (.t .Gd)) [.w,.t] (.t .Gd) [.v,.w,.p,.r] (.t .qe)))) (.ein [.v,.p]
    (.conj (.t .Ge)) [.w,.t] (.t .Gd) [.v,.r,.s,.w] (.t .ledq))) (.ein [.v,.r] (.t .Ge) [.w,.s]
    (.conj (.t .Gd)) [.v,.p,.t,.w] (.conj (.t .ledq)))) (.ein [.p,.v] (.t .Gammae)
    [.v,.r,.s,.t] (.t .ed) [] (.num 1))) (.ein [.s,.v] (.t .Gammad) [.p,.r,.v,.t] (.t .ed) []
    (.num 1))) (.ein [.p,.v,.s,.t] (.t .ed) [.v,.r] (.t .Gammae) [] (.num 1))) (.ein
    [.p,.r,.s,.v] (.t .ed) [.v,.t] (.t .Gammad) [] (.num 1)))

/-- /repo/wilson/run/smeft/beta.py lines 1317-1348 -/
def np_ud1 : E Key :=
  (.add (.add (.add (.add (.sub (.sub (.sub (.sub (.add (.add (.add (.add (.sub (.sub (.sub
    (.mul (.mul (.div (.num 4) (.num 9)) (.pow (.s .gp) 2)) (.sub (.add (.ein [.s,.t] (.t
    .phid) [.p,.r] .eye [] (.num 1)) (.mul (.num 2) (.sub (.add (.sub (.sub (.ein [.w,.w,.s,.t]
    (.t .qd1) [.p,.r] .eye [] (.num 1)) (.ein [.w,.w,.s,.t] (.t .ld) [.p,.r] .eye [] (.num 1)))
    (.mul (.num 2) (.ein [.w,.w,.s,.t] (.t .dd) [.p,.r] .eye [] (.num 1)))) (.mul (.num 2)
    (.ein [.w,.w,.s,.t] (.t .ud1) [.p,.r] .eye [] (.num 1)))) (.ein [.w,.w,.s,.t] (.t .ed)
    [.p,.r] .eye [] (.num 1))))) (.mul (.div (.num 4) (.num 3)) (.ein [.s,.w,.w,.t] (.t .dd)
    [.p,.r] .eye [] (.num 1))))) (.mul (.mul (.div (.num 2) (.num 9)) (.pow (.s .gp) 2)) (.add
    (.add (.ein [.p,.r] (.t .phiu) [.s,.t] .eye [] (.num 1)) (.mul (.num 2) (.sub (.sub (.add
    (.sub (.ein [.w,.w,.p,.r] (.t .qu1) [.s,.t] .eye [] (.num 1)) (.ein [.w,.w,.p,.r] (.t .lu)
    [.s,.t] .eye [] (.num 1))) (.mul (.num 4) (.ein [.w,.w,.p,.r] (.t .uu) [.s,.t] .eye []
    (.num 1)))) (.ein [.p,.r,.w,.w] (.t .ud1) [.s,.t] .eye [] (.num 1))) (.ein [.w,.w,.p,.r]
    (.t .eu) [.s,.t] .eye [] (.num 1))))) (.mul (.div (.num 8) (.num 3)) (.ein [.p,.w,.w,.r]
    (.t .uu) [.s,.t] .eye [] (.num 1)))))) (.mul (.div (.num 8) (.num 3)) (.sub (.mul (.pow (.s
    .gp) 2) (.ein [.p,.r,.s,.t] (.t .ud1) [] (.num 1) [] (.num 1))) (.mul (.pow (.s .gs) 2)
    (.ein [.p,.r,.s,.t] (.t .ud8) [] (.num 1) [] (.num 1)))))) (.mul (.num 2) (.ein [.p,.r]
    (.mat (.tr (.conj (.t .Gu))) (.t .Gu)) [.s,.t] (.t .phid) [] (.num 1)))) (.mul (.num 2)
    (.ein [.s,.t] (.mat (.tr (.conj (.t .Gd))) (.t .Gd)) [.p,.r] (.t .phiu) [] (.num 1))))
    (.mul (.div (.num 2) (.num 3)) (.ein [.s,.r] (.mat (.tr (.conj (.t .Gd))) (.t .Gu)) [.p,.t]
    (.t .phiud) [] (.num 1)))) (.mul (.div (.num 2) (.num 3)) (.ein [.p,.t] (.mat (.tr (.conj
    (.t .Gu))) (.t .Gd)) [.r,.s] (.conj (.t .phiud)) [] (.num 1)))) (.mul (.div (.num 1) (.num
    3)) (.add (.add (.add (.ein [.v,.s] (.conj (.t .Gd)) [.w,.p] (.conj (.t .Gu)) [.v,.r,.w,.t]
    (.t .quqd1)) (.mul (.div (.num 4) (.num 3)) (.ein [.v,.s] (.conj (.t .Gd)) [.w,.p] (.conj
    (.t .Gu)) [.v,.r,.w,.t] (.t .quqd8)))) (.ein [.v,.t] (.t .Gd) [.w,.r] (.t .Gu)
    [.v,.p,.w,.s] (.conj (.t .quqd1)))) (.mul (.div (.num 4) (.num 3)) (.ein [.v,.t] (.t .Gd)
    [.w,.r] (.t .Gu) [.v,.p,.w,.s] (.conj (.t .quqd8))))))) (.ein [.w,.s] (.conj (.t .Gd))
    [.v,.p] (.conj (.t .Gu)) [.v,.r,.w,.t] (.t .quqd1))) (.ein [.w,.t] (.t .Gd) [.v,.r] (.t
    .Gu) [.v,.p,.w,.s] (.conj (.t .quqd1)))) (.mul (.num 2) (.ein [.v,.p] (.conj (.t .Gu))
    [.w,.r] (.t .Gu) [.v,.w,.s,.t] (.t .qd1)))) (.mul (.num 2) (.ein [.v,.s] (.conj (.t .Gd))
    [.w,.t] (.t .Gd) [.v,.w,.p,.r] (.t .qu1)))) (.ein [.p,.v] (.t .Gammau) [.v,.r,.s,.t] (.t
    .ud1) [] (.num 1))) (.ein [.s,.v] (.t .Gammad) [.p,.r,.v,.t] (.t .ud1) [] (.num 1))) (.ein
    [.p,.v,.s,.t] (.t .ud1) [.v,.r] (.t .Gammau) [] (.num 1))) (.ein [.p,.r,.s,.v] (.t .ud1)
    [.v,.t] (.t .Gammad) [] (.num 1)))

/-- /repo/wilson/run/smeft/beta.py lines 1351-1373 -/
def np_ud8 : E Key :=
  (.add (.add (.add (.add (.sub (.sub (.sub (.add (.add (.add (.add (.sub (.add (.add (.add
    (.add (.add (.mul (.mul (.div (.num 8) (.num 3)) (.pow (.s .gs) 2)) (.ein [.p,.w,.w,.r] (.t
    .uu) [.s,.t] .eye [] (.num 1))) (.mul (.mul (.div (.num 8) (.num 3)) (.pow (.s .gs) 2))
    (.ein [.s,.w,.w,.t] (.t .dd) [.p,.r] .eye [] (.num 1)))) (.mul (.mul (.div (.num 4) (.num
    3)) (.pow (.s .gs) 2)) (.ein [.w,.w,.p,.r] (.t .qu8) [.s,.t] .eye [] (.num 1)))) (.mul
    (.mul (.div (.num 4) (.num 3)) (.pow (.s .gs) 2)) (.ein [.w,.w,.s,.t] (.t .qd8) [.p,.r]
    .eye [] (.num 1)))) (.mul (.mul (.div (.num 2) (.num 3)) (.pow (.s .gs) 2)) (.ein
    [.p,.r,.w,.w] (.t .ud8) [.s,.t] .eye [] (.num 1)))) (.mul (.mul (.div (.num 2) (.num 3))
    (.pow (.s .gs) 2)) (.ein [.w,.w,.s,.t] (.t .ud8) [.p,.r] .eye [] (.num 1)))) (.mul (.mul
    (.num 4) (.add (.mul (.div (.num 2) (.num 3)) (.pow (.s .gp) 2)) (.pow (.s .gs) 2))) (.ein
    [.p,.r,.s,.t] (.t .ud8) [] (.num 1) [] (.num 1)))) (.mul (.mul (.num 12) (.pow (.s .gs) 2))
    (.ein [.p,.r,.s,.t] (.t .ud1) [] (.num 1) [] (.num 1)))) (.mul (.num 4) (.ein [.s,.r] (.mat
    (.tr (.conj (.t .Gd))) (.t .Gu)) [.p,.t] (.t .phiud) [] (.num 1)))) (.mul (.num 4) (.ein
    [.p,.t] (.mat (.tr (.conj (.t .Gu))) (.t .Gd)) [.r,.s] (.conj (.t .phiud)) [] (.num 1))))
    (.mul (.num 2) (.sub (.add (.sub (.ein [.v,.s] (.conj (.t .Gd)) [.w,.p] (.conj (.t .Gu))
    [.v,.r,.w,.t] (.t .quqd1)) (.mul (.div (.num 1) (.num 6)) (.ein [.v,.s] (.conj (.t .Gd))
    [.w,.p] (.conj (.t .Gu)) [.v,.r,.w,.t] (.t .quqd8)))) (.ein [.v,.t] (.t .Gd) [.w,.r] (.t
    .Gu) [.v,.p,.w,.s] (.conj (.t .quqd1)))) (.mul (.div (.num 1) (.num 6)) (.ein [.v,.t] (.t
    .Gd) [.w,.r] (.t .Gu) [.v,.p,.w,.s] (.conj (.t .quqd8))))))) (.mul (.num 2) (.ein [.v,.p]
    (.conj (.t .Gu)) [.w,.r] (.t .Gu) [.v,.w,.s,.t] (.t .qd8)))) (.mul (.num 2) (.ein [.v,.s]
    (.conj (.t .Gd)) [.w,.t] (.t .Gd) [.v,.w,.p,.r] (.t .qu8)))) (.add (.ein [.w,.s] (.conj (.t
    .Gd)) [.v,.p] (.conj (.t .Gu)) [.v,.r,.w,.t] (.t .quqd8)) (.ein [.w,.t] (.t .Gd) [.v,.r]
    (.t .Gu) [.v,.p,.w,.s] (.conj (.t .quqd8))))) (.ein [.p,.v] (.t .Gammau) [.v,.r,.s,.t] (.t
    .ud8) [] (.num 1))) (.ein [.s,.v] (.t .Gammad) [.p,.r,.v,.t] (.t .ud8) [] (.num 1))) (.ein
    [.p,.v,.s,.t] (.t .ud8) [.v,.r] (.t .Gammau) [] (.num 1))) (.ein [.p,.r,.s,.v] (.t .ud8)
    [.v,.t] (.t .Gammad) [] (.num 1)))

/-- /repo/wilson/run/smeft/beta.py lines 1375-1401 -/
def np_le : E Key :=
  (.add (.add (.add (.add (.add (.sub (.sub (.add (.sub (.add (.sub (.add (.add (.sub (.add
    (.add (.sub (.add (.sub (.add (.add (.sub (.sub (.add (.add (.sub (.mul (.mul (.div (.neg
    (.num 1)) (.num 3)) (.pow (.s .gp) 2)) (.ein [.s,.t] (.t .phie) [.p,.r] .eye [] (.num 1)))
    (.mul (.mul (.div (.num 2) (.num 3)) (.pow (.s .gp) 2)) (.ein [.p,.r] (.t .phil1) [.s,.t]
    .eye [] (.num 1)))) (.mul (.mul (.div (.num 8) (.num 3)) (.pow (.s .gp) 2)) (.ein
    [.p,.r,.w,.w] (.t .ll) [.s,.t] .eye [] (.num 1)))) (.mul (.mul (.div (.num 4) (.num 3))
    (.pow (.s .gp) 2)) (.ein [.p,.w,.w,.r] (.t .ll) [.s,.t] .eye [] (.num 1)))) (.mul (.mul
    (.div (.num 4) (.num 3)) (.pow (.s .gp) 2)) (.ein [.p,.r,.w,.w] (.t .lq1) [.s,.t] .eye []
    (.num 1)))) (.mul (.mul (.div (.num 2) (.num 3)) (.pow (.s .gp) 2)) (.ein [.w,.w,.s,.t] (.t
    .qe) [.p,.r] .eye [] (.num 1)))) (.mul (.mul (.div (.num 4) (.num 3)) (.pow (.s .gp) 2))
    (.ein [.p,.r,.w,.w] (.t .le) [.s,.t] .eye [] (.num 1)))) (.mul (.mul (.div (.num 2) (.num
    3)) (.pow (.s .gp) 2)) (.ein [.w,.w,.s,.t] (.t .le) [.p,.r] .eye [] (.num 1)))) (.mul (.mul
    (.div (.num 8) (.num 3)) (.pow (.s .gp) 2)) (.ein [.p,.r,.w,.w] (.t .lu) [.s,.t] .eye []
    (.num 1)))) (.mul (.mul (.div (.num 4) (.num 3)) (.pow (.s .gp) 2)) (.ein [.p,.r,.w,.w] (.t
    .ld) [.s,.t] .eye [] (.num 1)))) (.mul (.mul (.div (.num 4) (.num 3)) (.pow (.s .gp) 2))
    (.ein [.s,.t,.w,.w] (.t .eu) [.p,.r] .eye [] (.num 1)))) (.mul (.mul (.div (.num 2) (.num
    3)) (.pow (.s .gp) 2)) (.ein [.s,.t,.w,.w] (.t .ed) [.p,.r] .eye [] (.num 1)))) (.mul (.mul
    (.div (.num 8) (.num 3)) (.pow (.s .gp) 2)) (.ein [.w,.w,.s,.t] (.t .ee) [.p,.r] .eye []
    (.num 1)))) (.mul (.mul (.num 6) (.pow (.s .gp) 2)) (.ein [.p,.r,.s,.t] (.t .le) [] (.num
    1) [] (.num 1)))) (.ein [.r,.s] (.conj (.t .Ge)) [.p,.t] (.t .Xie) [] (.num 1))) (.ein
    [.p,.t] (.t .Ge) [.r,.s] (.conj (.t .Xie)) [] (.num 1))) (.ein [.p,.r] (.mat (.t .Ge) (.tr
    (.conj (.t .Ge)))) [.s,.t] (.t .phie) [] (.num 1))) (.mul (.num 2) (.ein [.s,.t] (.mat (.tr
    (.conj (.t .Ge))) (.t .Ge)) [.p,.r] (.t .phil1) [] (.num 1)))) (.mul (.num 4) (.ein [.p,.v]
    (.t .Ge) [.r,.w] (.conj (.t .Ge)) [.v,.t,.s,.w] (.t .ee)))) (.ein [.p,.w] (.t .Ge) [.v,.s]
    (.conj (.t .Ge)) [.v,.r,.w,.t] (.t .le))) (.mul (.num 2) (.ein [.w,.t] (.t .Ge) [.v,.s]
    (.conj (.t .Ge)) [.p,.w,.v,.r] (.t .ll)))) (.mul (.num 4) (.ein [.w,.t] (.t .Ge) [.v,.s]
    (.conj (.t .Ge)) [.p,.r,.v,.w] (.t .ll)))) (.ein [.v,.t] (.t .Ge) [.r,.w] (.conj (.t .Ge))
    [.p,.v,.s,.w] (.t .le))) (.ein [.p,.v] (.t .Gammal) [.v,.r,.s,.t] (.t .le) [] (.num 1)))
    (.ein [.s,.v] (.t .Gammae) [.p,.r,.v,.t] (.t .le) [] (.num 1))) (.ein [.p,.v,.s,.t] (.t
    .le) [.v,.r] (.t .Gammal) [] (.num 1))) (.ein [.p,.r,.s,.v] (.t .le) [.v,.t] (.t .Gammae)
    [] (.num 1)))

/-- /repo/wilson/run/smeft/beta.py lines 1404-1430 -/
def np_lu : E Key :=
  (.add (.add (.add (.add (.sub (.sub (.sub (.sub (.sub (.sub (.add (.sub (.sub (.add (.add
    (.sub (.sub (.add (.add (.sub (.add (.sub (.sub (.add (.mul (.mul (.div (.neg (.num 1))
    (.num 3)) (.pow (.s .gp) 2)) (.ein [.s,.t] (.t .phiu) [.p,.r] .eye [] (.num 1))) (.mul
    (.mul (.div (.num 4) (.num 9)) (.pow (.s .gp) 2)) (.ein [.p,.r] (.t .phil1) [.s,.t] .eye []
    (.num 1)))) (.mul (.mul (.div (.num 16) (.num 9)) (.pow (.s .gp) 2)) (.ein [.p,.r,.w,.w]
    (.t .ll) [.s,.t] .eye [] (.num 1)))) (.mul (.mul (.div (.num 8) (.num 9)) (.pow (.s .gp)
    2)) (.ein [.p,.w,.w,.r] (.t .ll) [.s,.t] .eye [] (.num 1)))) (.mul (.mul (.div (.num 8)
    (.num 9)) (.pow (.s .gp) 2)) (.ein [.p,.r,.w,.w] (.t .lq1) [.s,.t] .eye [] (.num 1))))
    (.mul (.mul (.div (.num 2) (.num 3)) (.pow (.s .gp) 2)) (.ein [.w,.w,.s,.t] (.t .qu1)
    [.p,.r] .eye [] (.num 1)))) (.mul (.mul (.div (.num 16) (.num 9)) (.pow (.s .gp) 2)) (.ein
    [.p,.r,.w,.w] (.t .lu) [.s,.t] .eye [] (.num 1)))) (.mul (.mul (.div (.num 2) (.num 3))
    (.pow (.s .gp) 2)) (.ein [.w,.w,.s,.t] (.t .lu) [.p,.r] .eye [] (.num 1)))) (.mul (.mul
    (.div (.num 8) (.num 9)) (.pow (.s .gp) 2)) (.ein [.p,.r,.w,.w] (.t .ld) [.s,.t] .eye []
    (.num 1)))) (.mul (.mul (.div (.num 8) (.num 9)) (.pow (.s .gp) 2)) (.ein [.p,.r,.w,.w] (.t
    .le) [.s,.t] .eye [] (.num 1)))) (.mul (.mul (.div (.num 2) (.num 3)) (.pow (.s .gp) 2))
    (.ein [.s,.t,.w,.w] (.t .ud1) [.p,.r] .eye [] (.num 1)))) (.mul (.mul (.div (.num 2) (.num
    3)) (.pow (.s .gp) 2)) (.ein [.w,.w,.s,.t] (.t .eu) [.p,.r] .eye [] (.num 1)))) (.mul (.mul
    (.div (.num 8) (.num 3)) (.pow (.s .gp) 2)) (.ein [.s,.t,.w,.w] (.t .uu) [.p,.r] .eye []
    (.num 1)))) (.mul (.mul (.div (.num 8) (.num 9)) (.pow (.s .gp) 2)) (.ein [.s,.w,.w,.t] (.t
    .uu) [.p,.r] .eye [] (.num 1)))) (.mul (.mul (.num 4) (.pow (.s .gp) 2)) (.ein
    [.p,.r,.s,.t] (.t .lu) [] (.num 1) [] (.num 1)))) (.ein [.p,.r] (.mat (.t .Ge) (.tr (.conj
    (.t .Ge)))) [.s,.t] (.t .phiu) [] (.num 1))) (.mul (.num 2) (.ein [.s,.t] (.mat (.tr (.conj
    (.t .Gu))) (.t .Gu)) [.p,.r] (.t .phil1) [] (.num 1)))) (.mul (.div (.num 1) (.num 2))
    (.add (.ein [.r,.v] (.conj (.t .Ge)) [.w,.s] (.conj (.t .Gu)) [.p,.v,.w,.t] (.t .lequ1))
    (.mul (.num 12) (.ein [.r,.v] (.conj (.t .Ge)) [.w,.s] (.conj (.t .Gu)) [.p,.v,.w,.t] (.t
    .lequ3)))))) (.mul (.div (.num 1) (.num 2)) (.add (.ein [.p,.v] (.t .Ge) [.w,.t] (.t .Gu)
    [.r,.v,.w,.s] (.conj (.t .lequ1))) (.mul (.num 12) (.ein [.p,.v] (.t .Ge) [.w,.t] (.t .Gu)
    [.r,.v,.w,.s] (.conj (.t .lequ3))))))) (.mul (.num 2) (.ein [.v,.s] (.conj (.t .Gu))
    [.w,.t] (.t .Gu) [.p,.r,.v,.w] (.t .lq1)))) (.ein [.r,.w] (.conj (.t .Ge)) [.p,.v] (.t .Ge)
    [.v,.w,.s,.t] (.t .eu))) (.ein [.p,.v] (.t .Gammal) [.v,.r,.s,.t] (.t .lu) [] (.num 1)))
    (.ein [.s,.v] (.t .Gammau) [.p,.r,.v,.t] (.t .lu) [] (.num 1))) (.ein [.p,.v,.s,.t] (.t
    .lu) [.v,.r] (.t .Gammal) [] (.num 1))) (.ein [.p,.r,.s,.v] (.t .lu) [.v,.t] (.t .Gammau)
    [] (.num 1)))

/-- /repo/wilson/run/smeft/beta.py lines 1432-1456 -/
def np_ld : E Key :=
  (.add (.add (.add (.add (.sub (.sub (.sub (.sub (.add (.sub (.sub (.add (.add (.add (.sub
    (.add (.sub (.add (.add (.sub (.sub (.add (.add (.sub (.mul (.mul (.div (.neg (.num 1))
    (.num 3)) (.pow (.s .gp) 2)) (.ein [.s,.t] (.t .phid) [.p,.r] .eye [] (.num 1))) (.mul
    (.mul (.div (.num 2) (.num 9)) (.pow (.s .gp) 2)) (.ein [.p,.r] (.t .phil1) [.s,.t] .eye []
    (.num 1)))) (.mul (.mul (.div (.num 8) (.num 9)) (.pow (.s .gp) 2)) (.ein [.p,.r,.w,.w] (.t
    .ll) [.s,.t] .eye [] (.num 1)))) (.mul (.mul (.div (.num 4) (.num 9)) (.pow (.s .gp) 2))
    (.ein [.p,.w,.w,.r] (.t .ll) [.s,.t] .eye [] (.num 1)))) (.mul (.mul (.div (.num 4) (.num
    9)) (.pow (.s .gp) 2)) (.ein [.p,.r,.w,.w] (.t .lq1) [.s,.t] .eye [] (.num 1)))) (.mul
    (.mul (.div (.num 2) (.num 3)) (.pow (.s .gp) 2)) (.ein [.w,.w,.s,.t] (.t .qd1) [.p,.r]
    .eye [] (.num 1)))) (.mul (.mul (.div (.num 4) (.num 9)) (.pow (.s .gp) 2)) (.ein
    [.p,.r,.w,.w] (.t .ld) [.s,.t] .eye [] (.num 1)))) (.mul (.mul (.div (.num 2) (.num 3))
    (.pow (.s .gp) 2)) (.ein [.w,.w,.s,.t] (.t .ld) [.p,.r] .eye [] (.num 1)))) (.mul (.mul
    (.div (.num 8) (.num 9)) (.pow (.s .gp) 2)) (.ein [.p,.r,.w,.w] (.t .lu) [.s,.t] .eye []
    (.num 1)))) (.mul (.mul (.div (.num 4) (.num 9)) (.pow (.s .gp) 2)) (.ein [.p,.r,.w,.w] (.t
    .le) [.s,.t] .eye [] (.num 1)))) (.mul (.mul (.div (.num 4) (.num 3)) (.pow (.s .gp) 2))
    (.ein [.w,.w,.s,.t] (.t .ud1) [.p,.r] .eye [] (.num 1)))) (.mul (.mul (.div (.num 2) (.num
    3)) (.pow (.s .gp) 2)) (.ein [.w,.w,.s,.t] (.t .ed) [.p,.r] .eye [] (.num 1)))) (.mul (.mul
    (.div (.num 4) (.num 3)) (.pow (.s .gp) 2)) (.ein [.s,.t,.w,.w] (.t .dd) [.p,.r] .eye []
    (.num 1)))) (.mul (.mul (.div (.num 4) (.num 9)) (.pow (.s .gp) 2)) (.ein [.s,.w,.w,.t] (.t
    .dd) [.p,.r] .eye [] (.num 1)))) (.mul (.mul (.num 2) (.pow (.s .gp) 2)) (.ein
    [.p,.r,.s,.t] (.t .ld) [] (.num 1) [] (.num 1)))) (.ein [.p,.r] (.mat (.t .Ge) (.tr (.conj
    (.t .Ge)))) [.s,.t] (.t .phid) [] (.num 1))) (.mul (.num 2) (.ein [.s,.t] (.mat (.tr (.conj
    (.t .Gd))) (.t .Gd)) [.p,.r] (.t .phil1) [] (.num 1)))) (.mul (.div (.num 1) (.num 2))
    (.ein [.r,.v] (.conj (.t .Ge)) [.w,.t] (.t .Gd) [.p,.v,.s,.w] (.t .ledq)))) (.mul (.div
    (.num 1) (.num 2)) (.ein [.p,.v] (.t .Ge) [.w,.s] (.conj (.t .Gd)) [.r,.v,.t,.w] (.conj (.t
    .ledq))))) (.mul (.num 2) (.ein [.v,.s] (.conj (.t .Gd)) [.w,.t] (.t .Gd) [.p,.r,.v,.w] (.t
    .lq1)))) (.ein [.r,.w] (.conj (.t .Ge)) [.p,.v] (.t .Ge) [.v,.w,.s,.t] (.t .ed))) (.ein
    [.p,.v] (.t .Gammal) [.v,.r,.s,.t] (.t .ld) [] (.num 1))) (.ein [.s,.v] (.t .Gammad)
    [.p,.r,.v,.t] (.t .ld) [] (.num 1))) (.ein [.p,.v,.s,.t] (.t .ld) [.v,.r] (.t .Gammal) []
    (.num 1))) (.ein [.p,.r,.s,.v] (.t .ld) [.v,.t] (.t .Gammad) [] (.num 1)))

/-- /repo/wilson/run/smeft/beta.py lines 1458-1488 -/
def np_qe : E Key :=
  (.add (.add (.add (.add (.sub (.sub (.sub (.sub (.sub (.sub (.sub (.add (.sub (.add (.add
    (.sub (.sub (.add (.add (.sub (.add (.add (.sub (.add (.sub (.sub (.sub (.mul (.mul (.div
    (.num 1) (.num 9)) (.pow (.s .gp) 2)) (.ein [.s,.t] (.t .phie) [.p,.r] .eye [] (.num 1)))
    (.mul (.mul (.div (.num 2) (.num 3)) (.pow (.s .gp) 2)) (.ein [.p,.r] (.t .phiq1) [.s,.t]
    .eye [] (.num 1)))) (.mul (.mul (.div (.num 8) (.num 3)) (.pow (.s .gp) 2)) (.ein
    [.p,.r,.w,.w] (.t .qq1) [.s,.t] .eye [] (.num 1)))) (.mul (.mul (.div (.num 4) (.num 9))
    (.pow (.s .gp) 2)) (.add (.ein [.p,.w,.w,.r] (.t .qq1) [.s,.t] .eye [] (.num 1)) (.mul
    (.num 3) (.ein [.p,.w,.w,.r] (.t .qq3) [.s,.t] .eye [] (.num 1)))))) (.mul (.mul (.div
    (.num 4) (.num 3)) (.pow (.s .gp) 2)) (.ein [.w,.w,.p,.r] (.t .lq1) [.s,.t] .eye [] (.num
    1)))) (.mul (.mul (.div (.num 2) (.num 9)) (.pow (.s .gp) 2)) (.ein [.w,.w,.s,.t] (.t .le)
    [.p,.r] .eye [] (.num 1)))) (.mul (.mul (.div (.num 4) (.num 3)) (.pow (.s .gp) 2)) (.ein
    [.p,.r,.w,.w] (.t .qe) [.s,.t] .eye [] (.num 1)))) (.mul (.mul (.div (.num 2) (.num 9))
    (.pow (.s .gp) 2)) (.ein [.w,.w,.s,.t] (.t .qe) [.p,.r] .eye [] (.num 1)))) (.mul (.mul
    (.div (.num 8) (.num 3)) (.pow (.s .gp) 2)) (.ein [.p,.r,.w,.w] (.t .qu1) [.s,.t] .eye []
    (.num 1)))) (.mul (.mul (.div (.num 4) (.num 3)) (.pow (.s .gp) 2)) (.ein [.p,.r,.w,.w] (.t
    .qd1) [.s,.t] .eye [] (.num 1)))) (.mul (.mul (.div (.num 4) (.num 9)) (.pow (.s .gp) 2))
    (.ein [.s,.t,.w,.w] (.t .eu) [.p,.r] .eye [] (.num 1)))) (.mul (.mul (.div (.num 2) (.num
    9)) (.pow (.s .gp) 2)) (.ein [.s,.t,.w,.w] (.t .ed) [.p,.r] .eye [] (.num 1)))) (.mul (.mul
    (.div (.num 8) (.num 9)) (.pow (.s .gp) 2)) (.ein [.w,.w,.s,.t] (.t .ee) [.p,.r] .eye []
    (.num 1)))) (.mul (.mul (.num 2) (.pow (.s .gp) 2)) (.ein [.p,.r,.s,.t] (.t .qe) [] (.num
    1) [] (.num 1)))) (.ein [.p,.r] (.mat (.t .Gu) (.tr (.conj (.t .Gu)))) [.s,.t] (.t .phie)
    [] (.num 1))) (.ein [.p,.r] (.mat (.t .Gd) (.tr (.conj (.t .Gd)))) [.s,.t] (.t .phie) []
    (.num 1))) (.mul (.num 2) (.ein [.s,.t] (.mat (.tr (.conj (.t .Ge))) (.t .Ge)) [.p,.r] (.t
    .phiq1) [] (.num 1)))) (.mul (.div (.num 1) (.num 2)) (.ein [.p,.w] (.t .Gd) [.v,.s] (.conj
    (.t .Ge)) [.v,.t,.w,.r] (.t .ledq)))) (.mul (.div (.num 1) (.num 2)) (.ein [.v,.t] (.t .Ge)
    [.r,.w] (.conj (.t .Gd)) [.v,.s,.w,.p] (.conj (.t .ledq))))) (.mul (.num 2) (.ein [.v,.s]
    (.conj (.t .Ge)) [.w,.t] (.t .Ge) [.v,.w,.p,.r] (.t .lq1)))) (.mul (.div (.num 1) (.num 2))
    (.add (.ein [.r,.w] (.conj (.t .Gu)) [.v,.s] (.conj (.t .Ge)) [.v,.t,.p,.w] (.t .lequ1))
    (.mul (.num 12) (.ein [.r,.w] (.conj (.t .Gu)) [.v,.s] (.conj (.t .Ge)) [.v,.t,.p,.w] (.t
    .lequ3)))))) (.mul (.div (.num 1) (.num 2)) (.add (.ein [.p,.w] (.t .Gu) [.v,.t] (.t .Ge)
    [.v,.s,.r,.w] (.conj (.t .lequ1))) (.mul (.num 12) (.ein [.p,.w] (.t .Gu) [.v,.t] (.t .Ge)
    [.v,.s,.r,.w] (.conj (.t .lequ3))))))) (.ein [.r,.w] (.conj (.t .Gd)) [.p,.v] (.t .Gd)
    [.s,.t,.v,.w] (.t .ed))) (.ein [.r,.w] (.conj (.t .Gu)) [.p,.v] (.t .Gu) [.s,.t,.v,.w] (.t
    .eu))) (.ein [.p,.v] (.t .Gammaq) [.v,.r,.s,.t] (.t .qe) [] (.num 1))) (.ein [.s,.v] (.t
    .Gammae) [.p,.r,.v,.t] (.t .qe) [] (.num 1))) (.ein [.p,.v,.s,.t] (.t .qe) [.v,.r] (.t
    .Gammaq) [] (.num 1))) (.ein [.p,.r,.s,.v] (.t .qe) [.v,.t] (.t .Gammae) [] (.num 1)))

/-- /repo/wilson/run/smeft/beta.py lines 1490-1531 -/
def np_qu1 : E Key :=
  (.add (.add (.add (.add (.sub (.sub (.sub (.sub (.sub (.add (.add (.add (.add (.add (.add
    (.sub (.sub (.add (.add (.add (.sub (.sub (.add (.add (.sub (.sub (.sub (.add (.add (.sub
    (.sub (.sub (.add (.add (.add (.mul (.mul (.div (.num 1) (.num 9)) (.pow (.s .gp) 2)) (.ein
    [.s,.t] (.t .phiu) [.p,.r] .eye [] (.num 1))) (.mul (.mul (.div (.num 4) (.num 9)) (.pow
    (.s .gp) 2)) (.ein [.p,.r] (.t .phiq1) [.s,.t] .eye [] (.num 1)))) (.mul (.mul (.div (.num
    16) (.num 9)) (.pow (.s .gp) 2)) (.ein [.p,.r,.w,.w] (.t .qq1) [.s,.t] .eye [] (.num 1))))
    (.mul (.mul (.div (.num 8) (.num 27)) (.pow (.s .gp) 2)) (.add (.ein [.p,.w,.w,.r] (.t
    .qq1) [.s,.t] .eye [] (.num 1)) (.mul (.num 3) (.ein [.p,.w,.w,.r] (.t .qq3) [.s,.t] .eye
    [] (.num 1)))))) (.mul (.mul (.div (.num 8) (.num 9)) (.pow (.s .gp) 2)) (.ein
    [.w,.w,.p,.r] (.t .lq1) [.s,.t] .eye [] (.num 1)))) (.mul (.mul (.div (.num 8) (.num 9))
    (.pow (.s .gp) 2)) (.ein [.p,.r,.w,.w] (.t .qe) [.s,.t] .eye [] (.num 1)))) (.mul (.mul
    (.div (.num 8) (.num 9)) (.pow (.s .gp) 2)) (.ein [.p,.r,.w,.w] (.t .qd1) [.s,.t] .eye []
    (.num 1)))) (.mul (.mul (.div (.num 16) (.num 9)) (.pow (.s .gp) 2)) (.ein [.p,.r,.w,.w]
    (.t .qu1) [.s,.t] .eye [] (.num 1)))) (.mul (.mul (.div (.num 2) (.num 9)) (.pow (.s .gp)
    2)) (.ein [.w,.w,.s,.t] (.t .qu1) [.p,.r] .eye [] (.num 1)))) (.mul (.mul (.div (.num 2)
    (.num 9)) (.pow (.s .gp) 2)) (.ein [.w,.w,.s,.t] (.t .lu) [.p,.r] .eye [] (.num 1)))) (.mul
    (.mul (.div (.num 2) (.num 9)) (.pow (.s .gp) 2)) (.ein [.w,.w,.s,.t] (.t .eu) [.p,.r] .eye
    [] (.num 1)))) (.mul (.mul (.div (.num 2) (.num 9)) (.pow (.s .gp) 2)) (.ein [.s,.t,.w,.w]
    (.t .ud1) [.p,.r] .eye [] (.num 1)))) (.mul (.mul (.div (.num 8) (.num 9)) (.pow (.s .gp)
    2)) (.ein [.s,.t,.w,.w] (.t .uu) [.p,.r] .eye [] (.num 1)))) (.mul (.mul (.div (.num 8)
    (.num 27)) (.pow (.s .gp) 2)) (.ein [.s,.w,.w,.t] (.t .uu) [.p,.r] .eye [] (.num 1))))
    (.mul (.mul (.div (.num 4) (.num 3)) (.pow (.s .gp) 2)) (.ein [.p,.r,.s,.t] (.t .qu1) []
    (.num 1) [] (.num 1)))) (.mul (.mul (.div (.num 8) (.num 3)) (.pow (.s .gs) 2)) (.ein
    [.p,.r,.s,.t] (.t .qu8) [] (.num 1) [] (.num 1)))) (.mul (.div (.num 1) (.num 3)) (.ein
    [.r,.s] (.conj (.t .Gu)) [.p,.t] (.t .Xiu) [] (.num 1)))) (.mul (.div (.num 1) (.num 3))
    (.ein [.p,.t] (.t .Gu) [.r,.s] (.conj (.t .Xiu)) [] (.num 1)))) (.ein [.p,.r] (.mat (.t
    .Gu) (.tr (.conj (.t .Gu)))) [.s,.t] (.t .phiu) [] (.num 1))) (.ein [.p,.r] (.mat (.t .Gd)
    (.tr (.conj (.t .Gd)))) [.s,.t] (.t .phiu) [] (.num 1))) (.mul (.num 2) (.ein [.s,.t] (.mat
    (.tr (.conj (.t .Gu))) (.t .Gu)) [.p,.r] (.t .phiq1) [] (.num 1)))) (.mul (.div (.num 1)
    (.num 3)) (.add (.ein [.p,.w] (.t .Gu) [.v,.s] (.conj (.t .Gu)) [.v,.r,.w,.t] (.t .qu1))
    (.mul (.div (.num 4) (.num 3)) (.ein [.p,.w] (.t .Gu) [.v,.s] (.conj (.t .Gu))
    [.v,.r,.w,.t] (.t .qu8)))))) (.mul (.div (.num 1) (.num 3)) (.add (.ein [.v,.t] (.t .Gu)
    [.r,.w] (.conj (.t .Gu)) [.p,.v,.s,.w] (.t .qu1)) (.mul (.div (.num 4) (.num 3)) (.ein
    [.v,.t] (.t .Gu) [.r,.w] (.conj (.t .Gu)) [.p,.v,.s,.w] (.t .qu8)))))) (.mul (.div (.num 1)
    (.num 3)) (.add (.ein [.r,.w] (.conj (.t .Gd)) [.v,.s] (.conj (.t .Gu)) [.p,.t,.v,.w] (.t
    .quqd1)) (.mul (.div (.num 4) (.num 3)) (.ein [.r,.w] (.conj (.t .Gd)) [.v,.s] (.conj (.t
    .Gu)) [.p,.t,.v,.w] (.t .quqd8)))))) (.mul (.div (.num 1) (.num 3)) (.add (.ein [.p,.w] (.t
    .Gd) [.v,.t] (.t .Gu) [.r,.s,.v,.w] (.conj (.t .quqd1))) (.mul (.div (.num 4) (.num 3))
    (.ein [.p,.w] (.t .Gd) [.v,.t] (.t .Gu) [.r,.s,.v,.w] (.conj (.t .quqd8))))))) (.mul (.div
    (.num 1) (.num 2)) (.ein [.r,.w] (.conj (.t .Gd)) [.v,.s] (.conj (.t .Gu)) [.v,.t,.p,.w]
    (.t .quqd1)))) (.mul (.div (.num 1) (.num 2)) (.ein [.p,.w] (.t .Gd) [.v,.t] (.t .Gu)
    [.v,.s,.r,.w] (.conj (.t .quqd1))))) (.mul (.div (.num 2) (.num 3)) (.add (.ein [.v,.t] (.t
    .Gu) [.w,.s] (.conj (.t .Gu)) [.p,.v,.w,.r] (.t .qq1)) (.mul (.num 3) (.ein [.v,.t] (.t
    .Gu) [.w,.s] (.conj (.t .Gu)) [.p,.v,.w,.r] (.t .qq3)))))) (.mul (.num 4) (.ein [.w,.t] (.t
    .Gu) [.v,.s] (.conj (.t .Gu)) [.p,.r,.v,.w] (.t .qq1)))) (.mul (.div (.num 2) (.num 3))
    (.ein [.p,.v] (.t .Gu) [.r,.w] (.conj (.t .Gu)) [.v,.t,.s,.w] (.t .uu)))) (.mul (.num 2)
    (.ein [.p,.v] (.t .Gu) [.r,.w] (.conj (.t .Gu)) [.v,.w,.s,.t] (.t .uu)))) (.ein [.p,.v] (.t
    .Gd) [.r,.w] (.conj (.t .Gd)) [.s,.t,.v,.w] (.t .ud1))) (.ein [.p,.v] (.t .Gammaq)
    [.v,.r,.s,.t] (.t .qu1) [] (.num 1))) (.ein [.s,.v] (.t .Gammau) [.p,.r,.v,.t] (.t .qu1) []
    (.num 1))) (.ein [.p,.v,.s,.t] (.t .qu1) [.v,.r] (.t .Gammaq) [] (.num 1))) (.ein
    [.p,.r,.s,.v] (.t .qu1) [.v,.t] (.t .Gammau) [] (.num 1)))

/-- /repo/wilson/run/smeft/beta.py lines 1533-1574 -/
def np_qd1 : E Key :=
  (.add (.add (.add (.add (.sub (.sub (.sub (.sub (.sub (.add (.add (.add (.add (.add (.add
    (.add (.sub (.add (.add (.add (.sub (.add (.sub (.sub (.add (.sub (.sub (.add (.add (.sub
    (.add (.add (.sub (.sub (.sub (.mul (.mul (.div (.num 1) (.num 9)) (.pow (.s .gp) 2)) (.ein
    [.s,.t] (.t .phid) [.p,.r] .eye [] (.num 1))) (.mul (.mul (.div (.num 2) (.num 9)) (.pow
    (.s .gp) 2)) (.ein [.p,.r] (.t .phiq1) [.s,.t] .eye [] (.num 1)))) (.mul (.mul (.div (.num
    8) (.num 9)) (.pow (.s .gp) 2)) (.ein [.p,.r,.w,.w] (.t .qq1) [.s,.t] .eye [] (.num 1))))
    (.mul (.mul (.div (.num 4) (.num 27)) (.pow (.s .gp) 2)) (.add (.ein [.p,.w,.w,.r] (.t
    .qq1) [.s,.t] .eye [] (.num 1)) (.mul (.num 3) (.ein [.p,.w,.w,.r] (.t .qq3) [.s,.t] .eye
    [] (.num 1)))))) (.mul (.mul (.div (.num 4) (.num 9)) (.pow (.s .gp) 2)) (.ein
    [.w,.w,.p,.r] (.t .lq1) [.s,.t] .eye [] (.num 1)))) (.mul (.mul (.div (.num 4) (.num 9))
    (.pow (.s .gp) 2)) (.ein [.p,.r,.w,.w] (.t .qe) [.s,.t] .eye [] (.num 1)))) (.mul (.mul
    (.div (.num 8) (.num 9)) (.pow (.s .gp) 2)) (.ein [.p,.r,.w,.w] (.t .qu1) [.s,.t] .eye []
    (.num 1)))) (.mul (.mul (.div (.num 4) (.num 9)) (.pow (.s .gp) 2)) (.ein [.p,.r,.w,.w] (.t
    .qd1) [.s,.t] .eye [] (.num 1)))) (.mul (.mul (.div (.num 2) (.num 9)) (.pow (.s .gp) 2))
    (.ein [.w,.w,.s,.t] (.t .qd1) [.p,.r] .eye [] (.num 1)))) (.mul (.mul (.div (.num 2) (.num
    9)) (.pow (.s .gp) 2)) (.ein [.w,.w,.s,.t] (.t .ld) [.p,.r] .eye [] (.num 1)))) (.mul (.mul
    (.div (.num 2) (.num 9)) (.pow (.s .gp) 2)) (.ein [.w,.w,.s,.t] (.t .ed) [.p,.r] .eye []
    (.num 1)))) (.mul (.mul (.div (.num 4) (.num 9)) (.pow (.s .gp) 2)) (.ein [.w,.w,.s,.t] (.t
    .ud1) [.p,.r] .eye [] (.num 1)))) (.mul (.mul (.div (.num 4) (.num 9)) (.pow (.s .gp) 2))
    (.ein [.s,.t,.w,.w] (.t .dd) [.p,.r] .eye [] (.num 1)))) (.mul (.mul (.div (.num 4) (.num
    27)) (.pow (.s .gp) 2)) (.ein [.s,.w,.w,.t] (.t .dd) [.p,.r] .eye [] (.num 1)))) (.mul
    (.mul (.div (.num 2) (.num 3)) (.pow (.s .gp) 2)) (.ein [.p,.r,.s,.t] (.t .qd1) [] (.num 1)
    [] (.num 1)))) (.mul (.mul (.div (.num 8) (.num 3)) (.pow (.s .gs) 2)) (.ein [.p,.r,.s,.t]
    (.t .qd8) [] (.num 1) [] (.num 1)))) (.mul (.div (.num 1) (.num 3)) (.ein [.r,.s] (.conj
    (.t .Gd)) [.p,.t] (.t .Xid) [] (.num 1)))) (.mul (.div (.num 1) (.num 3)) (.ein [.p,.t] (.t
    .Gd) [.r,.s] (.conj (.t .Xid)) [] (.num 1)))) (.ein [.p,.r] (.mat (.t .Gu) (.tr (.conj (.t
    .Gu)))) [.s,.t] (.t .phid) [] (.num 1))) (.ein [.p,.r] (.mat (.t .Gd) (.tr (.conj (.t
    .Gd)))) [.s,.t] (.t .phid) [] (.num 1))) (.mul (.num 2) (.ein [.s,.t] (.mat (.tr (.conj (.t
    .Gd))) (.t .Gd)) [.p,.r] (.t .phiq1) [] (.num 1)))) (.mul (.div (.num 1) (.num 3)) (.add
    (.ein [.p,.w] (.t .Gd) [.v,.s] (.conj (.t .Gd)) [.v,.r,.w,.t] (.t .qd1)) (.mul (.div (.num
    4) (.num 3)) (.ein [.p,.w] (.t .Gd) [.v,.s] (.conj (.t .Gd)) [.v,.r,.w,.t] (.t .qd8))))))
    (.mul (.div (.num 1) (.num 3)) (.add (.ein [.v,.t] (.t .Gd) [.r,.w] (.conj (.t .Gd))
    [.p,.v,.s,.w] (.t .qd1)) (.mul (.div (.num 4) (.num 3)) (.ein [.v,.t] (.t .Gd) [.r,.w]
    (.conj (.t .Gd)) [.p,.v,.s,.w] (.t .qd8)))))) (.mul (.div (.num 1) (.num 3)) (.add (.ein
    [.r,.w] (.conj (.t .Gu)) [.v,.s] (.conj (.t .Gd)) [.v,.w,.p,.t] (.t .quqd1)) (.mul (.div
    (.num 4) (.num 3)) (.ein [.r,.w] (.conj (.t .Gu)) [.v,.s] (.conj (.t .Gd)) [.v,.w,.p,.t]
    (.t .quqd8)))))) (.mul (.div (.num 1) (.num 3)) (.add (.ein [.p,.w] (.t .Gu) [.v,.t] (.t
    .Gd) [.v,.w,.r,.s] (.conj (.t .quqd1))) (.mul (.div (.num 4) (.num 3)) (.ein [.p,.w] (.t
    .Gu) [.v,.t] (.t .Gd) [.v,.w,.r,.s] (.conj (.t .quqd8))))))) (.mul (.div (.num 1) (.num 2))
    (.ein [.w,.s] (.conj (.t .Gd)) [.r,.v] (.conj (.t .Gu)) [.p,.v,.w,.t] (.t .quqd1)))) (.mul
    (.div (.num 1) (.num 2)) (.ein [.p,.v] (.t .Gu) [.w,.t] (.t .Gd) [.r,.v,.w,.s] (.conj (.t
    .quqd1))))) (.mul (.div (.num 2) (.num 3)) (.add (.ein [.v,.t] (.t .Gd) [.w,.s] (.conj (.t
    .Gd)) [.p,.v,.w,.r] (.t .qq1)) (.mul (.num 3) (.ein [.v,.t] (.t .Gd) [.w,.s] (.conj (.t
    .Gd)) [.p,.v,.w,.r] (.t .qq3)))))) (.mul (.num 4) (.ein [.w,.t] (.t .Gd) [.v,.s] (.conj (.t
    .Gd)) [.p,.r,.v,.w] (.t .qq1)))) (.mul (.div (.num 2) (.num 3)) (.ein [.p,.v] (.t .Gd)
    [.r,.w] (.conj (.t .Gd)) [.v,.t,.s,.w] (.t .dd)))) (.mul (.num 2) (.ein [.p,.v] (.t .Gd)
    [.r,.w] (.conj (.t .Gd)) [.v,.w,.s,.t] (.t .dd)))) (.ein [.p,.v] (.t .Gu) [.r,.w] (.conj
    (.t .Gu)) [.v,.w,.s,.t] (.t .ud1))) (.ein [.p,.v] (.t .Gammaq) [.v,.r,.s,.t] (.t .qd1) []
    (.num 1))) (.ein [.s,.v] (.t .Gammad) [.p,.r,.v,.t] (.t .qd1) [] (.num 1))) (.ein
    [.p,.v,.s,.t] (.t .qd1) [.v,.r] (.t .Gammaq) [] (.num 1))) (.ein [.p,.r,.s,.v] (.t .qd1)
    [.v,.t] (.t .Gammad) [] (.num 1)))

/-- /repo/wilson/run/smeft/beta.py lines 1576-1605 -/
def np_qu8 : E Key :=
  (.add (.add (.add (.add (.sub (.sub (.sub (.add (.add (.add (.add (.add (.add (.add (.add
    (.sub (.sub (.add (.add (.add (.add (.add (.mul (.mul (.div (.num 8) (.num 3)) (.pow (.s
    .gs) 2)) (.add (.ein [.p,.w,.w,.r] (.t .qq1) [.s,.t] .eye [] (.num 1)) (.mul (.num 3) (.ein
    [.p,.w,.w,.r] (.t .qq3) [.s,.t] .eye [] (.num 1))))) (.mul (.mul (.div (.num 2) (.num 3))
    (.pow (.s .gs) 2)) (.ein [.p,.r,.w,.w] (.t .qu8) [.s,.t] .eye [] (.num 1)))) (.mul (.mul
    (.div (.num 2) (.num 3)) (.pow (.s .gs) 2)) (.ein [.p,.r,.w,.w] (.t .qd8) [.s,.t] .eye []
    (.num 1)))) (.mul (.mul (.div (.num 4) (.num 3)) (.pow (.s .gs) 2)) (.ein [.w,.w,.s,.t] (.t
    .qu8) [.p,.r] .eye [] (.num 1)))) (.mul (.mul (.div (.num 2) (.num 3)) (.pow (.s .gs) 2))
    (.ein [.s,.t,.w,.w] (.t .ud8) [.p,.r] .eye [] (.num 1)))) (.mul (.mul (.div (.num 8) (.num
    3)) (.pow (.s .gs) 2)) (.ein [.s,.w,.w,.t] (.t .uu) [.p,.r] .eye [] (.num 1)))) (.mul (.add
    (.mul (.div (.num 4) (.num 3)) (.pow (.s .gp) 2)) (.mul (.num 14) (.pow (.s .gs) 2))) (.ein
    [.p,.r,.s,.t] (.t .qu8) [] (.num 1) [] (.num 1)))) (.mul (.mul (.num 12) (.pow (.s .gs) 2))
    (.ein [.p,.r,.s,.t] (.t .qu1) [] (.num 1) [] (.num 1)))) (.mul (.num 2) (.ein [.r,.s]
    (.conj (.t .Gu)) [.p,.t] (.t .Xiu) [] (.num 1)))) (.mul (.num 2) (.ein [.p,.t] (.t .Gu)
    [.r,.s] (.conj (.t .Xiu)) [] (.num 1)))) (.mul (.num 2) (.sub (.ein [.p,.w] (.t .Gu)
    [.v,.s] (.conj (.t .Gu)) [.v,.r,.w,.t] (.t .qu1)) (.mul (.div (.num 1) (.num 6)) (.ein
    [.p,.w] (.t .Gu) [.v,.s] (.conj (.t .Gu)) [.v,.r,.w,.t] (.t .qu8)))))) (.mul (.num 2) (.sub
    (.ein [.v,.t] (.t .Gu) [.r,.w] (.conj (.t .Gu)) [.p,.v,.s,.w] (.t .qu1)) (.mul (.div (.num
    1) (.num 6)) (.ein [.v,.t] (.t .Gu) [.r,.w] (.conj (.t .Gu)) [.p,.v,.s,.w] (.t .qu8))))))
    (.mul (.num 2) (.sub (.ein [.r,.w] (.conj (.t .Gd)) [.v,.s] (.conj (.t .Gu)) [.p,.t,.v,.w]
    (.t .quqd1)) (.mul (.div (.num 1) (.num 6)) (.ein [.r,.w] (.conj (.t .Gd)) [.v,.s] (.conj
    (.t .Gu)) [.p,.t,.v,.w] (.t .quqd8)))))) (.mul (.num 2) (.sub (.ein [.p,.w] (.t .Gd)
    [.v,.t] (.t .Gu) [.r,.s,.v,.w] (.conj (.t .quqd1))) (.mul (.div (.num 1) (.num 6)) (.ein
    [.p,.w] (.t .Gd) [.v,.t] (.t .Gu) [.r,.s,.v,.w] (.conj (.t .quqd8))))))) (.mul (.div (.num
    1) (.num 2)) (.ein [.v,.s] (.conj (.t .Gu)) [.r,.w] (.conj (.t .Gd)) [.v,.t,.p,.w] (.t
    .quqd8)))) (.mul (.div (.num 1) (.num 2)) (.ein [.v,.t] (.t .Gu) [.p,.w] (.t .Gd)
    [.v,.s,.r,.w] (.conj (.t .quqd8))))) (.mul (.num 4) (.add (.ein [.v,.t] (.t .Gu) [.w,.s]
    (.conj (.t .Gu)) [.p,.v,.w,.r] (.t .qq1)) (.mul (.num 3) (.ein [.v,.t] (.t .Gu) [.w,.s]
    (.conj (.t .Gu)) [.p,.v,.w,.r] (.t .qq3)))))) (.mul (.num 4) (.ein [.p,.v] (.t .Gu) [.r,.w]
    (.conj (.t .Gu)) [.v,.t,.s,.w] (.t .uu)))) (.ein [.p,.v] (.t .Gd) [.r,.w] (.conj (.t .Gd))
    [.s,.t,.v,.w] (.t .ud8))) (.ein [.p,.v] (.t .Gammaq) [.v,.r,.s,.t] (.t .qu8) [] (.num 1)))
    (.ein [.s,.v] (.t .Gammau) [.p,.r,.v,.t] (.t .qu8) [] (.num 1))) (.ein [.p,.v,.s,.t] (.t
    .qu8) [.v,.r] (.t .Gammaq) [] (.num 1))) (.ein [.p,.r,.s,.v] (.t .qu8) [.v,.t] (.t .Gammau)
    [] (.num 1)))

/-- /repo/wilson/run/smeft/beta.py lines 1607-1636 -/
def np_qd8 : E Key :=
  (.add (.add (.add (.add (.sub (.sub (.sub (.add (.add (.add (.add (.add (.add (.add (.add
    (.sub (.sub (.add (.add (.add (.add (.add (.mul (.mul (.div (.num 8) (.num 3)) (.pow (.s
    .gs) 2)) (.add (.ein [.p,.w,.w,.r] (.t .qq1) [.s,.t] .eye [] (.num 1)) (.mul (.num 3) (.ein
    [.p,.w,.w,.r] (.t .qq3) [.s,.t] .eye [] (.num 1))))) (.mul (.mul (.div (.num 2) (.num 3))
    (.pow (.s .gs) 2)) (.ein [.p,.r,.w,.w] (.t .qu8) [.s,.t] .eye [] (.num 1)))) (.mul (.mul
    (.div (.num 2) (.num 3)) (.pow (.s .gs) 2)) (.ein [.p,.r,.w,.w] (.t .qd8) [.s,.t] .eye []
    (.num 1)))) (.mul (.mul (.div (.num 4) (.num 3)) (.pow (.s .gs) 2)) (.ein [.w,.w,.s,.t] (.t
    .qd8) [.p,.r] .eye [] (.num 1)))) (.mul (.mul (.div (.num 2) (.num 3)) (.pow (.s .gs) 2))
    (.ein [.w,.w,.s,.t] (.t .ud8) [.p,.r] .eye [] (.num 1)))) (.mul (.mul (.div (.num 8) (.num
    3)) (.pow (.s .gs) 2)) (.ein [.s,.w,.w,.t] (.t .dd) [.p,.r] .eye [] (.num 1)))) (.mul (.add
    (.mul (.div (.neg (.num 2)) (.num 3)) (.pow (.s .gp) 2)) (.mul (.num 14) (.pow (.s .gs)
    2))) (.ein [.p,.r,.s,.t] (.t .qd8) [] (.num 1) [] (.num 1)))) (.mul (.mul (.num 12) (.pow
    (.s .gs) 2)) (.ein [.p,.r,.s,.t] (.t .qd1) [] (.num 1) [] (.num 1)))) (.mul (.num 2) (.ein
    [.r,.s] (.conj (.t .Gd)) [.p,.t] (.t .Xid) [] (.num 1)))) (.mul (.num 2) (.ein [.p,.t] (.t
    .Gd) [.r,.s] (.conj (.t .Xid)) [] (.num 1)))) (.mul (.num 2) (.sub (.ein [.p,.w] (.t .Gd)
    [.v,.s] (.conj (.t .Gd)) [.v,.r,.w,.t] (.t .qd1)) (.mul (.div (.num 1) (.num 6)) (.ein
    [.p,.w] (.t .Gd) [.v,.s] (.conj (.t .Gd)) [.v,.r,.w,.t] (.t .qd8)))))) (.mul (.num 2) (.sub
    (.ein [.v,.t] (.t .Gd) [.r,.w] (.conj (.t .Gd)) [.p,.v,.s,.w] (.t .qd1)) (.mul (.div (.num
    1) (.num 6)) (.ein [.v,.t] (.t .Gd) [.r,.w] (.conj (.t .Gd)) [.p,.v,.s,.w] (.t .qd8))))))
    (.mul (.num 2) (.sub (.ein [.r,.w] (.conj (.t .Gu)) [.v,.s] (.conj (.t .Gd)) [.v,.w,.p,.t]
    (.t .quqd1)) (.mul (.div (.num 1) (.num 6)) (.ein [.r,.w] (.conj (.t .Gu)) [.v,.s] (.conj
    (.t .Gd)) [.v,.w,.p,.t] (.t .quqd8)))))) (.mul (.num 2) (.sub (.ein [.p,.w] (.t .Gu)
    [.v,.t] (.t .Gd) [.v,.w,.r,.s] (.conj (.t .quqd1))) (.mul (.div (.num 1) (.num 6)) (.ein
    [.p,.w] (.t .Gu) [.v,.t] (.t .Gd) [.v,.w,.r,.s] (.conj (.t .quqd8))))))) (.mul (.div (.num
    1) (.num 2)) (.ein [.v,.s] (.conj (.t .Gd)) [.r,.w] (.conj (.t .Gu)) [.p,.w,.v,.t] (.t
    .quqd8)))) (.mul (.div (.num 1) (.num 2)) (.ein [.v,.t] (.t .Gd) [.p,.w] (.t .Gu)
    [.r,.w,.v,.s] (.conj (.t .quqd8))))) (.mul (.num 4) (.add (.ein [.v,.t] (.t .Gd) [.w,.s]
    (.conj (.t .Gd)) [.p,.v,.w,.r] (.t .qq1)) (.mul (.num 3) (.ein [.v,.t] (.t .Gd) [.w,.s]
    (.conj (.t .Gd)) [.p,.v,.w,.r] (.t .qq3)))))) (.mul (.num 4) (.ein [.p,.v] (.t .Gd) [.r,.w]
    (.conj (.t .Gd)) [.v,.t,.s,.w] (.t .dd)))) (.ein [.p,.v] (.t .Gu) [.r,.w] (.conj (.t .Gu))
    [.v,.w,.s,.t] (.t .ud8))) (.ein [.p,.v] (.t .Gammaq) [.v,.r,.s,.t] (.t .qd8) [] (.num 1)))
    (.ein [.s,.v] (.t .Gammad) [.p,.r,.v,.t] (.t .qd8) [] (.num 1))) (.ein [.p,.v,.s,.t] (.t
    .qd8) [.v,.r] (.t .Gammaq) [] (.num 1))) (.ein [.p,.r,.s,.v] (.t .qd8) [.v,.t] (.t .Gammad)
    [] (.num 1)))

/-- /repo/wilson/run/smeft/beta.py lines 1638-1651 -/
def np_ledq : E Key :=
  (.add (.add (.add (.add (.add (.sub (.add (.add (.sub (.add (.sub (.sub (.mul (.neg (.add
    (.mul (.div (.num 8) (.num 3)) (.pow (.s .gp) 2)) (.mul (.num 8) (.pow (.s .gs) 2)))) (.ein
    [.p,.r,.s,.t] (.t .ledq) [] (.num 1) [] (.num 1))) (.mul (.num 2) (.ein [.t,.s] (.conj (.t
    .Gd)) [.p,.r] (.t .Xie) [] (.num 1)))) (.mul (.num 2) (.ein [.p,.r] (.t .Ge) [.t,.s] (.conj
    (.t .Xid)) [] (.num 1)))) (.mul (.num 2) (.ein [.p,.v] (.t .Ge) [.t,.w] (.conj (.t .Gd))
    [.v,.r,.s,.w] (.t .ed)))) (.mul (.num 2) (.ein [.v,.r] (.t .Ge) [.t,.w] (.conj (.t .Gd))
    [.p,.v,.s,.w] (.t .ld)))) (.mul (.num 2) (.ein [.v,.r] (.t .Ge) [.w,.s] (.conj (.t .Gd))
    [.p,.v,.w,.t] (.t .lq1)))) (.mul (.num 6) (.ein [.v,.r] (.t .Ge) [.w,.s] (.conj (.t .Gd))
    [.p,.v,.w,.t] (.t .lq3)))) (.mul (.num 2) (.ein [.p,.w] (.t .Ge) [.v,.s] (.conj (.t .Gd))
    [.v,.t,.w,.r] (.t .qe)))) (.mul (.num 2) (.ein [.v,.s] (.conj (.t .Gd)) [.t,.w] (.conj (.t
    .Gu)) [.p,.r,.v,.w] (.t .lequ1)))) (.ein [.p,.v] (.t .Gammal) [.v,.r,.s,.t] (.t .ledq) []
    (.num 1))) (.ein [.s,.v] (.t .Gammad) [.p,.r,.v,.t] (.t .ledq) [] (.num 1))) (.ein
    [.p,.v,.s,.t] (.t .ledq) [.v,.r] (.t .Gammae) [] (.num 1))) (.ein [.p,.r,.s,.v] (.t .ledq)
    [.v,.t] (.t .Gammaq) [] (.num 1)))

/-- /repo/wilson/run/smeft/beta.py lines 1653-1683 -/
def np_quqd1 : E Key :=
  (.add (.add (.add (.add (.sub (.add (.add (.sub (.sub (.add (.sub (.sub (.sub (.sub (.add
    (.add (.sub (.sub (.sub (.add (.sub (.sub (.mul (.mul (.div (.num 10) (.num 3)) (.s .gp))
    (.ein [.s,.t] (.t .dB) [.p,.r] (.t .Gu) [] (.num 1))) (.mul (.mul (.num 6) (.s .g)) (.ein
    [.s,.t] (.t .dW) [.p,.r] (.t .Gu) [] (.num 1)))) (.mul (.mul (.div (.num 20) (.num 9)) (.s
    .gp)) (.ein [.p,.t] (.t .dB) [.s,.r] (.t .Gu) [] (.num 1)))) (.mul (.mul (.num 4) (.s .g))
    (.ein [.p,.t] (.t .dW) [.s,.r] (.t .Gu) [] (.num 1)))) (.mul (.mul (.div (.num 64) (.num
    9)) (.s .gs)) (.ein [.p,.t] (.t .dG) [.s,.r] (.t .Gu) [] (.num 1)))) (.mul (.mul (.div
    (.num 2) (.num 3)) (.s .gp)) (.ein [.p,.r] (.t .uB) [.s,.t] (.t .Gd) [] (.num 1)))) (.mul
    (.mul (.num 6) (.s .g)) (.ein [.p,.r] (.t .uW) [.s,.t] (.t .Gd) [] (.num 1)))) (.mul (.mul
    (.div (.num 4) (.num 9)) (.s .gp)) (.ein [.s,.r] (.t .uB) [.p,.t] (.t .Gd) [] (.num 1))))
    (.mul (.mul (.num 4) (.s .g)) (.ein [.s,.r] (.t .uW) [.p,.t] (.t .Gd) [] (.num 1)))) (.mul
    (.mul (.div (.num 64) (.num 9)) (.s .gs)) (.ein [.s,.r] (.t .uG) [.p,.t] (.t .Gd) [] (.num
    1)))) (.mul (.mul (.div (.num 1) (.num 2)) (.add (.add (.mul (.div (.num 11) (.num 9))
    (.pow (.s .gp) 2)) (.mul (.num 3) (.pow (.s .g) 2))) (.mul (.num 32) (.pow (.s .gs) 2))))
    (.ein [.p,.r,.s,.t] (.t .quqd1) [] (.num 1) [] (.num 1)))) (.mul (.mul (.div (.num 1) (.num
    3)) (.add (.sub (.mul (.div (.neg (.num 5)) (.num 9)) (.pow (.s .gp) 2)) (.mul (.num 3)
    (.pow (.s .g) 2))) (.mul (.div (.num 64) (.num 3)) (.pow (.s .gs) 2)))) (.ein [.s,.r,.p,.t]
    (.t .quqd1) [] (.num 1) [] (.num 1)))) (.mul (.mul (.div (.num 4) (.num 9)) (.add (.sub
    (.mul (.div (.neg (.num 5)) (.num 9)) (.pow (.s .gp) 2)) (.mul (.num 3) (.pow (.s .g) 2)))
    (.mul (.div (.num 28) (.num 3)) (.pow (.s .gs) 2)))) (.ein [.s,.r,.p,.t] (.t .quqd8) []
    (.num 1) [] (.num 1)))) (.mul (.mul (.div (.num 16) (.num 9)) (.pow (.s .gs) 2)) (.ein
    [.p,.r,.s,.t] (.t .quqd8) [] (.num 1) [] (.num 1)))) (.mul (.num 2) (.ein [.p,.r] (.t .Gu)
    [.s,.t] (.t .Xid) [] (.num 1)))) (.mul (.num 2) (.ein [.s,.t] (.t .Gd) [.p,.r] (.t .Xiu) []
    (.num 1)))) (.mul (.div (.num 4) (.num 3)) (.add (.add (.add (.add (.add (.ein [.v,.r] (.t
    .Gu) [.p,.w] (.t .Gd) [.s,.v,.w,.t] (.t .qd1)) (.mul (.div (.num 4) (.num 3)) (.ein [.v,.r]
    (.t .Gu) [.p,.w] (.t .Gd) [.s,.v,.w,.t] (.t .qd8)))) (.ein [.v,.t] (.t .Gd) [.s,.w] (.t
    .Gu) [.p,.v,.w,.r] (.t .qu1))) (.mul (.div (.num 4) (.num 3)) (.ein [.v,.t] (.t .Gd)
    [.s,.w] (.t .Gu) [.p,.v,.w,.r] (.t .qu8)))) (.ein [.p,.w] (.t .Gd) [.s,.v] (.t .Gu)
    [.v,.r,.w,.t] (.t .ud1))) (.mul (.div (.num 4) (.num 3)) (.ein [.p,.w] (.t .Gd) [.s,.v] (.t
    .Gu) [.v,.r,.w,.t] (.t .ud8)))))) (.mul (.div (.num 8) (.num 3)) (.add (.sub (.sub (.ein
    [.w,.t] (.t .Gd) [.v,.r] (.t .Gu) [.s,.v,.p,.w] (.t .qq1)) (.mul (.num 3) (.ein [.w,.t] (.t
    .Gd) [.v,.r] (.t .Gu) [.s,.v,.p,.w] (.t .qq3)))) (.mul (.num 3) (.ein [.w,.t] (.t .Gd)
    [.v,.r] (.t .Gu) [.s,.w,.p,.v] (.t .qq1)))) (.mul (.num 9) (.ein [.w,.t] (.t .Gd) [.v,.r]
    (.t .Gu) [.s,.w,.p,.v] (.t .qq3)))))) (.mul (.num 4) (.ein [.s,.w] (.t .Gd) [.p,.v] (.t
    .Gu) [.v,.r,.w,.t] (.t .ud1)))) (.ein [.p,.v] (.t .Gammaq) [.v,.r,.s,.t] (.t .quqd1) []
    (.num 1))) (.ein [.s,.v] (.t .Gammaq) [.p,.r,.v,.t] (.t .quqd1) [] (.num 1))) (.ein
    [.p,.v,.s,.t] (.t .quqd1) [.v,.r] (.t .Gammau) [] (.num 1))) (.ein [.p,.r,.s,.v] (.t
    .quqd1) [.v,.t] (.t .Gammad) [] (.num 1)))

/-- /repo/wilson/run/smeft/beta.py lines 1685-1710 -/
def np_quqd8 : E Key :=
  (.add (.add (.add (.add (.sub (.add (.add (.sub (.add (.add (.add (.add (.add (.add (.add
    (.add (.add (.sub (.mul (.mul (.num 8) (.s .gs)) (.ein [.s,.t] (.t .dG) [.p,.r] (.t .Gu) []
    (.num 1))) (.mul (.mul (.div (.num 40) (.num 3)) (.s .gp)) (.ein [.p,.t] (.t .dB) [.s,.r]
    (.t .Gu) [] (.num 1)))) (.mul (.mul (.num 24) (.s .g)) (.ein [.p,.t] (.t .dW) [.s,.r] (.t
    .Gu) [] (.num 1)))) (.mul (.mul (.div (.num 16) (.num 3)) (.s .gs)) (.ein [.p,.t] (.t .dG)
    [.s,.r] (.t .Gu) [] (.num 1)))) (.mul (.mul (.num 8) (.s .gs)) (.ein [.p,.r] (.t .uG)
    [.s,.t] (.t .Gd) [] (.num 1)))) (.mul (.mul (.div (.num 8) (.num 3)) (.s .gp)) (.ein
    [.s,.r] (.t .uB) [.p,.t] (.t .Gd) [] (.num 1)))) (.mul (.mul (.num 24) (.s .g)) (.ein
    [.s,.r] (.t .uW) [.p,.t] (.t .Gd) [] (.num 1)))) (.mul (.mul (.div (.num 16) (.num 3)) (.s
    .gs)) (.ein [.s,.r] (.t .uG) [.p,.t] (.t .Gd) [] (.num 1)))) (.mul (.mul (.num 8) (.pow (.s
    .gs) 2)) (.ein [.p,.r,.s,.t] (.t .quqd1) [] (.num 1) [] (.num 1)))) (.mul (.add (.add (.mul
    (.div (.num 10) (.num 9)) (.pow (.s .gp) 2)) (.mul (.num 6) (.pow (.s .g) 2))) (.mul (.div
    (.num 16) (.num 3)) (.pow (.s .gs) 2))) (.ein [.s,.r,.p,.t] (.t .quqd1) [] (.num 1) []
    (.num 1)))) (.mul (.add (.sub (.mul (.div (.neg (.num 11)) (.num 18)) (.pow (.s .gp) 2))
    (.mul (.div (.num 3) (.num 2)) (.pow (.s .g) 2))) (.mul (.div (.num 16) (.num 3)) (.pow (.s
    .gs) 2))) (.ein [.p,.r,.s,.t] (.t .quqd8) [] (.num 1) [] (.num 1)))) (.mul (.mul (.div
    (.num 1) (.num 3)) (.add (.add (.mul (.div (.num 5) (.num 9)) (.pow (.s .gp) 2)) (.mul
    (.num 3) (.pow (.s .g) 2))) (.mul (.div (.num 44) (.num 3)) (.pow (.s .gs) 2)))) (.ein
    [.s,.r,.p,.t] (.t .quqd8) [] (.num 1) [] (.num 1)))) (.mul (.num 8) (.sub (.add (.sub (.add
    (.sub (.ein [.v,.r] (.t .Gu) [.p,.w] (.t .Gd) [.s,.v,.w,.t] (.t .qd1)) (.mul (.div (.num 1)
    (.num 6)) (.ein [.v,.r] (.t .Gu) [.p,.w] (.t .Gd) [.s,.v,.w,.t] (.t .qd8)))) (.ein [.v,.t]
    (.t .Gd) [.s,.w] (.t .Gu) [.p,.v,.w,.r] (.t .qu1))) (.mul (.div (.num 1) (.num 6)) (.ein
    [.v,.t] (.t .Gd) [.s,.w] (.t .Gu) [.p,.v,.w,.r] (.t .qu8)))) (.ein [.p,.w] (.t .Gd) [.s,.v]
    (.t .Gu) [.v,.r,.w,.t] (.t .ud1))) (.mul (.div (.num 1) (.num 6)) (.ein [.p,.w] (.t .Gd)
    [.s,.v] (.t .Gu) [.v,.r,.w,.t] (.t .ud8)))))) (.mul (.num 16) (.sub (.ein [.w,.t] (.t .Gd)
    [.v,.r] (.t .Gu) [.s,.v,.p,.w] (.t .qq1)) (.mul (.num 3) (.ein [.w,.t] (.t .Gd) [.v,.r] (.t
    .Gu) [.s,.v,.p,.w] (.t .qq3)))))) (.mul (.num 4) (.ein [.s,.w] (.t .Gd) [.p,.v] (.t .Gu)
    [.v,.r,.w,.t] (.t .ud8)))) (.ein [.p,.v] (.t .Gammaq) [.v,.r,.s,.t] (.t .quqd8) [] (.num
    1))) (.ein [.s,.v] (.t .Gammaq) [.p,.r,.v,.t] (.t .quqd8) [] (.num 1))) (.ein [.p,.v,.s,.t]
    (.t .quqd8) [.v,.r] (.t .Gammau) [] (.num 1))) (.ein [.p,.r,.s,.v] (.t .quqd8) [.v,.t] (.t
    .Gammad) [] (.num 1)))

/-- /repo/wilson/run/smeft/beta.py lines 1712-1725 -/
def np_lequ1 : E Key :=
  (.add (.add (.add (.add (.sub (.sub (.sub (.add (.add (.add (.add (.add (.add (.mul (.neg
    (.add (.mul (.div (.num 11) (.num 3)) (.pow (.s .gp) 2)) (.mul (.num 8) (.pow (.s .gs)
    2)))) (.ein [.p,.r,.s,.t] (.t .lequ1) [] (.num 1) [] (.num 1))) (.mul (.add (.mul (.num 30)
    (.pow (.s .gp) 2)) (.mul (.num 18) (.pow (.s .g) 2))) (.ein [.p,.r,.s,.t] (.t .lequ3) []
    (.num 1) [] (.num 1)))) (.mul (.num 2) (.ein [.s,.t] (.t .Gu) [.p,.r] (.t .Xie) [] (.num
    1)))) (.mul (.num 2) (.ein [.p,.r] (.t .Ge) [.s,.t] (.t .Xiu) [] (.num 1)))) (.mul (.num 2)
    (.ein [.s,.v] (.t .Gd) [.w,.t] (.t .Gu) [.p,.r,.v,.w] (.t .ledq)))) (.mul (.num 2) (.ein
    [.p,.v] (.t .Ge) [.s,.w] (.t .Gu) [.v,.r,.w,.t] (.t .eu)))) (.mul (.num 2) (.ein [.v,.r]
    (.t .Ge) [.w,.t] (.t .Gu) [.p,.v,.s,.w] (.t .lq1)))) (.mul (.num 6) (.ein [.v,.r] (.t .Ge)
    [.w,.t] (.t .Gu) [.p,.v,.s,.w] (.t .lq3)))) (.mul (.num 2) (.ein [.v,.r] (.t .Ge) [.s,.w]
    (.t .Gu) [.p,.v,.w,.t] (.t .lu)))) (.mul (.num 2) (.ein [.p,.w] (.t .Ge) [.v,.t] (.t .Gu)
    [.s,.v,.w,.r] (.t .qe)))) (.ein [.p,.v] (.t .Gammal) [.v,.r,.s,.t] (.t .lequ1) [] (.num
    1))) (.ein [.s,.v] (.t .Gammaq) [.p,.r,.v,.t] (.t .lequ1) [] (.num 1))) (.ein [.p,.v,.s,.t]
    (.t .lequ1) [.v,.r] (.t .Gammae) [] (.num 1))) (.ein [.p,.r,.s,.v] (.t .lequ1) [.v,.t] (.t
    .Gammau) [] (.num 1)))

/-- /repo/wilson/run/smeft/beta.py lines 1727-1741 -/
def np_lequ3 : E Key :=
  (.add (.add (.add (.add (.sub (.sub (.add (.sub (.sub (.add (.add (.sub (.sub (.sub (.mul
    (.mul (.div (.num 5) (.num 6)) (.s .gp)) (.ein [.p,.r] (.t .eB) [.s,.t] (.t .Gu) [] (.num
    1))) (.mul (.mul (.div (.num 3) (.num 2)) (.s .g)) (.ein [.s,.t] (.t .uW) [.p,.r] (.t .Ge)
    [] (.num 1)))) (.mul (.mul (.div (.num 3) (.num 2)) (.s .gp)) (.ein [.s,.t] (.t .uB)
    [.p,.r] (.t .Ge) [] (.num 1)))) (.mul (.mul (.div (.num 3) (.num 2)) (.s .g)) (.ein [.p,.r]
    (.t .eW) [.s,.t] (.t .Gu) [] (.num 1)))) (.mul (.add (.sub (.mul (.div (.num 2) (.num 9))
    (.pow (.s .gp) 2)) (.mul (.num 3) (.pow (.s .g) 2))) (.mul (.div (.num 8) (.num 3)) (.pow
    (.s .gs) 2))) (.ein [.p,.r,.s,.t] (.t .lequ3) [] (.num 1) [] (.num 1)))) (.mul (.mul (.div
    (.num 1) (.num 8)) (.add (.mul (.num 5) (.pow (.s .gp) 2)) (.mul (.num 3) (.pow (.s .g)
    2)))) (.ein [.p,.r,.s,.t] (.t .lequ1) [] (.num 1) [] (.num 1)))) (.mul (.div (.num 1) (.num
    2)) (.ein [.s,.w] (.t .Gu) [.p,.v] (.t .Ge) [.v,.r,.w,.t] (.t .eu)))) (.mul (.div (.num 1)
    (.num 2)) (.ein [.v,.r] (.t .Ge) [.w,.t] (.t .Gu) [.p,.v,.s,.w] (.t .lq1)))) (.mul (.div
    (.num 3) (.num 2)) (.ein [.v,.r] (.t .Ge) [.w,.t] (.t .Gu) [.p,.v,.s,.w] (.t .lq3)))) (.mul
    (.div (.num 1) (.num 2)) (.ein [.v,.r] (.t .Ge) [.s,.w] (.t .Gu) [.p,.v,.w,.t] (.t .lu))))
    (.mul (.div (.num 1) (.num 2)) (.ein [.p,.w] (.t .Ge) [.v,.t] (.t .Gu) [.s,.v,.w,.r] (.t
    .qe)))) (.ein [.p,.v] (.t .Gammal) [.v,.r,.s,.t] (.t .lequ3) [] (.num 1))) (.ein [.s,.v]
    (.t .Gammaq) [.p,.r,.v,.t] (.t .lequ3) [] (.num 1))) (.ein [.p,.v,.s,.t] (.t .lequ3)
    [.v,.r] (.t .Gammae) [] (.num 1))) (.ein [.p,.r,.s,.v] (.t .lequ3) [.v,.t] (.t .Gammau) []
    (.num 1)))

/-- /repo/wilson/run/smeft/beta.py lines 1743-1759 -/
def np_duql : E Key :=
  (.add (.add (.add (.add (.add (.sub (.sub (.add (.add (.add (.add (.sub (.sub (.mul (.neg
    (.add (.add (.mul (.div (.num 9) (.num 2)) (.pow (.s .g) 2)) (.mul (.div (.num 11) (.num
    6)) (.pow (.s .gp) 2))) (.mul (.num 4) (.pow (.s .gs) 2)))) (.ein [.p,.r,.s,.t] (.t .duql)
    [] (.num 1) [] (.num 1))) (.ein [.s,.v] (.conj (.t .Gd)) [.w,.p] (.t .Gd) [.v,.r,.w,.t] (.t
    .duql))) (.ein [.s,.v] (.conj (.t .Gu)) [.w,.r] (.t .Gu) [.p,.v,.w,.t] (.t .duql))) (.mul
    (.num 2) (.ein [.t,.v] (.conj (.t .Ge)) [.s,.w] (.conj (.t .Gu)) [.p,.r,.w,.v] (.t
    .duue)))) (.ein [.t,.v] (.conj (.t .Ge)) [.s,.w] (.conj (.t .Gu)) [.p,.w,.r,.v] (.t
    .duue))) (.mul (.num 4) (.ein [.v,.p] (.t .Gd) [.w,.r] (.t .Gu) [.v,.w,.s,.t] (.t .qqql))))
    (.mul (.num 4) (.ein [.v,.p] (.t .Gd) [.w,.r] (.t .Gu) [.w,.v,.s,.t] (.t .qqql)))) (.ein
    [.v,.p] (.t .Gd) [.w,.r] (.t .Gu) [.v,.s,.w,.t] (.t .qqql))) (.ein [.v,.p] (.t .Gd) [.w,.r]
    (.t .Gu) [.w,.s,.v,.t] (.t .qqql))) (.mul (.num 2) (.ein [.w,.p] (.t .Gd) [.t,.v] (.conj
    (.t .Ge)) [.w,.s,.r,.v] (.t .qque)))) (.ein [.v,.p] (.mat (.tr (.conj (.t .Gd))) (.t .Gd))
    [.v,.r,.s,.t] (.t .duql) [] (.num 1))) (.ein [.v,.r] (.mat (.tr (.conj (.t .Gu))) (.t .Gu))
    [.p,.v,.s,.t] (.t .duql) [] (.num 1))) (.mul (.div (.num 1) (.num 2)) (.add (.ein [.v,.s]
    (.mat (.t .Gu) (.tr (.conj (.t .Gu)))) [.p,.r,.v,.t] (.t .duql) [] (.num 1)) (.ein [.v,.s]
    (.mat (.t .Gd) (.tr (.conj (.t .Gd)))) [.p,.r,.v,.t] (.t .duql) [] (.num 1))))) (.mul (.div
    (.num 1) (.num 2)) (.ein [.v,.t] (.mat (.t .Ge) (.tr (.conj (.t .Ge)))) [.p,.r,.s,.v] (.t
    .duql) [] (.num 1))))

/-- /repo/wilson/run/smeft/beta.py lines 1761-1784 -/
def np_qque : E Key :=
  (.add (.add (.add (.add (.sub (.add (.sub (.add (.add (.sub (.add (.sub (.mul (.neg (.add
    (.add (.mul (.div (.num 9) (.num 2)) (.pow (.s .g) 2)) (.mul (.div (.num 23) (.num 6))
    (.pow (.s .gp) 2))) (.mul (.num 4) (.pow (.s .gs) 2)))) (.ein [.p,.r,.s,.t] (.t .qque) []
    (.num 1) [] (.num 1))) (.ein [.r,.v] (.conj (.t .Gu)) [.w,.s] (.t .Gu) [.p,.w,.v,.t] (.t
    .qque))) (.mul (.div (.num 1) (.num 2)) (.ein [.w,.t] (.t .Ge) [.r,.v] (.conj (.t .Gd))
    [.v,.s,.p,.w] (.t .duql)))) (.mul (.div (.num 1) (.num 2)) (.add (.mul (.num 2) (.ein
    [.p,.v] (.conj (.t .Gd)) [.r,.w] (.conj (.t .Gu)) [.v,.w,.s,.t] (.t .duue))) (.ein [.p,.v]
    (.conj (.t .Gd)) [.r,.w] (.conj (.t .Gu)) [.v,.s,.w,.t] (.t .duue))))) (.mul (.div (.num 1)
    (.num 2)) (.sub (.add (.mul (.neg (.num 2)) (.ein [.w,.s] (.t .Gu) [.v,.t] (.t .Ge)
    [.p,.r,.w,.v] (.t .qqql))) (.ein [.w,.s] (.t .Gu) [.v,.t] (.t .Ge) [.p,.w,.r,.v] (.t
    .qqql))) (.mul (.num 2) (.ein [.w,.s] (.t .Gu) [.v,.t] (.t .Ge) [.w,.p,.r,.v] (.t
    .qqql)))))) (.mul (.div (.num 1) (.num 2)) (.add (.ein [.v,.p] (.mat (.t .Gu) (.tr (.conj
    (.t .Gu)))) [.v,.r,.s,.t] (.t .qque) [] (.num 1)) (.ein [.v,.p] (.mat (.t .Gd) (.tr (.conj
    (.t .Gd)))) [.v,.r,.s,.t] (.t .qque) [] (.num 1))))) (.ein [.p,.v] (.conj (.t .Gu)) [.w,.s]
    (.t .Gu) [.r,.w,.v,.t] (.t .qque))) (.mul (.div (.num 1) (.num 2)) (.ein [.w,.t] (.t .Ge)
    [.p,.v] (.conj (.t .Gd)) [.v,.s,.r,.w] (.t .duql)))) (.mul (.div (.num 1) (.num 2)) (.add
    (.mul (.num 2) (.ein [.r,.v] (.conj (.t .Gd)) [.p,.w] (.conj (.t .Gu)) [.v,.w,.s,.t] (.t
    .duue))) (.ein [.r,.v] (.conj (.t .Gd)) [.p,.w] (.conj (.t .Gu)) [.v,.s,.w,.t] (.t
    .duue))))) (.mul (.div (.num 1) (.num 2)) (.sub (.add (.mul (.neg (.num 2)) (.ein [.w,.s]
    (.t .Gu) [.v,.t] (.t .Ge) [.r,.p,.w,.v] (.t .qqql))) (.ein [.w,.s] (.t .Gu) [.v,.t] (.t
    .Ge) [.r,.w,.p,.v] (.t .qqql))) (.mul (.num 2) (.ein [.w,.s] (.t .Gu) [.v,.t] (.t .Ge)
    [.w,.r,.p,.v] (.t .qqql)))))) (.mul (.div (.num 1) (.num 2)) (.add (.ein [.v,.r] (.mat (.t
    .Gu) (.tr (.conj (.t .Gu)))) [.v,.p,.s,.t] (.t .qque) [] (.num 1)) (.ein [.v,.r] (.mat (.t
    .Gd) (.tr (.conj (.t .Gd)))) [.v,.p,.s,.t] (.t .qque) [] (.num 1))))) (.ein [.v,.s] (.mat
    (.tr (.conj (.t .Gu))) (.t .Gu)) [.p,.r,.v,.t] (.t .qque) [] (.num 1))) (.ein [.v,.t] (.mat
    (.tr (.conj (.t .Ge))) (.t .Ge)) [.p,.r,.s,.v] (.t .qque) [] (.num 1)))

/-- /repo/wilson/run/smeft/beta.py lines 1786-1800 -/
def np_qqql : E Key :=
  (.add (.add (.add (.add (.add (.sub (.sub (.mul (.neg (.add (.add (.mul (.num 3) (.pow (.s
    .g) 2)) (.mul (.div (.num 1) (.num 3)) (.pow (.s .gp) 2))) (.mul (.num 4) (.pow (.s .gs)
    2)))) (.ein [.p,.r,.s,.t] (.t .qqql) [] (.num 1) [] (.num 1))) (.mul (.mul (.num 4) (.pow
    (.s .g) 2)) (.add (.add (.ein [.r,.p,.s,.t] (.t .qqql) [] (.num 1) [] (.num 1)) (.ein
    [.s,.r,.p,.t] (.t .qqql) [] (.num 1) [] (.num 1))) (.ein [.p,.s,.r,.t] (.t .qqql) [] (.num
    1) [] (.num 1))))) (.mul (.num 4) (.ein [.t,.v] (.conj (.t .Ge)) [.s,.w] (.conj (.t .Gu))
    [.p,.r,.w,.v] (.t .qque)))) (.mul (.num 2) (.add (.ein [.p,.v] (.conj (.t .Gd)) [.r,.w]
    (.conj (.t .Gu)) [.v,.w,.s,.t] (.t .duql)) (.ein [.r,.v] (.conj (.t .Gd)) [.p,.w] (.conj
    (.t .Gu)) [.v,.w,.s,.t] (.t .duql))))) (.mul (.div (.num 1) (.num 2)) (.add (.ein [.v,.p]
    (.mat (.t .Gu) (.tr (.conj (.t .Gu)))) [.v,.r,.s,.t] (.t .qqql) [] (.num 1)) (.ein [.v,.p]
    (.mat (.t .Gd) (.tr (.conj (.t .Gd)))) [.v,.r,.s,.t] (.t .qqql) [] (.num 1))))) (.mul (.div
    (.num 1) (.num 2)) (.add (.ein [.v,.r] (.mat (.t .Gu) (.tr (.conj (.t .Gu)))) [.p,.v,.s,.t]
    (.t .qqql) [] (.num 1)) (.ein [.v,.r] (.mat (.t .Gd) (.tr (.conj (.t .Gd)))) [.p,.v,.s,.t]
    (.t .qqql) [] (.num 1))))) (.mul (.div (.num 1) (.num 2)) (.add (.ein [.v,.s] (.mat (.t
    .Gu) (.tr (.conj (.t .Gu)))) [.p,.r,.v,.t] (.t .qqql) [] (.num 1)) (.ein [.v,.s] (.mat (.t
    .Gd) (.tr (.conj (.t .Gd)))) [.p,.r,.v,.t] (.t .qqql) [] (.num 1))))) (.mul (.div (.num 1)
    (.num 2)) (.ein [.v,.t] (.mat (.t .Ge) (.tr (.conj (.t .Ge)))) [.p,.r,.s,.v] (.t .qqql) []
    (.num 1))))

/-- /repo/wilson/run/smeft/beta.py lines 1802-1809 -/
def np_duue : E Key :=
  (.add (.add (.add (.add (.sub (.add (.sub (.mul (.neg (.add (.mul (.num 2) (.pow (.s .gp) 2))
    (.mul (.num 4) (.pow (.s .gs) 2)))) (.ein [.p,.r,.s,.t] (.t .duue) [] (.num 1) [] (.num
    1))) (.mul (.mul (.div (.num 20) (.num 3)) (.pow (.s .gp) 2)) (.ein [.p,.s,.r,.t] (.t
    .duue) [] (.num 1) [] (.num 1)))) (.mul (.num 4) (.ein [.w,.s] (.t .Gu) [.v,.t] (.t .Ge)
    [.p,.r,.w,.v] (.t .duql)))) (.mul (.num 8) (.ein [.v,.p] (.t .Gd) [.w,.r] (.t .Gu)
    [.v,.w,.s,.t] (.t .qque)))) (.ein [.v,.p] (.mat (.tr (.conj (.t .Gd))) (.t .Gd))
    [.v,.r,.s,.t] (.t .duue) [] (.num 1))) (.ein [.v,.r] (.mat (.tr (.conj (.t .Gu))) (.t .Gu))
    [.p,.v,.s,.t] (.t .duue) [] (.num 1))) (.ein [.v,.s] (.mat (.tr (.conj (.t .Gu))) (.t .Gu))
    [.p,.r,.v,.t] (.t .duue) [] (.num 1))) (.ein [.v,.t] (.mat (.tr (.conj (.t .Ge))) (.t .Ge))
    [.p,.r,.s,.v] (.t .duue) [] (.num 1)))

/-- /repo/wilson/run/smeft/beta.py lines 1811-1814 -/
def np_llphiphi_2 : E Key :=
  (.sub (.mul (.add (.sub (.mul (.num 2) (.s .Lambda)) (.mul (.num 3) (.pow (.s .g) 2))) (.mul
    (.num 2) (.s .GammaH))) (.t .llphiphi)) (.mul (.div (.num 3) (.num 2)) (.add (.mat (.mat
    (.t .llphiphi) (.t .Ge)) (.tr (.conj (.t .Ge)))) (.mat (.mat (.conj (.t .Ge)) (.tr (.t
    .Ge))) (.t .llphiphi)))))

/-- assignments to `Beta` after the `newphys` test, in order -/
def npProg : List (Key × E Key) :=
  [(.G, np_G), (.Gtilde, np_Gtilde), (.W, np_W), (.Wtilde, np_Wtilde), (.phi, np_phi),
    (.phiBox, np_phiBox), (.phiD, np_phiD), (.phiG, np_phiG), (.phiB, np_phiB), (.phiW,
    np_phiW), (.phiWB, np_phiWB), (.phiGtilde, np_phiGtilde), (.phiBtilde, np_phiBtilde),
    (.phiWtilde, np_phiWtilde), (.phiWtildeB, np_phiWtildeB), (.uphi, np_uphi), (.dphi,
    np_dphi), (.ephi, np_ephi), (.eW, np_eW), (.eB, np_eB), (.uG, np_uG), (.uW, np_uW), (.uB,
    np_uB), (.dG, np_dG), (.dW, np_dW), (.dB, np_dB), (.phil1, np_phil1), (.phil3, np_phil3),
    (.phie, np_phie), (.phiq1, np_phiq1), (.phiq3, np_phiq3), (.phiu, np_phiu), (.phid,
    np_phid), (.phiud, np_phiud), (.llphiphi, np_llphiphi), (.ll, np_ll), (.qq1, np_qq1),
    (.qq3, np_qq3), (.lq1, np_lq1), (.lq3, np_lq3), (.ee, np_ee), (.uu, np_uu), (.dd, np_dd),
    (.eu, np_eu), (.ed, np_ed), (.ud1, np_ud1), (.ud8, np_ud8), (.le, np_le), (.lu, np_lu),
    (.ld, np_ld), (.qe, np_qe), (.qu1, np_qu1), (.qd1, np_qd1), (.qu8, np_qu8), (.qd8, np_qd8),
    (.ledq, np_ledq), (.quqd1, np_quqd1), (.quqd8, np_quqd8), (.lequ1, np_lequ1), (.lequ3,
    np_lequ3), (.duql, np_duql), (.qque, np_qque), (.qqql, np_qqql), (.duue, np_duue),
    (.llphiphi, np_llphiphi_2)]

end Verif.Beta
