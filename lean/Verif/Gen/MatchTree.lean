import Verif.Gen.Rotation

/-!
# The tree-level matching conditions, generated

GENERATED by tools/gen_match.py from /repo/wilson/match/smeft_tree.py (`_match_all_array`);
do not edit.  One expression per assignment `c[k] = ...`, with the scalars `mW`, `mZ`, `vT`,
`g1bar`, `sqrt(2)` (lines 17-33) and the SMEFT arrays `C[k]` as variables; `Nc` is the
number 3, `kdkd` is `einsum("pr,st", kd, kd)`, `C[k + 'Dag']` is replaced by its definition
(lines 36-46), `np.zeros((3,3,3,3))` is the number 0.
-/

set_option autoImplicit false

namespace Verif.Match
open Verif.Tens Verif.Beta Verif.Rotation

/-- variables of the matching conditions -/
inductive MV
  | c (k : Key)
  | mW | mZ | vT | g1bar | sqrt2
  deriving DecidableEq, Repr

/-- smeft_tree.py line 48, `c['dgamma']` -/
def m_dgamma : E MV :=
  (.div (.neg (.mul (.s .vT) (.add (.mul (.mul (.neg (.num 2)) (.s .mW)) (.t (.c .dB))) (.mul
    (.mul (.s .g1bar) (.s .vT)) (.t (.c .dW)))))) (.mul (.mul (.num 2) (.s .sqrt2)) (.s .mZ)))

/-- smeft_tree.py line 49, `c['dG']` -/
def m_dG : E MV :=
  (.div (.mul (.s .vT) (.t (.c .dG))) (.s .sqrt2))

/-- smeft_tree.py line 50, `c['egamma']` -/
def m_egamma : E MV :=
  (.div (.neg (.mul (.s .vT) (.add (.mul (.mul (.neg (.num 2)) (.s .mW)) (.t (.c .eB))) (.mul
    (.mul (.s .g1bar) (.s .vT)) (.t (.c .eW)))))) (.mul (.mul (.num 2) (.s .sqrt2)) (.s .mZ)))

/-- smeft_tree.py line 52, `c['ugamma']` -/
def m_ugamma : E MV :=
  (.div (.mul (.s .vT) (.add (.mul (.mul (.num 2) (.s .mW)) (.t (.c .uB))) (.mul (.mul (.s
    .g1bar) (.s .vT)) (.t (.c .uW))))) (.mul (.mul (.num 2) (.s .sqrt2)) (.s .mZ)))

/-- smeft_tree.py line 53, `c['uG']` -/
def m_uG : E MV :=
  (.div (.mul (.s .vT) (.t (.c .uG))) (.s .sqrt2))

/-- smeft_tree.py line 54, `c['Gtilde']` -/
def m_Gtilde : E MV :=
  (.s (.c .Gtilde))

/-- smeft_tree.py line 55, `c['G']` -/
def m_G : E MV :=
  (.s (.c .G))

/-- smeft_tree.py line 63, `c['SduuLL']` -/
def m_SduuLL : E MV :=
  (.add (.sub (.ein [.r,.p,.s,.t] (.t (.c .qqql)) [] (.num 1) [] (.num 1)) (.ein [.r,.s,.p,.t]
    (.t (.c .qqql)) [] (.num 1) [] (.num 1))) (.ein [.s,.r,.p,.t] (.t (.c .qqql)) [] (.num 1)
    [] (.num 1)))

/-- smeft_tree.py line 64, `c['SuddLL']` -/
def m_SuddLL : E MV :=
  (.add (.sub (.ein [.r,.p,.s,.t] (.t (.c .qqql)) [] (.num 1) [] (.num 1)) (.ein [.r,.s,.p,.t]
    (.t (.c .qqql)) [] (.num 1) [] (.num 1))) (.ein [.s,.r,.p,.t] (.t (.c .qqql)) [] (.num 1)
    [] (.num 1)))

/-- smeft_tree.py line 65, `c['SduuLR']` -/
def m_SduuLR : E MV :=
  (.sub (.neg (.t (.c .qque))) (.ein [.r,.p,.s,.t] (.t (.c .qque)) [] (.num 1) [] (.num 1)))

/-- smeft_tree.py line 66, `c['SuudLR']` -/
def m_SuudLR : E MV :=
  (.num 0)

/-- smeft_tree.py line 67, `c['SdduRL']` -/
def m_SdduRL : E MV :=
  (.num 0)

/-- smeft_tree.py line 68, `c['SdudRL']` -/
def m_SdudRL : E MV :=
  (.neg (.t (.c .duql)))

/-- smeft_tree.py line 69, `c['SduuRL']` -/
def m_SduuRL : E MV :=
  (.t (.c .duql))

/-- smeft_tree.py line 70, `c['SuudRL']` -/
def m_SuudRL : E MV :=
  (.num 0)

/-- smeft_tree.py line 71, `c['SduuRR']` -/
def m_SduuRR : E MV :=
  (.t (.c .duue))

/-- smeft_tree.py line 87, `c['V1udLL']` -/
def m_V1udLL : E MV :=
  (.add (.add (.add (.sub (.add (.sub (.t (.c .qq1)) (.t (.c .qq3))) (.ein [.s,.t,.p,.r] (.t
    (.c .qq1)) [] (.num 1) [] (.num 1))) (.ein [.s,.t,.p,.r] (.t (.c .qq3)) [] (.num 1) []
    (.num 1))) (.div (.mul (.add (.sub (.add (.mul (.num 16) (.pow (.s .mW) 4)) (.mul (.mul
    (.num 4) (.pow (.s .mW) 2)) (.pow (.s .mZ) 2))) (.mul (.num 2) (.pow (.s .mZ) 4))) (.mul
    (.pow (.s .vT) 2) (.add (.mul (.add (.mul (.num 8) (.pow (.s .mW) 4)) (.pow (.s .mZ) 4))
    (.s (.c .phiD))) (.mul (.mul (.mul (.mul (.mul (.num 2) (.s .g1bar)) (.s .mW)) (.add (.mul
    (.num 8) (.pow (.s .mW) 2)) (.pow (.s .mZ) 2))) (.s .vT)) (.s (.c .phiWB)))))) (.ein
    [.p,.r] .eye [.s,.t] .eye [] (.num 1))) (.mul (.mul (.num 18) (.pow (.s .mZ) 4)) (.pow (.s
    .vT) 2)))) (.div (.mul (.num 2) (.add (.neg (.ein [.p,.t] .eye [.s,.r] .eye [] (.num 1)))
    (.mul (.pow (.s .vT) 2) (.sub (.sub (.add (.ein [.p,.t,.s,.r] (.t (.c .qq3)) [] (.num 1) []
    (.num 1)) (.ein [.s,.r,.p,.t] (.t (.c .qq3)) [] (.num 1) [] (.num 1))) (.ein [.p,.t] (.t
    (.c .phiq3)) [.s,.r] .eye [] (.num 1))) (.ein [.s,.r] (.t (.c .phiq3)) [.p,.t] .eye []
    (.num 1)))))) (.mul (.num 3) (.pow (.s .vT) 2)))) (.div (.add (.add (.neg (.mul (.add (.mul
    (.num 2) (.pow (.s .mW) 2)) (.pow (.s .mZ) 2)) (.ein [.p,.r] (.t (.c .phiq1)) [.s,.t] .eye
    [] (.num 1)))) (.mul (.add (.mul (.num 2) (.pow (.s .mW) 2)) (.pow (.s .mZ) 2)) (.ein
    [.p,.r] (.t (.c .phiq3)) [.s,.t] .eye [] (.num 1)))) (.mul (.sub (.mul (.num 4) (.pow (.s
    .mW) 2)) (.pow (.s .mZ) 2)) (.add (.ein [.s,.t] (.t (.c .phiq1)) [.p,.r] .eye [] (.num 1))
    (.ein [.s,.t] (.t (.c .phiq3)) [.p,.r] .eye [] (.num 1))))) (.mul (.num 3) (.pow (.s .mZ)
    2))))

/-- smeft_tree.py line 88, `c['V8udLL']` -/
def m_V8udLL : E MV :=
  (.mul (.num 4) (.sub (.sub (.sub (.add (.ein [.p,.t,.s,.r] (.t (.c .qq3)) [] (.num 1) []
    (.num 1)) (.ein [.s,.r,.p,.t] (.t (.c .qq3)) [] (.num 1) [] (.num 1))) (.div (.ein [.p,.t]
    .eye [.s,.r] .eye [] (.num 1)) (.pow (.s .vT) 2))) (.ein [.p,.t] (.t (.c .phiq3)) [.s,.r]
    .eye [] (.num 1))) (.ein [.s,.r] (.t (.c .phiq3)) [.p,.t] .eye [] (.num 1))))

/-- smeft_tree.py line 89, `c['VddLL']` -/
def m_VddLL : E MV :=
  (.div (.sub (.add (.add (.add (.mul (.num 18) (.t (.c .qq1))) (.mul (.num 18) (.t (.c
    .qq3)))) (.mul (.num 18) (.ein [.s,.t,.p,.r] (.t (.c .qq1)) [] (.num 1) [] (.num 1))))
    (.mul (.num 18) (.ein [.s,.t,.p,.r] (.t (.c .qq3)) [] (.num 1) [] (.num 1)))) (.div (.mul
    (.add (.mul (.num 2) (.pow (.s .mW) 2)) (.pow (.s .mZ) 2)) (.add (.mul (.add (.mul (.num 2)
    (.add (.mul (.num 2) (.pow (.s .mW) 2)) (.pow (.s .mZ) 2))) (.mul (.pow (.s .vT) 2) (.add
    (.sub (.mul (.mul (.num 2) (.pow (.s .mW) 2)) (.s (.c .phiD))) (.mul (.pow (.s .mZ) 2) (.s
    (.c .phiD)))) (.mul (.mul (.mul (.mul (.num 4) (.s .g1bar)) (.s .mW)) (.s .vT)) (.s (.c
    .phiWB)))))) (.ein [.p,.r] .eye [.s,.t] .eye [] (.num 1))) (.mul (.mul (.mul (.num 6) (.pow
    (.s .mZ) 2)) (.pow (.s .vT) 2)) (.add (.add (.add (.ein [.p,.r] (.t (.c .phiq1)) [.s,.t]
    .eye [] (.num 1)) (.ein [.p,.r] (.t (.c .phiq3)) [.s,.t] .eye [] (.num 1))) (.ein [.s,.t]
    (.t (.c .phiq1)) [.p,.r] .eye [] (.num 1))) (.ein [.s,.t] (.t (.c .phiq3)) [.p,.r] .eye []
    (.num 1)))))) (.mul (.pow (.s .mZ) 4) (.pow (.s .vT) 2)))) (.num 36))

/-- smeft_tree.py line 90, `c['VedLL']` -/
def m_VedLL : E MV :=
  (.div (.sub (.sub (.sub (.add (.mul (.num 6) (.t (.c .lq1))) (.mul (.num 6) (.t (.c .lq3))))
    (.div (.mul (.add (.add (.sub (.mul (.num 8) (.pow (.s .mW) 4)) (.mul (.num 2) (.pow (.s
    .mZ) 4))) (.mul (.mul (.add (.mul (.num 4) (.pow (.s .mW) 4)) (.pow (.s .mZ) 4)) (.pow (.s
    .vT) 2)) (.s (.c .phiD)))) (.mul (.mul (.mul (.mul (.num 8) (.s .g1bar)) (.pow (.s .mW) 3))
    (.pow (.s .vT) 3)) (.s (.c .phiWB)))) (.ein [.p,.r] .eye [.s,.t] .eye [] (.num 1))) (.mul
    (.pow (.s .mZ) 4) (.pow (.s .vT) 2)))) (.mul (.num 2) (.sub (.add (.ein [.p,.r] (.t (.c
    .phil1)) [.s,.t] .eye [] (.num 1)) (.ein [.p,.r] (.t (.c .phil3)) [.s,.t] .eye [] (.num
    1))) (.mul (.num 3) (.add (.ein [.s,.t] (.t (.c .phiq1)) [.p,.r] .eye [] (.num 1)) (.ein
    [.s,.t] (.t (.c .phiq3)) [.p,.r] .eye [] (.num 1))))))) (.div (.mul (.mul (.num 4) (.pow
    (.s .mW) 2)) (.add (.add (.ein [.p,.r] (.t (.c .phil1)) [.s,.t] .eye [] (.num 1)) (.ein
    [.p,.r] (.t (.c .phil3)) [.s,.t] .eye [] (.num 1))) (.mul (.num 3) (.add (.ein [.s,.t] (.t
    (.c .phiq1)) [.p,.r] .eye [] (.num 1)) (.ein [.s,.t] (.t (.c .phiq3)) [.p,.r] .eye [] (.num
    1)))))) (.pow (.s .mZ) 2))) (.num 6))

/-- smeft_tree.py line 91, `c['VeeLL']` -/
def m_VeeLL : E MV :=
  (.div (.add (.add (.add (.add (.mul (.num 2) (.t (.c .ll))) (.mul (.num 2) (.ein
    [.p,.t,.s,.r] (.t (.c .ll)) [] (.num 1) [] (.num 1)))) (.mul (.num 2) (.ein [.s,.r,.p,.t]
    (.t (.c .ll)) [] (.num 1) [] (.num 1)))) (.mul (.num 2) (.ein [.s,.t,.p,.r] (.t (.c .ll))
    [] (.num 1) [] (.num 1)))) (.div (.mul (.add (.mul (.neg (.num 2)) (.pow (.s .mW) 2)) (.pow
    (.s .mZ) 2)) (.add (.add (.add (.add (.add (.add (.add (.add (.add (.sub (.add (.add (.add
    (.mul (.add (.sub (.mul (.num 4) (.pow (.s .mW) 2)) (.mul (.num 2) (.pow (.s .mZ) 2)))
    (.mul (.pow (.s .vT) 2) (.add (.mul (.add (.mul (.num 2) (.pow (.s .mW) 2)) (.pow (.s .mZ)
    2)) (.s (.c .phiD))) (.mul (.mul (.mul (.mul (.num 4) (.s .g1bar)) (.s .mW)) (.s .vT)) (.s
    (.c .phiWB)))))) (.ein [.p,.r] .eye [.s,.t] .eye [] (.num 1))) (.mul (.mul (.mul (.num 2)
    (.pow (.s .mZ) 2)) (.pow (.s .vT) 2)) (.ein [.p,.r] (.t (.c .phil1)) [.s,.t] .eye [] (.num
    1)))) (.mul (.mul (.mul (.num 2) (.pow (.s .mZ) 2)) (.pow (.s .vT) 2)) (.ein [.p,.r] (.t
    (.c .phil3)) [.s,.t] .eye [] (.num 1)))) (.mul (.mul (.num 4) (.pow (.s .mW) 2)) (.ein
    [.p,.t] .eye [.s,.r] .eye [] (.num 1)))) (.mul (.mul (.num 2) (.pow (.s .mZ) 2)) (.ein
    [.p,.t] .eye [.s,.r] .eye [] (.num 1)))) (.mul (.mul (.mul (.mul (.num 2) (.pow (.s .mW)
    2)) (.pow (.s .vT) 2)) (.s (.c .phiD))) (.ein [.p,.t] .eye [.s,.r] .eye [] (.num 1))))
    (.mul (.mul (.mul (.pow (.s .mZ) 2) (.pow (.s .vT) 2)) (.s (.c .phiD))) (.ein [.p,.t] .eye
    [.s,.r] .eye [] (.num 1)))) (.mul (.mul (.mul (.mul (.mul (.num 4) (.s .g1bar)) (.s .mW))
    (.pow (.s .vT) 3)) (.s (.c .phiWB))) (.ein [.p,.t] .eye [.s,.r] .eye [] (.num 1)))) (.mul
    (.mul (.mul (.num 2) (.pow (.s .mZ) 2)) (.pow (.s .vT) 2)) (.ein [.p,.t] (.t (.c .phil1))
    [.s,.r] .eye [] (.num 1)))) (.mul (.mul (.mul (.num 2) (.pow (.s .mZ) 2)) (.pow (.s .vT)
    2)) (.ein [.p,.t] (.t (.c .phil3)) [.s,.r] .eye [] (.num 1)))) (.mul (.mul (.mul (.num 2)
    (.pow (.s .mZ) 2)) (.pow (.s .vT) 2)) (.ein [.s,.r] (.t (.c .phil1)) [.p,.t] .eye [] (.num
    1)))) (.mul (.mul (.mul (.num 2) (.pow (.s .mZ) 2)) (.pow (.s .vT) 2)) (.ein [.s,.r] (.t
    (.c .phil3)) [.p,.t] .eye [] (.num 1)))) (.mul (.mul (.mul (.num 2) (.pow (.s .mZ) 2))
    (.pow (.s .vT) 2)) (.ein [.s,.t] (.t (.c .phil1)) [.p,.r] .eye [] (.num 1)))) (.mul (.mul
    (.mul (.num 2) (.pow (.s .mZ) 2)) (.pow (.s .vT) 2)) (.ein [.s,.t] (.t (.c .phil3)) [.p,.r]
    .eye [] (.num 1))))) (.mul (.pow (.s .mZ) 4) (.pow (.s .vT) 2)))) (.num 8))

/-- smeft_tree.py line 92, `c['VeuLL']` -/
def m_VeuLL : E MV :=
  (.div (.add (.sub (.add (.sub (.mul (.num 6) (.t (.c .lq1))) (.mul (.num 6) (.t (.c .lq3))))
    (.div (.mul (.add (.mul (.mul (.sub (.mul (.num 8) (.pow (.s .mW) 4)) (.pow (.s .mZ) 4))
    (.pow (.s .vT) 2)) (.s (.c .phiD))) (.mul (.num 2) (.add (.add (.sub (.mul (.num 8) (.pow
    (.s .mW) 4)) (.mul (.mul (.num 6) (.pow (.s .mW) 2)) (.pow (.s .mZ) 2))) (.pow (.s .mZ) 4))
    (.mul (.mul (.mul (.mul (.s .g1bar) (.s .mW)) (.sub (.mul (.num 8) (.pow (.s .mW) 2)) (.mul
    (.num 3) (.pow (.s .mZ) 2)))) (.pow (.s .vT) 3)) (.s (.c .phiWB)))))) (.ein [.p,.r] .eye
    [.s,.t] .eye [] (.num 1))) (.mul (.pow (.s .mZ) 4) (.pow (.s .vT) 2)))) (.mul (.num 2)
    (.add (.sub (.add (.ein [.p,.r] (.t (.c .phil1)) [.s,.t] .eye [] (.num 1)) (.ein [.p,.r]
    (.t (.c .phil3)) [.s,.t] .eye [] (.num 1))) (.mul (.num 3) (.ein [.s,.t] (.t (.c .phiq1))
    [.p,.r] .eye [] (.num 1)))) (.mul (.num 3) (.ein [.s,.t] (.t (.c .phiq3)) [.p,.r] .eye []
    (.num 1)))))) (.div (.mul (.mul (.num 4) (.pow (.s .mW) 2)) (.add (.sub (.add (.mul (.num
    2) (.ein [.p,.r] (.t (.c .phil1)) [.s,.t] .eye [] (.num 1))) (.mul (.num 2) (.ein [.p,.r]
    (.t (.c .phil3)) [.s,.t] .eye [] (.num 1)))) (.mul (.num 3) (.ein [.s,.t] (.t (.c .phiq1))
    [.p,.r] .eye [] (.num 1)))) (.mul (.num 3) (.ein [.s,.t] (.t (.c .phiq3)) [.p,.r] .eye []
    (.num 1))))) (.pow (.s .mZ) 2))) (.num 6))

/-- smeft_tree.py line 93, `c['VnudLL']` -/
def m_VnudLL : E MV :=
  (.add (.add (.add (.sub (.add (.sub (.sub (.t (.c .lq1)) (.t (.c .lq3))) (.div (.mul (.s (.c
    .phiD)) (.ein [.p,.r] .eye [.s,.t] .eye [] (.num 1))) (.num 6))) (.div (.mul (.add (.add
    (.mul (.num 2) (.pow (.s .mW) 2)) (.pow (.s .mZ) 2)) (.mul (.mul (.mul (.s .g1bar) (.s
    .mW)) (.pow (.s .vT) 3)) (.s (.c .phiWB)))) (.ein [.p,.r] .eye [.s,.t] .eye [] (.num 1)))
    (.mul (.mul (.num 3) (.pow (.s .mZ) 2)) (.pow (.s .vT) 2)))) (.div (.mul (.add (.mul (.num
    2) (.pow (.s .mW) 2)) (.pow (.s .mZ) 2)) (.ein [.p,.r] (.t (.c .phil1)) [.s,.t] .eye []
    (.num 1))) (.mul (.num 3) (.pow (.s .mZ) 2)))) (.div (.mul (.add (.mul (.num 2) (.pow (.s
    .mW) 2)) (.pow (.s .mZ) 2)) (.ein [.p,.r] (.t (.c .phil3)) [.s,.t] .eye [] (.num 1))) (.mul
    (.num 3) (.pow (.s .mZ) 2)))) (.ein [.s,.t] (.t (.c .phiq1)) [.p,.r] .eye [] (.num 1)))
    (.ein [.s,.t] (.t (.c .phiq3)) [.p,.r] .eye [] (.num 1)))

/-- smeft_tree.py line 94, `c['VnueduLL']` -/
def m_VnueduLL : E MV :=
  (.sub (.sub (.mul (.num 2) (.t (.c .lq3))) (.div (.mul (.num 2) (.ein [.p,.r] .eye [.s,.t]
    .eye [] (.num 1))) (.pow (.s .vT) 2))) (.mul (.num 2) (.add (.ein [.p,.r] (.t (.c .phil3))
    [.s,.t] .eye [] (.num 1)) (.ein [.s,.t] (.t (.c .phiq3)) [.p,.r] .eye [] (.num 1)))))

/-- smeft_tree.py line 95, `c['VnueLL']` -/
def m_VnueLL : E MV :=
  (.add (.add (.sub (.sub (.sub (.add (.sub (.add (.add (.add (.t (.c .ll)) (.ein [.s,.t,.p,.r]
    (.t (.c .ll)) [] (.num 1) [] (.num 1))) (.mul (.add (.div (.s (.c .phiD)) (.num 2)) (.div
    (.add (.sub (.mul (.num 2) (.pow (.s .mW) 2)) (.pow (.s .mZ) 2)) (.mul (.mul (.mul (.s
    .g1bar) (.s .mW)) (.pow (.s .vT) 3)) (.s (.c .phiWB)))) (.mul (.pow (.s .mZ) 2) (.pow (.s
    .vT) 2)))) (.ein [.p,.r] .eye [.s,.t] .eye [] (.num 1)))) (.mul (.sub (.num 1) (.div (.mul
    (.num 2) (.pow (.s .mW) 2)) (.pow (.s .mZ) 2))) (.ein [.p,.r] (.t (.c .phil1)) [.s,.t] .eye
    [] (.num 1)))) (.ein [.p,.r] (.t (.c .phil3)) [.s,.t] .eye [] (.num 1))) (.div (.mul (.mul
    (.num 2) (.pow (.s .mW) 2)) (.ein [.p,.r] (.t (.c .phil3)) [.s,.t] .eye [] (.num 1))) (.pow
    (.s .mZ) 2))) (.div (.mul (.num 2) (.ein [.p,.t] .eye [.s,.r] .eye [] (.num 1))) (.pow (.s
    .vT) 2))) (.mul (.num 2) (.ein [.p,.t] (.t (.c .phil3)) [.s,.r] .eye [] (.num 1)))) (.mul
    (.num 2) (.ein [.s,.r] (.t (.c .phil3)) [.p,.t] .eye [] (.num 1)))) (.ein [.s,.t] (.t (.c
    .phil1)) [.p,.r] .eye [] (.num 1))) (.ein [.s,.t] (.t (.c .phil3)) [.p,.r] .eye [] (.num
    1)))

/-- smeft_tree.py line 96, `c['VnunuLL']` -/
def m_VnunuLL : E MV :=
  (.div (.add (.add (.add (.add (.add (.mul (.num 2) (.t (.c .ll))) (.mul (.num 2) (.ein
    [.p,.t,.s,.r] (.t (.c .ll)) [] (.num 1) [] (.num 1)))) (.mul (.num 2) (.ein [.s,.r,.p,.t]
    (.t (.c .ll)) [] (.num 1) [] (.num 1)))) (.mul (.num 2) (.ein [.s,.t,.p,.r] (.t (.c .ll))
    [] (.num 1) [] (.num 1)))) (.div (.mul (.add (.neg (.num 2)) (.mul (.pow (.s .vT) 2) (.s
    (.c .phiD)))) (.add (.ein [.p,.r] .eye [.s,.t] .eye [] (.num 1)) (.ein [.p,.t] .eye [.s,.r]
    .eye [] (.num 1)))) (.pow (.s .vT) 2))) (.mul (.num 2) (.sub (.add (.sub (.add (.sub (.add
    (.sub (.ein [.p,.r] (.t (.c .phil1)) [.s,.t] .eye [] (.num 1)) (.ein [.p,.r] (.t (.c
    .phil3)) [.s,.t] .eye [] (.num 1))) (.ein [.p,.t] (.t (.c .phil1)) [.s,.r] .eye [] (.num
    1))) (.ein [.p,.t] (.t (.c .phil3)) [.s,.r] .eye [] (.num 1))) (.ein [.s,.r] (.t (.c
    .phil1)) [.p,.t] .eye [] (.num 1))) (.ein [.s,.r] (.t (.c .phil3)) [.p,.t] .eye [] (.num
    1))) (.ein [.s,.t] (.t (.c .phil1)) [.p,.r] .eye [] (.num 1))) (.ein [.s,.t] (.t (.c
    .phil3)) [.p,.r] .eye [] (.num 1))))) (.num 8))

/-- smeft_tree.py line 97, `c['VnuuLL']` -/
def m_VnuuLL : E MV :=
  (.sub (.add (.add (.sub (.sub (.add (.t (.c .lq1)) (.t (.c .lq3))) (.div (.mul (.add (.add
    (.sub (.mul (.num 8) (.pow (.s .mW) 2)) (.mul (.num 2) (.pow (.s .mZ) 2))) (.mul (.mul
    (.pow (.s .mZ) 2) (.pow (.s .vT) 2)) (.s (.c .phiD)))) (.mul (.mul (.mul (.mul (.num 4) (.s
    .g1bar)) (.s .mW)) (.pow (.s .vT) 3)) (.s (.c .phiWB)))) (.ein [.p,.r] .eye [.s,.t] .eye []
    (.num 1))) (.mul (.mul (.num 6) (.pow (.s .mZ) 2)) (.pow (.s .vT) 2)))) (.div (.mul (.add
    (.mul (.neg (.num 4)) (.pow (.s .mW) 2)) (.pow (.s .mZ) 2)) (.ein [.p,.r] (.t (.c .phil1))
    [.s,.t] .eye [] (.num 1))) (.mul (.num 3) (.pow (.s .mZ) 2)))) (.div (.mul (.add (.mul
    (.neg (.num 4)) (.pow (.s .mW) 2)) (.pow (.s .mZ) 2)) (.ein [.p,.r] (.t (.c .phil3))
    [.s,.t] .eye [] (.num 1))) (.mul (.num 3) (.pow (.s .mZ) 2)))) (.ein [.s,.t] (.t (.c
    .phiq1)) [.p,.r] .eye [] (.num 1))) (.ein [.s,.t] (.t (.c .phiq3)) [.p,.r] .eye [] (.num
    1)))

/-- smeft_tree.py line 98, `c['VuuLL']` -/
def m_VuuLL : E MV :=
  (.div (.add (.add (.add (.add (.mul (.num 18) (.t (.c .qq1))) (.mul (.num 18) (.t (.c
    .qq3)))) (.mul (.num 18) (.ein [.s,.t,.p,.r] (.t (.c .qq1)) [] (.num 1) [] (.num 1))))
    (.mul (.num 18) (.ein [.s,.t,.p,.r] (.t (.c .qq3)) [] (.num 1) [] (.num 1)))) (.div (.mul
    (.add (.mul (.neg (.num 4)) (.pow (.s .mW) 2)) (.pow (.s .mZ) 2)) (.add (.mul (.add (.sub
    (.mul (.num 8) (.pow (.s .mW) 2)) (.mul (.num 2) (.pow (.s .mZ) 2))) (.mul (.pow (.s .vT)
    2) (.add (.mul (.add (.mul (.num 4) (.pow (.s .mW) 2)) (.pow (.s .mZ) 2)) (.s (.c .phiD)))
    (.mul (.mul (.mul (.mul (.num 8) (.s .g1bar)) (.s .mW)) (.s .vT)) (.s (.c .phiWB))))))
    (.ein [.p,.r] .eye [.s,.t] .eye [] (.num 1))) (.mul (.mul (.mul (.num 6) (.pow (.s .mZ) 2))
    (.pow (.s .vT) 2)) (.add (.sub (.add (.neg (.ein [.p,.r] (.t (.c .phiq1)) [.s,.t] .eye []
    (.num 1))) (.ein [.p,.r] (.t (.c .phiq3)) [.s,.t] .eye [] (.num 1))) (.ein [.s,.t] (.t (.c
    .phiq1)) [.p,.r] .eye [] (.num 1))) (.ein [.s,.t] (.t (.c .phiq3)) [.p,.r] .eye [] (.num
    1)))))) (.mul (.pow (.s .mZ) 4) (.pow (.s .vT) 2)))) (.num 36))

/-- smeft_tree.py line 99, `c['V1ddLR']` -/
def m_V1ddLR : E MV :=
  (.add (.t (.c .qd1)) (.div (.add (.div (.mul (.add (.sub (.mul (.num 2) (.add (.add (.mul
    (.neg (.num 2)) (.pow (.s .mW) 4)) (.mul (.pow (.s .mW) 2) (.pow (.s .mZ) 2))) (.pow (.s
    .mZ) 4))) (.mul (.mul (.add (.mul (.num 2) (.pow (.s .mW) 4)) (.pow (.s .mZ) 4)) (.pow (.s
    .vT) 2)) (.s (.c .phiD)))) (.mul (.mul (.mul (.mul (.s .g1bar) (.s .mW)) (.add (.mul (.neg
    (.num 4)) (.pow (.s .mW) 2)) (.pow (.s .mZ) 2))) (.pow (.s .vT) 3)) (.s (.c .phiWB))))
    (.ein [.p,.r] .eye [.s,.t] .eye [] (.num 1))) (.pow (.s .vT) 2)) (.mul (.mul (.num 3) (.pow
    (.s .mZ) 2)) (.sub (.mul (.mul (.num 2) (.add (.neg (.pow (.s .mW) 2)) (.pow (.s .mZ) 2)))
    (.add (.ein [.p,.r] (.t (.c .phiq1)) [.s,.t] .eye [] (.num 1)) (.ein [.p,.r] (.t (.c
    .phiq3)) [.s,.t] .eye [] (.num 1)))) (.mul (.add (.mul (.num 2) (.pow (.s .mW) 2)) (.pow
    (.s .mZ) 2)) (.ein [.s,.t] (.t (.c .phid)) [.p,.r] .eye [] (.num 1)))))) (.mul (.num 9)
    (.pow (.s .mZ) 4))))

/-- smeft_tree.py line 100, `c['V1duLR']` -/
def m_V1duLR : E MV :=
  (.add (.t (.c .qu1)) (.div (.add (.div (.mul (.mul (.num 2) (.add (.mul (.mul (.mul (.num 2)
    (.sub (.s .mW) (.s .mZ))) (.add (.s .mW) (.s .mZ))) (.add (.mul (.num 2) (.pow (.s .mW) 2))
    (.pow (.s .mZ) 2))) (.mul (.pow (.s .vT) 2) (.add (.mul (.add (.mul (.num 2) (.pow (.s .mW)
    4)) (.pow (.s .mZ) 4)) (.s (.c .phiD))) (.mul (.mul (.mul (.mul (.s .g1bar) (.s .mW)) (.sub
    (.mul (.num 4) (.pow (.s .mW) 2)) (.pow (.s .mZ) 2))) (.s .vT)) (.s (.c .phiWB))))))) (.ein
    [.p,.r] .eye [.s,.t] .eye [] (.num 1))) (.pow (.s .vT) 2)) (.mul (.mul (.num 3) (.pow (.s
    .mZ) 2)) (.sub (.mul (.mul (.mul (.num 4) (.sub (.s .mW) (.s .mZ))) (.add (.s .mW) (.s
    .mZ))) (.add (.ein [.p,.r] (.t (.c .phiq1)) [.s,.t] .eye [] (.num 1)) (.ein [.p,.r] (.t (.c
    .phiq3)) [.s,.t] .eye [] (.num 1)))) (.mul (.add (.mul (.num 2) (.pow (.s .mW) 2)) (.pow
    (.s .mZ) 2)) (.ein [.s,.t] (.t (.c .phiu)) [.p,.r] .eye [] (.num 1)))))) (.mul (.num 9)
    (.pow (.s .mZ) 4))))

/-- smeft_tree.py line 101, `c['V1udduLR']` -/
def m_V1udduLR : E MV :=
  (.neg (.ein [.s,.t] (.tr (.conj (.t (.c .phiud)))) [.p,.r] .eye [] (.num 1)))

/-- smeft_tree.py line 102, `c['V1udLR']` -/
def m_V1udLR : E MV :=
  (.add (.t (.c .qd1)) (.div (.add (.div (.mul (.add (.mul (.num 2) (.add (.sub (.mul (.num 4)
    (.pow (.s .mW) 4)) (.mul (.mul (.num 5) (.pow (.s .mW) 2)) (.pow (.s .mZ) 2))) (.pow (.s
    .mZ) 4))) (.mul (.pow (.s .vT) 2) (.add (.mul (.sub (.mul (.num 4) (.pow (.s .mW) 4)) (.pow
    (.s .mZ) 4)) (.s (.c .phiD))) (.mul (.mul (.mul (.mul (.s .g1bar) (.s .mW)) (.sub (.mul
    (.num 8) (.pow (.s .mW) 2)) (.mul (.num 5) (.pow (.s .mZ) 2)))) (.s .vT)) (.s (.c
    .phiWB)))))) (.ein [.p,.r] .eye [.s,.t] .eye [] (.num 1))) (.pow (.s .vT) 2)) (.mul (.mul
    (.num 3) (.pow (.s .mZ) 2)) (.add (.mul (.mul (.num 2) (.add (.neg (.pow (.s .mW) 2)) (.pow
    (.s .mZ) 2))) (.sub (.ein [.p,.r] (.t (.c .phiq1)) [.s,.t] .eye [] (.num 1)) (.ein [.p,.r]
    (.t (.c .phiq3)) [.s,.t] .eye [] (.num 1)))) (.mul (.sub (.mul (.num 4) (.pow (.s .mW) 2))
    (.pow (.s .mZ) 2)) (.ein [.s,.t] (.t (.c .phid)) [.p,.r] .eye [] (.num 1)))))) (.mul (.num
    9) (.pow (.s .mZ) 4))))

/-- smeft_tree.py line 103, `c['V1uuLR']` -/
def m_V1uuLR : E MV :=
  (.add (.add (.t (.c .qu1)) (.div (.mul (.mul (.num 2) (.add (.add (.mul (.neg (.num 2)) (.add
    (.sub (.mul (.num 4) (.pow (.s .mW) 4)) (.mul (.mul (.num 5) (.pow (.s .mW) 2)) (.pow (.s
    .mZ) 2))) (.pow (.s .mZ) 4))) (.mul (.mul (.add (.mul (.neg (.num 4)) (.pow (.s .mW) 4))
    (.pow (.s .mZ) 4)) (.pow (.s .vT) 2)) (.s (.c .phiD)))) (.mul (.mul (.mul (.mul (.s .g1bar)
    (.s .mW)) (.add (.mul (.neg (.num 8)) (.pow (.s .mW) 2)) (.mul (.num 5) (.pow (.s .mZ)
    2)))) (.pow (.s .vT) 3)) (.s (.c .phiWB))))) (.ein [.p,.r] .eye [.s,.t] .eye [] (.num 1)))
    (.mul (.mul (.num 9) (.pow (.s .mZ) 4)) (.pow (.s .vT) 2)))) (.div (.add (.mul (.mul (.mul
    (.num 4) (.sub (.s .mW) (.s .mZ))) (.add (.s .mW) (.s .mZ))) (.sub (.ein [.p,.r] (.t (.c
    .phiq1)) [.s,.t] .eye [] (.num 1)) (.ein [.p,.r] (.t (.c .phiq3)) [.s,.t] .eye [] (.num
    1)))) (.mul (.sub (.mul (.num 4) (.pow (.s .mW) 2)) (.pow (.s .mZ) 2)) (.ein [.s,.t] (.t
    (.c .phiu)) [.p,.r] .eye [] (.num 1)))) (.mul (.num 3) (.pow (.s .mZ) 2))))

/-- smeft_tree.py line 104, `c['V8ddLR']` -/
def m_V8ddLR : E MV :=
  (.t (.c .qd8))

/-- smeft_tree.py line 105, `c['V8duLR']` -/
def m_V8duLR : E MV :=
  (.t (.c .qu8))

/-- smeft_tree.py line 106, `c['V8udduLR']` -/
def m_V8udduLR : E MV :=
  (.num 0)

/-- smeft_tree.py line 107, `c['V8udLR']` -/
def m_V8udLR : E MV :=
  (.t (.c .qd8))

/-- smeft_tree.py line 108, `c['V8uuLR']` -/
def m_V8uuLR : E MV :=
  (.t (.c .qu8))

/-- smeft_tree.py line 109, `c['VdeLR']` -/
def m_VdeLR : E MV :=
  (.add (.add (.t (.c .qe)) (.div (.mul (.add (.sub (.mul (.num 2) (.add (.add (.mul (.neg
    (.num 2)) (.pow (.s .mW) 4)) (.mul (.pow (.s .mW) 2) (.pow (.s .mZ) 2))) (.pow (.s .mZ)
    4))) (.mul (.mul (.add (.mul (.num 2) (.pow (.s .mW) 4)) (.pow (.s .mZ) 4)) (.pow (.s .vT)
    2)) (.s (.c .phiD)))) (.mul (.mul (.mul (.mul (.s .g1bar) (.s .mW)) (.add (.mul (.neg (.num
    4)) (.pow (.s .mW) 2)) (.pow (.s .mZ) 2))) (.pow (.s .vT) 3)) (.s (.c .phiWB)))) (.ein
    [.p,.r] .eye [.s,.t] .eye [] (.num 1))) (.mul (.mul (.num 3) (.pow (.s .mZ) 4)) (.pow (.s
    .vT) 2)))) (.div (.sub (.mul (.mul (.num 6) (.add (.neg (.pow (.s .mW) 2)) (.pow (.s .mZ)
    2))) (.add (.ein [.p,.r] (.t (.c .phiq1)) [.s,.t] .eye [] (.num 1)) (.ein [.p,.r] (.t (.c
    .phiq3)) [.s,.t] .eye [] (.num 1)))) (.mul (.add (.mul (.num 2) (.pow (.s .mW) 2)) (.pow
    (.s .mZ) 2)) (.ein [.s,.t] (.t (.c .phie)) [.p,.r] .eye [] (.num 1)))) (.mul (.num 3) (.pow
    (.s .mZ) 2))))

/-- smeft_tree.py line 110, `c['VedLR']` -/
def m_VedLR : E MV :=
  (.add (.add (.t (.c .ld)) (.div (.mul (.add (.add (.mul (.neg (.num 2)) (.add (.sub (.mul
    (.num 2) (.pow (.s .mW) 4)) (.mul (.mul (.num 3) (.pow (.s .mW) 2)) (.pow (.s .mZ) 2)))
    (.pow (.s .mZ) 4))) (.mul (.mul (.add (.mul (.neg (.num 2)) (.pow (.s .mW) 4)) (.pow (.s
    .mZ) 4)) (.pow (.s .vT) 2)) (.s (.c .phiD)))) (.mul (.mul (.mul (.mul (.s .g1bar) (.s .mW))
    (.add (.mul (.neg (.num 4)) (.pow (.s .mW) 2)) (.mul (.num 3) (.pow (.s .mZ) 2)))) (.pow
    (.s .vT) 3)) (.s (.c .phiWB)))) (.ein [.p,.r] .eye [.s,.t] .eye [] (.num 1))) (.mul (.mul
    (.num 3) (.pow (.s .mZ) 4)) (.pow (.s .vT) 2)))) (.div (.add (.mul (.mul (.num 2) (.add
    (.neg (.pow (.s .mW) 2)) (.pow (.s .mZ) 2))) (.add (.ein [.p,.r] (.t (.c .phil1)) [.s,.t]
    .eye [] (.num 1)) (.ein [.p,.r] (.t (.c .phil3)) [.s,.t] .eye [] (.num 1)))) (.mul (.mul
    (.num 3) (.add (.mul (.neg (.num 2)) (.pow (.s .mW) 2)) (.pow (.s .mZ) 2))) (.ein [.s,.t]
    (.t (.c .phid)) [.p,.r] .eye [] (.num 1)))) (.mul (.num 3) (.pow (.s .mZ) 2))))

/-- smeft_tree.py line 111, `c['VeeLR']` -/
def m_VeeLR : E MV :=
  (.sub (.add (.add (.add (.t (.c .le)) (.div (.mul (.add (.add (.mul (.neg (.num 2)) (.add
    (.sub (.mul (.num 2) (.pow (.s .mW) 4)) (.mul (.mul (.num 3) (.pow (.s .mW) 2)) (.pow (.s
    .mZ) 2))) (.pow (.s .mZ) 4))) (.mul (.mul (.add (.mul (.neg (.num 2)) (.pow (.s .mW) 4))
    (.pow (.s .mZ) 4)) (.pow (.s .vT) 2)) (.s (.c .phiD)))) (.mul (.mul (.mul (.mul (.s .g1bar)
    (.s .mW)) (.add (.mul (.neg (.num 4)) (.pow (.s .mW) 2)) (.mul (.num 3) (.pow (.s .mZ)
    2)))) (.pow (.s .vT) 3)) (.s (.c .phiWB)))) (.ein [.p,.r] .eye [.s,.t] .eye [] (.num 1)))
    (.mul (.pow (.s .mZ) 4) (.pow (.s .vT) 2)))) (.mul (.num 2) (.add (.ein [.p,.r] (.t (.c
    .phil1)) [.s,.t] .eye [] (.num 1)) (.ein [.p,.r] (.t (.c .phil3)) [.s,.t] .eye [] (.num
    1))))) (.ein [.s,.t] (.t (.c .phie)) [.p,.r] .eye [] (.num 1))) (.div (.mul (.mul (.num 2)
    (.pow (.s .mW) 2)) (.add (.add (.ein [.p,.r] (.t (.c .phil1)) [.s,.t] .eye [] (.num 1))
    (.ein [.p,.r] (.t (.c .phil3)) [.s,.t] .eye [] (.num 1))) (.ein [.s,.t] (.t (.c .phie))
    [.p,.r] .eye [] (.num 1)))) (.pow (.s .mZ) 2)))

/-- smeft_tree.py line 112, `c['VeuLR']` -/
def m_VeuLR : E MV :=
  (.add (.t (.c .lu)) (.div (.add (.div (.mul (.mul (.num 2) (.add (.mul (.num 2) (.add (.sub
    (.mul (.num 2) (.pow (.s .mW) 4)) (.mul (.mul (.num 3) (.pow (.s .mW) 2)) (.pow (.s .mZ)
    2))) (.pow (.s .mZ) 4))) (.mul (.pow (.s .vT) 2) (.add (.mul (.sub (.mul (.num 2) (.pow (.s
    .mW) 4)) (.pow (.s .mZ) 4)) (.s (.c .phiD))) (.mul (.mul (.mul (.mul (.s .g1bar) (.s .mW))
    (.sub (.mul (.num 4) (.pow (.s .mW) 2)) (.mul (.num 3) (.pow (.s .mZ) 2)))) (.s .vT)) (.s
    (.c .phiWB))))))) (.ein [.p,.r] .eye [.s,.t] .eye [] (.num 1))) (.pow (.s .vT) 2)) (.mul
    (.pow (.s .mZ) 2) (.add (.mul (.mul (.mul (.num 4) (.sub (.s .mW) (.s .mZ))) (.add (.s .mW)
    (.s .mZ))) (.add (.ein [.p,.r] (.t (.c .phil1)) [.s,.t] .eye [] (.num 1)) (.ein [.p,.r] (.t
    (.c .phil3)) [.s,.t] .eye [] (.num 1)))) (.mul (.mul (.num 3) (.add (.mul (.neg (.num 2))
    (.pow (.s .mW) 2)) (.pow (.s .mZ) 2))) (.ein [.s,.t] (.t (.c .phiu)) [.p,.r] .eye [] (.num
    1)))))) (.mul (.num 3) (.pow (.s .mZ) 4))))

/-- smeft_tree.py line 113, `c['VnudLR']` -/
def m_VnudLR : E MV :=
  (.add (.sub (.add (.t (.c .ld)) (.div (.mul (.add (.add (.mul (.mul (.num 2) (.sub (.s .mW)
    (.s .mZ))) (.add (.s .mW) (.s .mZ))) (.mul (.mul (.pow (.s .mZ) 2) (.pow (.s .vT) 2)) (.s
    (.c .phiD)))) (.mul (.mul (.mul (.s .g1bar) (.s .mW)) (.pow (.s .vT) 3)) (.s (.c .phiWB))))
    (.ein [.p,.r] .eye [.s,.t] .eye [] (.num 1))) (.mul (.mul (.num 3) (.pow (.s .mZ) 2)) (.pow
    (.s .vT) 2)))) (.div (.mul (.mul (.mul (.num 2) (.sub (.s .mW) (.s .mZ))) (.add (.s .mW)
    (.s .mZ))) (.sub (.ein [.p,.r] (.t (.c .phil1)) [.s,.t] .eye [] (.num 1)) (.ein [.p,.r] (.t
    (.c .phil3)) [.s,.t] .eye [] (.num 1)))) (.mul (.num 3) (.pow (.s .mZ) 2)))) (.ein [.s,.t]
    (.t (.c .phid)) [.p,.r] .eye [] (.num 1)))

/-- smeft_tree.py line 114, `c['VnueduLR']` -/
def m_VnueduLR : E MV :=
  (.neg (.ein [.s,.t] (.tr (.conj (.t (.c .phiud)))) [.p,.r] .eye [] (.num 1)))

/-- smeft_tree.py line 115, `c['VnueLR']` -/
def m_VnueLR : E MV :=
  (.add (.sub (.add (.t (.c .le)) (.div (.mul (.add (.add (.mul (.mul (.num 2) (.sub (.s .mW)
    (.s .mZ))) (.add (.s .mW) (.s .mZ))) (.mul (.mul (.pow (.s .mZ) 2) (.pow (.s .vT) 2)) (.s
    (.c .phiD)))) (.mul (.mul (.mul (.s .g1bar) (.s .mW)) (.pow (.s .vT) 3)) (.s (.c .phiWB))))
    (.ein [.p,.r] .eye [.s,.t] .eye [] (.num 1))) (.mul (.pow (.s .mZ) 2) (.pow (.s .vT) 2))))
    (.div (.mul (.mul (.mul (.num 2) (.sub (.s .mW) (.s .mZ))) (.add (.s .mW) (.s .mZ))) (.sub
    (.ein [.p,.r] (.t (.c .phil1)) [.s,.t] .eye [] (.num 1)) (.ein [.p,.r] (.t (.c .phil3))
    [.s,.t] .eye [] (.num 1)))) (.pow (.s .mZ) 2))) (.ein [.s,.t] (.t (.c .phie)) [.p,.r] .eye
    [] (.num 1)))

/-- smeft_tree.py line 116, `c['VnuuLR']` -/
def m_VnuuLR : E MV :=
  (.add (.add (.sub (.t (.c .lu)) (.div (.mul (.mul (.num 2) (.add (.add (.mul (.mul (.num 2)
    (.sub (.s .mW) (.s .mZ))) (.add (.s .mW) (.s .mZ))) (.mul (.mul (.pow (.s .mZ) 2) (.pow (.s
    .vT) 2)) (.s (.c .phiD)))) (.mul (.mul (.mul (.s .g1bar) (.s .mW)) (.pow (.s .vT) 3)) (.s
    (.c .phiWB))))) (.ein [.p,.r] .eye [.s,.t] .eye [] (.num 1))) (.mul (.mul (.num 3) (.pow
    (.s .mZ) 2)) (.pow (.s .vT) 2)))) (.div (.mul (.mul (.mul (.num 4) (.sub (.s .mW) (.s
    .mZ))) (.add (.s .mW) (.s .mZ))) (.sub (.ein [.p,.r] (.t (.c .phil1)) [.s,.t] .eye [] (.num
    1)) (.ein [.p,.r] (.t (.c .phil3)) [.s,.t] .eye [] (.num 1)))) (.mul (.num 3) (.pow (.s
    .mZ) 2)))) (.ein [.s,.t] (.t (.c .phiu)) [.p,.r] .eye [] (.num 1)))

/-- smeft_tree.py line 117, `c['VueLR']` -/
def m_VueLR : E MV :=
  (.add (.add (.t (.c .qe)) (.div (.mul (.add (.add (.mul (.num 2) (.add (.sub (.mul (.num 4)
    (.pow (.s .mW) 4)) (.mul (.mul (.num 5) (.pow (.s .mW) 2)) (.pow (.s .mZ) 2))) (.pow (.s
    .mZ) 4))) (.mul (.mul (.sub (.mul (.num 4) (.pow (.s .mW) 4)) (.pow (.s .mZ) 4)) (.pow (.s
    .vT) 2)) (.s (.c .phiD)))) (.mul (.mul (.mul (.mul (.s .g1bar) (.s .mW)) (.sub (.mul (.num
    8) (.pow (.s .mW) 2)) (.mul (.num 5) (.pow (.s .mZ) 2)))) (.pow (.s .vT) 3)) (.s (.c
    .phiWB)))) (.ein [.p,.r] .eye [.s,.t] .eye [] (.num 1))) (.mul (.mul (.num 3) (.pow (.s
    .mZ) 4)) (.pow (.s .vT) 2)))) (.div (.add (.mul (.mul (.num 6) (.add (.neg (.pow (.s .mW)
    2)) (.pow (.s .mZ) 2))) (.sub (.ein [.p,.r] (.t (.c .phiq1)) [.s,.t] .eye [] (.num 1))
    (.ein [.p,.r] (.t (.c .phiq3)) [.s,.t] .eye [] (.num 1)))) (.mul (.sub (.mul (.num 4) (.pow
    (.s .mW) 2)) (.pow (.s .mZ) 2)) (.ein [.s,.t] (.t (.c .phie)) [.p,.r] .eye [] (.num 1))))
    (.mul (.num 3) (.pow (.s .mZ) 2))))

/-- smeft_tree.py line 118, `c['S1ddRR']` -/
def m_S1ddRR : E MV :=
  (.num 0)

/-- smeft_tree.py line 119, `c['S1udduRR']` -/
def m_S1udduRR : E MV :=
  (.neg (.ein [.s,.t,.p,.r] (.t (.c .quqd1)) [] (.num 1) [] (.num 1)))

/-- smeft_tree.py line 120, `c['S1udRR']` -/
def m_S1udRR : E MV :=
  (.t (.c .quqd1))

/-- smeft_tree.py line 121, `c['S1uuRR']` -/
def m_S1uuRR : E MV :=
  (.num 0)

/-- smeft_tree.py line 122, `c['S8ddRR']` -/
def m_S8ddRR : E MV :=
  (.num 0)

/-- smeft_tree.py line 123, `c['S8udduRR']` -/
def m_S8udduRR : E MV :=
  (.neg (.ein [.s,.t,.p,.r] (.t (.c .quqd8)) [] (.num 1) [] (.num 1)))

/-- smeft_tree.py line 124, `c['S8udRR']` -/
def m_S8udRR : E MV :=
  (.t (.c .quqd8))

/-- smeft_tree.py line 125, `c['S8uuRR']` -/
def m_S8uuRR : E MV :=
  (.num 0)

/-- smeft_tree.py line 126, `c['SedRR']` -/
def m_SedRR : E MV :=
  (.num 0)

/-- smeft_tree.py line 127, `c['SeeRR']` -/
def m_SeeRR : E MV :=
  (.num 0)

/-- smeft_tree.py line 128, `c['SeuRR']` -/
def m_SeuRR : E MV :=
  (.neg (.t (.c .lequ1)))

/-- smeft_tree.py line 129, `c['SnueduRR']` -/
def m_SnueduRR : E MV :=
  (.t (.c .lequ1))

/-- smeft_tree.py line 130, `c['TedRR']` -/
def m_TedRR : E MV :=
  (.num 0)

/-- smeft_tree.py line 131, `c['TeuRR']` -/
def m_TeuRR : E MV :=
  (.neg (.t (.c .lequ3)))

/-- smeft_tree.py line 132, `c['TnueduRR']` -/
def m_TnueduRR : E MV :=
  (.t (.c .lequ3))

/-- smeft_tree.py line 133, `c['SedRL']` -/
def m_SedRL : E MV :=
  (.t (.c .ledq))

/-- smeft_tree.py line 134, `c['SeuRL']` -/
def m_SeuRL : E MV :=
  (.num 0)

/-- smeft_tree.py line 135, `c['SnueduRL']` -/
def m_SnueduRL : E MV :=
  (.t (.c .ledq))

/-- smeft_tree.py line 136, `c['V1udRR']` -/
def m_V1udRR : E MV :=
  (.add (.t (.c .ud1)) (.div (.mul (.mul (.mul (.num 2) (.sub (.s .mW) (.s .mZ))) (.add (.s
    .mW) (.s .mZ))) (.sub (.mul (.mul (.num 2) (.add (.mul (.mul (.num 2) (.sub (.s .mW) (.s
    .mZ))) (.add (.s .mW) (.s .mZ))) (.mul (.pow (.s .vT) 2) (.add (.mul (.add (.pow (.s .mW)
    2) (.pow (.s .mZ) 2)) (.s (.c .phiD))) (.mul (.mul (.mul (.mul (.num 2) (.s .g1bar)) (.s
    .mW)) (.s .vT)) (.s (.c .phiWB))))))) (.ein [.p,.r] .eye [.s,.t] .eye [] (.num 1))) (.mul
    (.mul (.mul (.num 3) (.pow (.s .mZ) 2)) (.pow (.s .vT) 2)) (.sub (.ein [.p,.r] (.t (.c
    .phiu)) [.s,.t] .eye [] (.num 1)) (.mul (.num 2) (.ein [.s,.t] (.t (.c .phid)) [.p,.r] .eye
    [] (.num 1))))))) (.mul (.mul (.num 9) (.pow (.s .mZ) 4)) (.pow (.s .vT) 2))))

/-- smeft_tree.py line 137, `c['V8udRR']` -/
def m_V8udRR : E MV :=
  (.t (.c .ud8))

/-- smeft_tree.py line 138, `c['VddRR']` -/
def m_VddRR : E MV :=
  (.div (.sub (.add (.mul (.num 9) (.t (.c .dd))) (.mul (.num 9) (.ein [.s,.t,.p,.r] (.t (.c
    .dd)) [] (.num 1) [] (.num 1)))) (.div (.mul (.mul (.mul (.num 2) (.sub (.s .mW) (.s .mZ)))
    (.add (.s .mW) (.s .mZ))) (.add (.mul (.add (.mul (.mul (.num 2) (.sub (.s .mW) (.s .mZ)))
    (.add (.s .mW) (.s .mZ))) (.mul (.pow (.s .vT) 2) (.add (.mul (.add (.pow (.s .mW) 2) (.pow
    (.s .mZ) 2)) (.s (.c .phiD))) (.mul (.mul (.mul (.mul (.num 2) (.s .g1bar)) (.s .mW)) (.s
    .vT)) (.s (.c .phiWB)))))) (.ein [.p,.r] .eye [.s,.t] .eye [] (.num 1))) (.mul (.mul (.mul
    (.num 3) (.pow (.s .mZ) 2)) (.pow (.s .vT) 2)) (.add (.ein [.p,.r] (.t (.c .phid)) [.s,.t]
    .eye [] (.num 1)) (.ein [.s,.t] (.t (.c .phid)) [.p,.r] .eye [] (.num 1)))))) (.mul (.pow
    (.s .mZ) 4) (.pow (.s .vT) 2)))) (.num 18))

/-- smeft_tree.py line 139, `c['VedRR']` -/
def m_VedRR : E MV :=
  (.sub (.t (.c .ed)) (.div (.mul (.mul (.mul (.num 2) (.sub (.s .mW) (.s .mZ))) (.add (.s .mW)
    (.s .mZ))) (.add (.mul (.add (.mul (.mul (.num 2) (.sub (.s .mW) (.s .mZ))) (.add (.s .mW)
    (.s .mZ))) (.mul (.pow (.s .vT) 2) (.add (.mul (.add (.pow (.s .mW) 2) (.pow (.s .mZ) 2))
    (.s (.c .phiD))) (.mul (.mul (.mul (.mul (.num 2) (.s .g1bar)) (.s .mW)) (.s .vT)) (.s (.c
    .phiWB)))))) (.ein [.p,.r] .eye [.s,.t] .eye [] (.num 1))) (.mul (.mul (.pow (.s .mZ) 2)
    (.pow (.s .vT) 2)) (.add (.ein [.p,.r] (.t (.c .phie)) [.s,.t] .eye [] (.num 1)) (.mul
    (.num 3) (.ein [.s,.t] (.t (.c .phid)) [.p,.r] .eye [] (.num 1))))))) (.mul (.mul (.num 3)
    (.pow (.s .mZ) 4)) (.pow (.s .vT) 2))))

/-- smeft_tree.py line 140, `c['VeeRR']` -/
def m_VeeRR : E MV :=
  (.div (.sub (.add (.add (.add (.t (.c .ee)) (.ein [.p,.t,.s,.r] (.t (.c .ee)) [] (.num 1) []
    (.num 1))) (.ein [.s,.r,.p,.t] (.t (.c .ee)) [] (.num 1) [] (.num 1))) (.ein [.s,.t,.p,.r]
    (.t (.c .ee)) [] (.num 1) [] (.num 1))) (.div (.mul (.mul (.mul (.num 2) (.sub (.s .mW) (.s
    .mZ))) (.add (.s .mW) (.s .mZ))) (.add (.add (.add (.add (.add (.add (.sub (.add (.add
    (.mul (.add (.mul (.mul (.num 2) (.sub (.s .mW) (.s .mZ))) (.add (.s .mW) (.s .mZ))) (.mul
    (.pow (.s .vT) 2) (.add (.mul (.add (.pow (.s .mW) 2) (.pow (.s .mZ) 2)) (.s (.c .phiD)))
    (.mul (.mul (.mul (.mul (.num 2) (.s .g1bar)) (.s .mW)) (.s .vT)) (.s (.c .phiWB))))))
    (.ein [.p,.r] .eye [.s,.t] .eye [] (.num 1))) (.mul (.mul (.pow (.s .mZ) 2) (.pow (.s .vT)
    2)) (.ein [.p,.r] (.t (.c .phie)) [.s,.t] .eye [] (.num 1)))) (.mul (.mul (.num 2) (.pow
    (.s .mW) 2)) (.ein [.p,.t] .eye [.s,.r] .eye [] (.num 1)))) (.mul (.mul (.num 2) (.pow (.s
    .mZ) 2)) (.ein [.p,.t] .eye [.s,.r] .eye [] (.num 1)))) (.mul (.mul (.mul (.pow (.s .mW) 2)
    (.pow (.s .vT) 2)) (.s (.c .phiD))) (.ein [.p,.t] .eye [.s,.r] .eye [] (.num 1)))) (.mul
    (.mul (.mul (.pow (.s .mZ) 2) (.pow (.s .vT) 2)) (.s (.c .phiD))) (.ein [.p,.t] .eye
    [.s,.r] .eye [] (.num 1)))) (.mul (.mul (.mul (.mul (.mul (.num 2) (.s .g1bar)) (.s .mW))
    (.pow (.s .vT) 3)) (.s (.c .phiWB))) (.ein [.p,.t] .eye [.s,.r] .eye [] (.num 1)))) (.mul
    (.mul (.pow (.s .mZ) 2) (.pow (.s .vT) 2)) (.ein [.p,.t] (.t (.c .phie)) [.s,.r] .eye []
    (.num 1)))) (.mul (.mul (.pow (.s .mZ) 2) (.pow (.s .vT) 2)) (.ein [.s,.r] (.t (.c .phie))
    [.p,.t] .eye [] (.num 1)))) (.mul (.mul (.pow (.s .mZ) 2) (.pow (.s .vT) 2)) (.ein [.s,.t]
    (.t (.c .phie)) [.p,.r] .eye [] (.num 1))))) (.mul (.pow (.s .mZ) 4) (.pow (.s .vT) 2))))
    (.num 4))

/-- smeft_tree.py line 141, `c['VeuRR']` -/
def m_VeuRR : E MV :=
  (.add (.t (.c .eu)) (.div (.mul (.mul (.mul (.num 2) (.sub (.s .mW) (.s .mZ))) (.add (.s .mW)
    (.s .mZ))) (.add (.mul (.mul (.num 2) (.add (.mul (.mul (.num 2) (.sub (.s .mW) (.s .mZ)))
    (.add (.s .mW) (.s .mZ))) (.mul (.pow (.s .vT) 2) (.add (.mul (.add (.pow (.s .mW) 2) (.pow
    (.s .mZ) 2)) (.s (.c .phiD))) (.mul (.mul (.mul (.mul (.num 2) (.s .g1bar)) (.s .mW)) (.s
    .vT)) (.s (.c .phiWB))))))) (.ein [.p,.r] .eye [.s,.t] .eye [] (.num 1))) (.mul (.mul (.pow
    (.s .mZ) 2) (.pow (.s .vT) 2)) (.sub (.mul (.num 2) (.ein [.p,.r] (.t (.c .phie)) [.s,.t]
    .eye [] (.num 1))) (.mul (.num 3) (.ein [.s,.t] (.t (.c .phiu)) [.p,.r] .eye [] (.num
    1))))))) (.mul (.mul (.num 3) (.pow (.s .mZ) 4)) (.pow (.s .vT) 2))))

/-- smeft_tree.py line 142, `c['VuuRR']` -/
def m_VuuRR : E MV :=
  (.div (.sub (.add (.mul (.num 9) (.t (.c .uu))) (.mul (.num 9) (.ein [.s,.t,.p,.r] (.t (.c
    .uu)) [] (.num 1) [] (.num 1)))) (.div (.mul (.mul (.mul (.num 4) (.sub (.s .mW) (.s .mZ)))
    (.add (.s .mW) (.s .mZ))) (.sub (.mul (.mul (.num 2) (.add (.mul (.mul (.num 2) (.sub (.s
    .mW) (.s .mZ))) (.add (.s .mW) (.s .mZ))) (.mul (.pow (.s .vT) 2) (.add (.mul (.add (.pow
    (.s .mW) 2) (.pow (.s .mZ) 2)) (.s (.c .phiD))) (.mul (.mul (.mul (.mul (.num 2) (.s
    .g1bar)) (.s .mW)) (.s .vT)) (.s (.c .phiWB))))))) (.ein [.p,.r] .eye [.s,.t] .eye [] (.num
    1))) (.mul (.mul (.mul (.num 3) (.pow (.s .mZ) 2)) (.pow (.s .vT) 2)) (.add (.ein [.p,.r]
    (.t (.c .phiu)) [.s,.t] .eye [] (.num 1)) (.ein [.s,.t] (.t (.c .phiu)) [.p,.r] .eye []
    (.num 1)))))) (.mul (.pow (.s .mZ) 4) (.pow (.s .vT) 2)))) (.num 18))

/-- the matching conditions in order, smeft_tree.py lines 48-142 -/
def treeProg : List (WKey × E MV) :=
  [(.dgamma, m_dgamma),
   (.dG, m_dG),
   (.egamma, m_egamma),
   (.ugamma, m_ugamma),
   (.uG, m_uG),
   (.Gtilde, m_Gtilde),
   (.G, m_G),
   (.SduuLL, m_SduuLL),
   (.SuddLL, m_SuddLL),
   (.SduuLR, m_SduuLR),
   (.SuudLR, m_SuudLR),
   (.SdduRL, m_SdduRL),
   (.SdudRL, m_SdudRL),
   (.SduuRL, m_SduuRL),
   (.SuudRL, m_SuudRL),
   (.SduuRR, m_SduuRR),
   (.V1udLL, m_V1udLL),
   (.V8udLL, m_V8udLL),
   (.VddLL, m_VddLL),
   (.VedLL, m_VedLL),
   (.VeeLL, m_VeeLL),
   (.VeuLL, m_VeuLL),
   (.VnudLL, m_VnudLL),
   (.VnueduLL, m_VnueduLL),
   (.VnueLL, m_VnueLL),
   (.VnunuLL, m_VnunuLL),
   (.VnuuLL, m_VnuuLL),
   (.VuuLL, m_VuuLL),
   (.V1ddLR, m_V1ddLR),
   (.V1duLR, m_V1duLR),
   (.V1udduLR, m_V1udduLR),
   (.V1udLR, m_V1udLR),
   (.V1uuLR, m_V1uuLR),
   (.V8ddLR, m_V8ddLR),
   (.V8duLR, m_V8duLR),
   (.V8udduLR, m_V8udduLR),
   (.V8udLR, m_V8udLR),
   (.V8uuLR, m_V8uuLR),
   (.VdeLR, m_VdeLR),
   (.VedLR, m_VedLR),
   (.VeeLR, m_VeeLR),
   (.VeuLR, m_VeuLR),
   (.VnudLR, m_VnudLR),
   (.VnueduLR, m_VnueduLR),
   (.VnueLR, m_VnueLR),
   (.VnuuLR, m_VnuuLR),
   (.VueLR, m_VueLR),
   (.S1ddRR, m_S1ddRR),
   (.S1udduRR, m_S1udduRR),
   (.S1udRR, m_S1udRR),
   (.S1uuRR, m_S1uuRR),
   (.S8ddRR, m_S8ddRR),
   (.S8udduRR, m_S8udduRR),
   (.S8udRR, m_S8udRR),
   (.S8uuRR, m_S8uuRR),
   (.SedRR, m_SedRR),
   (.SeeRR, m_SeeRR),
   (.SeuRR, m_SeuRR),
   (.SnueduRR, m_SnueduRR),
   (.TedRR, m_TedRR),
   (.TeuRR, m_TeuRR),
   (.TnueduRR, m_TnueduRR),
   (.SedRL, m_SedRL),
   (.SeuRL, m_SeuRL),
   (.SnueduRL, m_SnueduRL),
   (.V1udRR, m_V1udRR),
   (.V8udRR, m_V8udRR),
   (.VddRR, m_VddRR),
   (.VedRR, m_VedRR),
   (.VeeRR, m_VeeRR),
   (.VeuRR, m_VeuRR),
   (.VuuRR, m_VuuRR)]

/-- the keys of `C` that are read (a missing one raises `KeyError`) -/
def treeKeys : List Key :=
  [.dB, .dW, .dG, .eB, .eW, .uB, .uW, .uG, .Gtilde, .G, .qqql, .qque, .duql, .duue, .qq1, .qq3,
    .phiD, .phiWB, .phiq3, .phiq1, .lq1, .lq3, .phil1, .phil3, .ll, .qd1, .phid, .qu1, .phiu,
    .phiud, .qd8, .qu8, .qe, .phie, .ld, .le, .lu, .quqd1, .quqd8, .lequ1, .lequ3, .ledq, .ud1,
    .ud8, .dd, .ed, .ee, .eu, .uu]

end Verif.Match
