import Verif.Model.LoopCompile

/-! Generated by /verif/tools/gen_loop.py from /repo/wilson/match/smeft_loop.py. -/

set_option autoImplicit false
set_option maxRecDepth 20000

namespace Verif.Loop
open Verif.Beta Verif.Rotation

def u5 : Cu := ⟨[], [(.c .qqql, false, [1, 4, 16, 64])]⟩
def u6 : Cu := ⟨[], [(.c .qqql, false, [1, 16, 4, 64])]⟩
def u7 : Cu := ⟨[], [(.c .qqql, false, [4, 1, 16, 64])]⟩
def u8 : Cu := ⟨[], [(.c .qqql, false, [4, 16, 1, 64])]⟩
def u9 : Cu := ⟨[], [(.c .qqql, false, [16, 1, 4, 64])]⟩
def u10 : Cu := ⟨[], [(.c .qqql, false, [16, 4, 1, 64])]⟩
def u11 : Cu := ⟨[(1, 256)], [(.c .qqql, false, [4, 16, 256, 64])]⟩
def u12 : Cu := ⟨[(1, 256)], [(.c .qqql, false, [4, 256, 16, 64])]⟩
def u13 : Cu := ⟨[(1, 256)], [(.c .qqql, false, [16, 4, 256, 64])]⟩
def u14 : Cu := ⟨[(1, 256)], [(.c .qqql, false, [16, 256, 4, 64])]⟩
def u15 : Cu := ⟨[(1, 256)], [(.c .qqql, false, [256, 4, 16, 64])]⟩
def u16 : Cu := ⟨[(1, 256)], [(.c .qqql, false, [256, 16, 4, 64])]⟩
def u17 : Cu := ⟨[(16, 256)], [(.c .qqql, false, [4, 1, 256, 64])]⟩
def u18 : Cu := ⟨[(16, 256)], [(.c .qqql, false, [4, 256, 1, 64])]⟩
def u19 : Cu := ⟨[(4, 256)], [(.c .qqql, false, [16, 256, 1, 64])]⟩
def u20 : Cu := ⟨[(4, 256)], [(.c .qqql, false, [256, 1, 16, 64])]⟩
def u21 : Cu := ⟨[(16, 256)], [(.c .qqql, false, [256, 4, 1, 64])]⟩
def u22 : Cu := ⟨[(4, 256)], [(.c .qqql, false, [256, 16, 1, 64])]⟩
def u23 : Cu := ⟨[(16, 256)], [(.c .qqql, false, [1, 4, 256, 64])]⟩
def u24 : Cu := ⟨[(4, 256)], [(.c .qqql, false, [1, 16, 256, 64])]⟩
def u25 : Cu := ⟨[(16, 256)], [(.c .qqql, false, [1, 256, 4, 64])]⟩
def u26 : Cu := ⟨[(4, 256)], [(.c .qqql, false, [1, 256, 16, 64])]⟩
def u27 : Cu := ⟨[(4, 256)], [(.c .qqql, false, [16, 1, 256, 64])]⟩
def u28 : Cu := ⟨[(16, 256)], [(.c .qqql, false, [256, 1, 4, 64])]⟩
def u29 : Cu := ⟨[], [(.c .qque, false, [1, 4, 16, 64])]⟩
def u30 : Cu := ⟨[], [(.c .qque, false, [4, 1, 16, 64])]⟩
def u31 : Cu := ⟨[(1, 256)], [(.c .qque, false, [4, 256, 16, 64])]⟩
def u32 : Cu := ⟨[(1, 256)], [(.c .qque, false, [256, 4, 16, 64])]⟩
def u33 : Cu := ⟨[], [(.c .duql, false, [1, 4, 16, 64])]⟩
def u34 : Cu := ⟨[(16, 256)], [(.c .duql, false, [1, 4, 256, 64])]⟩
def u35 : Cu := ⟨[], [(.c .duue, false, [1, 4, 16, 64])]⟩
def u36 : Cu := ⟨[], [(.c .duue, false, [1, 16, 4, 64])]⟩
def u37 : Cu := ⟨[], [(.c .qq1, false, [1, 4, 16, 64])]⟩
def u38 : Cu := ⟨[], [(.c .qq3, false, [1, 4, 16, 64])]⟩
def u39 : Cu := ⟨[], [(.c .qq1, false, [1, 64, 16, 4])]⟩
def u40 : Cu := ⟨[], [(.c .qq3, false, [1, 64, 16, 4])]⟩
def u41 : Cu := ⟨[], [(.c .qq1, false, [16, 4, 1, 64])]⟩
def u42 : Cu := ⟨[], [(.c .qq3, false, [16, 4, 1, 64])]⟩
def u43 : Cu := ⟨[], [(.c .qq1, false, [16, 64, 1, 4])]⟩
def u44 : Cu := ⟨[], [(.c .qq3, false, [16, 64, 1, 4])]⟩
def u45 : Cu := ⟨[(1, 4), (16, 64)], []⟩
def u46 : Cu := ⟨[(1, 4), (16, 64)], [(.c .phi, false, [])]⟩
def u47 : Cu := ⟨[(1, 4), (16, 64)], [(.c .phiB, false, [])]⟩
def u48 : Cu := ⟨[(1, 4), (16, 64)], [(.c .phiBox, false, [])]⟩
def u49 : Cu := ⟨[(1, 4), (16, 64)], [(.c .phiD, false, [])]⟩
def u50 : Cu := ⟨[(1, 4), (16, 64)], [(.c .phiW, false, [])]⟩
def u51 : Cu := ⟨[(1, 4), (16, 64)], [(.c .phiWB, false, [])]⟩
def u52 : Cu := ⟨[(1, 4), (16, 64)], [(.c .W, false, [])]⟩
def u53 : Cu := ⟨[(16, 64)], [(.c .phiq1, false, [1, 4])]⟩
def u54 : Cu := ⟨[(16, 64)], [(.c .phiq3, false, [1, 4])]⟩
def u55 : Cu := ⟨[(1, 64), (16, 4)], []⟩
def u56 : Cu := ⟨[(1, 64), (16, 4)], [(.c .phi, false, [])]⟩
def u57 : Cu := ⟨[(1, 64), (16, 4)], [(.c .phiB, false, [])]⟩
def u58 : Cu := ⟨[(1, 64), (16, 4)], [(.c .phiBox, false, [])]⟩
def u59 : Cu := ⟨[(1, 64), (16, 4)], [(.c .phiD, false, [])]⟩
def u60 : Cu := ⟨[(1, 64), (16, 4)], [(.c .phiW, false, [])]⟩
def u61 : Cu := ⟨[(1, 64), (16, 4)], [(.c .phiWB, false, [])]⟩
def u62 : Cu := ⟨[(16, 4)], [(.c .phiq3, false, [1, 64])]⟩
def u63 : Cu := ⟨[(1, 64)], [(.c .phiq3, false, [16, 4])]⟩
def u64 : Cu := ⟨[(1, 4)], [(.c .phiq1, false, [16, 64])]⟩
def u65 : Cu := ⟨[(1, 4)], [(.c .phiq3, false, [16, 64])]⟩
def u66 : Cu := ⟨[(64, 256)], [(.c .qq1, false, [1, 4, 16, 256])]⟩
def u67 : Cu := ⟨[(64, 256)], [(.c .qq3, false, [1, 4, 16, 256])]⟩
def u68 : Cu := ⟨[(16, 256)], [(.c .qq1, false, [1, 4, 256, 64])]⟩
def u69 : Cu := ⟨[(16, 256)], [(.c .qq3, false, [1, 4, 256, 64])]⟩
def u70 : Cu := ⟨[(64, 256)], [(.c .qq3, false, [1, 256, 16, 4])]⟩
def u71 : Cu := ⟨[(16, 256)], [(.c .qq3, false, [1, 64, 256, 4])]⟩
def u72 : Cu := ⟨[(16, 64)], [(.c .qq1, false, [1, 256, 256, 4])]⟩
def u73 : Cu := ⟨[(16, 64)], [(.c .qq3, false, [1, 256, 256, 4])]⟩
def u74 : Cu := ⟨[(16, 4)], [(.c .qq3, false, [1, 64, 256, 256])]⟩
def u75 : Cu := ⟨[(16, 4)], [(.c .qq1, false, [1, 256, 256, 64])]⟩
def u76 : Cu := ⟨[(16, 4)], [(.c .qq3, false, [1, 256, 256, 64])]⟩
def u77 : Cu := ⟨[(64, 256)], [(.c .qq3, false, [16, 4, 1, 256])]⟩
def u78 : Cu := ⟨[(1, 64)], [(.c .qq3, false, [16, 4, 256, 256])]⟩
def u79 : Cu := ⟨[(64, 256)], [(.c .qq1, false, [16, 256, 1, 4])]⟩
def u80 : Cu := ⟨[(64, 256)], [(.c .qq3, false, [16, 256, 1, 4])]⟩
def u81 : Cu := ⟨[(1, 64)], [(.c .qq1, false, [16, 256, 256, 4])]⟩
def u82 : Cu := ⟨[(1, 64)], [(.c .qq3, false, [16, 256, 256, 4])]⟩
def u83 : Cu := ⟨[(1, 4)], [(.c .qq3, false, [16, 256, 256, 64])]⟩
def u84 : Cu := ⟨[(16, 256)], [(.c .qq3, false, [256, 4, 1, 64])]⟩
def u85 : Cu := ⟨[(16, 64)], [(.c .qq1, false, [256, 4, 1, 256])]⟩
def u86 : Cu := ⟨[(16, 64)], [(.c .qq3, false, [256, 4, 1, 256])]⟩
def u87 : Cu := ⟨[(1, 64)], [(.c .qq1, false, [256, 4, 16, 256])]⟩
def u88 : Cu := ⟨[(1, 64)], [(.c .qq3, false, [256, 4, 16, 256])]⟩
def u89 : Cu := ⟨[(16, 256)], [(.c .qq1, false, [256, 64, 1, 4])]⟩
def u90 : Cu := ⟨[(16, 256)], [(.c .qq3, false, [256, 64, 1, 4])]⟩
def u91 : Cu := ⟨[(16, 4)], [(.c .qq1, false, [256, 64, 1, 256])]⟩
def u92 : Cu := ⟨[(16, 4)], [(.c .qq3, false, [256, 64, 1, 256])]⟩
def u93 : Cu := ⟨[(16, 4)], [(.c .qq3, false, [256, 256, 1, 64])]⟩
def u94 : Cu := ⟨[(1, 64)], [(.c .qq3, false, [256, 256, 16, 4])]⟩
def u95 : Cu := ⟨[(1, 4)], [(.c .qq3, false, [256, 64, 16, 256])]⟩
def u96 : Cu := ⟨[(1, 4), (16, 256), (64, 256)], []⟩
def u97 : Cu := ⟨[(1, 4), (16, 256), (64, 256)], [(.c .phiD, false, [])]⟩
def u98 : Cu := ⟨[(1, 4), (16, 256), (64, 256)], [(.c .phiWB, false, [])]⟩
def u99 : Cu := ⟨[(1, 4), (16, 256), (64, 256)], [(.c .W, false, [])]⟩
def u100 : Cu := ⟨[(16, 256), (64, 256)], [(.c .phiq1, false, [1, 4])]⟩
def u101 : Cu := ⟨[(16, 256), (64, 256)], [(.c .phiq3, false, [1, 4])]⟩
def u102 : Cu := ⟨[(16, 256), (64, 256)], [(.c .qq1, false, [1, 4, 256, 256])]⟩
def u103 : Cu := ⟨[(16, 256), (64, 256)], [(.c .qq3, false, [1, 4, 256, 256])]⟩
def u104 : Cu := ⟨[(16, 256), (64, 256)], [(.c .qu1, false, [1, 4, 256, 256])]⟩
def u105 : Cu := ⟨[(16, 4), (64, 256)], [(.c .phiq1, false, [1, 256])]⟩
def u106 : Cu := ⟨[(16, 4), (64, 256)], [(.c .phiq3, false, [1, 256])]⟩
def u107 : Cu := ⟨[(16, 4), (64, 256)], [(.c .uB, false, [1, 256])]⟩
def u108 : Cu := ⟨[(16, 4), (64, 256)], [(.c .uG, false, [1, 256])]⟩
def u109 : Cu := ⟨[(16, 4), (64, 256)], [(.c .uphi, false, [1, 256])]⟩
def u110 : Cu := ⟨[(16, 4), (64, 256)], [(.c .uW, false, [1, 256])]⟩
def u111 : Cu := ⟨[(16, 256), (64, 256)], [(.c .qq1, false, [1, 256, 256, 4])]⟩
def u112 : Cu := ⟨[(16, 256), (64, 256)], [(.c .qq3, false, [1, 256, 256, 4])]⟩
def u113 : Cu := ⟨[(16, 4), (64, 256)], [(.c .qu1, false, [1, 256, 256, 256])]⟩
def u114 : Cu := ⟨[(16, 4), (64, 256)], [(.c .qu8, false, [1, 256, 256, 256])]⟩
def u115 : Cu := ⟨[(1, 4), (64, 256)], [(.c .phiq1, false, [16, 256])]⟩
def u116 : Cu := ⟨[(1, 4), (64, 256)], [(.c .phiq3, false, [16, 256])]⟩
def u117 : Cu := ⟨[(1, 4), (64, 256)], [(.c .uW, false, [16, 256])]⟩
def u118 : Cu := ⟨[(1, 64), (16, 256)], [(.c .phiq1, false, [256, 4])]⟩
def u119 : Cu := ⟨[(1, 64), (16, 256)], [(.c .phiq3, false, [256, 4])]⟩
def u120 : Cu := ⟨[(1, 64), (16, 256)], [(.c .uB, true, [4, 256])]⟩
def u121 : Cu := ⟨[(1, 64), (16, 256)], [(.c .uG, true, [4, 256])]⟩
def u122 : Cu := ⟨[(1, 64), (16, 256)], [(.c .uphi, true, [4, 256])]⟩
def u123 : Cu := ⟨[(1, 64), (16, 256)], [(.c .uW, true, [4, 256])]⟩
def u124 : Cu := ⟨[(16, 256), (64, 256)], [(.c .qq1, false, [256, 4, 1, 256])]⟩
def u125 : Cu := ⟨[(16, 256), (64, 256)], [(.c .qq3, false, [256, 4, 1, 256])]⟩
def u126 : Cu := ⟨[(1, 64), (16, 256)], [(.c .qu1, false, [256, 4, 256, 256])]⟩
def u127 : Cu := ⟨[(1, 64), (16, 256)], [(.c .qu8, false, [256, 4, 256, 256])]⟩
def u128 : Cu := ⟨[(1, 4), (16, 256)], [(.c .phiq1, false, [256, 64])]⟩
def u129 : Cu := ⟨[(1, 4), (16, 256)], [(.c .phiq3, false, [256, 64])]⟩
def u130 : Cu := ⟨[(1, 4), (16, 256)], [(.c .uW, true, [64, 256])]⟩
def u131 : Cu := ⟨[(1, 4), (16, 64)], [(.c .uphi, false, [256, 256])]⟩
def u132 : Cu := ⟨[(1, 4), (16, 64)], [(.c .uphi, true, [256, 256])]⟩
def u133 : Cu := ⟨[(16, 256), (64, 256)], [(.c .qq1, false, [256, 256, 1, 4])]⟩
def u134 : Cu := ⟨[(16, 256), (64, 256)], [(.c .qq3, false, [256, 256, 1, 4])]⟩
def u135 : Cu := ⟨[(1, 64), (16, 4)], [(.c .phiq3, false, [256, 256])]⟩
def u136 : Cu := ⟨[(1, 64), (16, 4)], [(.c .uphi, false, [256, 256])]⟩
def u137 : Cu := ⟨[(1, 64), (16, 4)], [(.c .uphi, true, [256, 256])]⟩
def u138 : Cu := ⟨[(1, 4), (16, 256), (64, 256)], [(.c .phiq1, false, [256, 256])]⟩
def u139 : Cu := ⟨[(1, 4), (16, 256), (64, 256)], [(.c .phiq3, false, [256, 256])]⟩
def u140 : Cu := ⟨[(1, 4), (16, 256), (64, 256)], [(.c .phiu, false, [256, 256])]⟩
def u141 : Cu := ⟨[(1, 4), (16, 256), (64, 256)], [(.c .uB, false, [256, 256])]⟩
def u142 : Cu := ⟨[(1, 4), (16, 256), (64, 256)], [(.c .uB, true, [256, 256])]⟩
def u143 : Cu := ⟨[(1, 4), (16, 256), (64, 256)], [(.c .uW, false, [256, 256])]⟩
def u144 : Cu := ⟨[(1, 4), (16, 256), (64, 256)], [(.c .uW, true, [256, 256])]⟩
def u145 : Cu := ⟨[(16, 64)], [(.c .qq1, false, [1, 4, 256, 256])]⟩
def u146 : Cu := ⟨[(16, 64)], [(.c .qq3, false, [1, 4, 256, 256])]⟩
def u147 : Cu := ⟨[(16, 64)], [(.c .qu1, false, [1, 4, 256, 256])]⟩
def u148 : Cu := ⟨[(64, 256)], [(.c .qq1, false, [1, 256, 16, 4])]⟩
def u149 : Cu := ⟨[(16, 256)], [(.c .qq1, false, [1, 64, 256, 4])]⟩
def u150 : Cu := ⟨[(64, 256)], [(.c .qq1, false, [16, 4, 1, 256])]⟩
def u151 : Cu := ⟨[(1, 4)], [(.c .qq1, false, [16, 64, 256, 256])]⟩
def u152 : Cu := ⟨[(1, 4)], [(.c .qq3, false, [16, 64, 256, 256])]⟩
def u153 : Cu := ⟨[(1, 4)], [(.c .qu1, false, [16, 64, 256, 256])]⟩
def u154 : Cu := ⟨[(16, 256)], [(.c .qq1, false, [256, 4, 1, 64])]⟩
def u155 : Cu := ⟨[(16, 64)], [(.c .qq1, false, [256, 256, 1, 4])]⟩
def u156 : Cu := ⟨[(16, 64)], [(.c .qq3, false, [256, 256, 1, 4])]⟩
def u157 : Cu := ⟨[(1, 4)], [(.c .qq1, false, [256, 256, 16, 64])]⟩
def u158 : Cu := ⟨[(1, 4)], [(.c .qq3, false, [256, 256, 16, 64])]⟩
def u159 : Cu := ⟨[(1, 4), (64, 256)], [(.c .uB, false, [16, 256])]⟩
def u160 : Cu := ⟨[(1, 4), (16, 256)], [(.c .uB, true, [64, 256])]⟩
def u161 : Cu := ⟨[(1, 4), (16, 64)], [(.c .phiq1, false, [256, 256])]⟩
def u162 : Cu := ⟨[(1, 4), (16, 64)], [(.c .phiq3, false, [256, 256])]⟩
def u163 : Cu := ⟨[(1, 4), (16, 64)], [(.c .phiu, false, [256, 256])]⟩
def u164 : Cu := ⟨[(1, 4), (16, 64)], [(.c .uB, false, [256, 256])]⟩
def u165 : Cu := ⟨[(1, 4), (16, 64)], [(.c .uB, true, [256, 256])]⟩
def u166 : Cu := ⟨[(1, 4), (16, 64)], [(.c .uW, false, [256, 256])]⟩
def u167 : Cu := ⟨[(1, 4), (16, 64)], [(.c .uW, true, [256, 256])]⟩
def u168 : Cu := ⟨[(16, 4)], [(.c .phiq1, false, [1, 64])]⟩
def u169 : Cu := ⟨[(1, 64)], [(.c .phiq1, false, [16, 4])]⟩
def u170 : Cu := ⟨[(16, 256), (64, 256)], [(.c .qu8, false, [1, 4, 256, 256])]⟩
def u171 : Cu := ⟨[(1, 4), (16, 64)], [(.c .uG, false, [256, 256])]⟩
def u172 : Cu := ⟨[(1, 4), (16, 64)], [(.c .uG, true, [256, 256])]⟩
def u173 : Cu := ⟨[(1, 4), (16, 256), (64, 256)], [(.c .uG, false, [256, 256])]⟩
def u174 : Cu := ⟨[(1, 4), (16, 256), (64, 256)], [(.c .uG, true, [256, 256])]⟩
def u175 : Cu := ⟨[(16, 64)], [(.c .qu8, false, [1, 4, 256, 256])]⟩
def u176 : Cu := ⟨[(1, 4)], [(.c .qu8, false, [16, 64, 256, 256])]⟩
def u177 : Cu := ⟨[(1, 4), (64, 256)], [(.c .uG, false, [16, 256])]⟩
def u178 : Cu := ⟨[(1, 4), (16, 256)], [(.c .uG, true, [64, 256])]⟩
def u179 : Cu := ⟨[(4, 256)], [(.c .qq1, false, [1, 256, 16, 64])]⟩
def u180 : Cu := ⟨[(4, 256)], [(.c .qq3, false, [1, 256, 16, 64])]⟩
def u181 : Cu := ⟨[(4, 256)], [(.c .qq1, false, [16, 64, 1, 256])]⟩
def u182 : Cu := ⟨[(4, 256)], [(.c .qq3, false, [16, 64, 1, 256])]⟩
def u183 : Cu := ⟨[(1, 256)], [(.c .qq1, false, [16, 64, 256, 4])]⟩
def u184 : Cu := ⟨[(1, 256)], [(.c .qq3, false, [16, 64, 256, 4])]⟩
def u185 : Cu := ⟨[(1, 256)], [(.c .qq1, false, [256, 4, 16, 64])]⟩
def u186 : Cu := ⟨[(1, 256)], [(.c .qq3, false, [256, 4, 16, 64])]⟩
def u187 : Cu := ⟨[(1, 64), (4, 256), (16, 256)], []⟩
def u188 : Cu := ⟨[(16, 64), (4, 256)], [(.c .phiq1, false, [1, 256])]⟩
def u189 : Cu := ⟨[(16, 64), (4, 256)], [(.c .phiq3, false, [1, 256])]⟩
def u190 : Cu := ⟨[(16, 64), (4, 256)], [(.c .uW, false, [1, 256])]⟩
def u191 : Cu := ⟨[(4, 256), (16, 256)], [(.c .qu8, false, [1, 64, 256, 256])]⟩
def u192 : Cu := ⟨[(4, 256), (16, 256)], [(.c .qq3, false, [1, 256, 256, 64])]⟩
def u193 : Cu := ⟨[(16, 4), (1, 256), (64, 256)], []⟩
def u194 : Cu := ⟨[(1, 256), (64, 256)], [(.c .qu8, false, [16, 4, 256, 256])]⟩
def u195 : Cu := ⟨[(16, 64), (1, 256), (4, 256)], []⟩
def u196 : Cu := ⟨[(16, 64), (1, 256), (4, 256)], [(.c .phiD, false, [])]⟩
def u197 : Cu := ⟨[(16, 64), (1, 256), (4, 256)], [(.c .phiWB, false, [])]⟩
def u198 : Cu := ⟨[(16, 64), (1, 256), (4, 256)], [(.c .W, false, [])]⟩
def u199 : Cu := ⟨[(1, 256), (4, 256)], [(.c .phiq1, false, [16, 64])]⟩
def u200 : Cu := ⟨[(1, 256), (4, 256)], [(.c .phiq3, false, [16, 64])]⟩
def u201 : Cu := ⟨[(1, 64), (4, 256)], [(.c .phiq3, false, [16, 256])]⟩
def u202 : Cu := ⟨[(1, 64), (4, 256)], [(.c .uW, false, [16, 256])]⟩
def u203 : Cu := ⟨[(1, 256), (64, 256)], [(.c .qq3, false, [16, 256, 256, 4])]⟩
def u204 : Cu := ⟨[(1, 256), (4, 256)], [(.c .qq1, false, [16, 64, 256, 256])]⟩
def u205 : Cu := ⟨[(1, 256), (4, 256)], [(.c .qq3, false, [16, 64, 256, 256])]⟩
def u206 : Cu := ⟨[(1, 256), (4, 256)], [(.c .qu1, false, [16, 64, 256, 256])]⟩
def u207 : Cu := ⟨[(1, 256), (4, 256)], [(.c .qu8, false, [16, 64, 256, 256])]⟩
def u208 : Cu := ⟨[(16, 64), (1, 256)], [(.c .phiq1, false, [256, 4])]⟩
def u209 : Cu := ⟨[(16, 64), (1, 256)], [(.c .phiq3, false, [256, 4])]⟩
def u210 : Cu := ⟨[(16, 64), (1, 256)], [(.c .uW, true, [4, 256])]⟩
def u211 : Cu := ⟨[(1, 256), (64, 256)], [(.c .qq3, false, [256, 4, 16, 256])]⟩
def u212 : Cu := ⟨[(4, 256), (16, 256)], [(.c .qq3, false, [256, 64, 1, 256])]⟩
def u213 : Cu := ⟨[(1, 64), (16, 4)], [(.c .uG, false, [256, 256])]⟩
def u214 : Cu := ⟨[(1, 64), (16, 4)], [(.c .uG, true, [256, 256])]⟩
def u215 : Cu := ⟨[(16, 4), (1, 256)], [(.c .phiq3, false, [256, 64])]⟩
def u216 : Cu := ⟨[(16, 4), (1, 256)], [(.c .uW, true, [64, 256])]⟩
def u217 : Cu := ⟨[(1, 256), (4, 256)], [(.c .qq1, false, [256, 256, 16, 64])]⟩
def u218 : Cu := ⟨[(1, 256), (4, 256)], [(.c .qq3, false, [256, 256, 16, 64])]⟩
def u219 : Cu := ⟨[(1, 64), (4, 256), (16, 256)], [(.c .uG, false, [256, 256])]⟩
def u220 : Cu := ⟨[(1, 64), (4, 256), (16, 256)], [(.c .uG, true, [256, 256])]⟩
def u221 : Cu := ⟨[(1, 256), (4, 256), (16, 256)], [(.c .phiq3, false, [256, 64])]⟩
def u222 : Cu := ⟨[(1, 256), (4, 256), (16, 256)], [(.c .uW, true, [64, 256])]⟩
def u223 : Cu := ⟨[(1, 256), (4, 256), (64, 256)], [(.c .phiq3, false, [16, 256])]⟩
def u224 : Cu := ⟨[(1, 256), (4, 256), (64, 256)], [(.c .uW, false, [16, 256])]⟩
def u225 : Cu := ⟨[(1, 256), (16, 256), (64, 256)], [(.c .phiq3, false, [256, 4])]⟩
def u226 : Cu := ⟨[(1, 256), (16, 256), (64, 256)], [(.c .uW, true, [4, 256])]⟩
def u227 : Cu := ⟨[(4, 256), (16, 256), (64, 256), (1, 256)], []⟩
def u228 : Cu := ⟨[(4, 256), (16, 256), (64, 256)], [(.c .phiq3, false, [1, 256])]⟩
def u229 : Cu := ⟨[(4, 256), (16, 256), (64, 256)], [(.c .uW, false, [1, 256])]⟩
def u230 : Cu := ⟨[(16, 4), (1, 256), (64, 256)], [(.c .uG, false, [256, 256])]⟩
def u231 : Cu := ⟨[(16, 4), (1, 256), (64, 256)], [(.c .uG, true, [256, 256])]⟩
def u232 : Cu := ⟨[(16, 64), (1, 256), (4, 256)], [(.c .phiq1, false, [256, 256])]⟩
def u233 : Cu := ⟨[(16, 64), (1, 256), (4, 256)], [(.c .phiq3, false, [256, 256])]⟩
def u234 : Cu := ⟨[(16, 64), (1, 256), (4, 256)], [(.c .phiu, false, [256, 256])]⟩
def u235 : Cu := ⟨[(16, 64), (1, 256), (4, 256)], [(.c .uB, false, [256, 256])]⟩
def u236 : Cu := ⟨[(16, 64), (1, 256), (4, 256)], [(.c .uB, true, [256, 256])]⟩
def u237 : Cu := ⟨[(16, 64), (1, 256), (4, 256)], [(.c .uG, false, [256, 256])]⟩
def u238 : Cu := ⟨[(16, 64), (1, 256), (4, 256)], [(.c .uG, true, [256, 256])]⟩
def u239 : Cu := ⟨[(16, 64), (1, 256), (4, 256)], [(.c .uW, false, [256, 256])]⟩
def u240 : Cu := ⟨[(16, 64), (1, 256), (4, 256)], [(.c .uW, true, [256, 256])]⟩
def u241 : Cu := ⟨[(16, 4)], [(.c .qu8, false, [1, 64, 256, 256])]⟩
def u242 : Cu := ⟨[(1, 64)], [(.c .qu8, false, [16, 4, 256, 256])]⟩
def u243 : Cu := ⟨[(16, 64), (4, 256)], [(.c .uB, false, [1, 256])]⟩
def u244 : Cu := ⟨[(16, 64), (4, 256)], [(.c .uG, false, [1, 256])]⟩
def u245 : Cu := ⟨[(1, 64), (4, 256)], [(.c .uG, false, [16, 256])]⟩
def u246 : Cu := ⟨[(16, 64), (1, 256)], [(.c .uB, true, [4, 256])]⟩
def u247 : Cu := ⟨[(16, 64), (1, 256)], [(.c .uG, true, [4, 256])]⟩
def u248 : Cu := ⟨[(16, 4), (1, 256)], [(.c .uG, true, [64, 256])]⟩
def u249 : Cu := ⟨[], [(.c .lq1, false, [1, 4, 16, 64])]⟩
def u250 : Cu := ⟨[], [(.c .lq3, false, [1, 4, 16, 64])]⟩
def u251 : Cu := ⟨[(16, 64)], [(.c .phil1, false, [1, 4])]⟩
def u252 : Cu := ⟨[(16, 64)], [(.c .phil3, false, [1, 4])]⟩
def u253 : Cu := ⟨[(64, 256)], [(.c .lq1, false, [1, 4, 16, 256])]⟩
def u254 : Cu := ⟨[(64, 256)], [(.c .lq3, false, [1, 4, 16, 256])]⟩
def u255 : Cu := ⟨[(16, 256)], [(.c .lq1, false, [1, 4, 256, 64])]⟩
def u256 : Cu := ⟨[(16, 256)], [(.c .lq3, false, [1, 4, 256, 64])]⟩
def u257 : Cu := ⟨[(16, 256), (64, 256)], [(.c .phil1, false, [1, 4])]⟩
def u258 : Cu := ⟨[(16, 256), (64, 256)], [(.c .phil3, false, [1, 4])]⟩
def u259 : Cu := ⟨[(16, 256), (64, 256)], [(.c .lq1, false, [1, 4, 256, 256])]⟩
def u260 : Cu := ⟨[(16, 256), (64, 256)], [(.c .lq3, false, [1, 4, 256, 256])]⟩
def u261 : Cu := ⟨[(16, 256), (64, 256)], [(.c .lu, false, [1, 4, 256, 256])]⟩
def u262 : Cu := ⟨[(16, 64)], [(.c .lq1, false, [1, 4, 256, 256])]⟩
def u263 : Cu := ⟨[(16, 64)], [(.c .lq3, false, [1, 4, 256, 256])]⟩
def u264 : Cu := ⟨[(16, 64)], [(.c .lu, false, [1, 4, 256, 256])]⟩
def u265 : Cu := ⟨[], [(.c .ll, false, [1, 4, 16, 64])]⟩
def u266 : Cu := ⟨[], [(.c .ll, false, [1, 64, 16, 4])]⟩
def u267 : Cu := ⟨[], [(.c .ll, false, [16, 4, 1, 64])]⟩
def u268 : Cu := ⟨[], [(.c .ll, false, [16, 64, 1, 4])]⟩
def u269 : Cu := ⟨[(1, 64), (16, 4)], [(.c .W, false, [])]⟩
def u270 : Cu := ⟨[(16, 4)], [(.c .phil1, false, [1, 64])]⟩
def u271 : Cu := ⟨[(16, 4)], [(.c .phil3, false, [1, 64])]⟩
def u272 : Cu := ⟨[(1, 64)], [(.c .phil1, false, [16, 4])]⟩
def u273 : Cu := ⟨[(1, 64)], [(.c .phil3, false, [16, 4])]⟩
def u274 : Cu := ⟨[(1, 4)], [(.c .phil1, false, [16, 64])]⟩
def u275 : Cu := ⟨[(1, 4)], [(.c .phil3, false, [16, 64])]⟩
def u276 : Cu := ⟨[(1, 64), (16, 4)], [(.c .uB, false, [256, 256])]⟩
def u277 : Cu := ⟨[(1, 64), (16, 4)], [(.c .uB, true, [256, 256])]⟩
def u278 : Cu := ⟨[(1, 64), (16, 4)], [(.c .uW, false, [256, 256])]⟩
def u279 : Cu := ⟨[(1, 64), (16, 4)], [(.c .uW, true, [256, 256])]⟩
def u280 : Cu := ⟨[(16, 4)], [(.c .lq1, false, [1, 64, 256, 256])]⟩
def u281 : Cu := ⟨[(16, 4)], [(.c .lq3, false, [1, 64, 256, 256])]⟩
def u282 : Cu := ⟨[(16, 4)], [(.c .lu, false, [1, 64, 256, 256])]⟩
def u283 : Cu := ⟨[(1, 64)], [(.c .lq1, false, [16, 4, 256, 256])]⟩
def u284 : Cu := ⟨[(1, 64)], [(.c .lq3, false, [16, 4, 256, 256])]⟩
def u285 : Cu := ⟨[(1, 64)], [(.c .lu, false, [16, 4, 256, 256])]⟩
def u286 : Cu := ⟨[(1, 4)], [(.c .lq1, false, [16, 64, 256, 256])]⟩
def u287 : Cu := ⟨[(1, 4)], [(.c .lq3, false, [16, 64, 256, 256])]⟩
def u288 : Cu := ⟨[(1, 4)], [(.c .lu, false, [16, 64, 256, 256])]⟩
def u289 : Cu := ⟨[(1, 64), (16, 4)], [(.c .phiq1, false, [256, 256])]⟩
def u290 : Cu := ⟨[(1, 64), (16, 4)], [(.c .phiu, false, [256, 256])]⟩
def u291 : Cu := ⟨[(1, 4)], [(.c .qq1, false, [16, 256, 256, 64])]⟩
def u292 : Cu := ⟨[(1, 4)], [(.c .qq1, false, [256, 64, 16, 256])]⟩
def u293 : Cu := ⟨[(1, 4), (16, 64)], [(.c .phiWtildeB, false, [])]⟩
def u294 : Cu := ⟨[(1, 4), (16, 256)], [(.c .uphi, true, [64, 256])]⟩
def u295 : Cu := ⟨[(1, 4), (16, 256)], [(.c .qu1, false, [256, 64, 256, 256])]⟩
def u296 : Cu := ⟨[(1, 4), (16, 256)], [(.c .qu8, false, [256, 64, 256, 256])]⟩
def u297 : Cu := ⟨[], [(.c .qd1, false, [1, 4, 16, 64])]⟩
def u298 : Cu := ⟨[(1, 4)], [(.c .phid, false, [16, 64])]⟩
def u299 : Cu := ⟨[(4, 256)], [(.c .qd1, false, [1, 256, 16, 64])]⟩
def u300 : Cu := ⟨[(1, 256)], [(.c .qd1, false, [256, 4, 16, 64])]⟩
def u301 : Cu := ⟨[(1, 256), (4, 256)], [(.c .phid, false, [16, 64])]⟩
def u302 : Cu := ⟨[(1, 256), (4, 256)], [(.c .qd1, false, [256, 256, 16, 64])]⟩
def u303 : Cu := ⟨[(1, 256), (4, 256)], [(.c .ud1, false, [256, 256, 16, 64])]⟩
def u304 : Cu := ⟨[(1, 4)], [(.c .qd1, false, [256, 256, 16, 64])]⟩
def u305 : Cu := ⟨[(1, 4)], [(.c .ud1, false, [256, 256, 16, 64])]⟩
def u306 : Cu := ⟨[], [(.c .qu1, false, [1, 4, 16, 64])]⟩
def u307 : Cu := ⟨[(1, 4)], [(.c .phiu, false, [16, 64])]⟩
def u308 : Cu := ⟨[(4, 256)], [(.c .qu1, false, [1, 256, 16, 64])]⟩
def u309 : Cu := ⟨[(1, 4)], [(.c .uu, false, [16, 256, 256, 64])]⟩
def u310 : Cu := ⟨[(1, 256)], [(.c .qu1, false, [256, 4, 16, 64])]⟩
def u311 : Cu := ⟨[(1, 4)], [(.c .uu, false, [256, 64, 16, 256])]⟩
def u312 : Cu := ⟨[(1, 256), (4, 256)], [(.c .phiu, false, [16, 64])]⟩
def u313 : Cu := ⟨[(1, 256), (4, 256)], [(.c .uu, false, [16, 64, 256, 256])]⟩
def u314 : Cu := ⟨[(1, 256), (4, 256)], [(.c .uu, false, [16, 256, 256, 64])]⟩
def u315 : Cu := ⟨[(1, 256), (4, 256)], [(.c .uu, false, [256, 64, 16, 256])]⟩
def u316 : Cu := ⟨[(1, 256), (4, 256)], [(.c .qu1, false, [256, 256, 16, 64])]⟩
def u317 : Cu := ⟨[(1, 256), (4, 256)], [(.c .uu, false, [256, 256, 16, 64])]⟩
def u318 : Cu := ⟨[(1, 4)], [(.c .uu, false, [16, 64, 256, 256])]⟩
def u319 : Cu := ⟨[(1, 4)], [(.c .qu1, false, [256, 256, 16, 64])]⟩
def u320 : Cu := ⟨[(1, 4)], [(.c .uu, false, [256, 256, 16, 64])]⟩
def u321 : Cu := ⟨[(1, 4)], [(.c .phiud, true, [64, 16])]⟩
def u322 : Cu := ⟨[], [(.c .qd8, false, [1, 4, 16, 64])]⟩
def u323 : Cu := ⟨[(4, 256)], [(.c .qd8, false, [1, 256, 16, 64])]⟩
def u324 : Cu := ⟨[(1, 256)], [(.c .qd8, false, [256, 4, 16, 64])]⟩
def u325 : Cu := ⟨[(1, 256), (4, 256)], [(.c .qd8, false, [256, 256, 16, 64])]⟩
def u326 : Cu := ⟨[(1, 256), (4, 256)], [(.c .ud8, false, [256, 256, 16, 64])]⟩
def u327 : Cu := ⟨[(1, 4)], [(.c .qd8, false, [256, 256, 16, 64])]⟩
def u328 : Cu := ⟨[(1, 4)], [(.c .ud8, false, [256, 256, 16, 64])]⟩
def u329 : Cu := ⟨[], [(.c .qu8, false, [1, 4, 16, 64])]⟩
def u330 : Cu := ⟨[(4, 256)], [(.c .qu8, false, [1, 256, 16, 64])]⟩
def u331 : Cu := ⟨[(1, 256)], [(.c .qu8, false, [256, 4, 16, 64])]⟩
def u332 : Cu := ⟨[(1, 256), (4, 256)], [(.c .qu8, false, [256, 256, 16, 64])]⟩
def u333 : Cu := ⟨[(1, 4)], [(.c .qu8, false, [256, 256, 16, 64])]⟩
def u334 : Cu := ⟨[], [(.c .qe, false, [1, 4, 16, 64])]⟩
def u335 : Cu := ⟨[(1, 4)], [(.c .phie, false, [16, 64])]⟩
def u336 : Cu := ⟨[(4, 256)], [(.c .qe, false, [1, 256, 16, 64])]⟩
def u337 : Cu := ⟨[(1, 256)], [(.c .qe, false, [256, 4, 16, 64])]⟩
def u338 : Cu := ⟨[(1, 256), (4, 256)], [(.c .phie, false, [16, 64])]⟩
def u339 : Cu := ⟨[(1, 256), (4, 256)], [(.c .eu, false, [16, 64, 256, 256])]⟩
def u340 : Cu := ⟨[(1, 256), (4, 256)], [(.c .qe, false, [256, 256, 16, 64])]⟩
def u341 : Cu := ⟨[(1, 4)], [(.c .eu, false, [16, 64, 256, 256])]⟩
def u342 : Cu := ⟨[(1, 4)], [(.c .qe, false, [256, 256, 16, 64])]⟩
def u343 : Cu := ⟨[], [(.c .ld, false, [1, 4, 16, 64])]⟩
def u344 : Cu := ⟨[], [(.c .le, false, [1, 4, 16, 64])]⟩
def u345 : Cu := ⟨[], [(.c .lu, false, [1, 4, 16, 64])]⟩
def u346 : Cu := ⟨[], [(.c .quqd1, false, [1, 64, 16, 4])]⟩
def u347 : Cu := ⟨[], [(.c .quqd8, false, [1, 64, 16, 4])]⟩
def u348 : Cu := ⟨[], [(.c .quqd1, false, [16, 64, 1, 4])]⟩
def u349 : Cu := ⟨[(16, 256)], [(.c .quqd1, false, [256, 64, 1, 4])]⟩
def u350 : Cu := ⟨[(16, 256)], [(.c .quqd1, false, [1, 64, 256, 4])]⟩
def u351 : Cu := ⟨[(16, 256)], [(.c .quqd8, false, [1, 64, 256, 4])]⟩
def u352 : Cu := ⟨[], [(.c .quqd1, false, [1, 4, 16, 64])]⟩
def u353 : Cu := ⟨[], [(.c .quqd1, false, [16, 4, 1, 64])]⟩
def u354 : Cu := ⟨[], [(.c .quqd8, false, [16, 4, 1, 64])]⟩
def u355 : Cu := ⟨[(16, 256)], [(.c .quqd1, false, [1, 4, 256, 64])]⟩
def u356 : Cu := ⟨[(16, 256)], [(.c .quqd1, false, [256, 4, 1, 64])]⟩
def u357 : Cu := ⟨[(16, 256)], [(.c .quqd8, false, [256, 4, 1, 64])]⟩
def u358 : Cu := ⟨[], [(.c .quqd8, false, [16, 64, 1, 4])]⟩
def u359 : Cu := ⟨[(16, 256)], [(.c .quqd8, false, [256, 64, 1, 4])]⟩
def u360 : Cu := ⟨[], [(.c .quqd8, false, [1, 4, 16, 64])]⟩
def u361 : Cu := ⟨[(16, 256)], [(.c .quqd8, false, [1, 4, 256, 64])]⟩
def u362 : Cu := ⟨[], [(.c .lequ1, false, [1, 4, 16, 64])]⟩
def u363 : Cu := ⟨[], [(.c .lequ3, false, [1, 4, 16, 64])]⟩
def u364 : Cu := ⟨[(16, 256)], [(.c .lequ1, false, [1, 4, 256, 64])]⟩
def u365 : Cu := ⟨[(16, 256)], [(.c .lequ3, false, [1, 4, 256, 64])]⟩
def u366 : Cu := ⟨[], [(.c .ledq, false, [1, 4, 16, 64])]⟩
def u367 : Cu := ⟨[(64, 256)], [(.c .ledq, false, [1, 4, 16, 256])]⟩
def u368 : Cu := ⟨[], [(.c .ud1, false, [1, 4, 16, 64])]⟩
def u369 : Cu := ⟨[(16, 64)], [(.c .phiu, false, [1, 4])]⟩
def u370 : Cu := ⟨[(16, 64)], [(.c .uu, false, [1, 256, 256, 4])]⟩
def u371 : Cu := ⟨[(16, 64)], [(.c .uu, false, [256, 4, 1, 256])]⟩
def u372 : Cu := ⟨[(16, 64)], [(.c .uu, false, [1, 4, 256, 256])]⟩
def u373 : Cu := ⟨[(16, 64)], [(.c .qu1, false, [256, 256, 1, 4])]⟩
def u374 : Cu := ⟨[(16, 64)], [(.c .uu, false, [256, 256, 1, 4])]⟩
def u375 : Cu := ⟨[], [(.c .ud8, false, [1, 4, 16, 64])]⟩
def u376 : Cu := ⟨[(16, 64)], [(.c .qu8, false, [256, 256, 1, 4])]⟩
def u377 : Cu := ⟨[], [(.c .dd, false, [1, 4, 16, 64])]⟩
def u378 : Cu := ⟨[], [(.c .dd, false, [16, 64, 1, 4])]⟩
def u379 : Cu := ⟨[(16, 64)], [(.c .phid, false, [1, 4])]⟩
def u380 : Cu := ⟨[(16, 4)], [(.c .phid, false, [1, 64])]⟩
def u381 : Cu := ⟨[(1, 64)], [(.c .phid, false, [16, 4])]⟩
def u382 : Cu := ⟨[(16, 64)], [(.c .qd1, false, [256, 256, 1, 4])]⟩
def u383 : Cu := ⟨[(16, 64)], [(.c .qd8, false, [256, 256, 1, 4])]⟩
def u384 : Cu := ⟨[(16, 64)], [(.c .ud1, false, [256, 256, 1, 4])]⟩
def u385 : Cu := ⟨[(16, 64)], [(.c .ud8, false, [256, 256, 1, 4])]⟩
def u386 : Cu := ⟨[(16, 4)], [(.c .qd8, false, [256, 256, 1, 64])]⟩
def u387 : Cu := ⟨[(16, 4)], [(.c .ud8, false, [256, 256, 1, 64])]⟩
def u388 : Cu := ⟨[(1, 64)], [(.c .qd8, false, [256, 256, 16, 4])]⟩
def u389 : Cu := ⟨[(1, 64)], [(.c .ud8, false, [256, 256, 16, 4])]⟩
def u390 : Cu := ⟨[], [(.c .ed, false, [1, 4, 16, 64])]⟩
def u391 : Cu := ⟨[(16, 64)], [(.c .phie, false, [1, 4])]⟩
def u392 : Cu := ⟨[(16, 64)], [(.c .eu, false, [1, 4, 256, 256])]⟩
def u393 : Cu := ⟨[(16, 64)], [(.c .qe, false, [256, 256, 1, 4])]⟩
def u394 : Cu := ⟨[], [(.c .ee, false, [1, 4, 16, 64])]⟩
def u395 : Cu := ⟨[], [(.c .ee, false, [1, 64, 16, 4])]⟩
def u396 : Cu := ⟨[], [(.c .ee, false, [16, 4, 1, 64])]⟩
def u397 : Cu := ⟨[], [(.c .ee, false, [16, 64, 1, 4])]⟩
def u398 : Cu := ⟨[(16, 4)], [(.c .phie, false, [1, 64])]⟩
def u399 : Cu := ⟨[(1, 64)], [(.c .phie, false, [16, 4])]⟩
def u400 : Cu := ⟨[(16, 4)], [(.c .eu, false, [1, 64, 256, 256])]⟩
def u401 : Cu := ⟨[(1, 64)], [(.c .eu, false, [16, 4, 256, 256])]⟩
def u402 : Cu := ⟨[(16, 4)], [(.c .qe, false, [256, 256, 1, 64])]⟩
def u403 : Cu := ⟨[(1, 64)], [(.c .qe, false, [256, 256, 16, 4])]⟩
def u404 : Cu := ⟨[], [(.c .eu, false, [1, 4, 16, 64])]⟩
def u405 : Cu := ⟨[], [(.c .uu, false, [1, 4, 16, 64])]⟩
def u406 : Cu := ⟨[], [(.c .uu, false, [16, 64, 1, 4])]⟩
def u407 : Cu := ⟨[(16, 4)], [(.c .phiu, false, [1, 64])]⟩
def u408 : Cu := ⟨[(1, 64)], [(.c .phiu, false, [16, 4])]⟩
def u409 : Cu := ⟨[(16, 4)], [(.c .uu, false, [1, 256, 256, 64])]⟩
def u410 : Cu := ⟨[(1, 64)], [(.c .uu, false, [16, 256, 256, 4])]⟩
def u411 : Cu := ⟨[(1, 64)], [(.c .uu, false, [256, 4, 16, 256])]⟩
def u412 : Cu := ⟨[(16, 4)], [(.c .uu, false, [256, 64, 1, 256])]⟩
def u413 : Cu := ⟨[(16, 4)], [(.c .qu8, false, [256, 256, 1, 64])]⟩
def u414 : Cu := ⟨[(1, 64)], [(.c .qu8, false, [256, 256, 16, 4])]⟩

/-- the four-fermion matching conditions, compiled -/
def prog2 : List (WKey × List (Cu × ℕ)) := [
  (.SduuLL, [(u5, 5), (u6, 6), (u7, 7), (u8, 8), (u9, 9), (u10, 10), (u11, 11), (u12, 12), (u13, 13), (u14, 14),
    (u15, 15), (u16, 16)]),
  (.SuddLL, [(u5, 5), (u6, 6), (u7, 17), (u8, 18), (u9, 19), (u10, 20), (u17, 12), (u18, 11), (u19, 13), (u20, 12),
    (u21, 13), (u22, 11), (u23, 15), (u24, 16), (u25, 16), (u26, 15), (u27, 14), (u28, 14)]),
  (.SduuLR, [(u29, 21), (u30, 21), (u31, 22), (u32, 22)]),
  (.SdudRL, [(u33, 23), (u34, 22)]),
  (.SduuRL, [(u33, 24)]),
  (.SduuRR, [(u35, 25), (u36, 26)]),
  (.V1udLL, [(u37, 27), (u38, 28), (u39, 29), (u40, 30), (u41, 29), (u42, 30), (u43, 27), (u44, 28), (u45, 31), (u46, 32),
    (u47, 33), (u48, 34), (u49, 35), (u50, 36), (u51, 37), (u52, 38), (u53, 39), (u54, 40), (u55, 41), (u56, 42),
    (u57, 43), (u58, 44), (u59, 45), (u60, 46), (u61, 47), (u62, 48), (u63, 48), (u64, 49), (u65, 50), (u66, 51),
    (u67, 52), (u68, 51), (u69, 52), (u70, 53), (u71, 53), (u72, 54), (u73, 54), (u74, 55), (u75, 56), (u76, 57),
    (u77, 53), (u78, 55), (u79, 51), (u80, 52), (u81, 56), (u82, 57), (u83, 58), (u84, 53), (u85, 54), (u86, 54),
    (u87, 56), (u88, 57), (u89, 51), (u90, 52), (u91, 56), (u92, 57), (u93, 55), (u94, 55), (u95, 58), (u96, 59),
    (u97, 60), (u98, 61), (u99, 62), (u100, 63), (u101, 64), (u102, 65), (u103, 65), (u104, 66), (u105, 67), (u106, 68),
    (u107, 69), (u108, 70), (u109, 71), (u110, 72), (u111, 73), (u112, 73), (u113, 74), (u114, 75), (u115, 76), (u116, 77),
    (u117, 78), (u118, 67), (u119, 68), (u120, 69), (u121, 70), (u122, 71), (u123, 72), (u124, 73), (u125, 73), (u126, 74),
    (u127, 75), (u128, 76), (u129, 77), (u130, 78), (u131, 79), (u132, 79), (u133, 65), (u134, 65), (u135, 80), (u136, 81),
    (u137, 81), (u138, 82), (u139, 83), (u140, 84), (u141, 85), (u142, 85), (u143, 86), (u144, 86), (u145, 87), (u146, 87),
    (u147, 88), (u148, 89), (u149, 89), (u150, 89), (u151, 90), (u152, 91), (u153, 92), (u154, 89), (u155, 87), (u156, 87),
    (u157, 90), (u158, 91), (u159, 93), (u160, 93), (u161, 94), (u162, 95), (u163, 96), (u164, 97), (u165, 97), (u166, 98),
    (u167, 98), (u168, 99), (u169, 99)]),
  (.V8udLL, [(u39, 100), (u40, 101), (u41, 100), (u42, 101), (u45, 102), (u49, 103), (u51, 104), (u53, 105), (u54, 106), (u55, 107),
    (u56, 108), (u57, 109), (u58, 110), (u59, 111), (u60, 112), (u61, 113), (u62, 114), (u63, 114), (u64, 115), (u65, 116),
    (u70, 117), (u71, 117), (u72, 118), (u73, 118), (u74, 119), (u75, 120), (u76, 121), (u77, 117), (u78, 119), (u81, 120),
    (u82, 121), (u83, 122), (u84, 117), (u85, 118), (u86, 118), (u87, 120), (u88, 121), (u91, 120), (u92, 121), (u93, 119),
    (u94, 119), (u95, 122), (u96, 123), (u170, 66), (u105, 124), (u106, 125), (u107, 126), (u108, 127), (u109, 128), (u110, 129),
    (u111, 130), (u112, 130), (u113, 131), (u114, 132), (u116, 133), (u117, 134), (u118, 124), (u119, 125), (u120, 126), (u121, 127),
    (u122, 128), (u123, 129), (u124, 130), (u125, 130), (u126, 131), (u127, 132), (u129, 133), (u130, 134), (u171, 135), (u172, 135),
    (u135, 136), (u136, 137), (u137, 137), (u173, 138), (u174, 138), (u175, 139), (u148, 140), (u149, 140), (u150, 140), (u176, 139),
    (u154, 140), (u177, 141), (u178, 141), (u168, 142), (u169, 142)]),
  (.VddLL, [(u37, 143), (u38, 144), (u43, 143), (u44, 144), (u45, 145), (u46, 146), (u47, 147), (u48, 148), (u49, 149), (u50, 150),
    (u51, 151), (u52, 152), (u53, 153), (u54, 154), (u55, 155), (u59, 156), (u61, 157), (u168, 158), (u62, 159), (u169, 158),
    (u63, 159), (u64, 153), (u65, 154), (u66, 160), (u67, 160), (u68, 160), (u69, 160), (u179, 160), (u180, 160), (u73, 161),
    (u76, 162), (u79, 160), (u80, 160), (u181, 160), (u182, 160), (u183, 160), (u184, 160), (u82, 162), (u83, 161), (u86, 161),
    (u185, 160), (u186, 160), (u88, 162), (u89, 160), (u90, 160), (u92, 162), (u95, 161), (u96, 163), (u97, 164), (u98, 165),
    (u99, 166), (u100, 167), (u101, 168), (u102, 169), (u103, 170), (u104, 171), (u170, 172), (u187, 173), (u106, 174), (u110, 175),
    (u188, 176), (u189, 177), (u190, 178), (u191, 179), (u192, 65), (u193, 173), (u194, 179), (u115, 176), (u116, 177), (u117, 178),
    (u195, 163), (u196, 164), (u197, 165), (u198, 166), (u199, 167), (u200, 168), (u201, 174), (u202, 175), (u203, 65), (u204, 169),
    (u205, 170), (u206, 171), (u207, 172), (u119, 174), (u123, 175), (u208, 176), (u209, 177), (u210, 178), (u211, 65), (u128, 176),
    (u129, 177), (u130, 178), (u164, 180), (u165, 180), (u171, 181), (u172, 181), (u131, 182), (u132, 182), (u133, 169), (u134, 170),
    (u212, 65), (u213, 183), (u214, 183), (u215, 174), (u216, 175), (u217, 169), (u218, 170), (u138, 184), (u139, 185), (u140, 186),
    (u141, 187), (u142, 187), (u173, 188), (u174, 188), (u143, 189), (u144, 189), (u219, 190), (u220, 190), (u221, 191), (u222, 192),
    (u223, 191), (u224, 192), (u225, 191), (u226, 192), (u227, 193), (u228, 191), (u229, 192), (u230, 190), (u231, 190), (u232, 184),
    (u233, 185), (u234, 186), (u235, 187), (u236, 187), (u237, 188), (u238, 188), (u239, 189), (u240, 189), (u145, 194), (u146, 195),
    (u147, 196), (u175, 197), (u241, 198), (u242, 198), (u151, 194), (u152, 195), (u153, 196), (u176, 197), (u155, 194), (u156, 195),
    (u157, 194), (u158, 195), (u108, 199), (u243, 200), (u244, 201), (u159, 200), (u177, 201), (u245, 199), (u121, 199), (u246, 200),
    (u247, 201), (u160, 200), (u178, 201), (u161, 202), (u162, 203), (u163, 204), (u166, 205), (u167, 205), (u248, 199)]),
  (.VedLL, [(u249, 206), (u250, 207), (u45, 208), (u46, 209), (u47, 210), (u48, 211), (u49, 212), (u50, 213), (u51, 214), (u52, 215),
    (u251, 216), (u252, 217), (u64, 218), (u65, 219), (u253, 51), (u254, 51), (u255, 51), (u256, 51), (u83, 220), (u95, 220),
    (u96, 221), (u97, 222), (u98, 223), (u99, 224), (u257, 63), (u258, 225), (u259, 65), (u260, 226), (u261, 66), (u115, 227),
    (u116, 228), (u117, 229), (u128, 227), (u129, 228), (u130, 229), (u131, 230), (u132, 230), (u138, 231), (u139, 232), (u140, 233),
    (u141, 234), (u142, 234), (u143, 235), (u144, 235), (u262, 87), (u263, 236), (u264, 88), (u151, 237), (u152, 238), (u153, 239),
    (u157, 237), (u158, 238), (u159, 240), (u160, 240), (u161, 241), (u162, 242), (u163, 243), (u164, 244), (u165, 244), (u166, 245),
    (u167, 245)]),
  (.VeeLL, [(u265, 246), (u266, 246), (u267, 246), (u268, 246), (u45, 247), (u46, 248), (u47, 249), (u48, 250), (u49, 251), (u50, 252),
    (u51, 253), (u52, 254), (u251, 255), (u252, 256), (u55, 247), (u56, 248), (u57, 249), (u58, 250), (u59, 251), (u60, 252),
    (u61, 253), (u269, 254), (u270, 255), (u271, 256), (u272, 255), (u273, 256), (u274, 255), (u275, 256), (u164, 257), (u165, 257),
    (u131, 258), (u132, 258), (u166, 259), (u167, 259), (u276, 257), (u277, 257), (u136, 258), (u137, 258), (u278, 259), (u279, 259),
    (u262, 260), (u263, 261), (u264, 262), (u280, 260), (u281, 261), (u282, 262), (u283, 260), (u284, 261), (u285, 262), (u286, 260),
    (u287, 261), (u288, 262), (u161, 263), (u162, 264), (u163, 265), (u289, 263), (u135, 264), (u290, 265)]),
  (.VeuLL, [(u249, 266), (u250, 267), (u45, 268), (u46, 269), (u47, 270), (u48, 271), (u49, 272), (u50, 273), (u51, 274), (u52, 275),
    (u251, 276), (u252, 277), (u64, 278), (u65, 279), (u291, 280), (u83, 280), (u292, 280), (u95, 280), (u131, 281), (u132, 281),
    (u262, 90), (u263, 91), (u264, 92), (u151, 237), (u152, 237), (u153, 239), (u157, 237), (u158, 237), (u161, 282), (u162, 283),
    (u163, 284), (u164, 285), (u165, 285), (u166, 286), (u167, 286)]),
  (.VnudLL, [(u249, 287), (u250, 288), (u45, 289), (u46, 290), (u47, 291), (u48, 292), (u49, 293), (u50, 294), (u51, 295), (u52, 296),
    (u251, 297), (u252, 298), (u64, 299), (u65, 300), (u253, 51), (u254, 52), (u255, 51), (u256, 52), (u83, 301), (u95, 301),
    (u96, 302), (u97, 167), (u257, 63), (u258, 64), (u259, 65), (u260, 65), (u261, 66), (u115, 51), (u116, 303), (u117, 304),
    (u128, 51), (u129, 303), (u130, 304), (u131, 305), (u132, 305), (u138, 65), (u139, 226), (u140, 66), (u262, 87), (u263, 87),
    (u264, 88), (u151, 306), (u152, 307), (u153, 307), (u157, 306), (u158, 307), (u161, 308), (u162, 309), (u163, 310), (u164, 311),
    (u165, 311), (u166, 312), (u167, 312)]),
  (.VnueduLL, [(u249, 313), (u250, 314), (u45, 315), (u46, 316), (u47, 317), (u48, 318), (u49, 319), (u50, 320), (u51, 321), (u293, 322),
    (u252, 323), (u65, 323), (u256, 324), (u263, 325), (u152, 325), (u291, 326), (u83, 327), (u292, 326), (u95, 327), (u158, 325),
    (u128, 328), (u129, 329), (u160, 330), (u178, 331), (u294, 332), (u130, 333), (u162, 334), (u131, 335), (u132, 335), (u295, 80),
    (u296, 336), (u255, 337), (u251, 338), (u64, 339)]),
  (.VnueLL, [(u265, 340), (u266, 313), (u267, 313), (u268, 340), (u45, 341), (u46, 342), (u47, 343), (u48, 344), (u49, 345), (u50, 346),
    (u51, 347), (u52, 348), (u251, 349), (u252, 350), (u55, 351), (u56, 316), (u57, 317), (u58, 318), (u59, 352), (u60, 320),
    (u61, 353), (u271, 354), (u273, 354), (u274, 355), (u275, 356), (u281, 325), (u284, 325), (u131, 357), (u132, 357), (u135, 334),
    (u136, 335), (u137, 335), (u262, 237), (u263, 237), (u264, 239), (u286, 306), (u287, 307), (u288, 307), (u161, 358), (u162, 359),
    (u163, 360), (u164, 361), (u165, 361), (u166, 362), (u167, 362), (u270, 339), (u272, 339)]),
  (.VnunuLL, [(u265, 363), (u266, 363), (u267, 363), (u268, 363), (u45, 364), (u46, 365), (u47, 366), (u48, 367), (u49, 368), (u50, 369),
    (u51, 370), (u251, 371), (u252, 372), (u55, 364), (u56, 365), (u57, 366), (u58, 367), (u59, 368), (u60, 369), (u61, 370),
    (u270, 371), (u271, 372), (u272, 371), (u273, 372), (u274, 371), (u275, 372), (u131, 373), (u132, 373), (u136, 373), (u137, 373),
    (u262, 374), (u263, 374), (u264, 375), (u280, 374), (u281, 374), (u282, 375), (u283, 374), (u284, 374), (u285, 375), (u286, 374),
    (u287, 374), (u288, 375), (u161, 376), (u162, 377), (u163, 377), (u289, 376), (u135, 377), (u290, 377)]),
  (.VnuuLL, [(u249, 378), (u250, 379), (u45, 380), (u46, 381), (u47, 382), (u48, 383), (u49, 384), (u50, 385), (u51, 386), (u52, 387),
    (u251, 388), (u252, 389), (u64, 390), (u65, 391), (u291, 392), (u83, 392), (u292, 392), (u95, 392), (u131, 393), (u132, 393),
    (u262, 90), (u263, 90), (u264, 92), (u151, 306), (u152, 306), (u153, 307), (u157, 306), (u158, 306), (u161, 394), (u162, 395),
    (u163, 396), (u164, 397), (u165, 397), (u166, 398), (u167, 398)]),
  (.VuuLL, [(u37, 399), (u38, 400), (u43, 399), (u44, 400), (u45, 401), (u46, 402), (u47, 403), (u48, 404), (u49, 405), (u50, 406),
    (u51, 407), (u52, 408), (u53, 409), (u54, 410), (u55, 411), (u59, 412), (u61, 413), (u168, 414), (u62, 415), (u169, 414),
    (u63, 415), (u64, 409), (u65, 410), (u72, 416), (u73, 416), (u75, 417), (u76, 417), (u81, 417), (u82, 417), (u291, 416),
    (u83, 416), (u85, 416), (u86, 416), (u87, 417), (u88, 417), (u91, 417), (u92, 417), (u292, 416), (u95, 416), (u171, 181),
    (u172, 181), (u131, 418), (u132, 418), (u213, 183), (u214, 183), (u145, 419), (u146, 419), (u147, 420), (u175, 197), (u241, 198),
    (u242, 198), (u151, 419), (u152, 419), (u153, 420), (u176, 197), (u155, 419), (u156, 419), (u157, 419), (u158, 419), (u161, 421),
    (u162, 422), (u163, 423), (u164, 424), (u165, 424), (u166, 425), (u167, 425)]),
  (.V1ddLR, [(u297, 426), (u45, 427), (u46, 428), (u47, 429), (u48, 430), (u49, 431), (u50, 432), (u51, 433), (u52, 434), (u53, 435),
    (u54, 436), (u298, 437), (u299, 51), (u73, 438), (u86, 438), (u300, 51), (u188, 439), (u189, 440), (u190, 441), (u195, 442),
    (u196, 443), (u197, 444), (u198, 445), (u301, 63), (u208, 439), (u209, 440), (u210, 441), (u131, 446), (u132, 446), (u302, 65),
    (u303, 66), (u232, 447), (u233, 448), (u234, 449), (u235, 450), (u236, 450), (u239, 451), (u240, 451), (u145, 452), (u146, 453),
    (u147, 454), (u155, 452), (u156, 453), (u304, 87), (u305, 88), (u243, 455), (u246, 455), (u161, 456), (u162, 457), (u163, 458),
    (u164, 459), (u165, 459), (u166, 460), (u167, 460)]),
  (.V1duLR, [(u306, 461), (u45, 462), (u46, 463), (u47, 464), (u48, 465), (u49, 466), (u50, 467), (u51, 468), (u52, 469), (u53, 470),
    (u54, 471), (u307, 472), (u308, 51), (u73, 473), (u309, 474), (u86, 473), (u310, 51), (u311, 474), (u188, 475), (u189, 476),
    (u190, 477), (u195, 478), (u196, 479), (u197, 61), (u198, 62), (u312, 63), (u313, 66), (u314, 480), (u208, 475), (u209, 476),
    (u210, 477), (u131, 481), (u132, 481), (u315, 480), (u316, 65), (u317, 66), (u232, 482), (u233, 483), (u234, 484), (u235, 85),
    (u236, 85), (u239, 86), (u240, 86), (u145, 485), (u146, 486), (u147, 487), (u318, 88), (u155, 485), (u156, 486), (u319, 87),
    (u320, 88), (u243, 93), (u246, 93), (u161, 488), (u162, 489), (u163, 490), (u164, 491), (u165, 491), (u166, 492), (u167, 492)]),
  (.V1udduLR, [(u321, 493)]),
  (.V1udLR, [(u297, 494), (u45, 495), (u46, 496), (u47, 497), (u48, 498), (u49, 499), (u50, 500), (u51, 501), (u52, 502), (u53, 503),
    (u54, 504), (u298, 505), (u72, 506), (u73, 506), (u85, 506), (u86, 506), (u131, 507), (u132, 507), (u145, 452), (u146, 452),
    (u147, 454), (u155, 452), (u156, 452), (u304, 90), (u305, 92), (u161, 508), (u162, 509), (u163, 510), (u164, 511), (u165, 511),
    (u166, 512), (u167, 512)]),
  (.V1uuLR, [(u306, 513), (u45, 514), (u46, 515), (u47, 516), (u48, 517), (u49, 518), (u50, 519), (u51, 520), (u52, 521), (u53, 522),
    (u54, 523), (u307, 524), (u72, 525), (u73, 525), (u309, 526), (u85, 525), (u86, 525), (u311, 526), (u131, 527), (u132, 527),
    (u145, 485), (u146, 485), (u147, 487), (u318, 92), (u155, 485), (u156, 485), (u319, 90), (u320, 92), (u161, 528), (u162, 529),
    (u163, 530), (u164, 531), (u165, 531), (u166, 532), (u167, 532)]),
  (.V8ddLR, [(u322, 426), (u45, 533), (u49, 534), (u51, 535), (u53, 536), (u54, 537), (u298, 538), (u323, 51), (u73, 122), (u86, 122),
    (u324, 51), (u189, 133), (u190, 134), (u195, 123), (u209, 133), (u210, 134), (u171, 135), (u172, 135), (u325, 65), (u326, 66),
    (u237, 138), (u238, 138), (u175, 139), (u327, 139), (u328, 139), (u244, 141), (u247, 141)]),
  (.V8duLR, [(u329, 461), (u45, 539), (u49, 540), (u51, 541), (u53, 542), (u54, 543), (u307, 544), (u330, 51), (u73, 122), (u309, 118),
    (u86, 122), (u331, 51), (u311, 118), (u189, 133), (u190, 134), (u195, 123), (u314, 545), (u209, 133), (u210, 134), (u171, 135),
    (u172, 135), (u315, 545), (u332, 65), (u237, 138), (u238, 138), (u175, 139), (u333, 139), (u244, 141), (u247, 141)]),
  (.V8udduLR, [(u321, 546)]),
  (.V8udLR, [(u322, 494), (u45, 547), (u49, 548), (u51, 549), (u53, 550), (u54, 551), (u298, 552), (u72, 118), (u73, 118), (u85, 118),
    (u86, 118), (u171, 135), (u172, 135), (u175, 139), (u327, 139), (u328, 139)]),
  (.V8uuLR, [(u329, 513), (u45, 553), (u49, 554), (u51, 555), (u53, 556), (u54, 557), (u307, 558), (u72, 118), (u73, 118), (u309, 118),
    (u85, 118), (u86, 118), (u311, 118), (u171, 135), (u172, 135), (u175, 139), (u333, 139)]),
  (.VdeLR, [(u334, 559), (u45, 560), (u46, 561), (u47, 562), (u48, 563), (u49, 564), (u50, 565), (u51, 566), (u52, 567), (u53, 568),
    (u54, 569), (u335, 570), (u336, 51), (u73, 571), (u86, 571), (u337, 51), (u188, 572), (u189, 573), (u190, 574), (u195, 575),
    (u196, 576), (u197, 223), (u198, 224), (u338, 63), (u339, 66), (u208, 572), (u209, 573), (u210, 574), (u131, 577), (u132, 577),
    (u340, 65), (u232, 578), (u233, 579), (u234, 580), (u235, 234), (u236, 234), (u239, 235), (u240, 235), (u145, 581), (u146, 582),
    (u147, 583), (u341, 88), (u155, 581), (u156, 582), (u342, 87), (u243, 240), (u246, 240), (u161, 584), (u162, 585), (u163, 586),
    (u164, 587), (u165, 587), (u166, 588), (u167, 588)]),
  (.VedLR, [(u343, 589), (u45, 590), (u46, 591), (u47, 592), (u48, 593), (u49, 594), (u50, 595), (u51, 596), (u52, 597), (u251, 598),
    (u252, 599), (u298, 600), (u131, 601), (u132, 601), (u262, 452), (u263, 453), (u264, 454), (u304, 237), (u305, 239), (u161, 602),
    (u162, 603), (u163, 604), (u164, 605), (u165, 605), (u166, 606), (u167, 606)]),
  (.VeeLR, [(u344, 607), (u45, 608), (u46, 609), (u47, 610), (u48, 611), (u49, 612), (u50, 613), (u51, 614), (u52, 615), (u251, 616),
    (u252, 617), (u335, 618), (u131, 619), (u132, 619), (u262, 581), (u263, 582), (u264, 583), (u341, 239), (u342, 237), (u161, 620),
    (u162, 621), (u163, 622), (u164, 623), (u165, 623), (u166, 624), (u167, 624)]),
  (.VeuLR, [(u345, 625), (u45, 626), (u46, 627), (u47, 628), (u48, 629), (u49, 630), (u50, 631), (u51, 632), (u52, 633), (u251, 634),
    (u252, 635), (u307, 636), (u309, 637), (u311, 637), (u131, 638), (u132, 638), (u262, 485), (u263, 486), (u264, 487), (u318, 239),
    (u319, 237), (u320, 239), (u161, 639), (u162, 640), (u163, 641), (u164, 642), (u165, 642), (u166, 643), (u167, 643)]),
  (.VnudLR, [(u343, 644), (u45, 645), (u46, 646), (u47, 647), (u48, 648), (u49, 649), (u50, 650), (u51, 651), (u52, 296), (u251, 652),
    (u252, 653), (u298, 654), (u131, 655), (u132, 655), (u262, 452), (u263, 452), (u264, 454), (u304, 306), (u305, 307), (u161, 656),
    (u162, 657), (u163, 658), (u164, 311), (u165, 311), (u166, 312), (u167, 312)]),
  (.VnueduLR, [(u321, 659)]),
  (.VnueLR, [(u344, 660), (u45, 661), (u46, 662), (u47, 663), (u48, 664), (u49, 665), (u50, 666), (u51, 667), (u52, 348), (u251, 668),
    (u252, 669), (u335, 670), (u131, 671), (u132, 671), (u262, 581), (u263, 581), (u264, 583), (u341, 307), (u342, 306), (u161, 672),
    (u162, 673), (u163, 674), (u164, 361), (u165, 361), (u166, 362), (u167, 362)]),
  (.VnuuLR, [(u345, 675), (u45, 676), (u46, 677), (u47, 678), (u48, 679), (u49, 680), (u50, 681), (u51, 682), (u52, 387), (u251, 683),
    (u252, 684), (u307, 685), (u309, 686), (u311, 686), (u131, 687), (u132, 687), (u262, 485), (u263, 485), (u264, 487), (u318, 307),
    (u319, 306), (u320, 307), (u161, 688), (u162, 689), (u163, 690), (u164, 397), (u165, 397), (u166, 398), (u167, 398)]),
  (.VueLR, [(u334, 691), (u45, 692), (u46, 693), (u47, 694), (u48, 695), (u49, 696), (u50, 697), (u51, 698), (u52, 699), (u53, 700),
    (u54, 701), (u335, 702), (u72, 703), (u73, 703), (u85, 703), (u86, 703), (u131, 704), (u132, 704), (u145, 581), (u146, 581),
    (u147, 583), (u341, 92), (u155, 581), (u156, 581), (u342, 90), (u161, 705), (u162, 706), (u163, 707), (u164, 708), (u165, 708),
    (u166, 709), (u167, 709)]),
  (.S1udduRR, [(u346, 710), (u347, 711), (u348, 712), (u349, 713), (u350, 714), (u351, 715)]),
  (.S1udRR, [(u352, 716), (u353, 717), (u354, 718), (u355, 13), (u356, 719), (u357, 720)]),
  (.S8udduRR, [(u346, 721), (u347, 722), (u358, 712), (u359, 713), (u350, 15), (u351, 719)]),
  (.S8udRR, [(u360, 716), (u353, 723), (u354, 724), (u361, 13), (u356, 725), (u357, 714)]),
  (.SeuRR, [(u362, 726), (u363, 727)]),
  (.SnueduRR, [(u362, 728), (u363, 729), (u364, 51), (u365, 730)]),
  (.TeuRR, [(u362, 731), (u363, 732)]),
  (.TnueduRR, [(u362, 733), (u363, 734), (u365, 735), (u364, 736)]),
  (.SedRL, [(u366, 737), (u367, 51)]),
  (.SnueduRL, [(u366, 738)]),
  (.V1udRR, [(u368, 739), (u45, 740), (u46, 741), (u47, 742), (u48, 743), (u49, 744), (u50, 745), (u51, 746), (u52, 747), (u369, 748),
    (u298, 749), (u370, 750), (u371, 750), (u372, 454), (u373, 452), (u374, 454), (u304, 485), (u305, 487), (u161, 751), (u162, 752),
    (u163, 753), (u164, 754), (u165, 754), (u131, 755), (u132, 755), (u166, 756), (u167, 756)]),
  (.V8udRR, [(u375, 739), (u45, 757), (u49, 758), (u51, 759), (u369, 760), (u298, 761), (u370, 118), (u371, 118), (u171, 135), (u172, 135),
    (u376, 139), (u327, 139), (u328, 139)]),
  (.VddRR, [(u377, 762), (u378, 762), (u45, 763), (u46, 764), (u47, 765), (u48, 766), (u49, 767), (u50, 768), (u51, 769), (u52, 770),
    (u379, 771), (u55, 772), (u59, 773), (u61, 774), (u380, 775), (u381, 775), (u298, 771), (u164, 776), (u165, 776), (u171, 181),
    (u172, 181), (u131, 777), (u132, 777), (u213, 183), (u214, 183), (u382, 778), (u383, 197), (u384, 779), (u385, 197), (u386, 198),
    (u387, 198), (u388, 198), (u389, 198), (u304, 778), (u327, 197), (u305, 779), (u328, 197), (u161, 780), (u162, 781), (u163, 782),
    (u166, 783), (u167, 783)]),
  (.VedRR, [(u390, 784), (u45, 785), (u46, 786), (u47, 787), (u48, 788), (u49, 789), (u50, 790), (u51, 791), (u52, 792), (u391, 793),
    (u298, 794), (u131, 795), (u132, 795), (u392, 454), (u393, 452), (u304, 581), (u305, 583), (u161, 796), (u162, 797), (u163, 798),
    (u164, 799), (u165, 799), (u166, 800), (u167, 800)]),
  (.VeeRR, [(u394, 801), (u395, 801), (u396, 801), (u397, 801), (u45, 802), (u46, 803), (u47, 804), (u48, 805), (u49, 806), (u50, 807),
    (u51, 808), (u52, 809), (u391, 810), (u55, 802), (u56, 803), (u57, 804), (u58, 805), (u59, 806), (u60, 807), (u61, 808),
    (u269, 809), (u398, 810), (u399, 810), (u335, 810), (u164, 811), (u165, 811), (u131, 812), (u132, 812), (u166, 813), (u167, 813),
    (u276, 811), (u277, 811), (u136, 812), (u137, 812), (u278, 813), (u279, 813), (u392, 814), (u400, 814), (u401, 814), (u341, 814),
    (u393, 815), (u402, 815), (u403, 815), (u342, 815), (u161, 816), (u162, 817), (u163, 818), (u289, 816), (u135, 817), (u290, 818)]),
  (.VeuRR, [(u404, 819), (u45, 820), (u46, 821), (u47, 822), (u48, 823), (u49, 824), (u50, 825), (u51, 826), (u52, 827), (u391, 828),
    (u307, 829), (u309, 830), (u311, 830), (u392, 487), (u318, 583), (u393, 485), (u319, 581), (u320, 583), (u161, 831), (u162, 832),
    (u163, 833), (u164, 834), (u165, 834), (u131, 835), (u132, 835), (u166, 836), (u167, 836)]),
  (.VuuRR, [(u405, 837), (u406, 837), (u45, 838), (u46, 839), (u47, 840), (u48, 841), (u49, 842), (u50, 843), (u51, 844), (u52, 845),
    (u369, 846), (u55, 847), (u59, 848), (u61, 849), (u407, 850), (u408, 850), (u307, 846), (u370, 851), (u409, 417), (u410, 417),
    (u309, 851), (u371, 851), (u411, 417), (u412, 417), (u311, 851), (u171, 181), (u172, 181), (u213, 183), (u214, 183), (u372, 852),
    (u318, 852), (u373, 453), (u376, 197), (u374, 852), (u413, 198), (u414, 198), (u319, 453), (u333, 197), (u320, 852), (u161, 752),
    (u162, 751), (u163, 853), (u164, 854), (u165, 854), (u131, 855), (u132, 855), (u166, 856), (u167, 856)]),
  (.SuudLR, []),
  (.SdduRL, []),
  (.SuudRL, []),
  (.S1ddRR, []),
  (.S1uuRR, []),
  (.S8ddRR, []),
  (.S8uuRR, []),
  (.SedRR, []),
  (.SeeRR, []),
  (.TedRR, []),
  (.SeuRL, [])]

theorem prog2_eq : (loopProg.filterMap compileForm) = prog2 := by
  decide +kernel

end Verif.Loop
