import Verif.Model.LoopDefs

/-! Generated by /verif/tools/gen_loop.py from /repo/wilson/match/smeft_loop.py. -/

set_option autoImplicit false
set_option maxRecDepth 20000

namespace Verif.Loop

def k0 : List (List ℕ) := [[1,1,16,94,546,1121]]

def k1 : List (List ℕ) := [[2,1,96,94,161,351,546,607]]

def k2 : List (List ℕ) := [[3,1,96,94,161,351,546,607]]

def k3 : List (List ℕ) := [[0,1,2880,94,350,547]]

def k4 : List (List ℕ) := [[1,1,96,94,161,351,546,607]]

def k5 : List (List ℕ) := [[0,1,1,94,158,226,1249],
  [0,5,8,94,158,226]]

def k6 : List (List ℕ) := [[1,1,2,94,158,226,1249],
  [1,3,4,94,158,226]]

def k7 : List (List ℕ) := [[0,1,4,94,158,228,286,1185],
  [0,1,24,94,158,290,1185],
  [0,11,144,94,158,290],
  [1,1,4,94,158,226,1249],
  [1,1,6,94,158,226,1185],
  [1,1,9,94,158,226],
  [1,1,36,94,158,228,286]]

def k8 : List (List ℕ) := [[0,1,4,94,158,226,1249],
  [0,7,12,94,158,228,286,1185],
  [0,7,36,94,158,226],
  [1,1,6,94,158,226,1185],
  [1,1,24,94,158,290,1185],
  [1,11,144,94,158,290],
  [1,13,72,94,158,228,286]]

def k9 : List (List ℕ) := [[0,1,2,94,158,226,1249],
  [0,1,4,94,158,226],
  [0,5,4,94,158,228,286],
  [0,5,6,94,158,228,286,1185],
  [1,1,3,94,158,226,1185]]

def k10 : List (List ℕ) := [[0,1,4,94,158,226,1249],
  [0,1,6,94,158,226,1185],
  [0,1,24,94,158,290,1185],
  [0,5,9,94,158,226],
  [0,11,144,94,158,290],
  [0,13,72,94,158,228,286],
  [1,7,12,94,158,228,286,1185]]

def k11 : List (List ℕ) := [[0,1,16,94,158,226,356,1121,1374,1438],
  [0,1,32,94,158,228,354,1249,1374,1438],
  [0,1,32,94,158,358,1121,1374,1438],
  [0,3,64,94,158,226,354,1375,1439],
  [0,3,64,94,158,356,1375,1439],
  [1,1,8,94,158,226,356,1249,1374,1438]]

def k12 : List (List ℕ) := [[0,1,8,94,158,226,356,1249,1374,1438],
  [1,1,16,94,158,226,356,1121,1374,1438],
  [1,1,32,94,158,228,354,1249,1374,1438],
  [1,1,32,94,158,358,1121,1374,1438],
  [1,3,64,94,158,226,354,1375,1439],
  [1,3,64,94,158,356,1375,1439]]

def k13 : List (List ℕ) := [[0,3,16,94,158,226,356,1121,1374,1438],
  [0,7,32,94,158,228,354,1249,1374,1438],
  [1,1,4,94,158,228,354,1121,1374,1438],
  [1,1,8,94,158,226,356,1249,1374,1438],
  [1,1,32,94,158,358,1121,1374,1438],
  [1,3,64,94,158,226,354,1375,1439],
  [1,3,64,94,158,356,1375,1439]]

def k14 : List (List ℕ) := [[0,1,1,94,158,226,354,1121,1503],
  [1,1,4,94,158,226,354,1249,1631]]

def k15 : List (List ℕ) := [[0,1,1,94,158,226,354,1121,1567],
  [1,1,2,94,158,226,354,1249,1631]]

def k16 : List (List ℕ) := [[0,1,1,94,158,226,354,1249,1503],
  [1,1,4,94,158,226,354,1121,1631]]

def k17 : List (List ℕ) := [[0,1,12,94,158,228,286,1185],
  [0,1,18,94,158,228,286],
  [0,1,24,94,158,290,1185],
  [0,11,144,94,158,290],
  [1,1,4,94,158,226,1249],
  [1,7,36,94,158,226]]

def k18 : List (List ℕ) := [[0,1,3,94,158,226,1185],
  [0,1,4,94,158,226,1249],
  [0,1,9,94,158,226],
  [0,1,12,94,158,228,286,1185],
  [1,1,24,94,158,290,1185],
  [1,7,72,94,158,228,286],
  [1,11,144,94,158,290]]

def k19 : List (List ℕ) := [[0,1,2,94,158,226,1249],
  [0,1,3,94,158,226,1185],
  [0,1,4,94,158,228,286],
  [0,1,6,94,158,228,286,1185],
  [0,5,4,94,158,226]]

def k20 : List (List ℕ) := [[0,1,4,94,158,226,1249],
  [0,1,24,94,158,290,1185],
  [0,7,72,94,158,228,286],
  [0,11,144,94,158,290],
  [0,23,36,94,158,226],
  [1,1,3,94,158,226,1185],
  [1,1,12,94,158,228,286,1185]]

def k21 : List (List ℕ) := [[0,5,12,94,158,226,801],
  [0,7,9,94,158,226],
  [0,23,24,94,158,226,1185],
  [1,2,3,94,158,228,286,1185],
  [1,3,8,94,158,226,1249],
  [1,5,12,94,158,228,286,801],
  [1,23,48,94,158,290,1185],
  [1,29,36,94,158,228,286],
  [1,127,288,94,158,290]]

def k22 : List (List ℕ) := [[0,1,2,94,158,228,354,1121,1374,1438],
  [0,1,32,94,158,358,1121,1374,1438],
  [0,3,8,94,158,226,356,1249,1374,1438],
  [0,3,64,94,158,226,354,1375,1439],
  [0,3,64,94,158,356,1375,1439],
  [1,7,16,94,158,226,356,1121,1374,1438],
  [1,15,32,94,158,228,354,1249,1374,1438]]

def k23 : List (List ℕ) := [[0,1,6,94,158,290,801],
  [0,5,24,94,158,226,1185],
  [1,1,6,94,158,228,286,1185],
  [1,1,12,94,158,226,801],
  [1,1,12,94,158,228,286,801],
  [1,2,9,94,158,228,286],
  [1,3,8,94,158,226,1249],
  [1,7,72,94,158,226],
  [1,11,48,94,158,290,1185],
  [1,43,288,94,158,290]]

def k24 : List (List ℕ) := [[0,1,6,94,158,290,801],
  [0,2,3,94,158,228,286,1185],
  [0,3,8,94,158,226,1249],
  [0,5,12,94,158,228,286,801],
  [0,11,48,94,158,290,1185],
  [0,29,36,94,158,228,286],
  [0,91,288,94,158,290],
  [1,7,12,94,158,226,801],
  [1,17,24,94,158,226,1185],
  [1,47,72,94,158,226]]

def k25 : List (List ℕ) := [[0,1,4,94,158,228,286,1185],
  [0,1,4,94,158,290,1185],
  [0,1,18,94,158,226],
  [1,1,2,94,158,226,1185],
  [1,1,36,94,158,228,286],
  [1,1,36,94,158,290]]

def k26 : List (List ℕ) := [[0,5,4,94,158,228,286],
  [0,5,4,94,158,290],
  [0,5,6,94,158,228,286,1185],
  [0,5,6,94,158,290,1185],
  [1,5,2,94,158,226],
  [1,5,3,94,158,226,1185]]

def k27 : List (List ℕ) := [[0,1,3,94,158,228,286,1185],
  [0,1,12,94,158,226,1185],
  [0,1,36,94,158,290,865],
  [0,5,6,94,158,228,286],
  [0,5,24,94,158,226],
  [1,1,18,94,158,226,865],
  [1,1,24,94,158,290,1185],
  [1,2,9,94,158,228,286,865],
  [1,5,48,94,158,290]]

def k28 : List (List ℕ) := [[0,1,24,94,158,290,1185],
  [0,2,9,94,158,228,286,865],
  [0,5,9,94,158,226,865],
  [0,5,48,94,158,290],
  [1,1,3,94,158,228,286,1185],
  [1,1,12,94,158,226,1185],
  [1,1,36,94,158,290,865],
  [1,3,2,94,158,226,1249],
  [1,5,6,94,158,228,286],
  [1,83,24,94,158,226]]

def k29 : List (List ℕ) := [[0,1,2,94,158,226,671,865],
  [1,3,4,94,158,226,671,1249],
  [1,15,8,94,158,226,671]]

def k30 : List (List ℕ) := [[0,1,6,94,158,226,671,1185],
  [0,1,18,94,158,228,286,671,865],
  [0,1,18,94,158,290,671,865],
  [0,2,3,94,158,228,286,671,1185],
  [0,3,4,94,158,226,671,1249],
  [0,7,6,94,158,228,286,671],
  [0,43,24,94,158,226,671],
  [1,1,9,94,158,226,671,865],
  [1,1,12,94,158,290,671,1185],
  [1,5,24,94,158,290,671]]

def k31 : List (List ℕ) := [[0,1,3,94,156,228,286,418,1313,1695,1759],
  [0,1,3,94,156,228,290,414,1185,1695,1759],
  [0,1,9,94,156,226,286,356,414,673],
  [0,1,9,94,156,226,286,356,414,673,1121],
  [0,1,9,94,156,228,286,673,1121],
  [0,1,12,94,156,226,292,414,1185,1695,1759],
  [0,1,12,94,156,226,418,1313,1695,1759],
  [0,1,12,94,156,228,414,1249],
  [0,1,16,94,156,292,1185,1695,1759],
  [0,1,48,94,156,420,1313,1695,1759],
  [0,1,72,94,156,292,414],
  [0,1,72,94,156,354,673,1121],
  [0,2,27,94,156,228,286,865],
  [0,4,9,94,156,228,284,356,414,673],
  [0,4,9,94,156,228,284,356,414,673,1121],
  [0,4,27,94,156,230,284,865],
  [0,5,243,94,156,226,673,1121],
  [0,7,288,94,156,418],
  [0,10,81,94,156,230,286,1185,1695,1759],
  [0,11,243,94,156,226,418,1185,1695,1759],
  [0,13,18,94,156,228,286,1249],
  [0,32,1215,94,156,228,350,673],
  [0,32,1215,94,156,232,284,350,673],
  [0,52,243,94,156,232,282,418,1185,1695,1759],
  [0,64,243,94,156,232,282,673,1121],
  [0,161,54,94,156,230,284,1249],
  [0,502,729,94,156,232,282],
  [0,87991,58320,94,156,226],
  [1,1,6,94,156,228,284,420,1313,1695,1759],
  [1,1,6,94,156,230,286,414,1249],
  [1,1,9,94,156,228,284,354,673,1121],
  [1,1,12,94,156,228,414],
  [1,1,18,94,156,230,286,414],
  [1,1,18,94,156,356,414,673],
  [1,1,18,94,156,356,414,673,1121],
  [1,1,24,94,156,226,286,420,1313,1695,1759],
  [1,1,24,94,156,290,418,1313,1695,1759],
  [1,1,24,94,156,294,414,1185,1695,1759],
  [1,1,36,94,156,226,286,354,673,1121],
  [1,1,36,94,156,226,290,414],
  [1,2,3,94,156,232,284,414,1249],
  [1,2,9,94,156,232,284,414],
  [1,2,81,94,156,226,865],
  [1,7,36,94,156,228,284,418],
  [1,7,144,94,156,226,286,418],
  [1,10,81,94,156,230,284,418,1185,1695,1759],
  [1,11,81,94,156,228,286,418,1185,1695,1759],
  [1,13,864,94,156,290],
  [1,16,81,94,156,232,282,865],
  [1,28,9,94,156,232,282,1249],
  [1,32,81,94,156,230,284,673,1121],
  [1,47,216,94,156,226,1249],
  [1,52,243,94,156,232,284,1185,1695,1759],
  [1,59,162,94,156,228,1185,1695,1759],
  [1,64,1215,94,156,230,286,350,673],
  [1,331,1944,94,156,226,290,1185,1695,1759],
  [1,878,1215,94,156,230,284],
  [1,1171,4860,94,156,228,286]]

def k32 : List (List ℕ) := [[0,1,3,94,228,284],
  [0,1,3,94,228,284,1313],
  [0,1,12,94,226,286],
  [0,1,12,94,226,286,1313],
  [1,1,24,94],
  [1,1,24,94,1313]]

def k33 : List (List ℕ) := [[0,1,6,94,158,226,420,1313,1694,1758],
  [0,1,12,94,158,226,418,1695,1759],
  [0,1,12,94,158,292,418,1185,1694,1758],
  [0,1,12,94,158,296,414,1185,1694,1758],
  [0,1,36,94,158,292,1695,1759],
  [0,2,1,94,158,230,286,418,1185,1694,1758],
  [0,2,1,94,158,230,290,414,1185,1694,1758],
  [0,2,9,94,158,226,286,356,414,673,1121],
  [0,2,9,94,158,226,286,356,673,1695,1759],
  [0,4,3,94,158,230,286,418,1313,1694,1758],
  [0,4,9,94,158,230,282,420,1695,1759],
  [0,4,9,94,158,230,282,422,1313,1694,1758],
  [0,5,9,94,158,228,290,414,1695,1759],
  [0,5,36,94,158,226,292,414,1695,1759],
  [0,7,6,94,158,228,286,420,1313,1694,1758],
  [0,7,9,94,158,232,286,414,1695,1759],
  [0,7,12,94,158,228,286,418,1695,1759],
  [0,8,3,94,158,234,282,414,1249],
  [0,8,9,94,158,226,292,1185,1694,1758],
  [0,8,9,94,158,234,282,1695,1759],
  [0,11,9,94,158,230,286,1695,1759],
  [0,14,9,94,158,228,284,356,414,673,1121],
  [0,14,9,94,158,228,284,356,673,1695,1759],
  [0,16,9,94,158,230,284,356,414,673,1695,1759],
  [0,67,18,94,158,228,290,1185,1694,1758],
  [1,1,3,94,158,230,286,414,1249],
  [1,1,6,94,158,226,290,418,1313,1694,1758],
  [1,1,6,94,158,294,1185,1694,1758],
  [1,1,18,94,158,226,286,420,1695,1759],
  [1,1,18,94,158,226,286,422,1313,1694,1758],
  [1,1,36,94,158,294,414,1695,1759],
  [1,2,3,94,158,230,284,418,1695,1759],
  [1,2,9,94,158,226,290,1695,1759],
  [1,2,9,94,158,226,356,414,673,1695,1759],
  [1,4,3,94,158,230,284,420,1313,1694,1758],
  [1,5,3,94,158,228,292,414,1185,1694,1758],
  [1,5,3,94,158,228,418,1185,1694,1758],
  [1,5,9,94,158,230,414,1695,1759],
  [1,5,12,94,158,226,290,418,1185,1694,1758],
  [1,5,12,94,158,226,294,414,1185,1694,1758],
  [1,7,3,94,158,232,284,414,1249],
  [1,7,6,94,158,228,418,1313,1694,1758],
  [1,7,9,94,158,232,284,1695,1759],
  [1,7,18,94,158,228,284,420,1695,1759],
  [1,7,18,94,158,228,284,422,1313,1694,1758],
  [1,8,9,94,158,234,284,414,1695,1759],
  [1,14,9,94,158,228,286,356,414,673,1695,1759],
  [1,16,9,94,158,230,282,356,414,673,1121],
  [1,16,9,94,158,230,282,356,673,1695,1759],
  [1,40,9,94,158,230,1185,1694,1758],
  [1,41,36,94,158,228,1695,1759]]

def k34 : List (List ℕ) := [[0,1,6,94,158,226,292,414,1185,1695,1759],
  [0,1,6,94,158,228,414,1249],
  [0,1,8,94,158,292,1185,1695,1759],
  [0,1,36,94,158,292,414],
  [0,2,3,94,158,228,290,414,1185,1695,1759],
  [0,2,9,94,158,226,286,356,414,673],
  [0,2,9,94,158,226,286,356,414,673,1121],
  [0,2,9,94,158,226,418,1313,1695,1759],
  [0,5,18,94,158,228,286],
  [0,5,72,94,158,226],
  [0,5,72,94,158,420,1313,1695,1759],
  [0,8,9,94,158,228,284,356,414,673],
  [0,8,9,94,158,228,284,356,414,673,1121],
  [0,8,9,94,158,228,286,418,1313,1695,1759],
  [0,11,144,94,158,418],
  [1,1,1,94,158,228,1185,1695,1759],
  [1,1,3,94,158,230,286,414,1249],
  [1,1,4,94,158,226,290,1185,1695,1759],
  [1,1,6,94,158,228,414],
  [1,1,9,94,158,230,286,414],
  [1,1,9,94,158,290,418,1313,1695,1759],
  [1,1,9,94,158,356,414,673],
  [1,1,9,94,158,356,414,673,1121],
  [1,1,12,94,158,294,414,1185,1695,1759],
  [1,1,18,94,158,226,290,414],
  [1,4,3,94,158,232,284,414,1249],
  [1,4,9,94,158,232,284,414],
  [1,5,9,94,158,228,284,420,1313,1695,1759],
  [1,5,36,94,158,226,286,420,1313,1695,1759],
  [1,5,144,94,158,290],
  [1,11,18,94,158,228,284,418],
  [1,11,72,94,158,226,286,418]]

def k35 : List (List ℕ) := [[0,1,3,94,158,228,290,414,1185,1695,1759],
  [0,1,6,94,158,228,286,1249],
  [0,1,9,94,158,228,286,418,1313,1695,1759],
  [0,1,18,94,158,228,284,420,1313,1695,1759],
  [0,1,24,94,158,226,292,414,1185,1695,1759],
  [0,1,32,94,158,226,286,418],
  [0,1,36,94,158,228,284,418],
  [0,1,36,94,158,290,418,1313,1695,1759],
  [0,1,36,94,158,356,414,673],
  [0,1,36,94,158,356,414,673,1121],
  [0,1,72,94,158,226,286,354,673,1121],
  [0,1,81,94,158,226,865],
  [0,2,9,94,158,228,284,356,414,673],
  [0,2,9,94,158,228,284,356,414,673,1121],
  [0,2,27,94,158,230,284,865],
  [0,5,81,94,158,230,286,1185,1695,1759],
  [0,5,144,94,158,226,286,420,1313,1695,1759],
  [0,32,1215,94,158,232,284,350,673],
  [0,52,243,94,158,232,282,418,1185,1695,1759],
  [0,64,243,94,158,232,282,673,1121],
  [0,175,108,94,158,230,284,1249],
  [0,223,3240,94,158,228,286],
  [0,502,729,94,158,232,282],
  [1,1,2,94,158,228,1185,1695,1759],
  [1,1,3,94,158,232,284,414,1249],
  [1,1,8,94,158,228,414],
  [1,1,9,94,158,232,284,414],
  [1,1,24,94,158,228,414,1249],
  [1,1,36,94,158,418],
  [1,1,36,94,158,420,1313,1695,1759],
  [1,1,72,94,158,226,290,414],
  [1,1,72,94,158,226,418,1313,1695,1759],
  [1,1,72,94,158,354,673,1121],
  [1,1,432,94,158,290],
  [1,5,81,94,158,230,284,418,1185,1695,1759],
  [1,5,486,94,158,226,673,1121],
  [1,11,486,94,158,226,418,1185,1695,1759],
  [1,16,81,94,158,230,284,673,1121],
  [1,16,81,94,158,232,282,865],
  [1,28,9,94,158,232,282,1249],
  [1,32,1215,94,158,230,286,350,673],
  [1,52,243,94,158,232,284,1185,1695,1759],
  [1,155,3888,94,158,226,290,1185,1695,1759],
  [1,455,23328,94,158,226],
  [1,673,1215,94,158,230,284]]

def k36 : List (List ℕ) := [[0,1,1,94,158,228,292,414,1185,1694,1758],
  [0,1,1,94,158,228,418,1185,1694,1758],
  [0,1,1,94,158,232,284,414,1249],
  [0,1,3,94,158,232,284,1695,1759],
  [0,1,4,94,158,226,290,418,1185,1694,1758],
  [0,1,4,94,158,226,294,414,1185,1694,1758],
  [0,1,6,94,158,226,290,418,1313,1694,1758],
  [0,1,6,94,158,226,290,1695,1759],
  [0,1,6,94,158,228,414,1249],
  [0,1,18,94,158,226,286,420,1695,1759],
  [0,1,18,94,158,226,286,422,1313,1694,1758],
  [0,2,3,94,158,230,284,418,1695,1759],
  [0,2,3,94,158,230,414,1695,1759],
  [0,2,9,94,158,226,356,414,673,1695,1759],
  [0,4,3,94,158,230,284,420,1313,1694,1758],
  [0,7,6,94,158,228,418,1313,1694,1758],
  [0,7,18,94,158,228,284,420,1695,1759],
  [0,7,18,94,158,228,284,422,1313,1694,1758],
  [0,8,9,94,158,234,284,414,1695,1759],
  [0,14,9,94,158,228,286,356,414,673,1695,1759],
  [0,16,9,94,158,230,282,356,414,673,1121],
  [0,16,9,94,158,230,282,356,673,1695,1759],
  [0,35,36,94,158,228,1695,1759],
  [0,40,9,94,158,230,1185,1694,1758],
  [1,1,3,94,158,232,286,414,1695,1759],
  [1,1,6,94,158,226,420,1313,1694,1758],
  [1,1,12,94,158,226,292,414,1695,1759],
  [1,1,12,94,158,226,418,1695,1759],
  [1,2,1,94,158,230,286,418,1185,1694,1758],
  [1,2,1,94,158,230,290,414,1185,1694,1758],
  [1,2,9,94,158,226,286,356,414,673,1121],
  [1,2,9,94,158,226,286,356,673,1695,1759],
  [1,4,3,94,158,230,286,418,1313,1694,1758],
  [1,4,3,94,158,230,286,1695,1759],
  [1,4,9,94,158,230,282,420,1695,1759],
  [1,4,9,94,158,230,282,422,1313,1694,1758],
  [1,5,9,94,158,226,292,1185,1694,1758],
  [1,7,6,94,158,228,286,420,1313,1694,1758],
  [1,7,12,94,158,228,286,418,1695,1759],
  [1,7,18,94,158,228,290,414,1695,1759],
  [1,8,3,94,158,234,282,414,1249],
  [1,8,9,94,158,234,282,1695,1759],
  [1,14,9,94,158,228,284,356,414,673,1121],
  [1,14,9,94,158,228,284,356,673,1695,1759],
  [1,16,9,94,158,230,284,356,414,673,1695,1759],
  [1,43,18,94,158,228,290,1185,1694,1758]]

def k37 : List (List ℕ) := [[0,1,3,33,94,159,229,414,1695,1759],
  [0,1,4,33,94,159,227,286,420,1313,1694,1758],
  [0,1,9,33,94,159,227,284,356,414,673,1121],
  [0,1,9,33,94,159,227,284,356,673,1695,1759],
  [0,1,18,33,94,159,227,290,414,1695,1759],
  [0,1,18,33,94,159,231,286,414,1695,1759],
  [0,1,24,33,94,159,225,294,414,1185,1694,1758],
  [0,1,48,33,94,159,225,290,418,1185,1694,1758],
  [0,1,48,33,94,159,225,420,1313,1694,1758],
  [0,2,3,33,94,159,229,284,420,1313,1694,1758],
  [0,4,9,33,94,159,233,284,414,1695,1759],
  [0,4,81,33,94,159,227,286,418,865,1695,1759],
  [0,7,432,33,94,159,225,418,1695,1759],
  [0,8,9,33,94,159,229,282,356,414,673,1121],
  [0,8,9,33,94,159,229,282,356,673,1695,1759],
  [0,10,81,33,94,159,229,284,418,865,1695,1759],
  [0,11,243,33,94,159,227,286,673,1121],
  [0,19,864,33,94,159,225,290,1695,1759],
  [0,32,81,33,94,159,231,284,865,1695,1759],
  [0,64,1215,33,94,159,229,350,673,1695,1759],
  [0,64,1215,33,94,159,231,284,350,418,673,1695,1759],
  [0,85,216,33,94,159,227,286,1249],
  [0,89,36,33,94,159,229,284,1249],
  [0,104,243,33,94,159,231,282,420,1185,1694,1758],
  [0,104,243,33,94,159,231,286,1185,1694,1758],
  [0,128,243,33,94,159,231,282,673,1121],
  [0,317,972,33,94,159,227,290,1185,1694,1758],
  [0,521,243,33,94,159,229,1185,1694,1758],
  [0,680,729,33,94,159,231,282,418,1695,1759],
  [0,6631,29160,33,94,159,227,1695,1759],
  [1,1,1,33,94,159,229,290,414,1185,1694,1758],
  [1,1,6,33,94,159,227,292,414,1185,1694,1758],
  [1,1,6,33,94,159,231,284,414,1249],
  [1,1,9,33,94,159,227,284,354,673,1121],
  [1,1,9,33,94,159,227,284,420,1695,1759],
  [1,1,9,33,94,159,227,286,356,414,673,1695,1759],
  [1,1,12,33,94,159,227,284,422,1313,1694,1758],
  [1,1,12,33,94,159,227,418,1313,1694,1758],
  [1,1,72,33,94,159,225,286,354,673,1121],
  [1,1,72,33,94,159,225,292,414,1695,1759],
  [1,1,96,33,94,159,225,286,420,1695,1759],
  [1,1,144,33,94,159,225,286,422,1313,1694,1758],
  [1,2,3,33,94,159,229,286,418,1313,1694,1758],
  [1,2,9,33,94,159,229,282,420,1695,1759],
  [1,2,9,33,94,159,229,282,422,1313,1694,1758],
  [1,4,3,33,94,159,233,282,414,1249],
  [1,4,9,33,94,159,233,282,1695,1759],
  [1,4,81,33,94,159,227,865,1695,1759],
  [1,8,9,33,94,159,229,284,356,414,673,1695,1759],
  [1,10,81,33,94,159,229,286,865,1695,1759],
  [1,11,144,33,94,159,225,292,1185,1694,1758],
  [1,19,243,33,94,159,229,284,420,1185,1694,1758],
  [1,22,243,33,94,159,227,286,420,1185,1694,1758],
  [1,32,81,33,94,159,231,282,418,865,1695,1759],
  [1,37,243,33,94,159,227,418,1185,1694,1758],
  [1,44,9,33,94,159,231,282,1249],
  [1,64,1215,33,94,159,229,286,350,418,673,1695,1759],
  [1,64,1215,33,94,159,231,286,350,673,1695,1759],
  [1,112,243,33,94,159,229,284,673,1121],
  [1,205,243,33,94,159,229,286,418,1185,1694,1758],
  [1,208,243,33,94,159,231,284,418,1185,1694,1758],
  [1,629,7290,33,94,159,229,286,1695,1759],
  [1,1441,1458,33,94,159,231,284,1695,1759],
  [1,1801,7290,33,94,159,229,284,418,1695,1759],
  [1,2581,29160,33,94,159,227,286,418,1695,1759]]

def k38 : List (List ℕ) := [[0,1,6,94,157,227],
  [0,5,6,94,157,229,286,1249],
  [0,7,6,94,157,229,286],
  [0,46,3,94,157,231,284,1249],
  [1,1,6,94,157,227,1249],
  [1,4,3,94,157,231,284],
  [1,16,1,94,157,233,282,1249]]

def k39 : List (List ℕ) := [[0,1,12,94,158,226,286,354,673,1121],
  [0,1,24,94,158,354,673,1121],
  [0,1,72,94,158,290],
  [0,4,27,94,158,230,284,865],
  [0,7,6,94,158,230,284,1249],
  [0,11,81,94,158,226,1185],
  [0,13,81,94,158,228,286,673,1121],
  [0,35,243,94,158,228,286],
  [0,121,486,94,158,226],
  [1,1,81,94,158,228,286,1185],
  [1,2,27,94,158,226,865],
  [1,2,27,94,158,228,286,865],
  [1,5,81,94,158,226,673,1121],
  [1,7,6,94,158,228,286,1249],
  [1,8,81,94,158,230,284,673,1121],
  [1,10,81,94,158,230,284,1185],
  [1,190,243,94,158,230,284]]

def k40 : List (List ℕ) := [[0,1,81,94,158,228,286,1185],
  [0,2,27,94,158,226,865],
  [0,2,27,94,158,228,286,865],
  [0,5,81,94,158,226,673,1121],
  [0,8,81,94,158,230,284,673,1121],
  [0,10,81,94,158,230,284,1185],
  [0,25,108,94,158,226,1249],
  [0,91,54,94,158,228,286,1249],
  [0,190,243,94,158,230,284],
  [0,4229,1944,94,158,226],
  [1,1,12,94,158,226,286,354,673,1121],
  [1,1,24,94,158,354,673,1121],
  [1,1,72,94,158,290],
  [1,4,27,94,158,230,284,865],
  [1,7,6,94,158,230,284,1249],
  [1,11,81,94,158,226,1185],
  [1,13,81,94,158,228,286,673,1121],
  [1,431,972,94,158,228,286]]

def k41 : List (List ℕ) := [[0,1,2,94,156,228,414,671],
  [0,1,4,94,156,292,414,671],
  [0,1,4,94,156,354,1121],
  [0,1,4,94,158,546,865],
  [0,1,8,94,156,354],
  [0,1,18,94,156,226,671,865],
  [0,3,1,94,156,420,1313,2015],
  [0,3,2,94,156,230,290,414,671,1249,2335,2399,2655,2719],
  [0,3,4,94,156,226,290,418,671,1249,2335,2399,2655,2719],
  [0,3,4,94,156,226,292,414,671,1185,2655,2719],
  [0,3,8,94,156,292,671,1185,2655,2719],
  [0,3,8,94,158,546,670,1249],
  [0,4,3,94,156,228,671,1185,2655,2719],
  [0,7,16,94,156,418,671],
  [0,9,4,94,156,230,671,1249,2335,2399,2655,2719],
  [0,13,24,94,156,226,671],
  [0,15,16,94,158,546,670],
  [1,1,1,94,156,356,414],
  [1,1,1,94,156,356,414,1121],
  [1,1,4,94,158,546,670,865],
  [1,1,18,94,156,228,286,671,865],
  [1,2,3,94,156,230,286,671,1185,2655,2719],
  [1,3,2,94,156,232,414,671,1249,2335,2399,2655,2719],
  [1,3,4,94,156,294,414,671,1185,2655,2719],
  [1,3,8,94,156,228,418,671,1249,2335,2399,2655,2719],
  [1,3,8,94,158,546,1249],
  [1,5,16,94,156,290,671],
  [1,6,1,94,156,226,418,1313,2015],
  [1,7,6,94,156,228,286,671],
  [1,15,16,94,158,546],
  [1,17,12,94,156,226,290,671,1185,2655,2719],
  [1,21,8,94,156,228,290,671,1249,2335,2399,2655,2719]]

def k42 : List (List ℕ) := [[1,3,4,94,671],
  [1,3,4,94,671,1313]]

def k43 : List (List ℕ) := [[0,1,2,94,158,292,414,671],
  [0,3,2,94,158,292,414,671,1185],
  [1,1,2,94,158,226,290,414,671],
  [1,3,2,94,158,226,290,414,671,1185]]

def k44 : List (List ℕ) := [[0,1,1,94,158,228,414,671],
  [0,1,2,94,158,292,414,671],
  [0,3,2,94,158,292,414,671,1185],
  [0,5,1,94,158,420,1313,2079],
  [0,11,8,94,158,418,671],
  [0,15,1,94,158,228,418,1249,2783],
  [1,2,1,94,158,356,414],
  [1,2,1,94,158,356,414,1121],
  [1,5,8,94,158,226,671],
  [1,8,1,94,158,226,418,1313,2079],
  [1,12,1,94,158,230,1249,2783]]

def k45 : List (List ℕ) := [[0,1,1,94,158,226,671],
  [0,1,2,94,158,356,414],
  [0,1,2,94,158,356,414,1121],
  [0,1,24,94,158,226,290,418,671,1249,2335,2399,2655,2719],
  [0,3,4,94,158,232,414,671,1249,2335,2399,2655,2719],
  [0,7,48,94,158,228,418,671,1249,2335,2399,2655,2719],
  [0,8,1,94,158,226,418,1313,2143],
  [0,9,1,94,158,294,1185,2847],
  [0,36,1,94,158,228,290,1185,2847],
  [0,43,48,94,158,228,290,671,1249,2335,2399,2655,2719],
  [1,1,4,94,158,228,414,671],
  [1,1,36,94,158,228,286,671,865],
  [1,3,4,94,158,230,290,414,671,1249,2335,2399,2655,2719],
  [1,5,1,94,158,420,1313,2143],
  [1,5,32,94,158,290,671],
  [1,7,12,94,158,228,286,671],
  [1,11,32,94,158,418,671],
  [1,13,12,94,158,230,671,1249,2335,2399,2655,2719],
  [1,16,1,94,158,230,1185,2847],
  [1,38,1,94,158,226,292,1185,2847]]

def k46 : List (List ℕ) := [[0,1,1,94,158,228,414,671],
  [0,1,2,94,158,226,290,414,671],
  [0,3,1,94,158,228,414,671,1249],
  [0,3,2,94,158,226,290,414,671,1185]]

def k47 : List (List ℕ) := [[0,1,4,33,94,159,225,290,414,671],
  [0,3,4,33,94,159,225,290,414,671,1185],
  [0,3,4,33,94,159,225,671],
  [1,1,18,33,94,159,227,286,671,865],
  [1,2,3,33,94,159,227,286,671,1185],
  [1,7,6,33,94,159,227,286,671]]

def k48 : List (List ℕ) := [[0,1,4,94,158,354,1121],
  [0,1,4,94,546,865],
  [0,1,8,94,158,354],
  [0,1,18,94,158,226,671,865],
  [0,3,8,94,546,670,1249],
  [0,15,16,94,546,670],
  [1,1,4,94,546,670,865],
  [1,1,12,94,158,226,671,1185],
  [1,1,18,94,158,228,286,671,865],
  [1,2,3,94,158,228,286,671,1185],
  [1,3,4,94,158,226,671,1249],
  [1,3,8,94,546,1249],
  [1,7,6,94,158,228,286,671],
  [1,15,16,94,546],
  [1,19,12,94,158,226,671]]

def k49 : List (List ℕ) := [[0,1,24,94,158,354,673,1121],
  [0,1,72,94,158,290],
  [0,7,3,94,158,228,286,1249],
  [0,10,27,94,158,228,286,865],
  [0,10,81,94,158,226,673,1121],
  [0,11,81,94,158,226,1185],
  [0,16,81,94,158,230,284,673,1121],
  [0,32,81,94,158,230,284,1185],
  [0,161,972,94,158,226],
  [0,338,243,94,158,230,284],
  [1,1,6,94,158,226,286,354,673,1121],
  [1,2,27,94,158,226,865],
  [1,7,3,94,158,230,284,1249],
  [1,8,27,94,158,230,284,865],
  [1,26,81,94,158,228,286,673,1121],
  [1,43,81,94,158,228,286,1185],
  [1,581,486,94,158,228,286]]

def k50 : List (List ℕ) := [[0,1,24,94,158,354,673,1121],
  [0,1,72,94,158,290],
  [0,10,27,94,158,228,286,865],
  [0,10,81,94,158,226,673,1121],
  [0,11,81,94,158,226,1185],
  [0,16,81,94,158,230,284,673,1121],
  [0,32,81,94,158,230,284,1185],
  [0,95,27,94,158,228,286,1249],
  [0,338,243,94,158,230,284],
  [0,5953,1944,94,158,226],
  [1,1,6,94,158,226,286,354,673,1121],
  [1,2,27,94,158,226,865],
  [1,7,3,94,158,230,284,1249],
  [1,8,27,94,158,230,284,865],
  [1,26,81,94,158,228,286,673,1121],
  [1,43,81,94,158,228,286,1185],
  [1,47,108,94,158,226,1249],
  [1,478,243,94,158,228,286]]

def k51 : List (List ℕ) := [[0,1,16,94,158,226,356,1121,1374,1438],
  [0,3,32,94,158,228,354,1249,1374,1438],
  [1,1,8,94,158,228,354,1121,1374,1438],
  [1,1,32,94,158,358,1121,1374,1438],
  [1,3,64,94,158,226,354,1375,1439],
  [1,3,64,94,158,356,1375,1439]]

def k52 : List (List ℕ) := [[0,1,32,94,158,358,1121,1374,1438],
  [0,3,4,94,158,226,356,1249,1374,1438],
  [0,3,64,94,158,226,354,1375,1439],
  [0,3,64,94,158,356,1375,1439],
  [0,7,8,94,158,228,354,1121,1374,1438],
  [1,13,16,94,158,226,356,1121,1374,1438],
  [1,27,32,94,158,228,354,1249,1374,1438]]

def k53 : List (List ℕ) := [[0,1,2,94,158,226,356,671,1121,1374,1438],
  [0,9,16,94,158,228,354,671,1249,1374,1438],
  [1,1,16,94,158,358,671,1121,1374,1438],
  [1,3,8,94,158,226,356,671,1249,1374,1438],
  [1,3,32,94,158,226,354,671,1375,1439],
  [1,3,32,94,158,356,671,1375,1439],
  [1,5,8,94,158,228,354,671,1121,1374,1438]]

def k54 : List (List ℕ) := [[0,1,12,94,158,226,286,354,1121],
  [0,1,24,94,158,354,1121],
  [0,1,27,94,158,226,1121],
  [0,1,27,94,158,228,286],
  [1,1,12,94,158,226,286,354],
  [1,1,24,94,158,354],
  [1,1,27,94,158,226],
  [1,1,27,94,158,228,286,1121]]

def k55 : List (List ℕ) := [[1,1,4,94,158,354,1121],
  [1,1,8,94,158,354]]

def k56 : List (List ℕ) := [[0,1,16,94,158,354,671],
  [1,1,8,94,158,354,671,1121]]

def k57 : List (List ℕ) := [[0,1,8,94,158,354,671,1121],
  [1,1,16,94,158,354,671]]

def k58 : List (List ℕ) := [[0,1,3,94,158,226,286,354],
  [0,1,12,94,158,354,1121],
  [0,4,27,94,158,226],
  [0,4,27,94,158,228,286,1121],
  [1,1,3,94,158,226,286,354,1121],
  [1,1,12,94,158,354],
  [1,4,27,94,158,226,1121],
  [1,4,27,94,158,228,286]]

def k59 : List (List ℕ) := [[0,1,24,94,156,360,1373,1437],
  [0,4,9,94,156,228,286,360,1121,1372,1436],
  [0,4,27,94,156,232,1373,1437],
  [0,4,27,94,156,234,1121,1372,1436],
  [0,5,18,94,156,232,286,356,1249,1372,1436],
  [0,13,9,94,156,232,286,354,1373,1437],
  [0,13,12,94,156,232,354,1249,1372,1436],
  [0,19,27,94,156,230,286,358,1249,1372,1436],
  [0,25,27,94,156,234,286,354,1121,1372,1436],
  [0,43,54,94,156,228,358,1249,1372,1436],
  [0,47,216,94,156,226,360,1249,1372,1436],
  [0,73,24,94,156,230,356,1121,1372,1436],
  [0,179,108,94,156,228,286,358,1373,1437],
  [0,695,216,94,156,228,356,1373,1437],
  [1,1,3,94,156,234,286,354,1249,1372,1436],
  [1,1,6,94,156,226,286,360,1373,1437],
  [1,1,9,94,156,230,286,358,1121,1372,1436],
  [1,4,27,94,156,234,286,1373,1437],
  [1,4,27,94,156,236,286,1121,1372,1436],
  [1,5,72,94,156,226,360,1121,1372,1436],
  [1,7,6,94,156,232,286,356,1121,1372,1436],
  [1,16,27,94,156,228,286,360,1249,1372,1436],
  [1,25,18,94,156,228,358,1121,1372,1436],
  [1,61,36,94,156,230,354,1373,1437],
  [1,155,72,94,156,230,356,1249,1372,1436],
  [1,179,108,94,156,226,358,1373,1437],
  [1,181,108,94,156,232,354,1121,1372,1436],
  [1,307,108,94,156,230,286,356,1373,1437]]

def k60 : List (List ℕ) := [[0,1,16,94,158,230,356,1249,1372,1436],
  [0,1,24,94,158,232,354,1121,1372,1436],
  [0,1,96,94,158,362,1121,1372,1436],
  [0,3,32,94,158,228,358,1121,1372,1436],
  [0,3,64,94,158,226,358,1373,1437],
  [0,7,18,94,158,228,286,360,1121,1372,1436],
  [0,7,192,94,158,230,354,1373,1437],
  [0,8,27,94,158,234,286,354,1121,1372,1436],
  [0,83,144,94,158,232,286,354,1373,1437],
  [0,103,216,94,158,230,286,358,1249,1372,1436],
  [0,277,432,94,158,228,286,358,1373,1437],
  [1,1,6,94,158,232,286,356,1121,1372,1436],
  [1,1,9,94,158,232,286,356,1249,1372,1436],
  [1,1,16,94,158,226,286,360,1373,1437],
  [1,1,24,94,158,226,286,362,1121,1372,1436],
  [1,1,24,94,158,226,360,1121,1372,1436],
  [1,1,24,94,158,234,286,354,1249,1372,1436],
  [1,1,32,94,158,228,358,1249,1372,1436],
  [1,1,32,94,158,232,354,1249,1372,1436],
  [1,1,192,94,158,360,1373,1437],
  [1,2,27,94,158,234,286,1373,1437],
  [1,2,27,94,158,236,286,1121,1372,1436],
  [1,5,48,94,158,230,356,1121,1372,1436],
  [1,5,64,94,158,228,356,1373,1437],
  [1,8,27,94,158,228,286,360,1249,1372,1436],
  [1,31,72,94,158,230,286,358,1121,1372,1436],
  [1,479,432,94,158,230,286,356,1373,1437]]

def k61 : List (List ℕ) := [[0,1,12,33,94,159,225,286,360,1437,1821],
  [0,4,27,33,94,159,233,286,1437,1821],
  [0,13,36,33,94,159,227,286,360,1121,1372,1436],
  [0,41,54,33,94,159,233,286,354,1121,1372,1436],
  [0,47,54,33,94,159,229,286,358,1249,1372,1436],
  [0,113,54,33,94,159,229,286,356,1437,1821],
  [1,1,6,33,94,159,233,286,354,1249,1372,1436],
  [1,3,4,33,94,159,231,286,356,1121,1372,1436],
  [1,4,27,33,94,159,235,286,1121,1372,1436],
  [1,5,18,33,94,159,229,286,358,1121,1372,1436],
  [1,5,36,33,94,159,231,286,356,1249,1372,1436],
  [1,29,27,33,94,159,227,286,358,1437,1821],
  [1,43,36,33,94,159,231,286,354,1437,1821],
  [1,55,108,33,94,159,227,286,360,1249,1372,1436]]

def k62 : List (List ℕ) := [[0,1,1,94,157,227,358,1249,1373,1437],
  [0,1,1,94,157,229,286,358,1121,1373,1437],
  [0,1,2,94,157,229,354,1374,1438],
  [0,3,2,94,157,229,286,356,1374,1438],
  [1,1,1,94,157,227,358,1121,1373,1437],
  [1,1,1,94,157,229,286,358,1249,1373,1437],
  [1,1,2,94,157,231,286,354,1374,1438],
  [1,3,2,94,157,227,356,1374,1438]]

def k63 : List (List ℕ) := [[0,1,1,94,158,356,1887],
  [0,1,8,94,158,226,356,1121,1374,1438],
  [0,3,16,94,158,228,354,1249,1374,1438],
  [1,1,4,94,158,228,354,1121,1374,1438],
  [1,1,16,94,158,358,1121,1374,1438],
  [1,7,1,94,158,226,354,1887]]

def k64 : List (List ℕ) := [[0,7,8,94,158,226,356,1121,1374,1438],
  [0,27,16,94,158,228,354,1249,1374,1438],
  [1,1,16,94,158,358,1121,1374,1438],
  [1,3,4,94,158,226,356,1249,1374,1438],
  [1,7,4,94,158,228,354,1121,1374,1438],
  [1,7,32,94,158,356,1631],
  [1,23,32,94,158,226,354,1631]]

def k65 : List (List ℕ) := [[0,1,8,94,158,354]]

def k66 : List (List ℕ) := [[0,1,4,94,158,228,354,1121,1374,1438],
  [0,1,16,94,158,358,1121,1374,1438],
  [0,7,32,94,158,226,354,1631],
  [1,1,8,94,158,226,356,1121,1374,1438],
  [1,1,32,94,158,356,1631],
  [1,3,16,94,158,228,354,1249,1374,1438]]

def k67 : List (List ℕ) := [[0,1,1,94,158,226,292,671,1185,2527,2591,2719,2911],
  [0,1,4,94,158,228,354,671,1121,1375,1439,2527,2591],
  [0,1,4,94,158,228,354,671,1185,2527,2591,2719,2911],
  [0,1,8,94,158,226,290,354,671,1249,1375,1439,2655,2719],
  [0,3,8,94,158,226,356,671,1121,1375,1439,2527,2591],
  [0,3,16,94,158,292,354,671,1185,2527,2591,2719,2911],
  [0,5,8,94,158,290,356,671,1121,1375,1439,2527,2591],
  [0,11,48,94,158,290,671],
  [1,1,2,94,158,228,290,671,1185,2527,2591,2719,2911],
  [1,1,2,94,158,294,671,1185,2527,2591,2719,2911],
  [1,3,4,94,158,226,290,354,671,1121,1375,1439,2527,2591],
  [1,5,8,94,158,226,290,354,671,1185,2527,2591,2719,2911],
  [1,5,12,94,158,226,671],
  [1,5,16,94,158,228,354,671,1249,1375,1439,2655,2719],
  [1,5,16,94,158,358,671,1121,1375,1439,2527,2591],
  [1,9,32,94,158,354,671]]

def k68 : List (List ℕ) := [[0,1,2,94,158,228,290,671,1185,2527,2591,2719,2911],
  [0,1,2,94,158,294,671,1185,2527,2591,2719,2911],
  [0,1,4,94,158,230,354,671,1121,1374,1438,2527,2591],
  [0,1,8,94,158,226,290,356,671,1249,1374,1438,2655,2719],
  [0,1,8,94,158,226,358,671,1249,1374,1438,2655,2719],
  [0,1,8,94,158,228,356,671,1121,1374,1438,2527,2591],
  [0,1,16,94,158,226,358,671,1121,1374,1438,2527,2591],
  [0,1,16,94,158,228,356,671,1249,1374,1438,2655,2719],
  [0,3,8,94,158,228,290,354,671,1249,1374,1438,2655,2719],
  [0,5,8,94,158,226,290,354,671,1185,2527,2591,2719,2911],
  [0,5,8,94,158,226,290,356,671,1121,1374,1438,2527,2591],
  [0,9,1,94,158,356,1951],
  [0,22,1,94,158,226,290,1951],
  [0,103,1,94,158,226,354,1951],
  [1,1,1,94,158,226,292,671,1185,2527,2591,2719,2911],
  [1,1,4,94,158,228,354,671,1185,2527,2591,2719,2911],
  [1,1,4,94,158,290,358,671,1121,1374,1438,2527,2591],
  [1,1,8,94,158,290,358,671,1249,1374,1438,2655,2719],
  [1,1,16,94,158,360,671,1121,1374,1438,2527,2591],
  [1,3,4,94,158,228,290,354,671,1121,1374,1438,2527,2591],
  [1,3,16,94,158,292,354,671,1185,2527,2591,2719,2911],
  [1,9,16,94,158,230,354,671,1249,1374,1438,2655,2719],
  [1,22,1,94,158,290,354,1951],
  [1,76,1,94,158,228,1951]]

def k69 : List (List ℕ) := [[0,1,1,33,94,159,228,290,351,607,671,1185,2527,2591,2719,2911],
  [0,1,3,33,94,159,226,351,607,671],
  [0,3,8,33,94,159,226,355,607,671,1121,1375,1439,2527,2591],
  [0,3,16,33,94,159,228,353,607,671,1249,1375,1439,2655,2719],
  [0,5,4,33,94,159,226,290,353,607,671,1185,2527,2591,2719,2911],
  [0,5,8,33,94,159,294,351,607,671,1185,2527,2591,2719,2911],
  [1,1,4,33,94,159,228,353,607,671,1121,1375,1439,2527,2591],
  [1,3,4,33,94,159,228,353,607,671,1185,2527,2591,2719,2911],
  [1,5,16,33,94,159,292,353,607,671,1185,2527,2591,2719,2911],
  [1,5,16,33,94,159,357,607,671,1121,1375,1439,2527,2591],
  [1,5,24,33,94,159,290,351,607,671],
  [1,7,96,33,94,159,353,607,671],
  [1,13,8,33,94,159,226,292,351,607,671,1185,2527,2591,2719,2911]]

def k70 : List (List ℕ) := [[0,3,4,94,159,226,353,545,607,671,737,1121,1375,1439],
  [0,3,8,94,159,226,353,545,607,670,1249,1375,1439],
  [0,3,8,94,159,226,353,545,607,1121,1375,1439],
  [1,3,4,94,159,355,545,607,671,737,1121,1375,1439],
  [1,3,8,94,159,226,353,545,607,670,1121,1375,1439],
  [1,3,8,94,159,226,353,545,607,1249,1375,1439],
  [1,5,8,94,159,353,545,607,671,737]]

def k71 : List (List ℕ) := [[0,1,2,94,159,226,357,414,607,1121,1375,1439,2207,2271],
  [0,1,2,94,159,355,414,607],
  [0,1,2,94,159,357,607,1121,1375,1439,2207,2271],
  [0,3,4,94,159,230,351,607,671,1249,1375,1439,2335,2399],
  [0,3,4,94,159,230,353,414,607,671,1249,1375,1439,2335,2399],
  [0,3,8,94,159,226,355,607,671,1121,1375,1439,2207,2271],
  [0,3,16,94,159,353,420,607,671,1313,2207,2271,2335,2399],
  [0,7,32,94,159,353,607,671],
  [1,1,2,94,159,226,355,607,1121,1375,1439,2207,2271],
  [1,1,2,94,159,359,414,607,1121,1375,1439,2207,2271],
  [1,1,4,94,159,228,351,414,607,671],
  [1,1,8,94,159,292,351,414,607,671],
  [1,3,4,94,159,232,351,414,607,671,1249,1375,1439,2335,2399],
  [1,3,8,94,159,226,353,418,607,671,1313,2207,2271,2335,2399],
  [1,3,8,94,159,292,351,414,607,671,1185],
  [1,3,16,94,159,357,607,671,1121,1375,1439,2207,2271],
  [1,15,16,94,159,228,353,607,671,1249,1375,1439,2335,2399]]

def k72 : List (List ℕ) := [[0,1,1,94,158,227,290,355,607,671,1249,1374,1438,2655,2719],
  [0,1,2,94,158,229,290,353,607,671,1121,1374,1438,2527,2591],
  [0,3,2,94,158,229,353,607,671,1185,2527,2591,2719,2911],
  [0,3,2,94,158,231,290,351,607,671,1249,1374,1438,2655,2719],
  [0,3,4,94,158,225,355,607,671,1375,1439],
  [0,3,4,94,158,229,355,607,671,1121,1374,1438,2527,2591],
  [0,5,8,94,158,225,290,357,607,671,1121,1374,1438,2527,2591],
  [0,5,8,94,158,225,292,353,607,671,1185,2527,2591,2719,2911],
  [0,5,12,94,158,225,290,353,607,671,1375,1439],
  [0,7,6,94,158,229,351,607,671,1375,1439],
  [0,13,4,94,158,227,292,351,607,671,1185,2527,2591,2719,2911],
  [0,13,4,94,158,231,353,607,671,1249,1374,1438,2655,2719],
  [1,1,1,94,158,229,290,351,609,671,1185,2527,2591,2719,2911],
  [1,1,2,94,158,231,353,607,671,1121,1374,1438,2527,2591],
  [1,3,2,94,158,233,351,607,671,1249,1374,1438,2655,2719],
  [1,3,4,94,158,227,290,355,607,671,1121,1374,1438,2527,2591],
  [1,5,2,94,158,227,290,353,607,671,1185,2527,2591,2719,2911],
  [1,5,4,94,158,225,294,351,607,671,1185,2527,2591,2719,2911],
  [1,5,8,94,158,227,357,607,671,1121,1374,1438,2527,2591],
  [1,5,12,94,158,227,290,351,607,671,1375,1439],
  [1,11,8,94,158,229,355,607,671,1249,1374,1438,2655,2719],
  [1,23,8,94,158,229,290,353,607,671,1249,1374,1438,2655,2719],
  [1,55,24,94,158,227,353,607,671,1375,1439]]

def k73 : List (List ℕ) := [[0,1,8,94,158,354,671]]

def k74 : List (List ℕ) := [[0,1,2,94,158,354,671,1121],
  [0,1,4,94,158,354,671]]

def k75 : List (List ℕ) := [[0,1,2,94,158,354,671,737,1121],
  [0,1,4,94,158,354,671,737]]

def k76 : List (List ℕ) := [[0,1,8,94,158,230,286,354,1249,1374,1438],
  [0,1,12,94,158,228,286,356,1121,1374,1438],
  [0,1,24,94,158,228,354,1121,1374,1438],
  [0,1,64,94,158,226,354,1375,1439],
  [0,1,64,94,158,356,1375,1439],
  [0,1,96,94,158,358,1121,1374,1438],
  [1,1,6,94,158,230,286,354,1121,1374,1438],
  [1,1,16,94,158,226,286,356,1375,1439],
  [1,1,16,94,158,228,286,354,1375,1439],
  [1,1,24,94,158,226,286,358,1121,1374,1438],
  [1,1,32,94,158,228,354,1249,1374,1438],
  [1,1,48,94,158,226,356,1121,1374,1438]]

def k77 : List (List ℕ) := [[0,1,36,94,158,232,286,356,1249,1372,1436],
  [0,2,9,94,158,226,360,1121,1372,1436],
  [0,4,27,94,158,232,1373,1437],
  [0,4,27,94,158,234,1121,1372,1436],
  [0,5,48,94,158,226,286,360,1373,1437],
  [0,7,24,94,158,226,286,362,1121,1372,1436],
  [0,47,216,94,158,226,360,1249,1372,1436],
  [0,59,54,94,158,234,286,354,1121,1372,1436],
  [0,101,96,94,158,232,354,1249,1372,1436],
  [0,109,72,94,158,230,286,358,1121,1372,1436],
  [0,151,144,94,158,232,286,354,1373,1437],
  [0,157,48,94,158,230,356,1121,1372,1436],
  [0,179,216,94,158,230,286,358,1249,1372,1436],
  [0,311,432,94,158,228,286,358,1373,1437],
  [0,661,864,94,158,228,358,1249,1372,1436],
  [0,5101,1728,94,158,228,356,1373,1437],
  [1,4,27,94,158,234,286,1373,1437],
  [1,4,27,94,158,236,286,1121,1372,1436],
  [1,5,24,94,158,234,286,354,1249,1372,1436],
  [1,5,192,94,158,360,1373,1437],
  [1,7,96,94,158,362,1121,1372,1436],
  [1,13,18,94,158,228,286,360,1121,1372,1436],
  [1,16,27,94,158,228,286,360,1249,1372,1436],
  [1,25,12,94,158,232,286,356,1121,1372,1436],
  [1,301,144,94,158,230,356,1249,1372,1436],
  [1,371,216,94,158,232,354,1121,1372,1436],
  [1,517,288,94,158,228,358,1121,1372,1436],
  [1,769,432,94,158,230,286,356,1373,1437],
  [1,919,576,94,158,230,354,1373,1437],
  [1,2459,1728,94,158,226,358,1373,1437]]

def k78 : List (List ℕ) := [[0,1,4,94,158,225,359,607,1373,1437],
  [0,1,9,94,158,233,353,607,1121,1372,1436],
  [0,1,9,94,158,235,286,353,607,1249,1372,1436],
  [0,3,1,94,158,231,286,357,607,1121,1372,1436],
  [0,5,3,94,158,229,286,359,607,1249,1372,1436],
  [0,5,9,94,158,233,286,355,609,1249,1372,1436],
  [0,9,2,94,158,229,357,607,1249,1372,1436],
  [0,29,12,94,158,227,359,607,1121,1372,1436],
  [0,35,54,94,158,231,286,355,607,1373,1437],
  [0,59,54,94,158,229,286,357,607,1373,1437],
  [0,67,36,94,158,231,355,607,1121,1372,1436],
  [0,103,54,94,158,227,357,607,1373,1437],
  [0,115,54,94,158,231,353,607,1373,1437],
  [1,1,1,94,158,227,286,359,607,1373,1437],
  [1,1,9,94,158,233,353,607,1249,1372,1436],
  [1,1,9,94,158,235,286,353,607,1121,1372,1436],
  [1,3,1,94,158,231,286,357,607,1249,1372,1436],
  [1,5,3,94,158,229,286,359,607,1121,1372,1436],
  [1,5,9,94,158,233,286,355,609,1121,1372,1436],
  [1,9,2,94,158,229,357,607,1121,1372,1436],
  [1,17,27,94,158,233,286,353,607,1373,1437],
  [1,29,12,94,158,227,359,607,1249,1372,1436],
  [1,67,36,94,158,231,355,607,1249,1372,1436],
  [1,475,108,94,158,229,355,607,1373,1437]]

def k79 : List (List ℕ) := [[0,1,36,94,159,355,414,607,673],
  [0,1,36,94,159,355,414,607,673,1121],
  [1,1,9,94,159,228,284,355,414,609,673],
  [1,1,9,94,159,228,284,355,414,609,673,1121],
  [1,1,18,94,159,226,286,355,414,607,673],
  [1,1,18,94,159,226,286,355,414,607,673,1121]]

def k80 : List (List ℕ) := [[0,1,2,94,158,354,1121],
  [0,1,4,94,158,354]]

def k81 : List (List ℕ) := [[0,1,2,94,159,355,414,607],
  [0,1,2,94,159,355,414,607,1121]]

def k82 : List (List ℕ) := [[0,1,6,94,158,226,286,354],
  [1,1,24,94,158,354]]

def k83 : List (List ℕ) := [[0,1,24,94,158,354],
  [1,1,6,94,158,226,286,354]]

def k84 : List (List ℕ) := [[0,1,3,94,158,230,286,354,1121,1374,1438],
  [0,1,12,94,158,226,286,358,1121,1374,1438],
  [0,1,16,94,158,228,354,1249,1374,1438],
  [0,1,24,94,158,226,356,1121,1374,1438],
  [0,1,96,94,158,356,1375,1439],
  [0,7,24,94,158,228,286,354,1375,1439],
  [1,1,4,94,158,230,286,354,1249,1374,1438],
  [1,1,6,94,158,228,286,356,1121,1374,1438],
  [1,1,12,94,158,228,354,1121,1374,1438],
  [1,1,24,94,158,226,286,356,1375,1439],
  [1,1,48,94,158,358,1121,1374,1438],
  [1,7,96,94,158,226,354,1375,1439]]

def k85 : List (List ℕ) := [[0,1,6,33,94,159,228,286,357,607,1249,1373,1437],
  [0,1,12,33,94,159,230,286,353,607,1374,1438],
  [0,1,12,33,94,159,230,286,355,607,1121,1373,1437],
  [1,1,6,33,94,159,228,286,357,607,1121,1373,1437],
  [1,1,8,33,94,159,228,286,355,607,1374,1438],
  [1,1,12,33,94,159,230,286,355,607,1249,1373,1437],
  [1,1,24,33,94,159,226,286,357,607,1374,1438]]

def k86 : List (List ℕ) := [[0,1,3,94,158,227,357,607,1249,1373,1437],
  [0,1,3,94,158,229,286,357,607,1121,1373,1437],
  [0,1,4,94,158,229,286,355,607,1374,1438],
  [0,1,6,94,158,229,353,607,1374,1438],
  [0,1,6,94,158,229,355,607,1121,1373,1437],
  [0,1,6,94,158,231,286,355,607,1249,1373,1437],
  [0,1,12,94,158,227,286,357,607,1374,1438],
  [1,1,3,94,158,227,357,607,1121,1373,1437],
  [1,1,3,94,158,229,286,357,607,1249,1373,1437],
  [1,1,4,94,158,227,355,607,1374,1438],
  [1,1,6,94,158,229,355,607,1249,1373,1437],
  [1,1,6,94,158,231,286,353,607,1374,1438],
  [1,1,6,94,158,231,286,355,607,1121,1373,1437],
  [1,1,12,94,158,225,357,607,1374,1438]]

def k87 : List (List ℕ) := [[0,1,12,94,158,226,286,354,673,1121],
  [0,1,24,94,158,354,673,1121],
  [0,1,27,94,158,226,673,1121],
  [1,1,27,94,158,228,286,673,1121]]

def k88 : List (List ℕ) := [[0,1,27,94,158,226,673,1121],
  [1,1,12,94,158,226,286,354,673,1121],
  [1,1,24,94,158,354,673,1121],
  [1,1,27,94,158,228,286,673,1121]]

def k89 : List (List ℕ) := [[0,3,1,94,158,226,354,1249,2463],
  [1,3,1,94,158,226,354,1121,2463]]

def k90 : List (List ℕ) := [[0,1,24,94,158,354,673,1121],
  [0,2,27,94,158,228,286,673,1121],
  [1,1,6,94,158,226,286,354,673,1121],
  [1,2,27,94,158,226,673,1121]]

def k91 : List (List ℕ) := [[0,1,6,94,158,226,286,354,673,1121],
  [0,2,27,94,158,226,673,1121],
  [1,1,24,94,158,354,673,1121],
  [1,2,27,94,158,228,286,673,1121]]

def k92 : List (List ℕ) := [[0,1,6,94,158,226,286,354,673,1121],
  [0,2,27,94,158,228,286,673,1121],
  [1,1,24,94,158,354,673,1121],
  [1,2,27,94,158,226,673,1121]]

def k93 : List (List ℕ) := [[0,1,6,33,94,159,228,286,353,607,1121,1631],
  [1,1,6,33,94,159,228,286,353,607,1249,1631]]

def k94 : List (List ℕ) := [[0,1,18,94,158,226,286,354,673,1121],
  [0,1,81,94,158,226,673,1121],
  [0,2,9,94,158,228,284,354,673,1121],
  [0,7,81,94,158,228,286,673,1121],
  [1,1,36,94,158,354,673,1121],
  [1,8,81,94,158,230,284,673,1121]]

def k95 : List (List ℕ) := [[0,1,36,94,158,354,673,1121],
  [0,8,81,94,158,230,284,673,1121],
  [1,1,18,94,158,226,286,354,673,1121],
  [1,1,81,94,158,226,673,1121],
  [1,2,9,94,158,228,284,354,673,1121],
  [1,7,81,94,158,228,286,673,1121]]

def k96 : List (List ℕ) := [[0,1,36,94,158,354,673,1121],
  [0,1,81,94,158,226,673,1121],
  [0,7,81,94,158,228,286,673,1121],
  [1,1,18,94,158,226,286,354,673,1121],
  [1,2,9,94,158,228,284,354,673,1121],
  [1,8,81,94,158,230,284,673,1121]]

def k97 : List (List ℕ) := [[0,2,81,33,94,159,230,284,351,609,673],
  [0,8,27,33,94,159,230,282,353,609,673,1121],
  [1,2,81,33,94,159,228,286,351,609,673],
  [1,11,27,33,94,159,228,284,353,607,673,1121],
  [1,13,216,33,94,159,226,286,353,607,673,1121]]

def k98 : List (List ℕ) := [[0,8,81,94,158,229,286,351,609,673],
  [0,19,27,94,158,229,284,353,609,673,1121],
  [1,4,81,94,158,227,351,609,673],
  [1,4,81,94,158,231,284,351,609,673],
  [1,5,108,94,158,225,353,607,673,1121],
  [1,16,27,94,158,231,282,353,609,673,1121],
  [1,19,108,94,158,227,286,353,607,673,1121]]

def k99 : List (List ℕ) := [[0,1,4,94,158,226,671,1249],
  [1,1,4,94,158,226,671,1185]]

def k100 : List (List ℕ) := [[0,1,1,94,158,226,865],
  [1,3,2,94,158,226,1249],
  [1,15,4,94,158,226]]

def k101 : List (List ℕ) := [[0,1,3,94,158,226,1185],
  [0,1,9,94,158,228,286,865],
  [0,1,9,94,158,290,865],
  [0,3,2,94,158,226,1249],
  [0,4,3,94,158,228,286,1185],
  [0,7,3,94,158,228,286],
  [0,43,12,94,158,226],
  [1,1,6,94,158,290,1185],
  [1,2,9,94,158,226,865],
  [1,5,12,94,158,290]]

def k102 : List (List ℕ) := [[0,1,36,94,158,546,865],
  [0,11,108,94,158,226,286,546,1185],
  [0,13,54,94,158,228,284,546,1185],
  [0,121,648,94,158,226,286,546],
  [0,131,1296,94,158,546],
  [0,305,324,94,158,228,284,546],
  [1,1,6,94,158,546,1249],
  [1,1,18,94,158,226,286,546,865],
  [1,1,120,94,350,548],
  [1,2,9,94,158,228,284,546,865],
  [1,11,216,94,158,546,1185]]

def k103 : List (List ℕ) := [[0,11,432,94,546,1185],
  [0,13,108,94,228,284,546,1185],
  [0,121,2592,94,546],
  [0,305,648,94,228,284,546],
  [1,1,9,94,228,284,546,865],
  [1,1,72,94,546,865]]

def k104 : List (List ℕ) := [[0,11,216,33,94,161,225,286,546,1185],
  [0,13,54,33,94,161,227,284,546,1185],
  [0,121,1296,33,94,161,225,286,546],
  [0,305,324,33,94,161,227,284,546],
  [1,1,36,33,94,161,225,286,546,865],
  [1,2,9,33,94,161,227,284,546,865]]

def k105 : List (List ℕ) := [[0,1,6,94,226,286,546,865],
  [0,1,12,94,546,865],
  [1,5,36,94,226,286,546,1185],
  [1,11,72,94,546,1185],
  [1,121,432,94,546],
  [1,163,216,94,226,286,546]]

def k106 : List (List ℕ) := [[0,5,36,94,226,286,546,1185],
  [0,11,72,94,546,1185],
  [0,163,216,94,226,286,546],
  [0,205,432,94,546],
  [1,1,6,94,226,286,546,865],
  [1,1,6,94,546,1249],
  [1,1,12,94,546,865]]

def k107 : List (List ℕ) := [[0,1,1,94,156,228,414],
  [0,1,2,94,156,292,414],
  [0,1,2,94,156,354,673,1121],
  [0,1,4,94,156,354,673],
  [0,1,9,94,156,226,865],
  [0,3,1,94,156,230,290,414,1249,2335,2399,2655,2719],
  [0,3,2,94,156,226,290,418,1249,2335,2399,2655,2719],
  [0,3,2,94,156,226,292,414,1185,2655,2719],
  [0,3,4,94,156,292,1185,2655,2719],
  [0,3,4,94,156,420,1313,2975],
  [0,3,4,94,158,546,671,1249],
  [0,7,8,94,156,418],
  [0,8,3,94,156,228,1185,2655,2719],
  [0,9,2,94,156,230,1249,2335,2399,2655,2719],
  [0,13,12,94,156,226],
  [0,15,8,94,158,546,671],
  [1,1,2,94,158,546,671,865],
  [1,1,9,94,156,228,286,865],
  [1,2,1,94,156,356,414,673],
  [1,2,1,94,156,356,414,673,1121],
  [1,3,1,94,156,232,414,1249,2335,2399,2655,2719],
  [1,3,2,94,156,226,418,1313,2975],
  [1,3,2,94,156,294,414,1185,2655,2719],
  [1,3,4,94,156,228,418,1249,2335,2399,2655,2719],
  [1,4,3,94,156,230,286,1185,2655,2719],
  [1,5,8,94,156,290],
  [1,7,3,94,156,228,286],
  [1,17,6,94,156,226,290,1185,2655,2719],
  [1,21,4,94,156,228,290,1249,2335,2399,2655,2719]]

def k108 : List (List ℕ) := [[1,3,2,94],
  [1,3,2,94,1313]]

def k109 : List (List ℕ) := [[0,1,1,94,158,292,414],
  [0,3,1,94,158,292,414,1185],
  [1,1,1,94,158,226,290,414],
  [1,3,1,94,158,226,290,414,1185]]

def k110 : List (List ℕ) := [[0,1,1,94,158,292,414],
  [0,2,1,94,158,228,414],
  [0,3,1,94,158,292,414,1185],
  [0,5,1,94,158,420,1313,3039],
  [0,11,4,94,158,418],
  [0,15,1,94,158,228,418,1249,3103],
  [1,4,1,94,158,356,414,673],
  [1,4,1,94,158,356,414,673,1121],
  [1,5,4,94,158,226],
  [1,8,1,94,158,226,418,1313,3039],
  [1,12,1,94,158,230,1249,3103]]

def k111 : List (List ℕ) := [[0,1,1,94,158,226,418,1313,2975],
  [0,1,1,94,158,356,414,673],
  [0,1,1,94,158,356,414,673,1121],
  [0,1,12,94,158,226,290,418,1249,2335,2399,2655,2719],
  [0,2,1,94,158,226],
  [0,2,3,94,158,230,286,1185,3231],
  [0,3,2,94,158,232,414,1249,2335,2399,2655,2719],
  [0,7,24,94,158,228,418,1249,2335,2399,2655,2719],
  [0,19,12,94,158,226,290,1185,3231],
  [0,43,24,94,158,228,290,1249,2335,2399,2655,2719],
  [1,1,2,94,158,228,414],
  [1,1,18,94,158,228,286,865],
  [1,3,2,94,158,228,1185,3231],
  [1,3,2,94,158,230,290,414,1249,2335,2399,2655,2719],
  [1,3,8,94,158,292,1185,3231],
  [1,5,8,94,158,420,1313,2975],
  [1,5,16,94,158,290],
  [1,7,6,94,158,228,286],
  [1,11,16,94,158,418],
  [1,13,6,94,158,230,1249,2335,2399,2655,2719]]

def k112 : List (List ℕ) := [[0,1,1,94,158,226,290,414],
  [0,2,1,94,158,228,414],
  [0,3,1,94,158,226,290,414,1185],
  [0,6,1,94,158,228,414,1249]]

def k113 : List (List ℕ) := [[0,1,2,33,94,159,225,290,414],
  [0,3,2,33,94,159,225],
  [0,3,2,33,94,159,225,290,414,1185],
  [1,1,9,33,94,159,227,286,865],
  [1,4,3,33,94,159,227,286,1185],
  [1,7,3,33,94,159,227,286]]

def k114 : List (List ℕ) := [[0,1,2,94,158,354,673,1121],
  [0,1,4,94,158,354,673],
  [0,1,9,94,158,226,865],
  [0,3,4,94,546,671,1249],
  [0,15,8,94,546,671],
  [1,1,2,94,546,671,865],
  [1,1,6,94,158,226,1185],
  [1,1,9,94,158,228,286,865],
  [1,3,2,94,158,226,1249],
  [1,4,3,94,158,228,286,1185],
  [1,7,3,94,158,228,286],
  [1,19,6,94,158,226]]

def k115 : List (List ℕ) := [[0,1,12,94,546,865],
  [0,4,9,94,226,286,546,1185],
  [0,71,54,94,226,286,546],
  [1,1,3,94,226,286,546,865],
  [1,11,72,94,546,1185],
  [1,121,432,94,546]]

def k116 : List (List ℕ) := [[0,1,12,94,546,865],
  [0,4,9,94,226,286,546,1185],
  [0,71,54,94,226,286,546],
  [1,1,3,94,226,286,546,865],
  [1,1,6,94,546,1249],
  [1,11,72,94,546,1185],
  [1,37,432,94,546]]

def k117 : List (List ℕ) := [[0,1,1,94,158,226,356,1121,1374,1438],
  [0,9,8,94,158,228,354,1249,1374,1438],
  [1,1,8,94,158,358,1121,1374,1438],
  [1,3,4,94,158,226,356,1249,1374,1438],
  [1,3,16,94,158,226,354,1375,1439],
  [1,3,16,94,158,356,1375,1439],
  [1,5,4,94,158,228,354,1121,1374,1438]]

def k118 : List (List ℕ) := [[0,1,24,94,546],
  [1,1,24,94,546,1121]]

def k119 : List (List ℕ) := [[1,1,2,94,158,354,673,1121],
  [1,1,4,94,158,354,673]]

def k120 : List (List ℕ) := [[0,1,8,94,158,354],
  [1,1,4,94,158,354,1121]]

def k121 : List (List ℕ) := [[0,1,4,94,158,354,1121],
  [1,1,8,94,158,354]]

def k122 : List (List ℕ) := [[0,1,12,94,546],
  [1,1,12,94,546,1121]]

def k123 : List (List ℕ) := [[0,1,12,94,158,230,546,1373,1437],
  [0,1,12,94,158,232,546,1121,1372,1436],
  [0,1,12,94,158,360,546,1249,1372,1436],
  [0,3,16,94,158,228,356,546,1121,1372,1436],
  [0,5,16,94,158,228,356,546,1249,1372,1436],
  [0,35,96,94,158,226,356,546,1373,1437],
  [1,1,3,94,158,226,358,546,1249,1372,1436],
  [1,1,3,94,158,230,354,546,1121,1372,1436],
  [1,7,16,94,158,228,354,546,1373,1437],
  [1,7,96,94,158,358,546,1373,1437]]

def k124 : List (List ℕ) := [[0,1,2,94,158,228,354,1121,1375,1439,2527,2591],
  [0,1,2,94,158,228,354,1185,2527,2591,2719,2911],
  [0,1,4,94,158,226,290,354,1249,1375,1439,2655,2719],
  [0,2,1,94,158,226,292,1185,2527,2591,2719,2911],
  [0,3,4,94,158,226,356,1121,1375,1439,2527,2591],
  [0,3,8,94,158,292,354,1185,2527,2591,2719,2911],
  [0,5,4,94,158,290,356,1121,1375,1439,2527,2591],
  [0,11,24,94,158,290],
  [1,1,1,94,158,228,290,1185,2527,2591,2719,2911],
  [1,1,1,94,158,294,1185,2527,2591,2719,2911],
  [1,3,2,94,158,226,290,354,1121,1375,1439,2527,2591],
  [1,5,4,94,158,226,290,354,1185,2527,2591,2719,2911],
  [1,5,6,94,158,226],
  [1,5,8,94,158,228,354,1249,1375,1439,2655,2719],
  [1,5,8,94,158,358,1121,1375,1439,2527,2591],
  [1,9,16,94,158,354]]

def k125 : List (List ℕ) := [[0,1,1,94,158,228,290,1185,2527,2591,2719,2911],
  [0,1,1,94,158,294,1185,2527,2591,2719,2911],
  [0,1,2,94,158,230,354,1121,1374,1438,2527,2591],
  [0,1,4,94,158,226,290,356,1249,1374,1438,2655,2719],
  [0,1,4,94,158,226,358,1249,1374,1438,2655,2719],
  [0,1,4,94,158,228,356,1121,1374,1438,2527,2591],
  [0,1,8,94,158,226,358,1121,1374,1438,2527,2591],
  [0,1,8,94,158,228,356,1249,1374,1438,2655,2719],
  [0,3,4,94,158,228,290,354,1249,1374,1438,2655,2719],
  [0,3,16,94,158,356,1631],
  [0,5,4,94,158,226,290,354,1185,2527,2591,2719,2911],
  [0,5,4,94,158,226,290,356,1121,1374,1438,2527,2591],
  [0,11,24,94,158,226,290,1631],
  [0,103,48,94,158,226,354,1631],
  [1,1,2,94,158,228,354,1185,2527,2591,2719,2911],
  [1,1,2,94,158,290,358,1121,1374,1438,2527,2591],
  [1,1,4,94,158,290,358,1249,1374,1438,2655,2719],
  [1,1,8,94,158,360,1121,1374,1438,2527,2591],
  [1,2,1,94,158,226,292,1185,2527,2591,2719,2911],
  [1,3,2,94,158,228,290,354,1121,1374,1438,2527,2591],
  [1,3,8,94,158,292,354,1185,2527,2591,2719,2911],
  [1,9,8,94,158,230,354,1249,1374,1438,2655,2719],
  [1,11,24,94,158,290,354,1631],
  [1,19,12,94,158,228,1631]]

def k126 : List (List ℕ) := [[0,1,1,33,94,159,228,290,351,609,1185,2527,2591,2719,2911],
  [0,1,3,33,94,159,226,351,609],
  [0,3,4,33,94,159,226,355,607,1121,1375,1439,2527,2591],
  [0,3,8,33,94,159,228,353,607,1249,1375,1439,2655,2719],
  [0,5,2,33,94,159,226,290,353,607,1185,2527,2591,2719,2911],
  [0,5,4,33,94,159,294,351,607,1185,2527,2591,2719,2911],
  [1,1,2,33,94,159,228,353,607,1121,1375,1439,2527,2591],
  [1,3,2,33,94,159,228,353,607,1185,2527,2591,2719,2911],
  [1,5,8,33,94,159,292,353,607,1185,2527,2591,2719,2911],
  [1,5,8,33,94,159,357,607,1121,1375,1439,2527,2591],
  [1,5,12,33,94,159,290,351,607],
  [1,7,48,33,94,159,353,607],
  [1,13,4,33,94,159,226,292,351,607,1185,2527,2591,2719,2911]]

def k127 : List (List ℕ) := [[0,3,1,94,159,226,353,545,607,1249,3167],
  [0,3,2,94,159,226,353,545,607,737,1121,1375,1439],
  [1,3,2,94,159,355,545,607,737,1121,1375,1439],
  [1,3,4,94,159,226,353,545,607,671,1121,1375,1439],
  [1,5,4,94,159,353,545,607,737]]

def k128 : List (List ℕ) := [[0,1,1,94,159,226,357,414,607,673,1121,1375,1439,2207,2271],
  [0,1,1,94,159,355,414,607,673],
  [0,1,1,94,159,357,607,673,1121,1375,1439,2207,2271],
  [0,3,2,94,159,230,351,607,1249,1375,1439,2335,2399],
  [0,3,2,94,159,230,353,414,607,1249,1375,1439,2335,2399],
  [0,3,4,94,159,226,355,607,1121,1375,1439,2207,2271],
  [0,3,8,94,159,353,420,607,1313,2207,2271,2335,2399],
  [0,7,16,94,159,353,607],
  [1,1,1,94,159,226,355,607,673,1121,1375,1439,2207,2271],
  [1,1,1,94,159,359,414,607,673,1121,1375,1439,2207,2271],
  [1,1,2,94,159,228,351,414,607],
  [1,1,4,94,159,292,351,414,607],
  [1,3,2,94,159,232,351,414,607,1249,1375,1439,2335,2399],
  [1,3,4,94,159,226,353,418,607,1313,2207,2271,2335,2399],
  [1,3,4,94,159,292,351,414,607,1185],
  [1,3,8,94,159,357,607,1121,1375,1439,2207,2271],
  [1,15,8,94,159,228,353,607,1249,1375,1439,2335,2399]]

def k129 : List (List ℕ) := [[0,1,1,94,158,227,290,355,609,1249,1374,1438,2655,2719],
  [0,1,1,94,158,229,290,353,607,1121,1374,1438,2527,2591],
  [0,3,1,94,158,229,353,607,1185,2527,2591,2719,2911],
  [0,3,1,94,158,231,290,351,607,1249,1374,1438,2655,2719],
  [0,3,2,94,158,225,355,607,1375,1439],
  [0,3,2,94,158,229,355,607,1121,1374,1438,2527,2591],
  [0,5,4,94,158,225,290,357,607,1121,1374,1438,2527,2591],
  [0,5,4,94,158,225,292,353,607,1185,2527,2591,2719,2911],
  [0,5,6,94,158,225,290,353,607,1375,1439],
  [0,7,3,94,158,229,351,607,1375,1439],
  [0,13,2,94,158,227,292,351,607,1185,2527,2591,2719,2911],
  [0,13,2,94,158,231,353,607,1249,1374,1438,2655,2719],
  [1,1,1,94,158,231,353,607,1121,1374,1438,2527,2591],
  [1,2,1,94,158,229,290,351,609,1185,2527,2591,2719,2911],
  [1,3,1,94,158,233,351,607,1249,1374,1438,2655,2719],
  [1,3,2,94,158,227,290,355,607,1121,1374,1438,2527,2591],
  [1,5,1,94,158,227,290,353,607,1185,2527,2591,2719,2911],
  [1,5,2,94,158,225,294,351,607,1185,2527,2591,2719,2911],
  [1,5,4,94,158,227,357,607,1121,1374,1438,2527,2591],
  [1,5,6,94,158,227,290,351,607,1375,1439],
  [1,11,4,94,158,229,355,607,1249,1374,1438,2655,2719],
  [1,23,4,94,158,229,290,353,607,1249,1374,1438,2655,2719],
  [1,55,12,94,158,227,353,607,1375,1439]]

def k130 : List (List ℕ) := [[0,1,4,94,158,354]]

def k131 : List (List ℕ) := [[0,1,1,94,158,354,1121],
  [0,1,2,94,158,354]]

def k132 : List (List ℕ) := [[0,1,1,94,158,354,737,1121],
  [0,1,2,94,158,354,737]]

def k133 : List (List ℕ) := [[0,1,12,94,230,546,1373,1437],
  [0,1,12,94,232,546,1121,1372,1436],
  [0,1,12,94,360,546,1249,1372,1436],
  [0,3,16,94,228,356,546,1121,1372,1436],
  [0,5,16,94,228,356,546,1249,1372,1436],
  [0,35,96,94,226,356,546,1373,1437],
  [1,1,3,94,226,358,546,1249,1372,1436],
  [1,1,3,94,230,354,546,1121,1372,1436],
  [1,7,16,94,228,354,546,1373,1437],
  [1,7,96,94,358,546,1373,1437]]

def k134 : List (List ℕ) := [[0,1,4,94,231,353,546,607,1121,1372,1436],
  [0,1,8,94,229,355,546,607,1249,1372,1436],
  [0,5,12,94,229,353,546,607,1373,1437],
  [0,5,48,94,225,357,546,607,1373,1437],
  [1,1,4,94,231,353,546,607,1249,1372,1436],
  [1,1,8,94,229,355,546,607,1121,1372,1436],
  [1,19,48,94,227,355,546,607,1373,1437]]

def k135 : List (List ℕ) := [[0,1,24,94,161,351,547,607]]

def k136 : List (List ℕ) := [[0,1,1,94,158,354,673,1121],
  [0,1,2,94,158,354,673]]

def k137 : List (List ℕ) := [[0,1,1,94,159,355,414,607,673],
  [0,1,1,94,159,355,414,607,673,1121]]

def k138 : List (List ℕ) := [[0,1,4,94,159,226,357,545,607,1249,1373,1437],
  [0,1,8,94,159,228,353,545,607,1374,1438],
  [0,1,8,94,159,228,355,545,607,1121,1373,1437],
  [1,1,4,94,159,226,357,545,607,1121,1373,1437],
  [1,1,8,94,159,228,355,545,607,1249,1373,1437],
  [1,1,16,94,159,357,545,607,1374,1438],
  [1,3,16,94,159,226,355,545,607,1374,1438]]

def k139 : List (List ℕ) := [[1,1,48,94,546,1121]]

def k140 : List (List ℕ) := [[0,3,4,94,158,226,354,1249,1631],
  [1,3,4,94,158,226,354,1121,1631]]

def k141 : List (List ℕ) := [[0,1,1,94,159,226,353,545,607,1121,1503],
  [1,1,4,94,159,226,353,545,607,1249,1631]]

def k142 : List (List ℕ) := [[0,1,2,94,158,226,1249],
  [1,1,2,94,158,226,1185]]

def k143 : List (List ℕ) := [[0,1,18,94,158,226,865],
  [0,1,18,94,158,228,286,865],
  [0,1,72,94,158,290,865],
  [1,1,12,94,158,226,1185],
  [1,1,12,94,158,228,286,1185],
  [1,1,48,94,158,290,1185],
  [1,5,24,94,158,226],
  [1,5,24,94,158,228,286],
  [1,5,96,94,158,290]]

def k144 : List (List ℕ) := [[0,1,18,94,158,228,286,865],
  [0,1,72,94,158,290,865],
  [0,11,36,94,158,226,865],
  [1,1,12,94,158,226,1185],
  [1,1,12,94,158,228,286,1185],
  [1,1,48,94,158,290,1185],
  [1,5,24,94,158,228,286],
  [1,5,96,94,158,290],
  [1,11,24,94,158,226]]

def k145 : List (List ℕ) := [[0,1,6,94,156,230,286,414,1249],
  [0,1,6,94,156,232,284,414,1249],
  [0,1,18,94,156,230,286,414],
  [0,1,18,94,156,232,284,414],
  [0,1,24,94,156,226,286,420,1313,1695,1759],
  [0,1,24,94,156,228,284,420,1313,1695,1759],
  [0,1,24,94,156,228,414],
  [0,1,24,94,156,228,414,1249],
  [0,1,24,94,158,546,671,1249],
  [0,1,32,94,156,292,1185,1695,1759],
  [0,1,36,94,156,226,286,354,673,1121],
  [0,1,36,94,156,226,290,414],
  [0,1,36,94,156,228,284,354,673,1121],
  [0,1,54,94,156,228,286,865],
  [0,1,81,94,156,228,286,673,1121],
  [0,1,96,94,156,420,1313,1695,1759],
  [0,1,144,94,156,292,414],
  [0,1,144,94,156,354,673,1121],
  [0,1,162,94,156,226,865],
  [0,1,480,94,350,548,671],
  [0,2,27,94,156,230,284,673,1121],
  [0,7,9,94,156,232,282,1249],
  [0,7,144,94,156,226,286,418],
  [0,7,144,94,156,228,284,418],
  [0,7,576,94,156,418],
  [0,11,216,94,158,226,286,546,671,1185],
  [0,11,216,94,158,228,284,546,671,1185],
  [0,11,243,94,156,232,282,418,1185,1695,1759],
  [0,11,864,94,158,546,671,1185],
  [0,13,135,94,156,230,284],
  [0,16,1215,94,156,230,286,350,673],
  [0,19,432,94,156,226,1249],
  [0,103,648,94,156,228,1185,1695,1759],
  [0,121,1296,94,158,226,286,546,671],
  [0,121,1296,94,158,228,284,546,671],
  [0,128,729,94,156,232,282],
  [0,265,1944,94,156,226,290,1185,1695,1759],
  [0,371,19440,94,156,228,286],
  [1,1,9,94,156,226,286,356,414,673],
  [1,1,9,94,156,226,286,356,414,673,1121],
  [1,1,9,94,156,228,284,356,414,673],
  [1,1,9,94,156,228,284,356,414,673,1121],
  [1,1,12,94,156,226,292,414,1185,1695,1759],
  [1,1,12,94,156,226,418,1313,1695,1759],
  [1,1,12,94,156,228,286,418,1313,1695,1759],
  [1,1,12,94,156,228,290,414,1185,1695,1759],
  [1,1,36,94,156,356,414,673],
  [1,1,36,94,156,356,414,673,1121],
  [1,1,36,94,158,226,286,546,671,865],
  [1,1,36,94,158,228,284,546,671,865],
  [1,1,48,94,156,290,418,1313,1695,1759],
  [1,1,48,94,156,294,414,1185,1695,1759],
  [1,1,144,94,158,546,671,865],
  [1,2,81,94,156,232,282,865],
  [1,5,9,94,156,228,286,1249],
  [1,5,243,94,156,226,673,1121],
  [1,8,1215,94,156,228,350,673],
  [1,8,1215,94,156,232,284,350,673],
  [1,11,243,94,156,232,284,1185,1695,1759],
  [1,11,324,94,156,228,286,418,1185,1695,1759],
  [1,11,972,94,156,226,418,1185,1695,1759],
  [1,13,1728,94,156,290],
  [1,16,243,94,156,232,282,673,1121],
  [1,49,108,94,156,230,284,1249],
  [1,131,5184,94,158,546,671],
  [1,1204,3645,94,156,226]]

def k146 : List (List ℕ) := [[1,1,12,94,226,286],
  [1,1,12,94,226,286,1313],
  [1,1,12,94,228,284],
  [1,1,12,94,228,284,1313],
  [1,1,48,94],
  [1,1,48,94,1313]]

def k147 : List (List ℕ) := [[0,1,3,94,158,230,284,420,1313,1694,1758],
  [0,1,3,94,158,230,286,414,1249],
  [0,1,3,94,158,232,284,414,1249],
  [0,1,6,94,158,226,290,418,1313,1694,1758],
  [0,1,6,94,158,228,292,414,1185,1694,1758],
  [0,1,6,94,158,228,418,1185,1694,1758],
  [0,1,6,94,158,228,418,1313,1694,1758],
  [0,1,6,94,158,230,284,418,1695,1759],
  [0,1,9,94,158,232,284,1695,1759],
  [0,1,18,94,158,226,286,420,1695,1759],
  [0,1,18,94,158,226,286,422,1313,1694,1758],
  [0,1,18,94,158,228,284,420,1695,1759],
  [0,1,18,94,158,228,284,422,1313,1694,1758],
  [0,1,18,94,158,230,414,1695,1759],
  [0,1,24,94,158,292,418,1185,1694,1758],
  [0,1,24,94,158,296,414,1185,1694,1758],
  [0,1,72,94,158,292,1695,1759],
  [0,2,9,94,158,226,356,414,673,1695,1759],
  [0,2,9,94,158,228,286,356,414,673,1695,1759],
  [0,2,9,94,158,234,284,414,1695,1759],
  [0,4,9,94,158,230,282,356,414,673,1121],
  [0,4,9,94,158,230,282,356,673,1695,1759],
  [0,5,36,94,158,228,1695,1759],
  [0,7,24,94,158,226,290,418,1185,1694,1758],
  [0,7,24,94,158,226,294,414,1185,1694,1758],
  [0,10,9,94,158,230,1185,1694,1758],
  [0,13,72,94,158,226,290,1695,1759],
  [1,1,2,94,158,230,286,418,1185,1694,1758],
  [1,1,2,94,158,230,290,414,1185,1694,1758],
  [1,1,3,94,158,230,286,418,1313,1694,1758],
  [1,1,6,94,158,226,420,1313,1694,1758],
  [1,1,6,94,158,228,286,420,1313,1694,1758],
  [1,1,9,94,158,230,282,420,1695,1759],
  [1,1,9,94,158,230,282,422,1313,1694,1758],
  [1,1,9,94,158,232,286,414,1695,1759],
  [1,1,12,94,158,226,418,1695,1759],
  [1,1,12,94,158,228,286,418,1695,1759],
  [1,1,12,94,158,294,1185,1694,1758],
  [1,1,18,94,158,228,290,414,1695,1759],
  [1,1,72,94,158,294,414,1695,1759],
  [1,2,3,94,158,234,282,414,1249],
  [1,2,9,94,158,226,286,356,414,673,1121],
  [1,2,9,94,158,226,286,356,673,1695,1759],
  [1,2,9,94,158,228,284,356,414,673,1121],
  [1,2,9,94,158,228,284,356,673,1695,1759],
  [1,2,9,94,158,230,286,1695,1759],
  [1,2,9,94,158,234,282,1695,1759],
  [1,4,9,94,158,230,284,356,414,673,1695,1759],
  [1,7,18,94,158,228,290,1185,1694,1758],
  [1,7,72,94,158,226,292,414,1695,1759],
  [1,23,36,94,158,226,292,1185,1694,1758]]

def k148 : List (List ℕ) := [[0,1,3,94,158,230,286,414,1249],
  [0,1,3,94,158,232,284,414,1249],
  [0,1,4,94,158,226,290,1185,1695,1759],
  [0,1,4,94,158,228,1185,1695,1759],
  [0,1,9,94,158,230,286,414],
  [0,1,9,94,158,232,284,414],
  [0,1,12,94,158,228,414],
  [0,1,12,94,158,228,414,1249],
  [0,1,16,94,158,292,1185,1695,1759],
  [0,1,18,94,158,226,290,414],
  [0,1,72,94,158,292,414],
  [0,5,36,94,158,226,286,420,1313,1695,1759],
  [0,5,36,94,158,228,284,420,1313,1695,1759],
  [0,5,144,94,158,420,1313,1695,1759],
  [0,11,72,94,158,226,286,418],
  [0,11,72,94,158,228,284,418],
  [0,11,288,94,158,418],
  [1,1,6,94,158,226,292,414,1185,1695,1759],
  [1,1,6,94,158,228,290,414,1185,1695,1759],
  [1,1,18,94,158,290,418,1313,1695,1759],
  [1,1,18,94,158,356,414,673],
  [1,1,18,94,158,356,414,673,1121],
  [1,1,24,94,158,294,414,1185,1695,1759],
  [1,2,9,94,158,226,286,356,414,673],
  [1,2,9,94,158,226,286,356,414,673,1121],
  [1,2,9,94,158,226,418,1313,1695,1759],
  [1,2,9,94,158,228,284,356,414,673],
  [1,2,9,94,158,228,284,356,414,673,1121],
  [1,2,9,94,158,228,286,418,1313,1695,1759],
  [1,5,72,94,158,226],
  [1,5,72,94,158,228,286],
  [1,5,288,94,158,290]]

def k149 : List (List ℕ) := [[0,1,8,94,158,228,1185,1695,1759],
  [0,1,12,94,158,232,284,414,1249],
  [0,1,27,94,158,230,284,673,1121],
  [0,1,36,94,158,232,284,414],
  [0,1,48,94,158,228,414],
  [0,1,72,94,158,226,290,414],
  [0,1,72,94,158,226,418,1313,1695,1759],
  [0,1,72,94,158,290,418,1313,1695,1759],
  [0,1,72,94,158,356,414,673],
  [0,1,72,94,158,356,414,673,1121],
  [0,1,288,94,546,671,865],
  [0,5,486,94,158,226,673,1121],
  [0,7,9,94,158,232,282,1249],
  [0,8,1215,94,158,230,286,350,673],
  [0,11,243,94,158,232,282,418,1185,1695,1759],
  [0,11,432,94,228,284,546,671,1185],
  [0,11,1944,94,158,226,418,1185,1695,1759],
  [0,13,135,94,158,230,284],
  [0,121,2592,94,228,284,546,671],
  [0,128,729,94,158,232,282],
  [0,181,6480,94,158,228,286],
  [0,221,3888,94,158,226,290,1185,1695,1759],
  [1,1,12,94,158,228,286,1249],
  [1,1,12,94,158,228,290,414,1185,1695,1759],
  [1,1,18,94,158,228,284,356,414,673],
  [1,1,18,94,158,228,284,356,414,673,1121],
  [1,1,24,94,158,226,292,414,1185,1695,1759],
  [1,1,32,94,158,226,286,418],
  [1,1,36,94,158,228,286,418,1313,1695,1759],
  [1,1,48,94,158,228,414,1249],
  [1,1,72,94,158,226,286,354,673,1121],
  [1,1,72,94,158,228,284,420,1313,1695,1759],
  [1,1,72,94,158,418],
  [1,1,72,94,158,420,1313,1695,1759],
  [1,1,72,94,228,284,546,671,865],
  [1,1,144,94,158,228,284,418],
  [1,1,144,94,158,354,673,1121],
  [1,1,324,94,158,226,865],
  [1,1,864,94,158,290],
  [1,2,81,94,158,232,282,865],
  [1,5,144,94,158,226,286,420,1313,1695,1759],
  [1,7,27,94,158,230,284,1249],
  [1,8,1215,94,158,232,284,350,673],
  [1,11,243,94,158,232,284,1185,1695,1759],
  [1,11,1728,94,546,671,1185],
  [1,16,243,94,158,232,282,673,1121],
  [1,121,10368,94,546,671],
  [1,271,23328,94,158,226]]

def k150 : List (List ℕ) := [[0,1,2,94,158,230,286,418,1185,1694,1758],
  [0,1,2,94,158,230,290,414,1185,1694,1758],
  [0,1,3,94,158,230,286,418,1313,1694,1758],
  [0,1,3,94,158,230,286,1695,1759],
  [0,1,6,94,158,226,420,1313,1694,1758],
  [0,1,6,94,158,228,286,420,1313,1694,1758],
  [0,1,9,94,158,230,282,420,1695,1759],
  [0,1,9,94,158,230,282,422,1313,1694,1758],
  [0,1,12,94,158,226,418,1695,1759],
  [0,1,12,94,158,228,286,418,1695,1759],
  [0,1,12,94,158,228,414,1249],
  [0,1,18,94,158,228,290,1185,1694,1758],
  [0,1,24,94,158,226,292,414,1695,1759],
  [0,2,3,94,158,234,282,414,1249],
  [0,2,9,94,158,226,286,356,414,673,1121],
  [0,2,9,94,158,226,286,356,673,1695,1759],
  [0,2,9,94,158,228,284,356,414,673,1121],
  [0,2,9,94,158,228,284,356,673,1695,1759],
  [0,2,9,94,158,234,282,1695,1759],
  [0,4,9,94,158,230,284,356,414,673,1695,1759],
  [0,11,36,94,158,226,292,1185,1694,1758],
  [1,1,3,94,158,230,284,420,1313,1694,1758],
  [1,1,6,94,158,226,290,418,1313,1694,1758],
  [1,1,6,94,158,228,418,1313,1694,1758],
  [1,1,6,94,158,230,284,418,1695,1759],
  [1,1,6,94,158,230,414,1695,1759],
  [1,1,8,94,158,226,290,418,1185,1694,1758],
  [1,1,8,94,158,226,290,1695,1759],
  [1,1,8,94,158,226,294,414,1185,1694,1758],
  [1,1,18,94,158,226,286,420,1695,1759],
  [1,1,18,94,158,226,286,422,1313,1694,1758],
  [1,1,18,94,158,228,284,420,1695,1759],
  [1,1,18,94,158,228,284,422,1313,1694,1758],
  [1,1,18,94,158,228,1695,1759],
  [1,1,36,94,158,228,290,414,1695,1759],
  [1,2,9,94,158,226,356,414,673,1695,1759],
  [1,2,9,94,158,228,286,356,414,673,1695,1759],
  [1,2,9,94,158,234,284,414,1695,1759],
  [1,4,9,94,158,230,282,356,414,673,1121],
  [1,4,9,94,158,230,282,356,673,1695,1759],
  [1,10,9,94,158,230,1185,1694,1758]]

def k151 : List (List ℕ) := [[0,1,3,33,94,159,233,282,414,1249],
  [0,1,4,33,94,159,229,290,414,1185,1694,1758],
  [0,1,6,33,94,159,227,292,414,1185,1694,1758],
  [0,1,6,33,94,159,229,286,418,1313,1694,1758],
  [0,1,6,33,94,159,231,284,414,1249],
  [0,1,9,33,94,159,227,286,356,414,673,1695,1759],
  [0,1,9,33,94,159,233,282,1695,1759],
  [0,1,12,33,94,159,227,418,1313,1694,1758],
  [0,1,18,33,94,159,229,282,420,1695,1759],
  [0,1,18,33,94,159,229,282,422,1313,1694,1758],
  [0,1,24,33,94,159,225,290,418,1185,1694,1758],
  [0,1,24,33,94,159,227,284,422,1313,1694,1758],
  [0,1,36,33,94,159,227,284,354,673,1121],
  [0,1,48,33,94,159,225,294,414,1185,1694,1758],
  [0,1,72,33,94,159,225,286,354,673,1121],
  [0,1,81,33,94,159,229,286,865,1695,1759],
  [0,1,96,33,94,159,225,286,420,1695,1759],
  [0,1,144,33,94,159,225,286,422,1313,1694,1758],
  [0,1,162,33,94,159,227,286,418,865,1695,1759],
  [0,2,9,33,94,159,229,284,356,414,673,1695,1759],
  [0,4,81,33,94,159,231,284,865,1695,1759],
  [0,4,243,33,94,159,227,286,673,1121],
  [0,7,144,33,94,159,227,284,420,1695,1759],
  [0,11,9,33,94,159,231,282,1249],
  [0,11,216,33,94,161,227,284,546,671,1185],
  [0,11,432,33,94,161,225,286,546,671,1185],
  [0,11,486,33,94,159,229,284,420,1185,1694,1758],
  [0,16,1215,33,94,159,229,286,350,418,673,1695,1759],
  [0,16,1215,33,94,159,231,286,350,673,1695,1759],
  [0,19,243,33,94,159,229,284,673,1121],
  [0,22,243,33,94,159,231,282,420,1185,1694,1758],
  [0,22,243,33,94,159,231,286,1185,1694,1758],
  [0,121,1296,33,94,161,227,284,546,671],
  [0,121,2592,33,94,161,225,286,546,671],
  [0,199,972,33,94,159,229,286,418,1185,1694,1758],
  [0,337,729,33,94,159,231,282,418,1695,1759],
  [0,449,1944,33,94,159,227,418,1185,1694,1758],
  [0,1327,58320,33,94,159,227,1695,1759],
  [0,1793,14580,33,94,159,229,284,418,1695,1759],
  [1,1,6,33,94,159,229,284,420,1313,1694,1758],
  [1,1,8,33,94,159,227,286,420,1313,1694,1758],
  [1,1,9,33,94,159,227,284,356,414,673,1121],
  [1,1,9,33,94,159,227,284,356,673,1695,1759],
  [1,1,9,33,94,159,233,284,414,1695,1759],
  [1,1,12,33,94,159,229,414,1695,1759],
  [1,1,18,33,94,159,227,290,414,1695,1759],
  [1,1,18,33,94,159,231,286,414,1695,1759],
  [1,1,36,33,94,161,227,284,546,671,865],
  [1,1,48,33,94,159,225,420,1313,1694,1758],
  [1,1,72,33,94,161,225,286,546,671,865],
  [1,1,81,33,94,159,229,284,418,865,1695,1759],
  [1,1,144,33,94,159,225,292,414,1695,1759],
  [1,1,162,33,94,159,227,865,1695,1759],
  [1,1,864,33,94,159,225,290,1695,1759],
  [1,2,9,33,94,159,229,282,356,414,673,1121],
  [1,2,9,33,94,159,229,282,356,673,1695,1759],
  [1,4,81,33,94,159,231,282,418,865,1695,1759],
  [1,7,144,33,94,159,225,292,1185,1694,1758],
  [1,7,432,33,94,159,225,418,1695,1759],
  [1,11,36,33,94,159,229,284,1249],
  [1,11,972,33,94,159,227,286,420,1185,1694,1758],
  [1,16,1215,33,94,159,229,350,673,1695,1759],
  [1,16,1215,33,94,159,231,284,350,418,673,1695,1759],
  [1,32,243,33,94,159,231,282,673,1121],
  [1,44,243,33,94,159,231,284,418,1185,1694,1758],
  [1,55,216,33,94,159,227,286,1249],
  [1,259,486,33,94,159,229,1185,1694,1758],
  [1,289,7290,33,94,159,229,286,1695,1759],
  [1,461,29160,33,94,159,227,286,418,1695,1759],
  [1,593,1458,33,94,159,231,284,1695,1759],
  [1,751,1944,33,94,159,227,290,1185,1694,1758]]

/-- factors occurring in lines 57-153: each is a sum of monomials
`[flag, numerator, denominator, factors]`, see `Verif.Loop.monoVal`; part 0 -/
def coefTab0 : List (List (List ℕ)) := [
  k0, k1, k2, k3, k4, k5, k6, k7, k8, k9, k10, k11, k12, k13, k14,
  k15, k16, k17, k18, k19, k20, k21, k22, k23, k24, k25, k26, k27, k28, k29,
  k30, k31, k32, k33, k34, k35, k36, k37, k38, k39, k40, k41, k42, k43, k44,
  k45, k46, k47, k48, k49, k50, k51, k52, k53, k54, k55, k56, k57, k58, k59,
  k60, k61, k62, k63, k64, k65, k66, k67, k68, k69, k70, k71, k72, k73, k74,
  k75, k76, k77, k78, k79, k80, k81, k82, k83, k84, k85, k86, k87, k88, k89,
  k90, k91, k92, k93, k94, k95, k96, k97, k98, k99, k100, k101, k102, k103, k104,
  k105, k106, k107, k108, k109, k110, k111, k112, k113, k114, k115, k116, k117, k118, k119,
  k120, k121, k122, k123, k124, k125, k126, k127, k128, k129, k130, k131, k132, k133, k134,
  k135, k136, k137, k138, k139, k140, k141, k142, k143, k144, k145, k146, k147, k148, k149,
  k150, k151]

end Verif.Loop
