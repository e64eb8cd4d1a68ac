import Verif.Model.LoopDefs

/-! Generated by /verif/tools/gen_loop.py from /repo/wilson/match/smeft_loop.py. -/

set_option autoImplicit false
set_option maxRecDepth 20000

namespace Verif.Loop

def k515 : List (List ℕ) := [[0,5,6,94,226,286],
  [0,5,6,94,226,286,1313],
  [1,1,6,94],
  [1,1,6,94,1313],
  [1,2,3,94,228,284],
  [1,2,3,94,228,284,1313]]

def k516 : List (List ℕ) := [[0,1,3,94,158,292,418,1185,1694,1758],
  [0,1,3,94,158,296,414,1185,1694,1758],
  [0,1,9,94,158,292,1695,1759],
  [0,4,3,94,158,230,284,418,1695,1759],
  [0,5,3,94,158,226,420,1313,1694,1758],
  [0,5,6,94,158,226,418,1695,1759],
  [0,8,3,94,158,230,284,420,1313,1694,1758],
  [0,11,9,94,158,226,292,414,1695,1759],
  [0,13,3,94,158,228,418,1313,1694,1758],
  [0,13,9,94,158,228,284,420,1695,1759],
  [0,13,9,94,158,228,284,422,1313,1694,1758],
  [0,16,9,94,158,234,284,414,1695,1759],
  [0,20,9,94,158,226,286,356,414,673,1121],
  [0,20,9,94,158,226,286,356,673,1695,1759],
  [0,22,3,94,158,228,292,414,1185,1694,1758],
  [0,22,3,94,158,228,418,1185,1694,1758],
  [0,22,9,94,158,230,414,1695,1759],
  [0,26,3,94,158,232,284,414,1249],
  [0,26,9,94,158,232,284,1695,1759],
  [0,32,9,94,158,230,282,356,414,673,1121],
  [0,32,9,94,158,230,282,356,673,1695,1759],
  [0,52,9,94,158,228,286,356,414,673,1695,1759],
  [0,71,9,94,158,226,292,1185,1694,1758],
  [0,80,9,94,158,230,1185,1694,1758],
  [0,83,18,94,158,228,1695,1759],
  [1,1,9,94,158,294,414,1695,1759],
  [1,2,3,94,158,294,1185,1694,1758],
  [1,4,1,94,158,230,286,418,1185,1694,1758],
  [1,4,1,94,158,230,290,414,1185,1694,1758],
  [1,5,3,94,158,226,290,418,1313,1694,1758],
  [1,5,9,94,158,226,286,420,1695,1759],
  [1,5,9,94,158,226,286,422,1313,1694,1758],
  [1,8,3,94,158,230,286,418,1313,1694,1758],
  [1,8,9,94,158,230,282,420,1695,1759],
  [1,8,9,94,158,230,282,422,1313,1694,1758],
  [1,10,3,94,158,230,286,414,1249],
  [1,11,3,94,158,226,290,418,1185,1694,1758],
  [1,11,3,94,158,226,294,414,1185,1694,1758],
  [1,13,3,94,158,228,286,420,1313,1694,1758],
  [1,13,6,94,158,228,286,418,1695,1759],
  [1,16,3,94,158,234,282,414,1249],
  [1,16,9,94,158,234,282,1695,1759],
  [1,20,9,94,158,226,356,414,673,1695,1759],
  [1,22,9,94,158,228,290,414,1695,1759],
  [1,26,9,94,158,232,286,414,1695,1759],
  [1,32,9,94,158,230,284,356,414,673,1695,1759],
  [1,34,9,94,158,230,286,1695,1759],
  [1,37,18,94,158,226,290,1695,1759],
  [1,52,9,94,158,228,284,356,414,673,1121],
  [1,52,9,94,158,228,284,356,673,1695,1759],
  [1,145,9,94,158,228,290,1185,1694,1758]]

def k517 : List (List ℕ) := [[0,1,2,94,158,292,1185,1695,1759],
  [0,1,9,94,158,292,414],
  [0,2,1,94,158,228,1185,1695,1759],
  [0,2,3,94,158,228,414],
  [0,2,3,94,158,228,414,1249],
  [0,5,3,94,158,226,292,414,1185,1695,1759],
  [0,5,18,94,158,420,1313,1695,1759],
  [0,8,3,94,158,232,284,414,1249],
  [0,8,9,94,158,232,284,414],
  [0,10,9,94,158,228,284,420,1313,1695,1759],
  [0,11,9,94,158,228,284,418],
  [0,11,36,94,158,418],
  [0,20,9,94,158,226,286,356,414,673],
  [0,20,9,94,158,226,286,356,414,673,1121],
  [0,20,9,94,158,226,418,1313,1695,1759],
  [0,25,36,94,158,226],
  [1,1,3,94,158,294,414,1185,1695,1759],
  [1,4,3,94,158,228,290,414,1185,1695,1759],
  [1,4,9,94,158,290,418,1313,1695,1759],
  [1,4,9,94,158,356,414,673],
  [1,4,9,94,158,356,414,673,1121],
  [1,5,2,94,158,226,290,1185,1695,1759],
  [1,5,9,94,158,226,290,414],
  [1,5,9,94,158,228,286],
  [1,5,36,94,158,290],
  [1,10,3,94,158,230,286,414,1249],
  [1,10,9,94,158,230,286,414],
  [1,16,9,94,158,228,284,356,414,673],
  [1,16,9,94,158,228,284,356,414,673,1121],
  [1,16,9,94,158,228,286,418,1313,1695,1759],
  [1,25,18,94,158,226,286,420,1313,1695,1759],
  [1,55,36,94,158,226,286,418]]

def k518 : List (List ℕ) := [[0,1,1,94,158,228,1185,1695,1759],
  [0,1,6,94,158,228,414],
  [0,1,9,94,158,290,418,1313,1695,1759],
  [0,1,9,94,158,356,414,673],
  [0,1,9,94,158,356,414,673,1121],
  [0,1,27,94,158,290],
  [0,2,3,94,158,232,284,414,1249],
  [0,2,9,94,158,232,284,414],
  [0,5,12,94,158,226,292,414,1185,1695,1759],
  [0,5,16,94,158,226,286,418],
  [0,5,36,94,158,226,286,354,673,1121],
  [0,7,27,94,158,228,286,1249],
  [0,8,81,94,158,226,929],
  [0,16,27,94,158,230,284,673,1121],
  [0,25,72,94,158,226,286,420,1313,1695,1759],
  [0,28,27,94,158,230,284,418,1185,1695,1759],
  [0,56,9,94,158,232,282,1249],
  [0,64,81,94,158,232,282,929],
  [0,64,1215,94,158,230,286,350,673],
  [0,224,243,94,158,232,284,1185,1695,1759],
  [0,827,405,94,158,230,284],
  [1,1,6,94,158,228,414,1249],
  [1,1,9,94,158,228,284,420,1313,1695,1759],
  [1,1,9,94,158,418],
  [1,1,9,94,158,420,1313,1695,1759],
  [1,1,18,94,158,228,284,418],
  [1,1,18,94,158,354,673,1121],
  [1,2,3,94,158,228,290,414,1185,1695,1759],
  [1,2,9,94,158,228,286,418,1313,1695,1759],
  [1,4,9,94,158,228,284,356,414,673],
  [1,4,9,94,158,228,284,356,414,673,1121],
  [1,5,36,94,158,226,290,414],
  [1,5,36,94,158,226,418,1313,1695,1759],
  [1,8,9,94,158,230,284,929],
  [1,19,243,94,158,226,418,1185,1695,1759],
  [1,25,243,94,158,226,673,1121],
  [1,28,27,94,158,230,286,1185,1695,1759],
  [1,64,1215,94,158,232,284,350,673],
  [1,128,243,94,158,232,282,673,1121],
  [1,224,243,94,158,232,282,418,1185,1695,1759],
  [1,301,54,94,158,230,284,1249],
  [1,656,729,94,158,232,282],
  [1,1063,1944,94,158,226,290,1185,1695,1759],
  [1,1253,1620,94,158,228,286],
  [1,1951,11664,94,158,226]]

def k519 : List (List ℕ) := [[0,2,1,94,158,226,290,418,1185,1694,1758],
  [0,2,1,94,158,226,294,414,1185,1694,1758],
  [0,2,1,94,158,232,286,414,1695,1759],
  [0,2,3,94,158,228,414,1249],
  [0,3,2,94,158,226,290,1695,1759],
  [0,4,1,94,158,230,286,418,1185,1694,1758],
  [0,4,1,94,158,230,290,414,1185,1694,1758],
  [0,5,3,94,158,226,290,418,1313,1694,1758],
  [0,5,9,94,158,226,286,420,1695,1759],
  [0,5,9,94,158,226,286,422,1313,1694,1758],
  [0,8,3,94,158,230,286,418,1313,1694,1758],
  [0,8,3,94,158,230,286,1695,1759],
  [0,8,9,94,158,230,282,420,1695,1759],
  [0,8,9,94,158,230,282,422,1313,1694,1758],
  [0,13,3,94,158,228,286,420,1313,1694,1758],
  [0,13,6,94,158,228,286,418,1695,1759],
  [0,16,3,94,158,234,282,414,1249],
  [0,16,9,94,158,228,290,414,1695,1759],
  [0,16,9,94,158,234,282,1695,1759],
  [0,20,9,94,158,226,356,414,673,1695,1759],
  [0,32,9,94,158,230,284,356,414,673,1695,1759],
  [0,52,9,94,158,228,284,356,414,673,1121],
  [0,52,9,94,158,228,284,356,673,1695,1759],
  [0,121,9,94,158,228,290,1185,1694,1758],
  [1,2,1,94,158,232,284,1695,1759],
  [1,2,3,94,158,226,292,414,1695,1759],
  [1,4,3,94,158,230,284,418,1695,1759],
  [1,4,3,94,158,230,414,1695,1759],
  [1,5,3,94,158,226,420,1313,1694,1758],
  [1,5,6,94,158,226,418,1695,1759],
  [1,6,1,94,158,228,292,414,1185,1694,1758],
  [1,6,1,94,158,228,418,1185,1694,1758],
  [1,6,1,94,158,232,284,414,1249],
  [1,8,3,94,158,230,284,420,1313,1694,1758],
  [1,13,3,94,158,228,418,1313,1694,1758],
  [1,13,9,94,158,228,284,420,1695,1759],
  [1,13,9,94,158,228,284,422,1313,1694,1758],
  [1,16,9,94,158,234,284,414,1695,1759],
  [1,20,9,94,158,226,286,356,414,673,1121],
  [1,20,9,94,158,226,286,356,673,1695,1759],
  [1,32,9,94,158,230,282,356,414,673,1121],
  [1,32,9,94,158,230,282,356,673,1695,1759],
  [1,41,9,94,158,226,292,1185,1694,1758],
  [1,52,9,94,158,228,286,356,414,673,1695,1759],
  [1,71,18,94,158,228,1695,1759],
  [1,80,9,94,158,230,1185,1694,1758]]

def k520 : List (List ℕ) := [[0,1,2,33,94,159,227,286,420,1313,1694,1758],
  [0,1,6,33,94,159,225,294,414,1185,1694,1758],
  [0,2,1,33,94,159,229,290,414,1185,1694,1758],
  [0,2,9,33,94,159,227,284,354,673,1121],
  [0,4,3,33,94,159,229,286,418,1313,1694,1758],
  [0,4,9,33,94,159,229,282,420,1695,1759],
  [0,4,9,33,94,159,229,282,422,1313,1694,1758],
  [0,5,9,33,94,159,227,290,414,1695,1759],
  [0,5,9,33,94,159,231,286,414,1695,1759],
  [0,5,24,33,94,159,225,420,1313,1694,1758],
  [0,8,3,33,94,159,233,282,414,1249],
  [0,8,9,33,94,159,233,282,1695,1759],
  [0,10,9,33,94,159,227,284,356,414,673,1121],
  [0,10,9,33,94,159,227,284,356,673,1695,1759],
  [0,16,9,33,94,159,229,284,356,414,673,1695,1759],
  [0,32,243,33,94,159,227,418,1185,1694,1758],
  [0,56,81,33,94,159,227,286,418,929,1695,1759],
  [0,85,216,33,94,159,225,418,1695,1759],
  [0,88,9,33,94,159,231,282,1249],
  [0,128,81,33,94,159,231,282,418,929,1695,1759],
  [0,128,1215,33,94,159,229,286,350,418,673,1695,1759],
  [0,128,1215,33,94,159,231,286,350,673,1695,1759],
  [0,169,108,33,94,159,227,286,1249],
  [0,184,81,33,94,159,229,286,929,1695,1759],
  [0,259,729,33,94,159,231,284,1695,1759],
  [0,368,243,33,94,159,229,284,673,1121],
  [0,644,243,33,94,159,229,284,420,1185,1694,1758],
  [0,896,243,33,94,159,231,284,418,1185,1694,1758],
  [0,1345,486,33,94,159,227,290,1185,1694,1758],
  [0,10996,3645,33,94,159,229,284,418,1695,1759],
  [0,18149,14580,33,94,159,227,1695,1759],
  [1,1,6,33,94,159,227,284,422,1313,1694,1758],
  [1,1,9,33,94,159,227,284,420,1695,1759],
  [1,1,18,33,94,159,225,292,414,1695,1759],
  [1,1,24,33,94,159,225,290,418,1185,1694,1758],
  [1,2,3,33,94,159,229,414,1695,1759],
  [1,4,3,33,94,159,229,284,420,1313,1694,1758],
  [1,5,3,33,94,159,227,292,414,1185,1694,1758],
  [1,5,3,33,94,159,231,284,414,1249],
  [1,5,6,33,94,159,227,418,1313,1694,1758],
  [1,5,36,33,94,159,225,286,354,673,1121],
  [1,5,48,33,94,159,225,286,420,1695,1759],
  [1,5,72,33,94,159,225,286,422,1313,1694,1758],
  [1,8,9,33,94,159,233,284,414,1695,1759],
  [1,10,9,33,94,159,227,286,356,414,673,1695,1759],
  [1,16,9,33,94,159,229,282,356,414,673,1121],
  [1,16,9,33,94,159,229,282,356,673,1695,1759],
  [1,19,72,33,94,159,225,292,1185,1694,1758],
  [1,41,432,33,94,159,225,290,1695,1759],
  [1,56,81,33,94,159,227,929,1695,1759],
  [1,128,81,33,94,159,231,284,929,1695,1759],
  [1,128,1215,33,94,159,229,350,673,1695,1759],
  [1,128,1215,33,94,159,231,284,350,418,673,1695,1759],
  [1,130,243,33,94,159,227,286,673,1121],
  [1,178,243,33,94,159,227,286,420,1185,1694,1758],
  [1,179,18,33,94,159,229,284,1249],
  [1,184,81,33,94,159,229,284,418,929,1695,1759],
  [1,256,243,33,94,159,231,282,673,1121],
  [1,436,243,33,94,159,229,1185,1694,1758],
  [1,448,243,33,94,159,231,282,420,1185,1694,1758],
  [1,448,243,33,94,159,231,286,1185,1694,1758],
  [1,664,729,33,94,159,231,282,418,1695,1759],
  [1,802,243,33,94,159,229,286,418,1185,1694,1758],
  [1,8566,3645,33,94,159,229,286,1695,1759],
  [1,31919,14580,33,94,159,227,286,418,1695,1759]]

def k521 : List (List ℕ) := [[0,5,3,94,157,227],
  [0,8,3,94,157,231,284],
  [0,32,1,94,157,233,282,1249],
  [0,73,3,94,157,229,286,1249],
  [1,5,3,94,157,227,1249],
  [1,13,3,94,157,229,286],
  [1,164,3,94,157,231,284,1249]]

def k522 : List (List ℕ) := [[0,1,6,94,158,354,673,1121],
  [0,7,3,94,158,228,286,1249],
  [0,10,81,94,158,226,673,1121],
  [0,16,81,94,158,230,284,673,1121],
  [0,32,27,94,158,228,286,929],
  [0,56,81,94,158,230,284,1185],
  [0,68,81,94,158,226,1185],
  [0,326,243,94,158,230,284],
  [0,446,243,94,158,226],
  [1,1,6,94,158,226,286,354,673,1121],
  [1,2,9,94,158,290],
  [1,7,3,94,158,230,284,1249],
  [1,16,27,94,158,226,929],
  [1,16,27,94,158,230,284,929],
  [1,26,81,94,158,228,286,673,1121],
  [1,124,81,94,158,228,286,1185],
  [1,718,243,94,158,228,286]]

def k523 : List (List ℕ) := [[0,1,6,94,158,226,286,354,673,1121],
  [0,2,9,94,158,290],
  [0,7,3,94,158,230,284,1249],
  [0,16,27,94,158,226,929],
  [0,16,27,94,158,230,284,929],
  [0,26,81,94,158,228,286,673,1121],
  [0,28,27,94,158,226,1249],
  [0,124,81,94,158,228,286,1185],
  [0,1727,486,94,158,228,286],
  [1,1,6,94,158,354,673,1121],
  [1,10,81,94,158,226,673,1121],
  [1,16,81,94,158,230,284,673,1121],
  [1,32,27,94,158,228,286,929],
  [1,56,81,94,158,230,284,1185],
  [1,68,81,94,158,226,1185],
  [1,91,27,94,158,228,286,1249],
  [1,326,243,94,158,230,284],
  [1,1183,486,94,158,226]]

def k524 : List (List ℕ) := [[0,1,24,94,158,354,673,1121],
  [0,2,81,94,158,226,1185],
  [0,7,3,94,158,228,286,1249],
  [0,10,81,94,158,226,673,1121],
  [0,16,81,94,158,230,284,673,1121],
  [0,20,27,94,158,228,286,929],
  [0,56,81,94,158,230,284,1185],
  [0,326,243,94,158,230,284],
  [0,409,486,94,158,226],
  [1,1,6,94,158,226,286,354,673,1121],
  [1,1,18,94,158,290],
  [1,4,27,94,158,226,929],
  [1,7,3,94,158,230,284,1249],
  [1,16,27,94,158,230,284,929],
  [1,26,81,94,158,228,286,673,1121],
  [1,58,81,94,158,228,286,1185],
  [1,517,243,94,158,228,286]]

def k525 : List (List ℕ) := [[0,1,6,94,158,226,286,354],
  [0,1,6,94,158,354,1121],
  [0,2,27,94,158,226],
  [0,2,27,94,158,228,286,1121],
  [1,1,6,94,158,226,286,354,1121],
  [1,1,6,94,158,354],
  [1,2,27,94,158,226,1121],
  [1,2,27,94,158,228,286]]

def k526 : List (List ℕ) := [[0,1,6,94,158,226,286,354,1121],
  [0,1,24,94,158,354],
  [0,2,27,94,158,226],
  [0,2,27,94,158,228,286,1121],
  [1,1,6,94,158,226,286,354],
  [1,1,24,94,158,354,1121],
  [1,2,27,94,158,226,1121],
  [1,2,27,94,158,228,286]]

def k527 : List (List ℕ) := [[0,1,9,94,159,355,414,607,673],
  [0,1,9,94,159,355,414,607,673,1121],
  [0,2,9,94,159,228,284,355,414,609,673],
  [0,2,9,94,159,228,284,355,414,609,673,1121],
  [1,5,9,94,159,226,286,355,414,607,673],
  [1,5,9,94,159,226,286,355,414,607,673,1121]]

def k528 : List (List ℕ) := [[0,5,9,94,158,226,286,354,673,1121],
  [0,10,81,94,158,226,673,1121],
  [0,16,81,94,158,230,284,673,1121],
  [1,1,9,94,158,354,673,1121],
  [1,4,9,94,158,228,284,354,673,1121],
  [1,26,81,94,158,228,286,673,1121]]

def k529 : List (List ℕ) := [[0,1,9,94,158,354,673,1121],
  [0,4,9,94,158,228,284,354,673,1121],
  [0,26,81,94,158,228,286,673,1121],
  [1,5,9,94,158,226,286,354,673,1121],
  [1,10,81,94,158,226,673,1121],
  [1,16,81,94,158,230,284,673,1121]]

def k530 : List (List ℕ) := [[0,1,9,94,158,354,673,1121],
  [0,4,9,94,158,228,284,354,673,1121],
  [0,10,81,94,158,226,673,1121],
  [0,16,81,94,158,230,284,673,1121],
  [1,5,9,94,158,226,286,354,673,1121],
  [1,26,81,94,158,228,286,673,1121]]

def k531 : List (List ℕ) := [[0,4,81,33,94,159,228,286,351,609,673],
  [0,23,27,33,94,159,228,284,353,609,673,1121],
  [1,4,81,33,94,159,230,284,351,609,673],
  [1,16,27,33,94,159,230,282,353,609,673,1121],
  [1,65,108,33,94,159,226,286,353,607,673,1121]]

def k532 : List (List ℕ) := [[0,8,81,94,158,227,351,609,673],
  [0,8,81,94,158,231,284,351,609,673],
  [0,32,27,94,158,231,282,353,609,673,1121],
  [0,145,54,94,158,227,286,353,607,673,1121],
  [1,16,81,94,158,229,286,351,609,673],
  [1,25,54,94,158,225,353,607,673,1121],
  [1,62,27,94,158,229,284,353,609,673,1121]]

def k533 : List (List ℕ) := [[0,1,18,94,158,226,286,546,929],
  [0,1,18,94,158,546,929],
  [0,7,54,94,158,228,284,546,1185],
  [0,41,324,94,158,228,284,546],
  [0,107,1296,94,158,546],
  [1,1,9,94,158,228,284,546,929],
  [1,1,12,94,158,546,1249],
  [1,1,120,94,350,548],
  [1,7,108,94,158,226,286,546,1185],
  [1,23,216,94,158,546,1185],
  [1,41,648,94,158,226,286,546]]

def k534 : List (List ℕ) := [[0,7,108,94,228,284,546,1185],
  [0,19,2592,94,546],
  [0,23,432,94,546,1185],
  [0,41,648,94,228,284,546],
  [1,1,18,94,228,284,546,929],
  [1,1,36,94,546,929]]

def k535 : List (List ℕ) := [[0,1,36,33,94,161,225,286,546,929],
  [0,7,54,33,94,161,227,284,546,1185],
  [0,41,324,33,94,161,227,284,546],
  [1,1,9,33,94,161,227,284,546,929],
  [1,7,216,33,94,161,225,286,546,1185],
  [1,41,1296,33,94,161,225,286,546]]

def k536 : List (List ℕ) := [[0,1,6,94,546,929],
  [0,7,36,94,226,286,546,1185],
  [0,41,216,94,226,286,546],
  [1,1,6,94,226,286,546,929],
  [1,5,18,94,546,1185],
  [1,5,54,94,546]]

def k537 : List (List ℕ) := [[0,1,6,94,546,929],
  [0,7,36,94,226,286,546,1185],
  [0,11,108,94,546],
  [0,41,216,94,226,286,546],
  [1,1,6,94,226,286,546,929],
  [1,1,6,94,546,1249],
  [1,5,18,94,546,1185]]

def k538 : List (List ℕ) := [[0,7,36,94,226,286,546,1185],
  [0,13,72,94,546,1185],
  [0,41,216,94,226,286,546],
  [1,1,6,94,226,286,546,929],
  [1,1,12,94,546,929],
  [1,1,432,94,546]]

def k539 : List (List ℕ) := [[0,2,9,94,158,228,284,546,929],
  [0,8,27,94,158,226,286,546,1185],
  [0,19,216,94,158,546,1185],
  [0,353,1296,94,158,546],
  [1,1,9,94,158,226,286,546,929],
  [1,1,9,94,158,546,929],
  [1,1,12,94,158,546,1249],
  [1,1,120,94,350,548],
  [1,11,162,94,158,226,286,546],
  [1,19,324,94,158,228,284,546],
  [1,23,54,94,158,228,284,546,1185]]

def k540 : List (List ℕ) := [[0,1,9,94,228,284,546,929],
  [0,1,18,94,546,929],
  [1,19,432,94,546,1185],
  [1,19,648,94,228,284,546],
  [1,23,108,94,228,284,546,1185],
  [1,227,2592,94,546]]

def k541 : List (List ℕ) := [[0,2,9,33,94,161,227,284,546,929],
  [0,4,27,33,94,161,225,286,546,1185],
  [1,1,18,33,94,161,225,286,546,929],
  [1,11,324,33,94,161,225,286,546],
  [1,19,324,33,94,161,227,284,546],
  [1,23,54,33,94,161,227,284,546,1185]]

def k542 : List (List ℕ) := [[0,1,3,94,226,286,546,929],
  [0,17,36,94,546,1185],
  [0,61,216,94,546],
  [1,1,3,94,546,929],
  [1,5,9,94,226,286,546,1185],
  [1,5,27,94,226,286,546]]

def k543 : List (List ℕ) := [[0,1,3,94,226,286,546,929],
  [0,17,36,94,546,1185],
  [0,103,216,94,546],
  [1,1,3,94,546,929],
  [1,1,6,94,546,1249],
  [1,5,9,94,226,286,546,1185],
  [1,5,27,94,226,286,546]]

def k544 : List (List ℕ) := [[0,1,72,94,546,1185],
  [0,13,36,94,226,286,546,1185],
  [0,83,432,94,546],
  [1,1,6,94,226,286,546,929],
  [1,1,12,94,546,929],
  [1,1,216,94,226,286,546]]

def k545 : List (List ℕ) := [[0,1,2,94,158,228,354,1121,1374,1438],
  [0,1,8,94,158,226,354,801,1375,1439],
  [0,1,8,94,158,358,1121,1374,1438],
  [0,7,16,94,158,226,354,1375,1439],
  [1,1,4,94,158,226,356,1121,1374,1438],
  [1,1,8,94,158,356,801,1375,1439],
  [1,1,16,94,158,356,1375,1439],
  [1,3,8,94,158,228,354,1249,1374,1438]]

def k546 : List (List ℕ) := [[0,3,8,94,546,1249],
  [0,3,16,94,546],
  [1,1,4,94,546,929]]

def k547 : List (List ℕ) := [[0,1,18,94,158,546,929],
  [0,2,9,94,158,228,284,546,929],
  [0,53,108,94,158,226,286,546,1185],
  [0,79,648,94,158,226,286,546],
  [0,107,1296,94,158,546],
  [1,1,12,94,158,546,1249],
  [1,1,120,94,350,548],
  [1,5,18,94,158,226,286,546,929],
  [1,19,324,94,158,228,284,546],
  [1,23,54,94,158,228,284,546,1185],
  [1,23,216,94,158,546,1185]]

def k548 : List (List ℕ) := [[0,1,9,94,228,284,546,929],
  [0,19,2592,94,546],
  [0,23,432,94,546,1185],
  [1,1,36,94,546,929],
  [1,19,648,94,228,284,546],
  [1,23,108,94,228,284,546,1185]]

def k549 : List (List ℕ) := [[0,2,9,33,94,161,227,284,546,929],
  [0,53,216,33,94,161,225,286,546,1185],
  [0,79,1296,33,94,161,225,286,546],
  [1,5,36,33,94,161,225,286,546,929],
  [1,19,324,33,94,161,227,284,546],
  [1,23,54,33,94,161,227,284,546,1185]]

def k550 : List (List ℕ) := [[0,1,6,94,546,929],
  [0,13,36,94,226,286,546,1185],
  [1,1,6,94,226,286,546,929],
  [1,1,216,94,226,286,546],
  [1,5,18,94,546,1185],
  [1,5,54,94,546]]

def k551 : List (List ℕ) := [[0,1,6,94,226,286,546,929],
  [0,1,216,94,226,286,546],
  [0,5,18,94,546,1185],
  [0,31,108,94,546],
  [1,1,6,94,546,929],
  [1,1,6,94,546,1249],
  [1,13,36,94,226,286,546,1185]]

def k552 : List (List ℕ) := [[0,1,3,94,226,286,546,929],
  [0,13,72,94,546,1185],
  [1,1,12,94,546,929],
  [1,1,432,94,546],
  [1,5,9,94,226,286,546,1185],
  [1,5,27,94,226,286,546]]

def k553 : List (List ℕ) := [[0,5,9,94,158,226,286,546,929],
  [0,14,27,94,158,228,284,546,1185],
  [0,19,216,94,158,546,1185],
  [0,41,81,94,158,228,284,546],
  [0,353,1296,94,158,546],
  [1,1,9,94,158,546,929],
  [1,1,12,94,158,546,1249],
  [1,1,120,94,350,548],
  [1,4,9,94,158,228,284,546,929],
  [1,35,54,94,158,226,286,546,1185],
  [1,205,324,94,158,226,286,546]]

def k554 : List (List ℕ) := [[0,1,18,94,546,929],
  [0,7,27,94,228,284,546,1185],
  [0,41,162,94,228,284,546],
  [1,2,9,94,228,284,546,929],
  [1,19,432,94,546,1185],
  [1,227,2592,94,546]]

def k555 : List (List ℕ) := [[0,5,18,33,94,161,225,286,546,929],
  [0,14,27,33,94,161,227,284,546,1185],
  [0,41,81,33,94,161,227,284,546],
  [1,4,9,33,94,161,227,284,546,929],
  [1,35,108,33,94,161,225,286,546,1185],
  [1,205,648,33,94,161,225,286,546]]

def k556 : List (List ℕ) := [[0,1,3,94,226,286,546,929],
  [0,17,36,94,546,1185],
  [0,61,216,94,546],
  [1,1,3,94,546,929],
  [1,7,18,94,226,286,546,1185],
  [1,41,108,94,226,286,546]]

def k557 : List (List ℕ) := [[0,1,3,94,546,929],
  [0,7,18,94,226,286,546,1185],
  [0,41,108,94,226,286,546],
  [1,1,3,94,226,286,546,929],
  [1,1,6,94,546,1249],
  [1,17,36,94,546,1185],
  [1,19,216,94,546]]

def k558 : List (List ℕ) := [[0,1,3,94,226,286,546,929],
  [0,1,72,94,546,1185],
  [0,83,432,94,546],
  [1,1,12,94,546,929],
  [1,7,18,94,226,286,546,1185],
  [1,41,108,94,226,286,546]]

def k559 : List (List ℕ) := [[0,1,2,94,158,228,286,1185],
  [0,1,4,94,158,228,286],
  [0,1,6,94,158,226,929],
  [0,1,6,94,158,290,929],
  [1,1,3,94,158,228,286,929],
  [1,1,4,94,158,226,1185],
  [1,1,4,94,158,290,1185],
  [1,1,8,94,158,226],
  [1,1,8,94,158,290]]

def k560 : List (List ℕ) := [[0,1,1,94,156,232,284,414,1249],
  [0,1,2,94,156,226,1249],
  [0,1,3,94,156,226,286,356,414,673],
  [0,1,3,94,156,226,286,356,414,673,1121],
  [0,1,3,94,156,230,284,418,1185,1695,1759],
  [0,1,3,94,156,232,284,414],
  [0,1,3,94,156,356,414,673],
  [0,1,3,94,156,356,414,673,1121],
  [0,1,4,94,156,226,292,414,1185,1695,1759],
  [0,1,4,94,156,226,418,1313,1695,1759],
  [0,1,4,94,156,228,284,420,1313,1695,1759],
  [0,1,4,94,156,290,418,1313,1695,1759],
  [0,1,4,94,156,294,414,1185,1695,1759],
  [0,1,6,94,156,228,284,354,673,1121],
  [0,1,48,94,156,290],
  [0,2,9,94,156,226,929],
  [0,4,9,94,156,232,282,929],
  [0,5,81,94,156,226,673,1121],
  [0,7,24,94,156,228,284,418],
  [0,11,108,94,156,228,1185,1695,1759],
  [0,14,3,94,156,232,282,1249],
  [0,19,18,94,156,228,286,1249],
  [0,20,27,94,156,230,284,673,1121],
  [0,32,405,94,156,230,286,350,673],
  [0,34,81,94,156,232,284,1185,1695,1759],
  [0,35,54,94,156,228,286,418,1185,1695,1759],
  [0,49,30,94,156,230,284],
  [0,121,648,94,156,226,290,1185,1695,1759],
  [1,1,2,94,156,228,286,418,1313,1695,1759],
  [1,1,2,94,156,228,290,414,1185,1695,1759],
  [1,1,2,94,156,228,414,1249],
  [1,1,2,94,156,230,286,414,1249],
  [1,1,3,94,156,230,286,1185,1695,1759],
  [1,1,6,94,156,230,286,414],
  [1,1,8,94,156,226,286,420,1313,1695,1759],
  [1,1,8,94,156,420,1313,1695,1759],
  [1,1,12,94,156,226,286,354,673,1121],
  [1,1,12,94,156,226,290,414],
  [1,1,12,94,156,292,414],
  [1,1,12,94,156,354,673,1121],
  [1,2,3,94,156,228,284,356,414,673],
  [1,2,3,94,156,228,284,356,414,673,1121],
  [1,2,3,94,156,230,284,929],
  [1,3,8,94,156,292,1185,1695,1759],
  [1,7,48,94,156,226,286,418],
  [1,7,48,94,156,418],
  [1,11,27,94,156,228,286,673,1121],
  [1,16,405,94,156,228,350,673],
  [1,16,405,94,156,232,284,350,673],
  [1,32,81,94,156,232,282,673,1121],
  [1,34,81,94,156,232,282,418,1185,1695,1759],
  [1,56,9,94,156,230,284,1249],
  [1,91,162,94,156,226,418,1185,1695,1759],
  [1,124,243,94,156,232,282],
  [1,2609,3240,94,156,228,286],
  [1,6583,19440,94,156,226]]

def k561 : List (List ℕ) := [[0,1,4,94],
  [0,1,4,94,226,286],
  [0,1,4,94,226,286,1313],
  [0,1,4,94,1313],
  [1,1,2,94,228,284],
  [1,1,2,94,228,284,1313]]

def k562 : List (List ℕ) := [[0,1,1,94,158,230,284,418,1695,1759],
  [0,1,1,94,158,294,1185,1694,1758],
  [0,1,2,94,158,226,420,1313,1694,1758],
  [0,1,4,94,158,226,418,1695,1759],
  [0,1,6,94,158,226,292,414,1695,1759],
  [0,1,6,94,158,294,414,1695,1759],
  [0,2,1,94,158,230,284,420,1313,1694,1758],
  [0,2,3,94,158,226,286,356,414,673,1121],
  [0,2,3,94,158,226,286,356,673,1695,1759],
  [0,4,1,94,158,228,292,414,1185,1694,1758],
  [0,4,1,94,158,228,418,1185,1694,1758],
  [0,4,3,94,158,230,414,1695,1759],
  [0,4,3,94,158,234,284,414,1695,1759],
  [0,5,1,94,158,232,284,414,1249],
  [0,5,2,94,158,228,418,1313,1694,1758],
  [0,5,3,94,158,232,284,1695,1759],
  [0,5,6,94,158,228,284,420,1695,1759],
  [0,5,6,94,158,228,284,422,1313,1694,1758],
  [0,7,6,94,158,226,292,1185,1694,1758],
  [0,8,3,94,158,230,282,356,414,673,1121],
  [0,8,3,94,158,230,282,356,673,1695,1759],
  [0,10,3,94,158,228,286,356,414,673,1695,1759],
  [0,20,3,94,158,230,1185,1694,1758],
  [0,31,12,94,158,228,1695,1759],
  [1,1,1,94,158,230,286,414,1249],
  [1,1,2,94,158,226,290,418,1185,1694,1758],
  [1,1,2,94,158,226,290,418,1313,1694,1758],
  [1,1,2,94,158,226,294,414,1185,1694,1758],
  [1,1,2,94,158,292,418,1185,1694,1758],
  [1,1,2,94,158,296,414,1185,1694,1758],
  [1,1,6,94,158,226,286,420,1695,1759],
  [1,1,6,94,158,226,286,422,1313,1694,1758],
  [1,1,6,94,158,292,1695,1759],
  [1,2,1,94,158,230,286,418,1313,1694,1758],
  [1,2,3,94,158,226,356,414,673,1695,1759],
  [1,2,3,94,158,230,282,420,1695,1759],
  [1,2,3,94,158,230,282,422,1313,1694,1758],
  [1,3,1,94,158,230,286,418,1185,1694,1758],
  [1,3,1,94,158,230,290,414,1185,1694,1758],
  [1,4,1,94,158,234,282,414,1249],
  [1,4,3,94,158,228,290,414,1695,1759],
  [1,4,3,94,158,234,282,1695,1759],
  [1,5,2,94,158,228,286,420,1313,1694,1758],
  [1,5,3,94,158,232,286,414,1695,1759],
  [1,5,4,94,158,228,286,418,1695,1759],
  [1,5,12,94,158,226,290,1695,1759],
  [1,7,3,94,158,230,286,1695,1759],
  [1,8,3,94,158,230,284,356,414,673,1695,1759],
  [1,10,3,94,158,228,284,356,414,673,1121],
  [1,10,3,94,158,228,284,356,673,1695,1759],
  [1,53,6,94,158,228,290,1185,1694,1758]]

def k563 : List (List ℕ) := [[0,1,2,94,158,226,292,414,1185,1695,1759],
  [0,1,2,94,158,294,414,1185,1695,1759],
  [0,2,1,94,158,232,284,414,1249],
  [0,2,3,94,158,226,286,356,414,673],
  [0,2,3,94,158,226,286,356,414,673,1121],
  [0,2,3,94,158,226,418,1313,1695,1759],
  [0,2,3,94,158,232,284,414],
  [0,2,3,94,158,290,418,1313,1695,1759],
  [0,2,3,94,158,356,414,673],
  [0,2,3,94,158,356,414,673,1121],
  [0,3,2,94,158,228,1185,1695,1759],
  [0,5,6,94,158,228,284,420,1313,1695,1759],
  [0,5,24,94,158,226],
  [0,5,24,94,158,290],
  [0,11,12,94,158,228,284,418],
  [1,1,1,94,158,228,290,414,1185,1695,1759],
  [1,1,1,94,158,228,414,1249],
  [1,1,1,94,158,230,286,414,1249],
  [1,1,3,94,158,230,286,414],
  [1,1,6,94,158,226,290,414],
  [1,1,6,94,158,292,414],
  [1,3,4,94,158,226,290,1185,1695,1759],
  [1,3,4,94,158,292,1185,1695,1759],
  [1,4,3,94,158,228,284,356,414,673],
  [1,4,3,94,158,228,284,356,414,673,1121],
  [1,4,3,94,158,228,286,418,1313,1695,1759],
  [1,5,12,94,158,226,286,420,1313,1695,1759],
  [1,5,12,94,158,228,286],
  [1,5,12,94,158,420,1313,1695,1759],
  [1,11,24,94,158,226,286,418],
  [1,11,24,94,158,418]]

def k564 : List (List ℕ) := [[0,1,2,94,158,232,284,414,1249],
  [0,1,4,94,158,228,414],
  [0,1,4,94,158,228,414,1249],
  [0,1,6,94,158,230,284,418,1185,1695,1759],
  [0,1,6,94,158,232,284,414],
  [0,1,6,94,158,418],
  [0,1,6,94,158,420,1313,1695,1759],
  [0,1,8,94,158,226,292,414,1185,1695,1759],
  [0,1,12,94,158,290],
  [0,1,12,94,158,354,673,1121],
  [0,1,24,94,158,226,286,354,673,1121],
  [0,3,4,94,158,228,1185,1695,1759],
  [0,3,32,94,158,226,286,418],
  [0,4,9,94,158,232,282,929],
  [0,5,48,94,158,226,286,420,1313,1695,1759],
  [0,10,27,94,158,230,284,673,1121],
  [0,14,3,94,158,232,282,1249],
  [0,16,405,94,158,230,286,350,673],
  [0,34,81,94,158,232,284,1185,1695,1759],
  [0,91,324,94,158,226,418,1185,1695,1759],
  [0,199,180,94,158,230,284],
  [0,665,7776,94,158,226],
  [1,1,2,94,158,228,290,414,1185,1695,1759],
  [1,1,3,94,158,228,284,356,414,673],
  [1,1,3,94,158,228,284,356,414,673,1121],
  [1,1,3,94,158,230,284,929],
  [1,1,6,94,158,228,286,418,1313,1695,1759],
  [1,1,6,94,158,230,286,1185,1695,1759],
  [1,1,6,94,158,290,418,1313,1695,1759],
  [1,1,6,94,158,356,414,673],
  [1,1,6,94,158,356,414,673,1121],
  [1,1,9,94,158,226,929],
  [1,1,12,94,158,228,284,420,1313,1695,1759],
  [1,1,18,94,158,228,286,1249],
  [1,1,24,94,158,226,290,414],
  [1,1,24,94,158,226,418,1313,1695,1759],
  [1,1,24,94,158,228,284,418],
  [1,5,162,94,158,226,673,1121],
  [1,16,405,94,158,232,284,350,673],
  [1,32,81,94,158,232,282,673,1121],
  [1,34,81,94,158,232,282,418,1185,1695,1759],
  [1,119,36,94,158,230,284,1249],
  [1,124,243,94,158,232,282],
  [1,167,540,94,158,228,286],
  [1,607,1296,94,158,226,290,1185,1695,1759]]

def k565 : List (List ℕ) := [[0,1,1,94,158,232,286,414,1695,1759],
  [0,1,2,94,158,226,290,418,1313,1694,1758],
  [0,1,4,94,158,226,290,1695,1759],
  [0,1,6,94,158,226,286,420,1695,1759],
  [0,1,6,94,158,226,286,422,1313,1694,1758],
  [0,2,1,94,158,230,286,418,1313,1694,1758],
  [0,2,1,94,158,230,286,1695,1759],
  [0,2,3,94,158,226,356,414,673,1695,1759],
  [0,2,3,94,158,230,282,420,1695,1759],
  [0,2,3,94,158,230,282,422,1313,1694,1758],
  [0,3,1,94,158,230,286,418,1185,1694,1758],
  [0,3,1,94,158,230,290,414,1185,1694,1758],
  [0,4,1,94,158,234,282,414,1249],
  [0,4,3,94,158,228,290,414,1695,1759],
  [0,4,3,94,158,234,282,1695,1759],
  [0,5,2,94,158,228,286,420,1313,1694,1758],
  [0,5,4,94,158,228,286,418,1695,1759],
  [0,8,3,94,158,230,284,356,414,673,1695,1759],
  [0,10,3,94,158,228,284,356,414,673,1121],
  [0,10,3,94,158,228,284,356,673,1695,1759],
  [0,41,6,94,158,228,290,1185,1694,1758],
  [1,1,1,94,158,228,414,1249],
  [1,1,1,94,158,230,284,418,1695,1759],
  [1,1,1,94,158,230,414,1695,1759],
  [1,1,1,94,158,232,284,1695,1759],
  [1,1,2,94,158,226,420,1313,1694,1758],
  [1,1,4,94,158,226,418,1695,1759],
  [1,1,6,94,158,226,292,1185,1694,1758],
  [1,2,1,94,158,230,284,420,1313,1694,1758],
  [1,2,3,94,158,226,286,356,414,673,1121],
  [1,2,3,94,158,226,286,356,673,1695,1759],
  [1,3,1,94,158,228,292,414,1185,1694,1758],
  [1,3,1,94,158,228,418,1185,1694,1758],
  [1,3,1,94,158,232,284,414,1249],
  [1,4,3,94,158,234,284,414,1695,1759],
  [1,5,2,94,158,228,418,1313,1694,1758],
  [1,5,6,94,158,228,284,420,1695,1759],
  [1,5,6,94,158,228,284,422,1313,1694,1758],
  [1,8,3,94,158,230,282,356,414,673,1121],
  [1,8,3,94,158,230,282,356,673,1695,1759],
  [1,10,3,94,158,228,286,356,414,673,1695,1759],
  [1,20,3,94,158,230,1185,1694,1758],
  [1,31,12,94,158,228,1695,1759]]

def k566 : List (List ℕ) := [[0,1,1,33,94,159,229,286,418,1313,1694,1758],
  [0,1,3,33,94,159,227,284,356,414,673,1121],
  [0,1,3,33,94,159,227,284,356,673,1695,1759],
  [0,1,3,33,94,159,229,282,420,1695,1759],
  [0,1,3,33,94,159,229,282,422,1313,1694,1758],
  [0,1,6,33,94,159,227,284,354,673,1121],
  [0,1,6,33,94,159,227,290,414,1695,1759],
  [0,1,6,33,94,159,231,286,414,1695,1759],
  [0,1,9,33,94,159,227,929,1695,1759],
  [0,1,12,33,94,159,225,292,414,1695,1759],
  [0,1,16,33,94,159,225,420,1313,1694,1758],
  [0,1,24,33,94,159,227,284,420,1695,1759],
  [0,1,96,33,94,159,225,290,1695,1759],
  [0,2,1,33,94,159,233,282,414,1249],
  [0,2,3,33,94,159,233,282,1695,1759],
  [0,3,2,33,94,159,229,290,414,1185,1694,1758],
  [0,4,3,33,94,159,229,284,356,414,673,1695,1759],
  [0,7,9,33,94,159,229,286,929,1695,1759],
  [0,8,9,33,94,159,231,282,418,929,1695,1759],
  [0,17,72,33,94,159,227,286,1249],
  [0,22,3,33,94,159,231,282,1249],
  [0,25,48,33,94,159,225,292,1185,1694,1758],
  [0,32,405,33,94,159,229,286,350,418,673,1695,1759],
  [0,32,405,33,94,159,231,286,350,673,1695,1759],
  [0,47,162,33,94,159,229,284,420,1185,1694,1758],
  [0,49,81,33,94,159,227,286,420,1185,1694,1758],
  [0,74,81,33,94,159,229,284,673,1121],
  [0,91,486,33,94,159,231,284,1695,1759],
  [0,130,81,33,94,159,227,290,1185,1694,1758],
  [0,136,81,33,94,159,231,284,418,1185,1694,1758],
  [0,149,162,33,94,159,229,286,418,1185,1694,1758],
  [0,6131,4860,33,94,159,229,284,418,1695,1759],
  [1,1,1,33,94,159,229,284,420,1313,1694,1758],
  [1,1,2,33,94,159,227,292,414,1185,1694,1758],
  [1,1,2,33,94,159,229,414,1695,1759],
  [1,1,2,33,94,159,231,284,414,1249],
  [1,1,3,33,94,159,227,286,356,414,673,1695,1759],
  [1,1,4,33,94,159,225,294,414,1185,1694,1758],
  [1,1,4,33,94,159,227,418,1313,1694,1758],
  [1,1,9,33,94,159,227,286,418,929,1695,1759],
  [1,1,24,33,94,159,225,286,354,673,1121],
  [1,1,32,33,94,159,225,286,420,1695,1759],
  [1,1,48,33,94,159,225,286,422,1313,1694,1758],
  [1,1,48,33,94,159,225,418,1695,1759],
  [1,2,3,33,94,159,233,284,414,1695,1759],
  [1,4,3,33,94,159,229,282,356,414,673,1121],
  [1,4,3,33,94,159,229,282,356,673,1695,1759],
  [1,5,16,33,94,159,225,290,418,1185,1694,1758],
  [1,7,9,33,94,159,229,284,418,929,1695,1759],
  [1,8,9,33,94,159,231,284,929,1695,1759],
  [1,19,81,33,94,159,227,286,673,1121],
  [1,32,405,33,94,159,229,350,673,1695,1759],
  [1,32,405,33,94,159,231,284,350,418,673,1695,1759],
  [1,64,81,33,94,159,231,282,673,1121],
  [1,67,12,33,94,159,229,284,1249],
  [1,68,81,33,94,159,231,282,420,1185,1694,1758],
  [1,68,81,33,94,159,231,286,1185,1694,1758],
  [1,86,243,33,94,159,231,282,418,1695,1759],
  [1,281,1215,33,94,159,227,1695,1759],
  [1,473,324,33,94,159,227,418,1185,1694,1758],
  [1,493,162,33,94,159,229,1185,1694,1758],
  [1,2207,9720,33,94,159,227,286,418,1695,1759],
  [1,3701,4860,33,94,159,229,286,1695,1759]]

def k567 : List (List ℕ) := [[0,1,2,94,157,227],
  [0,2,1,94,157,231,284],
  [0,17,2,94,157,229,286,1249],
  [0,24,1,94,157,233,282,1249],
  [1,1,2,94,157,227,1249],
  [1,5,2,94,157,229,286],
  [1,32,1,94,157,231,284,1249]]

def k568 : List (List ℕ) := [[0,1,4,94,158,226,286,354,673,1121],
  [0,2,3,94,158,226,929],
  [0,2,3,94,158,230,284,929],
  [0,7,2,94,158,230,284,1249],
  [0,13,27,94,158,228,286,673,1121],
  [0,53,27,94,158,228,286,1185],
  [0,179,81,94,158,228,286],
  [1,1,2,94,158,290],
  [1,1,4,94,158,354,673,1121],
  [1,4,3,94,158,228,286,929],
  [1,5,27,94,158,226,673,1121],
  [1,7,2,94,158,228,286,1249],
  [1,8,27,94,158,230,284,673,1121],
  [1,25,27,94,158,230,284,1185],
  [1,28,27,94,158,226,1185],
  [1,37,81,94,158,226],
  [1,203,162,94,158,230,284]]

def k569 : List (List ℕ) := [[0,1,4,94,158,226,286,354,673,1121],
  [0,2,3,94,158,226,929],
  [0,2,3,94,158,230,284,929],
  [0,7,2,94,158,230,284,1249],
  [0,13,27,94,158,228,286,673,1121],
  [0,16,9,94,158,226,1249],
  [0,53,27,94,158,228,286,1185],
  [0,1091,324,94,158,228,286],
  [1,1,2,94,158,290],
  [1,1,4,94,158,354,673,1121],
  [1,4,3,94,158,228,286,929],
  [1,5,27,94,158,226,673,1121],
  [1,8,27,94,158,230,284,673,1121],
  [1,25,27,94,158,230,284,1185],
  [1,28,27,94,158,226,1185],
  [1,95,18,94,158,228,286,1249],
  [1,203,162,94,158,230,284],
  [1,523,324,94,158,226]]

def k570 : List (List ℕ) := [[0,1,12,94,158,226,286,354,673,1121],
  [0,1,12,94,158,290],
  [0,1,24,94,158,354,673,1121],
  [0,2,9,94,158,230,284,929],
  [0,2,27,94,158,226],
  [0,7,6,94,158,230,284,1249],
  [0,7,18,94,158,226,1185],
  [0,13,81,94,158,228,286,673,1121],
  [0,53,108,94,158,228,286],
  [1,1,9,94,158,226,929],
  [1,1,9,94,158,228,286,929],
  [1,1,9,94,158,230,284,1185],
  [1,5,18,94,158,228,286,1185],
  [1,5,81,94,158,226,673,1121],
  [1,7,6,94,158,228,286,1249],
  [1,8,81,94,158,230,284,673,1121],
  [1,35,54,94,158,230,284]]

def k571 : List (List ℕ) := [[0,1,2,94,158,226,286,354,1121],
  [0,1,2,94,158,354],
  [0,2,9,94,158,226,1121],
  [0,2,9,94,158,228,286],
  [1,1,2,94,158,226,286,354],
  [1,1,2,94,158,354,1121],
  [1,2,9,94,158,226],
  [1,2,9,94,158,228,286,1121]]

def k572 : List (List ℕ) := [[0,1,4,94,158,230,286,354,1121,1374,1438],
  [0,1,8,94,158,226,356,1121,1374,1438],
  [0,1,16,94,158,226,286,358,1121,1374,1438],
  [0,3,16,94,158,228,354,1249,1374,1438],
  [0,3,32,94,158,226,286,356,1375,1439],
  [0,3,32,94,158,228,286,354,1375,1439],
  [1,1,4,94,158,228,354,1121,1374,1438],
  [1,1,8,94,158,228,286,356,1121,1374,1438],
  [1,1,16,94,158,358,1121,1374,1438],
  [1,3,16,94,158,230,286,354,1249,1374,1438],
  [1,3,32,94,158,226,354,1375,1439],
  [1,3,32,94,158,356,1375,1439]]

def k573 : List (List ℕ) := [[0,1,24,94,158,230,356,1249,1372,1436],
  [0,2,9,94,158,234,286,1373,1437],
  [0,2,9,94,158,236,286,1121,1372,1436],
  [0,5,16,94,158,234,286,354,1249,1372,1436],
  [0,5,32,94,158,360,1373,1437],
  [0,7,16,94,158,362,1121,1372,1436],
  [0,8,9,94,158,228,286,360,1249,1372,1436],
  [0,13,12,94,158,228,286,360,1121,1372,1436],
  [0,25,8,94,158,232,286,356,1121,1372,1436],
  [0,59,36,94,158,232,354,1121,1372,1436],
  [0,109,48,94,158,228,358,1121,1372,1436],
  [0,151,96,94,158,230,354,1373,1437],
  [0,179,144,94,158,228,358,1249,1372,1436],
  [0,311,288,94,158,226,358,1373,1437],
  [0,769,288,94,158,230,286,356,1373,1437],
  [1,1,24,94,158,232,286,356,1249,1372,1436],
  [1,2,9,94,158,232,1373,1437],
  [1,2,9,94,158,234,1121,1372,1436],
  [1,5,16,94,158,232,354,1249,1372,1436],
  [1,5,32,94,158,226,286,360,1373,1437],
  [1,7,16,94,158,226,286,362,1121,1372,1436],
  [1,8,9,94,158,226,360,1249,1372,1436],
  [1,13,12,94,158,226,360,1121,1372,1436],
  [1,25,8,94,158,230,356,1121,1372,1436],
  [1,59,36,94,158,234,286,354,1121,1372,1436],
  [1,109,48,94,158,230,286,358,1121,1372,1436],
  [1,151,96,94,158,232,286,354,1373,1437],
  [1,179,144,94,158,230,286,358,1249,1372,1436],
  [1,311,288,94,158,228,286,358,1373,1437],
  [1,769,288,94,158,228,356,1373,1437]]

def k574 : List (List ℕ) := [[0,1,6,94,158,233,353,607,1249,1372,1436],
  [0,1,6,94,158,235,286,353,607,1121,1372,1436],
  [0,3,2,94,158,227,286,359,607,1373,1437],
  [0,5,2,94,158,227,359,607,1249,1372,1436],
  [0,5,2,94,158,229,286,359,607,1121,1372,1436],
  [0,5,3,94,158,231,355,607,1249,1372,1436],
  [0,5,3,94,158,233,286,355,607,1121,1372,1436],
  [0,9,2,94,158,229,357,607,1121,1372,1436],
  [0,9,2,94,158,231,286,357,607,1249,1372,1436],
  [0,17,18,94,158,233,286,353,607,1373,1437],
  [0,35,36,94,158,229,355,607,1373,1437],
  [0,59,36,94,158,227,357,607,1373,1437],
  [1,1,6,94,158,233,353,607,1121,1372,1436],
  [1,1,6,94,158,235,286,353,607,1249,1372,1436],
  [1,3,2,94,158,225,359,607,1373,1437],
  [1,5,2,94,158,227,359,607,1121,1372,1436],
  [1,5,2,94,158,229,286,359,607,1249,1372,1436],
  [1,5,3,94,158,231,355,607,1121,1372,1436],
  [1,5,3,94,158,233,286,355,607,1249,1372,1436],
  [1,9,2,94,158,229,357,607,1249,1372,1436],
  [1,9,2,94,158,231,286,357,607,1121,1372,1436],
  [1,17,18,94,158,231,353,607,1373,1437],
  [1,35,36,94,158,231,286,355,607,1373,1437],
  [1,59,36,94,158,229,286,357,607,1373,1437]]

def k575 : List (List ℕ) := [[0,1,2,94,156,234,286,354,1249,1372,1436],
  [0,1,4,94,156,226,286,360,1373,1437],
  [0,1,6,94,156,230,286,358,1121,1372,1436],
  [0,2,3,94,156,226,360,1121,1372,1436],
  [0,2,9,94,156,234,286,1373,1437],
  [0,2,9,94,156,236,286,1121,1372,1436],
  [0,5,12,94,156,230,356,1249,1372,1436],
  [0,7,4,94,156,232,286,356,1121,1372,1436],
  [0,8,9,94,156,228,286,360,1249,1372,1436],
  [0,13,6,94,156,230,354,1373,1437],
  [0,19,18,94,156,228,358,1249,1372,1436],
  [0,25,18,94,156,232,354,1121,1372,1436],
  [0,179,72,94,156,226,358,1373,1437],
  [0,307,72,94,156,230,286,356,1373,1437],
  [1,1,2,94,156,232,354,1249,1372,1436],
  [1,1,4,94,156,360,1373,1437],
  [1,1,6,94,156,228,358,1121,1372,1436],
  [1,2,3,94,156,228,286,360,1121,1372,1436],
  [1,2,9,94,156,232,1373,1437],
  [1,2,9,94,156,234,1121,1372,1436],
  [1,5,12,94,156,232,286,356,1249,1372,1436],
  [1,7,4,94,156,230,356,1121,1372,1436],
  [1,8,9,94,156,226,360,1249,1372,1436],
  [1,13,6,94,156,232,286,354,1373,1437],
  [1,19,18,94,156,230,286,358,1249,1372,1436],
  [1,25,18,94,156,234,286,354,1121,1372,1436],
  [1,179,72,94,156,228,286,358,1373,1437],
  [1,307,72,94,156,228,356,1373,1437]]

def k576 : List (List ℕ) := [[0,1,4,94,158,226,360,1121,1372,1436],
  [0,1,4,94,158,232,286,356,1121,1372,1436],
  [0,1,6,94,158,232,286,356,1249,1372,1436],
  [0,1,9,94,158,234,286,1373,1437],
  [0,1,9,94,158,236,286,1121,1372,1436],
  [0,1,16,94,158,226,286,362,1121,1372,1436],
  [0,1,16,94,158,234,286,354,1249,1372,1436],
  [0,1,32,94,158,360,1373,1437],
  [0,3,16,94,158,228,358,1249,1372,1436],
  [0,3,16,94,158,232,354,1249,1372,1436],
  [0,3,32,94,158,226,286,360,1373,1437],
  [0,4,9,94,158,228,286,360,1249,1372,1436],
  [0,5,8,94,158,230,356,1121,1372,1436],
  [0,15,32,94,158,228,356,1373,1437],
  [0,31,48,94,158,230,286,358,1121,1372,1436],
  [0,479,288,94,158,230,286,356,1373,1437],
  [1,1,4,94,158,232,354,1121,1372,1436],
  [1,1,16,94,158,362,1121,1372,1436],
  [1,3,8,94,158,230,356,1249,1372,1436],
  [1,4,9,94,158,234,286,354,1121,1372,1436],
  [1,7,12,94,158,228,286,360,1121,1372,1436],
  [1,7,32,94,158,230,354,1373,1437],
  [1,9,16,94,158,228,358,1121,1372,1436],
  [1,9,32,94,158,226,358,1373,1437],
  [1,83,96,94,158,232,286,354,1373,1437],
  [1,103,144,94,158,230,286,358,1249,1372,1436],
  [1,277,288,94,158,228,286,358,1373,1437]]

def k577 : List (List ℕ) := [[0,1,3,94,159,228,284,355,414,607,673],
  [0,1,3,94,159,228,284,355,414,607,673,1121],
  [1,1,6,94,159,226,286,355,414,607,673],
  [1,1,6,94,159,226,286,355,414,607,673,1121],
  [1,1,6,94,159,355,414,607,673],
  [1,1,6,94,159,355,414,607,673,1121]]

def k578 : List (List ℕ) := [[0,1,4,94,158,354],
  [1,1,4,94,158,226,286,354]]

def k579 : List (List ℕ) := [[0,1,4,94,158,226,286,354],
  [1,1,4,94,158,354]]

def k580 : List (List ℕ) := [[0,1,2,94,158,228,354,1121,1374,1438],
  [0,1,4,94,158,228,286,356,1121,1374,1438],
  [0,1,8,94,158,358,1121,1374,1438],
  [0,1,16,94,158,226,286,356,1375,1439],
  [0,3,8,94,158,230,286,354,1249,1374,1438],
  [0,7,16,94,158,226,354,1375,1439],
  [1,1,2,94,158,230,286,354,1121,1374,1438],
  [1,1,4,94,158,226,356,1121,1374,1438],
  [1,1,8,94,158,226,286,358,1121,1374,1438],
  [1,1,16,94,158,356,1375,1439],
  [1,3,8,94,158,228,354,1249,1374,1438],
  [1,7,16,94,158,228,286,354,1375,1439]]

def k581 : List (List ℕ) := [[0,1,4,94,158,226,286,354,673,1121],
  [0,1,9,94,158,226,673,1121],
  [1,1,4,94,158,354,673,1121],
  [1,1,9,94,158,228,286,673,1121]]

def k582 : List (List ℕ) := [[0,1,4,94,158,354,673,1121],
  [0,1,9,94,158,228,286,673,1121],
  [1,1,4,94,158,226,286,354,673,1121],
  [1,1,9,94,158,226,673,1121]]

def k583 : List (List ℕ) := [[0,1,4,94,158,354,673,1121],
  [0,1,9,94,158,226,673,1121],
  [1,1,4,94,158,226,286,354,673,1121],
  [1,1,9,94,158,228,286,673,1121]]

def k584 : List (List ℕ) := [[0,1,6,94,158,226,286,354,673,1121],
  [0,1,6,94,158,354,673,1121],
  [0,1,27,94,158,226,673,1121],
  [0,4,27,94,158,230,284,673,1121],
  [1,1,3,94,158,228,284,354,673,1121],
  [1,5,27,94,158,228,286,673,1121]]

def k585 : List (List ℕ) := [[0,1,3,94,158,228,284,354,673,1121],
  [0,5,27,94,158,228,286,673,1121],
  [1,1,6,94,158,226,286,354,673,1121],
  [1,1,6,94,158,354,673,1121],
  [1,1,27,94,158,226,673,1121],
  [1,4,27,94,158,230,284,673,1121]]

def k586 : List (List ℕ) := [[0,1,3,94,158,228,284,354,673,1121],
  [0,1,27,94,158,226,673,1121],
  [0,4,27,94,158,230,284,673,1121],
  [1,1,6,94,158,226,286,354,673,1121],
  [1,1,6,94,158,354,673,1121],
  [1,5,27,94,158,228,286,673,1121]]

def k587 : List (List ℕ) := [[0,1,27,33,94,159,228,286,351,609,673],
  [0,17,18,33,94,159,228,284,353,607,673,1121],
  [1,1,27,33,94,159,230,284,351,609,673],
  [1,4,9,33,94,159,230,282,353,609,673,1121],
  [1,13,72,33,94,159,226,286,353,607,673,1121]]

def k588 : List (List ℕ) := [[0,2,27,94,158,227,351,609,673],
  [0,2,27,94,158,231,284,351,609,673],
  [0,8,9,94,158,231,282,353,609,673,1121],
  [0,41,36,94,158,227,286,353,607,673,1121],
  [1,4,27,94,158,229,286,351,609,673],
  [1,5,36,94,158,225,353,607,673,1121],
  [1,25,9,94,158,229,284,353,607,673,1121]]

def k589 : List (List ℕ) := [[0,1,2,94,158,226,929],
  [0,1,2,94,158,228,286,1185],
  [0,1,4,94,158,228,286],
  [0,1,4,94,158,290,1185],
  [0,1,8,94,158,290],
  [1,1,3,94,158,228,286,929],
  [1,1,6,94,158,290,929],
  [1,3,4,94,158,226,1185],
  [1,3,8,94,158,226]]

def k590 : List (List ℕ) := [[0,1,1,94,156,226,286,356,414,673],
  [0,1,1,94,156,226,286,356,414,673,1121],
  [0,1,1,94,156,232,284,414,1249],
  [0,1,2,94,156,228,414,1249],
  [0,1,3,94,156,228,414],
  [0,1,3,94,156,232,284,414],
  [0,1,4,94,156,228,284,420,1313,1695,1759],
  [0,1,6,94,156,228,284,354,673,1121],
  [0,1,8,94,156,420,1313,1695,1759],
  [0,1,12,94,156,292,414],
  [0,1,12,94,156,354,673,1121],
  [0,3,4,94,156,226,292,414,1185,1695,1759],
  [0,3,4,94,156,226,418,1313,1695,1759],
  [0,3,8,94,156,292,1185,1695,1759],
  [0,4,9,94,156,232,282,929],
  [0,5,27,94,156,226,673,1121],
  [0,7,24,94,156,228,284,418],
  [0,7,48,94,156,418],
  [0,8,9,94,156,228,286,929],
  [0,14,3,94,156,232,282,1249],
  [0,31,27,94,156,230,284,418,1185,1695,1759],
  [0,32,405,94,156,230,286,350,673],
  [0,34,81,94,156,232,284,1185,1695,1759],
  [0,41,162,94,156,226,418,1185,1695,1759],
  [0,73,18,94,156,228,286,1249],
  [0,76,81,94,156,230,284,673,1121],
  [0,187,108,94,156,228,1185,1695,1759],
  [0,1813,810,94,156,230,284],
  [0,27587,19440,94,156,226],
  [1,1,2,94,156,228,286,418,1313,1695,1759],
  [1,1,2,94,156,228,290,414,1185,1695,1759],
  [1,1,2,94,156,230,286,414],
  [1,1,3,94,156,356,414,673],
  [1,1,3,94,156,356,414,673,1121],
  [1,1,4,94,156,226,286,354,673,1121],
  [1,1,4,94,156,226,290,414],
  [1,1,4,94,156,290,418,1313,1695,1759],
  [1,1,4,94,156,294,414,1185,1695,1759],
  [1,1,6,94,156,226,1249],
  [1,2,3,94,156,228,284,356,414,673],
  [1,2,3,94,156,228,284,356,414,673,1121],
  [1,2,9,94,156,226,929],
  [1,3,2,94,156,230,286,414,1249],
  [1,3,8,94,156,226,286,420,1313,1695,1759],
  [1,3,16,94,156,290],
  [1,7,16,94,156,226,286,418],
  [1,10,9,94,156,230,284,929],
  [1,16,405,94,156,228,350,673],
  [1,16,405,94,156,232,284,350,673],
  [1,31,27,94,156,230,286,1185,1695,1759],
  [1,32,81,94,156,232,282,673,1121],
  [1,34,81,94,156,232,282,418,1185,1695,1759],
  [1,53,54,94,156,228,286,418,1185,1695,1759],
  [1,59,81,94,156,228,286,673,1121],
  [1,77,9,94,156,230,284,1249],
  [1,124,243,94,156,232,282],
  [1,893,648,94,156,226,290,1185,1695,1759],
  [1,9589,3240,94,156,228,286]]

def k591 : List (List ℕ) := [[0,3,4,94,226,286],
  [0,3,4,94,226,286,1313],
  [1,1,2,94,228,284],
  [1,1,2,94,228,284,1313],
  [1,1,4,94],
  [1,1,4,94,1313]]

def k592 : List (List ℕ) := [[0,1,1,94,158,230,284,418,1695,1759],
  [0,1,2,94,158,292,418,1185,1694,1758],
  [0,1,2,94,158,296,414,1185,1694,1758],
  [0,1,6,94,158,292,1695,1759],
  [0,2,1,94,158,226,286,356,414,673,1121],
  [0,2,1,94,158,226,286,356,673,1695,1759],
  [0,2,1,94,158,230,284,420,1313,1694,1758],
  [0,2,1,94,158,230,414,1695,1759],
  [0,3,2,94,158,226,420,1313,1694,1758],
  [0,3,4,94,158,226,418,1695,1759],
  [0,4,3,94,158,234,284,414,1695,1759],
  [0,6,1,94,158,228,292,414,1185,1694,1758],
  [0,6,1,94,158,228,418,1185,1694,1758],
  [0,7,1,94,158,232,284,414,1249],
  [0,7,2,94,158,228,418,1313,1694,1758],
  [0,7,3,94,158,232,284,1695,1759],
  [0,7,6,94,158,226,292,414,1695,1759],
  [0,7,6,94,158,228,284,420,1695,1759],
  [0,7,6,94,158,228,284,422,1313,1694,1758],
  [0,8,3,94,158,230,282,356,414,673,1121],
  [0,8,3,94,158,230,282,356,673,1695,1759],
  [0,14,3,94,158,228,286,356,414,673,1695,1759],
  [0,15,2,94,158,226,292,1185,1694,1758],
  [0,15,4,94,158,228,1695,1759],
  [0,20,3,94,158,230,1185,1694,1758],
  [1,1,1,94,158,294,1185,1694,1758],
  [1,1,2,94,158,226,286,420,1695,1759],
  [1,1,2,94,158,226,286,422,1313,1694,1758],
  [1,1,6,94,158,294,414,1695,1759],
  [1,2,1,94,158,226,356,414,673,1695,1759],
  [1,2,1,94,158,228,290,414,1695,1759],
  [1,2,1,94,158,230,286,418,1313,1694,1758],
  [1,2,3,94,158,230,282,420,1695,1759],
  [1,2,3,94,158,230,282,422,1313,1694,1758],
  [1,3,1,94,158,230,286,414,1249],
  [1,3,1,94,158,230,286,418,1185,1694,1758],
  [1,3,1,94,158,230,286,1695,1759],
  [1,3,1,94,158,230,290,414,1185,1694,1758],
  [1,3,2,94,158,226,290,418,1313,1694,1758],
  [1,4,1,94,158,234,282,414,1249],
  [1,4,3,94,158,234,282,1695,1759],
  [1,7,2,94,158,226,290,418,1185,1694,1758],
  [1,7,2,94,158,226,294,414,1185,1694,1758],
  [1,7,2,94,158,228,286,420,1313,1694,1758],
  [1,7,3,94,158,232,286,414,1695,1759],
  [1,7,4,94,158,228,286,418,1695,1759],
  [1,8,3,94,158,230,284,356,414,673,1695,1759],
  [1,14,3,94,158,228,284,356,414,673,1121],
  [1,14,3,94,158,228,284,356,673,1695,1759],
  [1,23,12,94,158,226,290,1695,1759],
  [1,79,6,94,158,228,290,1185,1694,1758]]

def k593 : List (List ℕ) := [[0,1,1,94,158,228,414,1249],
  [0,1,6,94,158,292,414],
  [0,2,1,94,158,226,286,356,414,673],
  [0,2,1,94,158,226,286,356,414,673,1121],
  [0,2,1,94,158,226,418,1313,1695,1759],
  [0,2,1,94,158,232,284,414,1249],
  [0,2,3,94,158,228,414],
  [0,2,3,94,158,232,284,414],
  [0,3,2,94,158,226,292,414,1185,1695,1759],
  [0,3,2,94,158,228,1185,1695,1759],
  [0,3,4,94,158,292,1185,1695,1759],
  [0,5,6,94,158,228,284,420,1313,1695,1759],
  [0,5,8,94,158,226],
  [0,5,12,94,158,420,1313,1695,1759],
  [0,11,12,94,158,228,284,418],
  [0,11,24,94,158,418],
  [1,1,1,94,158,228,290,414,1185,1695,1759],
  [1,1,1,94,158,230,286,414],
  [1,1,2,94,158,226,290,414],
  [1,1,2,94,158,294,414,1185,1695,1759],
  [1,2,3,94,158,290,418,1313,1695,1759],
  [1,2,3,94,158,356,414,673],
  [1,2,3,94,158,356,414,673,1121],
  [1,3,1,94,158,230,286,414,1249],
  [1,4,3,94,158,228,284,356,414,673],
  [1,4,3,94,158,228,284,356,414,673,1121],
  [1,4,3,94,158,228,286,418,1313,1695,1759],
  [1,5,4,94,158,226,286,420,1313,1695,1759],
  [1,5,12,94,158,228,286],
  [1,5,24,94,158,290],
  [1,9,4,94,158,226,290,1185,1695,1759],
  [1,11,8,94,158,226,286,418]]

def k594 : List (List ℕ) := [[0,1,2,94,158,232,284,414,1249],
  [0,1,6,94,158,232,284,414],
  [0,1,6,94,158,290,418,1313,1695,1759],
  [0,1,6,94,158,356,414,673],
  [0,1,6,94,158,356,414,673,1121],
  [0,1,8,94,158,226,286,354,673,1121],
  [0,1,9,94,158,226,929],
  [0,1,12,94,158,228,414],
  [0,1,12,94,158,290],
  [0,3,4,94,158,228,1185,1695,1759],
  [0,3,8,94,158,226,292,414,1185,1695,1759],
  [0,4,9,94,158,232,282,929],
  [0,5,16,94,158,226,286,420,1313,1695,1759],
  [0,5,18,94,158,228,286,1249],
  [0,9,32,94,158,226,286,418],
  [0,14,3,94,158,232,282,1249],
  [0,16,405,94,158,230,286,350,673],
  [0,31,54,94,158,230,284,418,1185,1695,1759],
  [0,34,81,94,158,232,284,1185,1695,1759],
  [0,38,81,94,158,230,284,673,1121],
  [0,2281,1620,94,158,230,284],
  [1,1,2,94,158,228,290,414,1185,1695,1759],
  [1,1,3,94,158,228,284,356,414,673],
  [1,1,3,94,158,228,284,356,414,673,1121],
  [1,1,4,94,158,228,414,1249],
  [1,1,6,94,158,228,286,418,1313,1695,1759],
  [1,1,6,94,158,418],
  [1,1,6,94,158,420,1313,1695,1759],
  [1,1,8,94,158,226,290,414],
  [1,1,8,94,158,226,418,1313,1695,1759],
  [1,1,12,94,158,228,284,420,1313,1695,1759],
  [1,1,12,94,158,354,673,1121],
  [1,1,24,94,158,228,284,418],
  [1,5,9,94,158,230,284,929],
  [1,5,54,94,158,226,673,1121],
  [1,16,405,94,158,232,284,350,673],
  [1,31,54,94,158,230,286,1185,1695,1759],
  [1,32,81,94,158,232,282,673,1121],
  [1,34,81,94,158,232,282,418,1185,1695,1759],
  [1,41,324,94,158,226,418,1185,1695,1759],
  [1,124,243,94,158,232,282],
  [1,161,36,94,158,230,284,1249],
  [1,181,270,94,158,228,286],
  [1,565,1296,94,158,226,290,1185,1695,1759],
  [1,1741,7776,94,158,226]]

def k595 : List (List ℕ) := [[0,1,1,94,158,228,414,1249],
  [0,1,2,94,158,226,286,420,1695,1759],
  [0,1,2,94,158,226,286,422,1313,1694,1758],
  [0,2,1,94,158,226,290,418,1185,1694,1758],
  [0,2,1,94,158,226,294,414,1185,1694,1758],
  [0,2,1,94,158,226,356,414,673,1695,1759],
  [0,2,1,94,158,230,286,418,1313,1694,1758],
  [0,2,1,94,158,230,286,1695,1759],
  [0,2,3,94,158,230,282,420,1695,1759],
  [0,2,3,94,158,230,282,422,1313,1694,1758],
  [0,3,1,94,158,230,286,418,1185,1694,1758],
  [0,3,1,94,158,230,290,414,1185,1694,1758],
  [0,3,2,94,158,226,290,418,1313,1694,1758],
  [0,4,1,94,158,234,282,414,1249],
  [0,4,3,94,158,228,290,414,1695,1759],
  [0,4,3,94,158,234,282,1695,1759],
  [0,5,3,94,158,232,286,414,1695,1759],
  [0,7,2,94,158,228,286,420,1313,1694,1758],
  [0,7,4,94,158,228,286,418,1695,1759],
  [0,8,3,94,158,230,284,356,414,673,1695,1759],
  [0,14,3,94,158,228,284,356,414,673,1121],
  [0,14,3,94,158,228,284,356,673,1695,1759],
  [0,17,12,94,158,226,290,1695,1759],
  [0,67,6,94,158,228,290,1185,1694,1758],
  [1,1,1,94,158,230,284,418,1695,1759],
  [1,1,1,94,158,230,414,1695,1759],
  [1,2,1,94,158,226,286,356,414,673,1121],
  [1,2,1,94,158,226,286,356,673,1695,1759],
  [1,2,1,94,158,230,284,420,1313,1694,1758],
  [1,2,3,94,158,226,292,414,1695,1759],
  [1,3,2,94,158,226,420,1313,1694,1758],
  [1,3,4,94,158,226,418,1695,1759],
  [1,4,3,94,158,234,284,414,1695,1759],
  [1,5,1,94,158,228,292,414,1185,1694,1758],
  [1,5,1,94,158,228,418,1185,1694,1758],
  [1,5,1,94,158,232,284,414,1249],
  [1,5,3,94,158,232,284,1695,1759],
  [1,7,2,94,158,228,418,1313,1694,1758],
  [1,7,6,94,158,228,284,420,1695,1759],
  [1,7,6,94,158,228,284,422,1313,1694,1758],
  [1,8,3,94,158,230,282,356,414,673,1121],
  [1,8,3,94,158,230,282,356,673,1695,1759],
  [1,9,2,94,158,226,292,1185,1694,1758],
  [1,14,3,94,158,228,286,356,414,673,1695,1759],
  [1,20,3,94,158,230,1185,1694,1758],
  [1,37,12,94,158,228,1695,1759]]

def k596 : List (List ℕ) := [[0,1,1,33,94,159,227,284,356,414,673,1121],
  [0,1,1,33,94,159,227,284,356,673,1695,1759],
  [0,1,1,33,94,159,229,286,418,1313,1694,1758],
  [0,1,2,33,94,159,227,286,420,1313,1694,1758],
  [0,1,2,33,94,159,227,290,414,1695,1759],
  [0,1,2,33,94,159,231,286,414,1695,1759],
  [0,1,3,33,94,159,229,282,420,1695,1759],
  [0,1,3,33,94,159,229,282,422,1313,1694,1758],
  [0,1,4,33,94,159,225,294,414,1185,1694,1758],
  [0,1,6,33,94,159,227,284,354,673,1121],
  [0,1,16,33,94,159,225,290,418,1185,1694,1758],
  [0,2,1,33,94,159,233,282,414,1249],
  [0,2,3,33,94,159,233,282,1695,1759],
  [0,3,2,33,94,159,229,290,414,1185,1694,1758],
  [0,3,16,33,94,159,225,420,1313,1694,1758],
  [0,4,3,33,94,159,229,284,356,414,673,1695,1759],
  [0,5,9,33,94,159,227,286,418,929,1695,1759],
  [0,7,16,33,94,159,225,418,1695,1759],
  [0,8,9,33,94,159,231,282,418,929,1695,1759],
  [0,13,9,33,94,159,229,286,929,1695,1759],
  [0,22,3,33,94,159,231,282,1249],
  [0,32,405,33,94,159,229,286,350,418,673,1695,1759],
  [0,32,405,33,94,159,231,286,350,673,1695,1759],
  [0,98,81,33,94,159,229,284,673,1121],
  [0,107,72,33,94,159,227,286,1249],
  [0,136,81,33,94,159,231,284,418,1185,1694,1758],
  [0,245,162,33,94,159,229,284,420,1185,1694,1758],
  [0,413,162,33,94,159,227,290,1185,1694,1758],
  [0,5041,4860,33,94,159,227,1695,1759],
  [0,8921,4860,33,94,159,229,284,418,1695,1759],
  [1,1,1,33,94,159,227,286,356,414,673,1695,1759],
  [1,1,1,33,94,159,229,284,420,1313,1694,1758],
  [1,1,2,33,94,159,229,414,1695,1759],
  [1,1,6,33,94,159,227,284,422,1313,1694,1758],
  [1,1,8,33,94,159,225,286,354,673,1121],
  [1,1,8,33,94,159,227,284,420,1695,1759],
  [1,1,12,33,94,159,225,292,414,1695,1759],
  [1,1,16,33,94,159,225,286,422,1313,1694,1758],
  [1,2,3,33,94,159,233,284,414,1695,1759],
  [1,3,2,33,94,159,227,292,414,1185,1694,1758],
  [1,3,2,33,94,159,231,284,414,1249],
  [1,3,4,33,94,159,227,418,1313,1694,1758],
  [1,3,32,33,94,159,225,286,420,1695,1759],
  [1,4,3,33,94,159,229,282,356,414,673,1121],
  [1,4,3,33,94,159,229,282,356,673,1695,1759],
  [1,5,9,33,94,159,227,929,1695,1759],
  [1,5,324,33,94,159,227,418,1185,1694,1758],
  [1,7,16,33,94,159,225,292,1185,1694,1758],
  [1,8,9,33,94,159,231,284,929,1695,1759],
  [1,13,9,33,94,159,229,284,418,929,1695,1759],
  [1,13,96,33,94,159,225,290,1695,1759],
  [1,32,405,33,94,159,229,350,673,1695,1759],
  [1,32,405,33,94,159,231,284,350,418,673,1695,1759],
  [1,37,81,33,94,159,227,286,673,1121],
  [1,50,81,33,94,159,227,286,420,1185,1694,1758],
  [1,64,81,33,94,159,231,282,673,1121],
  [1,68,81,33,94,159,231,282,420,1185,1694,1758],
  [1,68,81,33,94,159,231,286,1185,1694,1758],
  [1,71,486,33,94,159,231,284,1695,1759],
  [1,86,243,33,94,159,231,282,418,1695,1759],
  [1,97,12,33,94,159,229,284,1249],
  [1,247,162,33,94,159,229,286,418,1185,1694,1758],
  [1,295,162,33,94,159,229,1185,1694,1758],
  [1,6491,4860,33,94,159,229,286,1695,1759],
  [1,17777,9720,33,94,159,227,286,418,1695,1759]]

def k597 : List (List ℕ) := [[0,2,1,94,157,231,284],
  [0,3,2,94,157,227],
  [0,24,1,94,157,233,282,1249],
  [0,43,2,94,157,229,286,1249],
  [1,3,2,94,157,227,1249],
  [1,7,2,94,157,229,286],
  [1,44,1,94,157,231,284,1249]]

def k598 : List (List ℕ) := [[0,1,3,94,158,228,286,1185],
  [0,1,6,94,158,290],
  [0,1,12,94,158,226,286,354,673,1121],
  [0,2,9,94,158,226,929],
  [0,2,9,94,158,230,284,929],
  [0,7,6,94,158,230,284,1249],
  [0,13,9,94,158,228,286],
  [0,13,81,94,158,228,286,673,1121],
  [1,1,9,94,158,230,284,1185],
  [1,1,12,94,158,354,673,1121],
  [1,2,9,94,158,226,1185],
  [1,4,9,94,158,228,286,929],
  [1,5,81,94,158,226,673,1121],
  [1,7,6,94,158,228,286,1249],
  [1,8,81,94,158,230,284,673,1121],
  [1,26,27,94,158,226],
  [1,35,54,94,158,230,284]]

def k599 : List (List ℕ) := [[0,1,3,94,158,228,286,1185],
  [0,1,6,94,158,290],
  [0,1,12,94,158,226,286,354,673,1121],
  [0,2,9,94,158,226,929],
  [0,2,9,94,158,230,284,929],
  [0,4,9,94,158,226,1249],
  [0,7,6,94,158,230,284,1249],
  [0,13,81,94,158,228,286,673,1121],
  [0,179,108,94,158,228,286],
  [1,1,9,94,158,230,284,1185],
  [1,1,12,94,158,354,673,1121],
  [1,2,9,94,158,226,1185],
  [1,4,9,94,158,228,286,929],
  [1,5,81,94,158,226,673,1121],
  [1,8,81,94,158,230,284,673,1121],
  [1,29,18,94,158,228,286,1249],
  [1,35,54,94,158,230,284],
  [1,127,108,94,158,226]]

def k600 : List (List ℕ) := [[0,1,3,94,158,226,929],
  [0,1,4,94,158,226,286,354,673,1121],
  [0,1,4,94,158,290],
  [0,2,3,94,158,230,284,929],
  [0,7,2,94,158,230,284,1249],
  [0,13,27,94,158,228,286,673,1121],
  [0,73,54,94,158,228,286,1185],
  [0,839,324,94,158,228,286],
  [1,1,1,94,158,228,286,929],
  [1,1,8,94,158,354,673,1121],
  [1,5,27,94,158,226,673,1121],
  [1,7,2,94,158,228,286,1249],
  [1,8,27,94,158,230,284,673,1121],
  [1,23,54,94,158,226,1185],
  [1,25,27,94,158,230,284,1185],
  [1,203,162,94,158,230,284],
  [1,257,162,94,158,226]]

def k601 : List (List ℕ) := [[0,1,3,94,159,228,284,355,414,607,673],
  [0,1,3,94,159,228,284,355,414,607,673,1121],
  [0,1,6,94,159,355,414,607,673],
  [0,1,6,94,159,355,414,607,673,1121],
  [1,1,2,94,159,226,286,355,414,607,673],
  [1,1,2,94,159,226,286,355,414,607,673,1121]]

def k602 : List (List ℕ) := [[0,1,2,94,158,226,286,354,673,1121],
  [0,1,9,94,158,226,673,1121],
  [0,4,27,94,158,230,284,673,1121],
  [1,1,3,94,158,228,284,354,673,1121],
  [1,1,6,94,158,354,673,1121],
  [1,7,27,94,158,228,286,673,1121]]

def k603 : List (List ℕ) := [[0,1,3,94,158,228,284,354,673,1121],
  [0,1,6,94,158,354,673,1121],
  [0,7,27,94,158,228,286,673,1121],
  [1,1,2,94,158,226,286,354,673,1121],
  [1,1,9,94,158,226,673,1121],
  [1,4,27,94,158,230,284,673,1121]]

def k604 : List (List ℕ) := [[0,1,3,94,158,228,284,354,673,1121],
  [0,1,6,94,158,354,673,1121],
  [0,1,9,94,158,226,673,1121],
  [0,4,27,94,158,230,284,673,1121],
  [1,1,2,94,158,226,286,354,673,1121],
  [1,7,27,94,158,228,286,673,1121]]

def k605 : List (List ℕ) := [[0,1,27,33,94,159,228,286,351,609,673],
  [0,25,18,33,94,159,228,284,353,607,673,1121],
  [1,1,27,33,94,159,230,284,351,609,673],
  [1,4,9,33,94,159,230,282,353,609,673,1121],
  [1,13,24,33,94,159,226,286,353,607,673,1121]]

def k606 : List (List ℕ) := [[0,2,27,94,158,227,351,609,673],
  [0,2,27,94,158,231,284,351,609,673],
  [0,8,9,94,158,231,282,353,609,673,1121],
  [0,83,36,94,158,227,286,353,607,673,1121],
  [1,4,27,94,158,229,286,351,609,673],
  [1,5,12,94,158,225,353,607,673,1121],
  [1,11,3,94,158,229,284,353,607,673,1121]]

def k607 : List (List ℕ) := [[0,3,2,94,158,226,929],
  [0,3,2,94,158,228,286,1185],
  [0,3,4,94,158,228,286],
  [0,3,4,94,158,290,1185],
  [0,3,8,94,158,290],
  [1,1,1,94,158,228,286,929],
  [1,1,2,94,158,290,929],
  [1,9,4,94,158,226,1185],
  [1,9,8,94,158,226]]

def k608 : List (List ℕ) := [[0,1,1,94,156,228,414],
  [0,1,1,94,156,232,284,414],
  [0,1,2,94,156,228,284,354,673,1121],
  [0,1,4,94,156,292,414],
  [0,1,4,94,156,354,673,1121],
  [0,3,1,94,156,226,286,356,414,673],
  [0,3,1,94,156,226,286,356,414,673,1121],
  [0,3,1,94,156,232,284,414,1249],
  [0,3,2,94,156,228,414,1249],
  [0,3,4,94,156,228,284,420,1313,1695,1759],
  [0,3,8,94,156,420,1313,1695,1759],
  [0,4,1,94,156,232,282,929],
  [0,5,9,94,156,226,673,1121],
  [0,7,8,94,156,228,284,418],
  [0,7,16,94,156,418],
  [0,8,1,94,156,228,286,929],
  [0,9,4,94,156,226,292,414,1185,1695,1759],
  [0,9,4,94,156,226,418,1313,1695,1759],
  [0,9,8,94,156,292,1185,1695,1759],
  [0,13,6,94,156,226,418,1185,1695,1759],
  [0,14,1,94,156,232,282,1249],
  [0,14,3,94,156,232,284,1185,1695,1759],
  [0,32,135,94,156,230,286,350,673],
  [0,35,3,94,156,230,284,418,1185,1695,1759],
  [0,73,6,94,156,228,286,1249],
  [0,76,27,94,156,230,284,673,1121],
  [0,137,12,94,156,228,1185,1695,1759],
  [0,1781,90,94,156,230,284],
  [0,6443,720,94,156,226],
  [1,1,1,94,156,356,414,673],
  [1,1,1,94,156,356,414,673,1121],
  [1,1,2,94,156,226,1249],
  [1,2,1,94,156,226,929],
  [1,2,1,94,156,228,284,356,414,673],
  [1,2,1,94,156,228,284,356,414,673,1121],
  [1,3,2,94,156,228,286,418,1313,1695,1759],
  [1,3,2,94,156,228,290,414,1185,1695,1759],
  [1,3,2,94,156,230,286,414],
  [1,3,4,94,156,226,286,354,673,1121],
  [1,3,4,94,156,226,290,414],
  [1,3,4,94,156,290,418,1313,1695,1759],
  [1,3,4,94,156,294,414,1185,1695,1759],
  [1,9,2,94,156,230,286,414,1249],
  [1,9,8,94,156,226,286,420,1313,1695,1759],
  [1,10,1,94,156,230,284,929],
  [1,14,3,94,156,232,282,418,1185,1695,1759],
  [1,16,135,94,156,228,350,673],
  [1,16,135,94,156,232,284,350,673],
  [1,17,16,94,156,290],
  [1,21,16,94,156,226,286,418],
  [1,32,27,94,156,232,282,673,1121],
  [1,35,3,94,156,230,286,1185,1695,1759],
  [1,55,6,94,156,228,286,418,1185,1695,1759],
  [1,56,9,94,156,232,282],
  [1,59,27,94,156,228,286,673,1121],
  [1,77,3,94,156,230,284,1249],
  [1,133,24,94,156,226,290,1185,1695,1759],
  [1,7723,360,94,156,228,286]]

def k609 : List (List ℕ) := [[0,9,4,94,226,286],
  [0,9,4,94,226,286,1313],
  [1,3,2,94,228,284],
  [1,3,2,94,228,284,1313],
  [1,3,4,94],
  [1,3,4,94,1313]]

def k610 : List (List ℕ) := [[0,1,2,94,158,292,1695,1759],
  [0,3,1,94,158,230,284,418,1695,1759],
  [0,3,2,94,158,292,418,1185,1694,1758],
  [0,3,2,94,158,296,414,1185,1694,1758],
  [0,4,1,94,158,234,284,414,1695,1759],
  [0,6,1,94,158,226,286,356,414,673,1121],
  [0,6,1,94,158,226,286,356,673,1695,1759],
  [0,6,1,94,158,230,284,420,1313,1694,1758],
  [0,6,1,94,158,230,414,1695,1759],
  [0,7,1,94,158,232,284,1695,1759],
  [0,7,2,94,158,226,292,414,1695,1759],
  [0,7,2,94,158,228,284,420,1695,1759],
  [0,7,2,94,158,228,284,422,1313,1694,1758],
  [0,8,1,94,158,230,282,356,414,673,1121],
  [0,8,1,94,158,230,282,356,673,1695,1759],
  [0,9,2,94,158,226,420,1313,1694,1758],
  [0,9,4,94,158,226,418,1695,1759],
  [0,14,1,94,158,228,286,356,414,673,1695,1759],
  [0,18,1,94,158,228,292,414,1185,1694,1758],
  [0,18,1,94,158,228,418,1185,1694,1758],
  [0,20,1,94,158,230,1185,1694,1758],
  [0,21,1,94,158,232,284,414,1249],
  [0,21,2,94,158,228,418,1313,1694,1758],
  [0,45,2,94,158,226,292,1185,1694,1758],
  [0,45,4,94,158,228,1695,1759],
  [1,1,2,94,158,294,414,1695,1759],
  [1,2,1,94,158,230,282,420,1695,1759],
  [1,2,1,94,158,230,282,422,1313,1694,1758],
  [1,3,1,94,158,294,1185,1694,1758],
  [1,3,2,94,158,226,286,420,1695,1759],
  [1,3,2,94,158,226,286,422,1313,1694,1758],
  [1,4,1,94,158,234,282,1695,1759],
  [1,6,1,94,158,226,356,414,673,1695,1759],
  [1,6,1,94,158,228,290,414,1695,1759],
  [1,6,1,94,158,230,286,418,1313,1694,1758],
  [1,7,1,94,158,232,286,414,1695,1759],
  [1,8,1,94,158,230,284,356,414,673,1695,1759],
  [1,9,1,94,158,230,286,414,1249],
  [1,9,1,94,158,230,286,418,1185,1694,1758],
  [1,9,1,94,158,230,286,1695,1759],
  [1,9,1,94,158,230,290,414,1185,1694,1758],
  [1,9,2,94,158,226,290,418,1313,1694,1758],
  [1,12,1,94,158,234,282,414,1249],
  [1,14,1,94,158,228,284,356,414,673,1121],
  [1,14,1,94,158,228,284,356,673,1695,1759],
  [1,21,2,94,158,226,290,418,1185,1694,1758],
  [1,21,2,94,158,226,294,414,1185,1694,1758],
  [1,21,2,94,158,228,286,420,1313,1694,1758],
  [1,21,4,94,158,228,286,418,1695,1759],
  [1,23,4,94,158,226,290,1695,1759],
  [1,79,2,94,158,228,290,1185,1694,1758]]

def k611 : List (List ℕ) := [[0,1,2,94,158,292,414],
  [0,2,1,94,158,228,414],
  [0,2,1,94,158,232,284,414],
  [0,3,1,94,158,228,414,1249],
  [0,5,2,94,158,228,284,420,1313,1695,1759],
  [0,5,4,94,158,420,1313,1695,1759],
  [0,6,1,94,158,226,286,356,414,673],
  [0,6,1,94,158,226,286,356,414,673,1121],
  [0,6,1,94,158,226,418,1313,1695,1759],
  [0,6,1,94,158,232,284,414,1249],
  [0,9,2,94,158,226,292,414,1185,1695,1759],
  [0,9,2,94,158,228,1185,1695,1759],
  [0,9,4,94,158,292,1185,1695,1759],
  [0,11,4,94,158,228,284,418],
  [0,11,8,94,158,418],
  [0,15,8,94,158,226],
  [1,2,1,94,158,290,418,1313,1695,1759],
  [1,2,1,94,158,356,414,673],
  [1,2,1,94,158,356,414,673,1121],
  [1,3,1,94,158,228,290,414,1185,1695,1759],
  [1,3,1,94,158,230,286,414],
  [1,3,2,94,158,226,290,414],
  [1,3,2,94,158,294,414,1185,1695,1759],
  [1,4,1,94,158,228,284,356,414,673],
  [1,4,1,94,158,228,284,356,414,673,1121],
  [1,4,1,94,158,228,286,418,1313,1695,1759],
  [1,5,4,94,158,228,286],
  [1,5,8,94,158,290],
  [1,9,1,94,158,230,286,414,1249],
  [1,15,4,94,158,226,286,420,1313,1695,1759],
  [1,27,4,94,158,226,290,1185,1695,1759],
  [1,33,8,94,158,226,286,418]]

def k612 : List (List ℕ) := [[0,1,1,94,158,226,929],
  [0,1,2,94,158,232,284,414],
  [0,1,2,94,158,290,418,1313,1695,1759],
  [0,1,2,94,158,356,414,673],
  [0,1,2,94,158,356,414,673,1121],
  [0,1,4,94,158,228,414],
  [0,3,2,94,158,232,284,414,1249],
  [0,3,4,94,158,290],
  [0,3,8,94,158,226,286,354,673,1121],
  [0,4,1,94,158,232,282,929],
  [0,5,6,94,158,228,286,1249],
  [0,9,4,94,158,228,1185,1695,1759],
  [0,9,8,94,158,226,292,414,1185,1695,1759],
  [0,14,1,94,158,232,282,1249],
  [0,14,3,94,158,232,284,1185,1695,1759],
  [0,15,16,94,158,226,286,420,1313,1695,1759],
  [0,16,135,94,158,230,286,350,673],
  [0,27,32,94,158,226,286,418],
  [0,35,6,94,158,230,284,418,1185,1695,1759],
  [0,38,27,94,158,230,284,673,1121],
  [0,1937,180,94,158,230,284],
  [1,1,1,94,158,228,284,356,414,673],
  [1,1,1,94,158,228,284,356,414,673,1121],
  [1,1,2,94,158,228,286,418,1313,1695,1759],
  [1,1,2,94,158,418],
  [1,1,2,94,158,420,1313,1695,1759],
  [1,1,4,94,158,228,284,420,1313,1695,1759],
  [1,1,4,94,158,354,673,1121],
  [1,1,8,94,158,228,284,418],
  [1,3,2,94,158,228,290,414,1185,1695,1759],
  [1,3,4,94,158,228,414,1249],
  [1,3,8,94,158,226,290,414],
  [1,3,8,94,158,226,418,1313,1695,1759],
  [1,5,1,94,158,230,284,929],
  [1,5,18,94,158,226,673,1121],
  [1,13,12,94,158,226,418,1185,1695,1759],
  [1,14,3,94,158,232,282,418,1185,1695,1759],
  [1,16,135,94,158,232,284,350,673],
  [1,29,48,94,158,226,290,1185,1695,1759],
  [1,32,27,94,158,232,282,673,1121],
  [1,35,6,94,158,230,286,1185,1695,1759],
  [1,56,9,94,158,232,282],
  [1,161,12,94,158,230,284,1249],
  [1,181,90,94,158,228,286],
  [1,869,288,94,158,226]]

/-- factors occurring in lines 57-153: each is a sum of monomials
`[flag, numerator, denominator, factors]`, see `Verif.Loop.monoVal`; part 4 -/
def coefTab4 : List (List (List ℕ)) := [
  k515, k516, k517, k518, k519, k520, k521, k522, k523, k524, k525, k526, k527, k528, k529,
  k530, k531, k532, k533, k534, k535, k536, k537, k538, k539, k540, k541, k542, k543, k544,
  k545, k546, k547, k548, k549, k550, k551, k552, k553, k554, k555, k556, k557, k558, k559,
  k560, k561, k562, k563, k564, k565, k566, k567, k568, k569, k570, k571, k572, k573, k574,
  k575, k576, k577, k578, k579, k580, k581, k582, k583, k584, k585, k586, k587, k588, k589,
  k590, k591, k592, k593, k594, k595, k596, k597, k598, k599, k600, k601, k602, k603, k604,
  k605, k606, k607, k608, k609, k610, k611, k612]

end Verif.Loop
