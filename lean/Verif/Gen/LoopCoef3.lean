import Verif.Model.LoopDefs

/-! Generated by /verif/tools/gen_loop.py from /repo/wilson/match/smeft_loop.py. -/

set_option autoImplicit false
set_option maxRecDepth 20000

namespace Verif.Loop

def k413 : List (List ℕ) := [[0,1,9,33,94,161,227,284,546,865],
  [0,11,216,33,94,161,225,286,546,1185],
  [0,121,1296,33,94,161,225,286,546],
  [1,1,36,33,94,161,225,286,546,865],
  [1,11,54,33,94,161,227,284,546,1185],
  [1,121,324,33,94,161,227,284,546]]

def k414 : List (List ℕ) := [[0,1,48,94,546,865],
  [0,11,72,94,226,286,546,1185],
  [0,121,432,94,226,286,546],
  [1,1,12,94,226,286,546,865],
  [1,11,288,94,546,1185],
  [1,121,1728,94,546]]

def k415 : List (List ℕ) := [[0,1,12,94,226,286,546,865],
  [0,11,288,94,546,1185],
  [0,205,1728,94,546],
  [1,1,24,94,546,1249],
  [1,1,48,94,546,865],
  [1,11,72,94,226,286,546,1185],
  [1,121,432,94,226,286,546]]

def k416 : List (List ℕ) := [[0,1,12,94,158,226,286,354],
  [0,1,27,94,158,226],
  [0,1,27,94,158,228,286,1121],
  [0,1,48,94,158,354,1121],
  [0,1,96,94,546,671,1121],
  [1,1,12,94,158,226,286,354,1121],
  [1,1,27,94,158,226,1121],
  [1,1,27,94,158,228,286],
  [1,1,48,94,158,354],
  [1,1,96,94,546,671]]

def k417 : List (List ℕ) := [[0,1,96,94,546],
  [1,1,96,94,546,1121]]

def k418 : List (List ℕ) := [[0,1,9,94,159,228,284,355,414,609,673],
  [0,1,9,94,159,228,284,355,414,609,673,1121],
  [0,1,72,94,159,355,414,607,673],
  [0,1,72,94,159,355,414,607,673,1121],
  [1,1,9,94,159,226,286,355,414,607,673],
  [1,1,9,94,159,226,286,355,414,607,673,1121]]

def k419 : List (List ℕ) := [[0,1,27,94,158,228,286,673,1121],
  [0,1,48,94,158,354,673,1121],
  [1,1,12,94,158,226,286,354,673,1121],
  [1,1,27,94,158,226,673,1121]]

def k420 : List (List ℕ) := [[0,1,12,94,158,226,286,354,673,1121],
  [0,1,27,94,158,228,286,673,1121],
  [1,1,27,94,158,226,673,1121],
  [1,1,48,94,158,354,673,1121]]

def k421 : List (List ℕ) := [[0,1,9,94,158,226,286,354,673,1121],
  [0,2,81,94,158,226,673,1121],
  [0,8,81,94,158,230,284,673,1121],
  [1,1,72,94,158,354,673,1121],
  [1,2,9,94,158,228,284,354,673,1121],
  [1,10,81,94,158,228,286,673,1121]]

def k422 : List (List ℕ) := [[0,1,72,94,158,354,673,1121],
  [0,2,9,94,158,228,284,354,673,1121],
  [0,10,81,94,158,228,286,673,1121],
  [1,1,9,94,158,226,286,354,673,1121],
  [1,2,81,94,158,226,673,1121],
  [1,8,81,94,158,230,284,673,1121]]

def k423 : List (List ℕ) := [[0,1,72,94,158,354,673,1121],
  [0,2,9,94,158,228,284,354,673,1121],
  [0,2,81,94,158,226,673,1121],
  [0,8,81,94,158,230,284,673,1121],
  [1,1,9,94,158,226,286,354,673,1121],
  [1,10,81,94,158,228,286,673,1121]]

def k424 : List (List ℕ) := [[0,2,81,33,94,159,228,286,351,609,673],
  [0,17,27,33,94,159,228,284,353,607,673,1121],
  [1,2,81,33,94,159,230,284,351,609,673],
  [1,8,27,33,94,159,230,282,353,609,673,1121],
  [1,13,108,33,94,159,226,286,353,607,673,1121]]

def k425 : List (List ℕ) := [[0,4,81,94,158,227,351,609,673],
  [0,4,81,94,158,231,284,351,609,673],
  [0,16,27,94,158,231,282,353,609,673,1121],
  [0,41,54,94,158,227,286,353,607,673,1121],
  [1,5,54,94,158,225,353,607,673,1121],
  [1,8,81,94,158,229,286,351,609,673],
  [1,25,27,94,158,229,284,353,609,673,1121]]

def k426 : List (List ℕ) := [[0,1,6,94,158,228,286,1185],
  [0,1,12,94,158,228,286],
  [0,1,18,94,158,226,929],
  [0,1,18,94,158,290,929],
  [1,1,9,94,158,228,286,929],
  [1,1,12,94,158,226,1185],
  [1,1,12,94,158,290,1185],
  [1,1,24,94,158,226],
  [1,1,24,94,158,290]]

def k427 : List (List ℕ) := [[0,1,3,94,156,232,284,414,1249],
  [0,1,6,94,156,226,1249],
  [0,1,9,94,156,226,286,356,414,673],
  [0,1,9,94,156,226,286,356,414,673,1121],
  [0,1,9,94,156,232,284,414],
  [0,1,9,94,156,356,414,673],
  [0,1,9,94,156,356,414,673,1121],
  [0,1,12,94,156,226,292,414,1185,1695,1759],
  [0,1,12,94,156,226,418,1313,1695,1759],
  [0,1,12,94,156,228,284,420,1313,1695,1759],
  [0,1,12,94,156,290,418,1313,1695,1759],
  [0,1,12,94,156,294,414,1185,1695,1759],
  [0,1,18,94,156,228,284,354,673,1121],
  [0,1,54,94,156,228,286,418,1185,1695,1759],
  [0,2,81,94,156,226,929],
  [0,4,81,94,156,232,282,929],
  [0,5,243,94,156,226,673,1121],
  [0,7,72,94,156,228,284,418],
  [0,7,81,94,156,230,284,418,1185,1695,1759],
  [0,11,432,94,156,290],
  [0,14,9,94,156,232,282,1249],
  [0,14,243,94,156,232,284,1185,1695,1759],
  [0,19,54,94,156,228,286,1249],
  [0,20,81,94,156,230,284,673,1121],
  [0,25,108,94,156,228,1185,1695,1759],
  [0,32,1215,94,156,230,286,350,673],
  [0,40,729,94,156,232,282],
  [0,313,2430,94,156,230,284],
  [1,1,6,94,156,228,286,418,1313,1695,1759],
  [1,1,6,94,156,228,290,414,1185,1695,1759],
  [1,1,6,94,156,228,414,1249],
  [1,1,6,94,156,230,286,414,1249],
  [1,1,8,94,156,292,1185,1695,1759],
  [1,1,18,94,156,230,286,414],
  [1,1,24,94,156,226,286,420,1313,1695,1759],
  [1,1,24,94,156,420,1313,1695,1759],
  [1,1,36,94,156,226,286,354,673,1121],
  [1,1,36,94,156,226,290,414],
  [1,1,36,94,156,292,414],
  [1,1,36,94,156,354,673,1121],
  [1,2,9,94,156,228,284,356,414,673],
  [1,2,9,94,156,228,284,356,414,673,1121],
  [1,2,27,94,156,230,284,929],
  [1,7,81,94,156,230,286,1185,1695,1759],
  [1,7,144,94,156,226,286,418],
  [1,7,144,94,156,418],
  [1,11,81,94,156,228,286,673,1121],
  [1,14,243,94,156,232,282,418,1185,1695,1759],
  [1,16,1215,94,156,228,350,673],
  [1,16,1215,94,156,232,284,350,673],
  [1,23,486,94,156,226,418,1185,1695,1759],
  [1,32,243,94,156,232,282,673,1121],
  [1,56,27,94,156,230,284,1249],
  [1,101,1080,94,156,228,286],
  [1,151,1944,94,156,226,290,1185,1695,1759],
  [1,6743,58320,94,156,226]]

def k428 : List (List ℕ) := [[0,1,12,94],
  [0,1,12,94,226,286],
  [0,1,12,94,226,286,1313],
  [0,1,12,94,1313],
  [1,1,6,94,228,284],
  [1,1,6,94,228,284,1313]]

def k429 : List (List ℕ) := [[0,1,3,94,158,230,284,418,1695,1759],
  [0,1,3,94,158,294,1185,1694,1758],
  [0,1,6,94,158,226,420,1313,1694,1758],
  [0,1,12,94,158,226,418,1695,1759],
  [0,1,18,94,158,226,292,414,1695,1759],
  [0,1,18,94,158,294,414,1695,1759],
  [0,2,3,94,158,230,284,420,1313,1694,1758],
  [0,2,9,94,158,226,286,356,414,673,1121],
  [0,2,9,94,158,226,286,356,673,1695,1759],
  [0,4,3,94,158,228,292,414,1185,1694,1758],
  [0,4,3,94,158,228,418,1185,1694,1758],
  [0,4,9,94,158,230,414,1695,1759],
  [0,4,9,94,158,234,284,414,1695,1759],
  [0,5,3,94,158,232,284,414,1249],
  [0,5,6,94,158,228,418,1313,1694,1758],
  [0,5,9,94,158,232,284,1695,1759],
  [0,5,18,94,158,228,284,420,1695,1759],
  [0,5,18,94,158,228,284,422,1313,1694,1758],
  [0,7,18,94,158,226,292,1185,1694,1758],
  [0,8,9,94,158,230,282,356,414,673,1121],
  [0,8,9,94,158,230,282,356,673,1695,1759],
  [0,10,9,94,158,228,286,356,414,673,1695,1759],
  [0,20,9,94,158,230,1185,1694,1758],
  [0,31,36,94,158,228,1695,1759],
  [1,1,1,94,158,230,286,418,1185,1694,1758],
  [1,1,1,94,158,230,290,414,1185,1694,1758],
  [1,1,3,94,158,230,286,414,1249],
  [1,1,6,94,158,226,290,418,1185,1694,1758],
  [1,1,6,94,158,226,290,418,1313,1694,1758],
  [1,1,6,94,158,226,294,414,1185,1694,1758],
  [1,1,6,94,158,292,418,1185,1694,1758],
  [1,1,6,94,158,296,414,1185,1694,1758],
  [1,1,18,94,158,226,286,420,1695,1759],
  [1,1,18,94,158,226,286,422,1313,1694,1758],
  [1,1,18,94,158,292,1695,1759],
  [1,2,3,94,158,230,286,418,1313,1694,1758],
  [1,2,9,94,158,226,356,414,673,1695,1759],
  [1,2,9,94,158,230,282,420,1695,1759],
  [1,2,9,94,158,230,282,422,1313,1694,1758],
  [1,4,3,94,158,234,282,414,1249],
  [1,4,9,94,158,228,290,414,1695,1759],
  [1,4,9,94,158,234,282,1695,1759],
  [1,5,6,94,158,228,286,420,1313,1694,1758],
  [1,5,9,94,158,232,286,414,1695,1759],
  [1,5,12,94,158,228,286,418,1695,1759],
  [1,5,36,94,158,226,290,1695,1759],
  [1,7,9,94,158,230,286,1695,1759],
  [1,8,9,94,158,230,284,356,414,673,1695,1759],
  [1,10,9,94,158,228,284,356,414,673,1121],
  [1,10,9,94,158,228,284,356,673,1695,1759],
  [1,53,18,94,158,228,290,1185,1694,1758]]

def k430 : List (List ℕ) := [[0,1,2,94,158,228,1185,1695,1759],
  [0,1,6,94,158,226,292,414,1185,1695,1759],
  [0,1,6,94,158,294,414,1185,1695,1759],
  [0,2,3,94,158,232,284,414,1249],
  [0,2,9,94,158,226,286,356,414,673],
  [0,2,9,94,158,226,286,356,414,673,1121],
  [0,2,9,94,158,226,418,1313,1695,1759],
  [0,2,9,94,158,232,284,414],
  [0,2,9,94,158,290,418,1313,1695,1759],
  [0,2,9,94,158,356,414,673],
  [0,2,9,94,158,356,414,673,1121],
  [0,5,18,94,158,228,284,420,1313,1695,1759],
  [0,5,72,94,158,226],
  [0,5,72,94,158,290],
  [0,11,36,94,158,228,284,418],
  [1,1,3,94,158,228,290,414,1185,1695,1759],
  [1,1,3,94,158,228,414,1249],
  [1,1,3,94,158,230,286,414,1249],
  [1,1,4,94,158,226,290,1185,1695,1759],
  [1,1,4,94,158,292,1185,1695,1759],
  [1,1,9,94,158,230,286,414],
  [1,1,18,94,158,226,290,414],
  [1,1,18,94,158,292,414],
  [1,4,9,94,158,228,284,356,414,673],
  [1,4,9,94,158,228,284,356,414,673,1121],
  [1,4,9,94,158,228,286,418,1313,1695,1759],
  [1,5,36,94,158,226,286,420,1313,1695,1759],
  [1,5,36,94,158,228,286],
  [1,5,36,94,158,420,1313,1695,1759],
  [1,11,72,94,158,226,286,418],
  [1,11,72,94,158,418]]

def k431 : List (List ℕ) := [[0,1,4,94,158,228,1185,1695,1759],
  [0,1,6,94,158,232,284,414,1249],
  [0,1,12,94,158,228,414],
  [0,1,12,94,158,228,414,1249],
  [0,1,18,94,158,232,284,414],
  [0,1,18,94,158,418],
  [0,1,18,94,158,420,1313,1695,1759],
  [0,1,24,94,158,226,292,414,1185,1695,1759],
  [0,1,32,94,158,226,286,418],
  [0,1,36,94,158,354,673,1121],
  [0,1,72,94,158,226,286,354,673,1121],
  [0,1,108,94,158,290],
  [0,4,81,94,158,232,282,929],
  [0,5,144,94,158,226,286,420,1313,1695,1759],
  [0,7,162,94,158,230,284,418,1185,1695,1759],
  [0,10,81,94,158,230,284,673,1121],
  [0,14,9,94,158,232,282,1249],
  [0,14,243,94,158,232,284,1185,1695,1759],
  [0,16,1215,94,158,230,286,350,673],
  [0,23,972,94,158,226,418,1185,1695,1759],
  [0,40,729,94,158,232,282],
  [0,697,23328,94,158,226],
  [0,781,4860,94,158,230,284],
  [1,1,6,94,158,228,290,414,1185,1695,1759],
  [1,1,9,94,158,228,284,356,414,673],
  [1,1,9,94,158,228,284,356,414,673,1121],
  [1,1,18,94,158,228,286,418,1313,1695,1759],
  [1,1,18,94,158,290,418,1313,1695,1759],
  [1,1,18,94,158,356,414,673],
  [1,1,18,94,158,356,414,673,1121],
  [1,1,27,94,158,230,284,929],
  [1,1,36,94,158,228,284,420,1313,1695,1759],
  [1,1,54,94,158,228,286,1249],
  [1,1,72,94,158,226,290,414],
  [1,1,72,94,158,226,418,1313,1695,1759],
  [1,1,72,94,158,228,284,418],
  [1,1,81,94,158,226,929],
  [1,5,486,94,158,226,673,1121],
  [1,7,162,94,158,230,286,1185,1695,1759],
  [1,14,243,94,158,232,282,418,1185,1695,1759],
  [1,16,1215,94,158,232,284,350,673],
  [1,32,243,94,158,232,282,673,1121],
  [1,119,108,94,158,230,284,1249],
  [1,167,1620,94,158,228,286],
  [1,335,3888,94,158,226,290,1185,1695,1759]]

def k432 : List (List ℕ) := [[0,1,1,94,158,230,286,418,1185,1694,1758],
  [0,1,1,94,158,230,290,414,1185,1694,1758],
  [0,1,3,94,158,232,286,414,1695,1759],
  [0,1,6,94,158,226,290,418,1313,1694,1758],
  [0,1,12,94,158,226,290,1695,1759],
  [0,1,18,94,158,226,286,420,1695,1759],
  [0,1,18,94,158,226,286,422,1313,1694,1758],
  [0,2,3,94,158,230,286,418,1313,1694,1758],
  [0,2,3,94,158,230,286,1695,1759],
  [0,2,9,94,158,226,356,414,673,1695,1759],
  [0,2,9,94,158,230,282,420,1695,1759],
  [0,2,9,94,158,230,282,422,1313,1694,1758],
  [0,4,3,94,158,234,282,414,1249],
  [0,4,9,94,158,228,290,414,1695,1759],
  [0,4,9,94,158,234,282,1695,1759],
  [0,5,6,94,158,228,286,420,1313,1694,1758],
  [0,5,12,94,158,228,286,418,1695,1759],
  [0,8,9,94,158,230,284,356,414,673,1695,1759],
  [0,10,9,94,158,228,284,356,414,673,1121],
  [0,10,9,94,158,228,284,356,673,1695,1759],
  [0,41,18,94,158,228,290,1185,1694,1758],
  [1,1,1,94,158,228,292,414,1185,1694,1758],
  [1,1,1,94,158,228,418,1185,1694,1758],
  [1,1,1,94,158,232,284,414,1249],
  [1,1,3,94,158,228,414,1249],
  [1,1,3,94,158,230,284,418,1695,1759],
  [1,1,3,94,158,230,414,1695,1759],
  [1,1,3,94,158,232,284,1695,1759],
  [1,1,6,94,158,226,420,1313,1694,1758],
  [1,1,12,94,158,226,418,1695,1759],
  [1,1,18,94,158,226,292,1185,1694,1758],
  [1,2,3,94,158,230,284,420,1313,1694,1758],
  [1,2,9,94,158,226,286,356,414,673,1121],
  [1,2,9,94,158,226,286,356,673,1695,1759],
  [1,4,9,94,158,234,284,414,1695,1759],
  [1,5,6,94,158,228,418,1313,1694,1758],
  [1,5,18,94,158,228,284,420,1695,1759],
  [1,5,18,94,158,228,284,422,1313,1694,1758],
  [1,8,9,94,158,230,282,356,414,673,1121],
  [1,8,9,94,158,230,282,356,673,1695,1759],
  [1,10,9,94,158,228,286,356,414,673,1695,1759],
  [1,20,9,94,158,230,1185,1694,1758],
  [1,31,36,94,158,228,1695,1759]]

def k433 : List (List ℕ) := [[0,1,2,33,94,159,229,290,414,1185,1694,1758],
  [0,1,3,33,94,159,229,286,418,1313,1694,1758],
  [0,1,9,33,94,159,227,284,356,414,673,1121],
  [0,1,9,33,94,159,227,284,356,673,1695,1759],
  [0,1,9,33,94,159,229,282,420,1695,1759],
  [0,1,9,33,94,159,229,282,422,1313,1694,1758],
  [0,1,18,33,94,159,227,284,354,673,1121],
  [0,1,18,33,94,159,227,290,414,1695,1759],
  [0,1,18,33,94,159,231,286,414,1695,1759],
  [0,1,36,33,94,159,225,292,414,1695,1759],
  [0,1,48,33,94,159,225,420,1313,1694,1758],
  [0,1,72,33,94,159,227,284,420,1695,1759],
  [0,1,81,33,94,159,227,929,1695,1759],
  [0,2,3,33,94,159,233,282,414,1249],
  [0,2,9,33,94,159,233,282,1695,1759],
  [0,4,9,33,94,159,229,284,356,414,673,1695,1759],
  [0,5,432,33,94,159,225,418,1695,1759],
  [0,7,81,33,94,159,229,286,929,1695,1759],
  [0,8,81,33,94,159,231,282,418,929,1695,1759],
  [0,8,243,33,94,159,227,286,420,1185,1694,1758],
  [0,17,216,33,94,159,227,286,1249],
  [0,22,9,33,94,159,231,282,1249],
  [0,25,144,33,94,159,225,292,1185,1694,1758],
  [0,32,1215,33,94,159,229,286,350,418,673,1695,1759],
  [0,32,1215,33,94,159,231,286,350,673,1695,1759],
  [0,49,486,33,94,159,229,284,420,1185,1694,1758],
  [0,56,243,33,94,159,231,284,418,1185,1694,1758],
  [0,74,243,33,94,159,229,284,673,1121],
  [0,89,243,33,94,159,227,290,1185,1694,1758],
  [0,113,29160,33,94,159,227,286,418,1695,1759],
  [0,145,486,33,94,159,229,286,418,1185,1694,1758],
  [0,242,729,33,94,159,231,282,418,1695,1759],
  [0,4289,14580,33,94,159,229,286,1695,1759],
  [1,1,3,33,94,159,229,284,420,1313,1694,1758],
  [1,1,6,33,94,159,227,292,414,1185,1694,1758],
  [1,1,6,33,94,159,229,414,1695,1759],
  [1,1,6,33,94,159,231,284,414,1249],
  [1,1,9,33,94,159,227,286,356,414,673,1695,1759],
  [1,1,12,33,94,159,225,294,414,1185,1694,1758],
  [1,1,12,33,94,159,227,418,1313,1694,1758],
  [1,1,72,33,94,159,225,286,354,673,1121],
  [1,1,81,33,94,159,227,286,418,929,1695,1759],
  [1,1,96,33,94,159,225,286,420,1695,1759],
  [1,1,144,33,94,159,225,286,422,1313,1694,1758],
  [1,2,9,33,94,159,233,284,414,1695,1759],
  [1,4,9,33,94,159,229,282,356,414,673,1121],
  [1,4,9,33,94,159,229,282,356,673,1695,1759],
  [1,5,48,33,94,159,225,290,418,1185,1694,1758],
  [1,7,81,33,94,159,229,284,418,929,1695,1759],
  [1,8,81,33,94,159,231,284,929,1695,1759],
  [1,13,864,33,94,159,225,290,1695,1759],
  [1,19,243,33,94,159,227,286,673,1121],
  [1,28,243,33,94,159,231,282,420,1185,1694,1758],
  [1,28,243,33,94,159,231,286,1185,1694,1758],
  [1,32,1215,33,94,159,229,350,673,1695,1759],
  [1,32,1215,33,94,159,231,284,350,418,673,1695,1759],
  [1,64,243,33,94,159,231,282,673,1121],
  [1,67,36,33,94,159,229,284,1249],
  [1,145,972,33,94,159,227,418,1185,1694,1758],
  [1,491,486,33,94,159,229,1185,1694,1758],
  [1,565,1458,33,94,159,231,284,1695,1759],
  [1,571,3645,33,94,159,227,1695,1759],
  [1,1859,14580,33,94,159,229,284,418,1695,1759]]

def k434 : List (List ℕ) := [[0,1,6,94,157,227],
  [0,2,3,94,157,231,284],
  [0,8,1,94,157,233,282,1249],
  [0,17,6,94,157,229,286,1249],
  [1,1,6,94,157,227,1249],
  [1,5,6,94,157,229,286],
  [1,32,3,94,157,231,284,1249]]

def k435 : List (List ℕ) := [[0,1,12,94,158,226,286,354,673,1121],
  [0,2,27,94,158,226,929],
  [0,2,27,94,158,230,284,929],
  [0,7,6,94,158,230,284,1249],
  [0,13,81,94,158,228,286,673,1121],
  [0,17,81,94,158,228,286,1185],
  [0,44,243,94,158,228,286],
  [1,1,12,94,158,354,673,1121],
  [1,1,18,94,158,290],
  [1,4,27,94,158,228,286,929],
  [1,5,81,94,158,226,673,1121],
  [1,7,6,94,158,228,286,1249],
  [1,7,81,94,158,230,284,1185],
  [1,8,81,94,158,230,284,673,1121],
  [1,10,81,94,158,226,1185],
  [1,10,243,94,158,226],
  [1,41,486,94,158,230,284]]

def k436 : List (List ℕ) := [[0,1,12,94,158,226,286,354,673,1121],
  [0,2,27,94,158,226,929],
  [0,2,27,94,158,230,284,929],
  [0,7,6,94,158,230,284,1249],
  [0,13,81,94,158,228,286,673,1121],
  [0,16,27,94,158,226,1249],
  [0,17,81,94,158,228,286,1185],
  [0,551,972,94,158,228,286],
  [1,1,12,94,158,354,673,1121],
  [1,1,18,94,158,290],
  [1,4,27,94,158,228,286,929],
  [1,5,81,94,158,226,673,1121],
  [1,7,81,94,158,230,284,1185],
  [1,8,81,94,158,230,284,673,1121],
  [1,10,81,94,158,226,1185],
  [1,41,486,94,158,230,284],
  [1,95,54,94,158,228,286,1249],
  [1,415,972,94,158,226]]

def k437 : List (List ℕ) := [[0,1,12,94,158,226,286,354,673,1121],
  [0,1,24,94,158,354,673,1121],
  [0,1,36,94,158,290],
  [0,1,162,94,158,228,286,1185],
  [0,2,27,94,158,230,284,929],
  [0,7,6,94,158,230,284,1249],
  [0,13,81,94,158,228,286,673,1121],
  [0,13,162,94,158,226,1185],
  [0,20,243,94,158,226],
  [1,1,27,94,158,226,929],
  [1,1,27,94,158,228,286,929],
  [1,5,81,94,158,226,673,1121],
  [1,7,6,94,158,228,286,1249],
  [1,7,81,94,158,230,284,1185],
  [1,8,81,94,158,230,284,673,1121],
  [1,25,972,94,158,228,286],
  [1,41,486,94,158,230,284]]

def k438 : List (List ℕ) := [[0,1,6,94,158,226,286,354,1121],
  [0,1,6,94,158,354],
  [0,2,27,94,158,226,1121],
  [0,2,27,94,158,228,286],
  [1,1,6,94,158,226,286,354],
  [1,1,6,94,158,354,1121],
  [1,2,27,94,158,226],
  [1,2,27,94,158,228,286,1121]]

def k439 : List (List ℕ) := [[0,1,12,94,158,230,286,354,1121,1374,1438],
  [0,1,16,94,158,228,354,1249,1374,1438],
  [0,1,24,94,158,226,356,1121,1374,1438],
  [0,1,32,94,158,226,286,356,1375,1439],
  [0,1,32,94,158,228,286,354,1375,1439],
  [0,1,48,94,158,226,286,358,1121,1374,1438],
  [1,1,12,94,158,228,354,1121,1374,1438],
  [1,1,16,94,158,230,286,354,1249,1374,1438],
  [1,1,24,94,158,228,286,356,1121,1374,1438],
  [1,1,32,94,158,226,354,1375,1439],
  [1,1,32,94,158,356,1375,1439],
  [1,1,48,94,158,358,1121,1374,1438]]

def k440 : List (List ℕ) := [[0,1,72,94,158,230,356,1249,1372,1436],
  [0,2,27,94,158,234,286,1373,1437],
  [0,2,27,94,158,236,286,1121,1372,1436],
  [0,5,48,94,158,234,286,354,1249,1372,1436],
  [0,5,96,94,158,360,1373,1437],
  [0,7,48,94,158,362,1121,1372,1436],
  [0,8,27,94,158,228,286,360,1249,1372,1436],
  [0,13,36,94,158,228,286,360,1121,1372,1436],
  [0,25,24,94,158,232,286,356,1121,1372,1436],
  [0,59,108,94,158,232,354,1121,1372,1436],
  [0,109,144,94,158,228,358,1121,1372,1436],
  [0,151,288,94,158,230,354,1373,1437],
  [0,179,432,94,158,228,358,1249,1372,1436],
  [0,311,864,94,158,226,358,1373,1437],
  [0,769,864,94,158,230,286,356,1373,1437],
  [1,1,72,94,158,232,286,356,1249,1372,1436],
  [1,2,27,94,158,232,1373,1437],
  [1,2,27,94,158,234,1121,1372,1436],
  [1,5,48,94,158,232,354,1249,1372,1436],
  [1,5,96,94,158,226,286,360,1373,1437],
  [1,7,48,94,158,226,286,362,1121,1372,1436],
  [1,8,27,94,158,226,360,1249,1372,1436],
  [1,13,36,94,158,226,360,1121,1372,1436],
  [1,25,24,94,158,230,356,1121,1372,1436],
  [1,59,108,94,158,234,286,354,1121,1372,1436],
  [1,109,144,94,158,230,286,358,1121,1372,1436],
  [1,151,288,94,158,232,286,354,1373,1437],
  [1,179,432,94,158,230,286,358,1249,1372,1436],
  [1,311,864,94,158,228,286,358,1373,1437],
  [1,769,864,94,158,228,356,1373,1437]]

def k441 : List (List ℕ) := [[0,1,2,94,158,227,286,359,607,1373,1437],
  [0,1,18,94,158,233,353,607,1249,1372,1436],
  [0,1,18,94,158,235,286,353,607,1121,1372,1436],
  [0,3,2,94,158,229,357,607,1121,1372,1436],
  [0,3,2,94,158,231,286,357,607,1249,1372,1436],
  [0,5,6,94,158,227,359,607,1249,1372,1436],
  [0,5,6,94,158,229,286,359,607,1121,1372,1436],
  [0,5,9,94,158,231,355,607,1249,1372,1436],
  [0,5,9,94,158,233,286,355,607,1121,1372,1436],
  [0,17,54,94,158,233,286,353,607,1373,1437],
  [0,35,108,94,158,229,355,607,1373,1437],
  [0,59,108,94,158,227,357,607,1373,1437],
  [1,1,2,94,158,225,359,607,1373,1437],
  [1,1,18,94,158,233,353,607,1121,1372,1436],
  [1,1,18,94,158,235,286,353,607,1249,1372,1436],
  [1,3,2,94,158,229,357,607,1249,1372,1436],
  [1,3,2,94,158,231,286,357,607,1121,1372,1436],
  [1,5,6,94,158,227,359,607,1121,1372,1436],
  [1,5,6,94,158,229,286,359,607,1249,1372,1436],
  [1,5,9,94,158,231,355,607,1121,1372,1436],
  [1,5,9,94,158,233,286,355,607,1249,1372,1436],
  [1,17,54,94,158,231,353,607,1373,1437],
  [1,35,108,94,158,231,286,355,607,1373,1437],
  [1,59,108,94,158,229,286,357,607,1373,1437]]

def k442 : List (List ℕ) := [[0,1,6,94,156,234,286,354,1249,1372,1436],
  [0,1,12,94,156,226,286,360,1373,1437],
  [0,1,18,94,156,230,286,358,1121,1372,1436],
  [0,2,9,94,156,226,360,1121,1372,1436],
  [0,2,27,94,156,234,286,1373,1437],
  [0,2,27,94,156,236,286,1121,1372,1436],
  [0,5,36,94,156,230,356,1249,1372,1436],
  [0,7,12,94,156,232,286,356,1121,1372,1436],
  [0,8,27,94,156,228,286,360,1249,1372,1436],
  [0,13,18,94,156,230,354,1373,1437],
  [0,19,54,94,156,228,358,1249,1372,1436],
  [0,25,54,94,156,232,354,1121,1372,1436],
  [0,179,216,94,156,226,358,1373,1437],
  [0,307,216,94,156,230,286,356,1373,1437],
  [1,1,6,94,156,232,354,1249,1372,1436],
  [1,1,12,94,156,360,1373,1437],
  [1,1,18,94,156,228,358,1121,1372,1436],
  [1,2,9,94,156,228,286,360,1121,1372,1436],
  [1,2,27,94,156,232,1373,1437],
  [1,2,27,94,156,234,1121,1372,1436],
  [1,5,36,94,156,232,286,356,1249,1372,1436],
  [1,7,12,94,156,230,356,1121,1372,1436],
  [1,8,27,94,156,226,360,1249,1372,1436],
  [1,13,18,94,156,232,286,354,1373,1437],
  [1,19,54,94,156,230,286,358,1249,1372,1436],
  [1,25,54,94,156,234,286,354,1121,1372,1436],
  [1,179,216,94,156,228,286,358,1373,1437],
  [1,307,216,94,156,228,356,1373,1437]]

def k443 : List (List ℕ) := [[0,1,12,94,158,226,360,1121,1372,1436],
  [0,1,12,94,158,232,286,356,1121,1372,1436],
  [0,1,16,94,158,228,358,1249,1372,1436],
  [0,1,16,94,158,232,354,1249,1372,1436],
  [0,1,18,94,158,232,286,356,1249,1372,1436],
  [0,1,27,94,158,234,286,1373,1437],
  [0,1,27,94,158,236,286,1121,1372,1436],
  [0,1,32,94,158,226,286,360,1373,1437],
  [0,1,48,94,158,226,286,362,1121,1372,1436],
  [0,1,48,94,158,234,286,354,1249,1372,1436],
  [0,1,96,94,158,360,1373,1437],
  [0,4,27,94,158,228,286,360,1249,1372,1436],
  [0,5,24,94,158,230,356,1121,1372,1436],
  [0,5,32,94,158,228,356,1373,1437],
  [0,31,144,94,158,230,286,358,1121,1372,1436],
  [0,479,864,94,158,230,286,356,1373,1437],
  [1,1,8,94,158,230,356,1249,1372,1436],
  [1,1,12,94,158,232,354,1121,1372,1436],
  [1,1,48,94,158,362,1121,1372,1436],
  [1,3,16,94,158,228,358,1121,1372,1436],
  [1,3,32,94,158,226,358,1373,1437],
  [1,4,27,94,158,234,286,354,1121,1372,1436],
  [1,7,36,94,158,228,286,360,1121,1372,1436],
  [1,7,96,94,158,230,354,1373,1437],
  [1,83,288,94,158,232,286,354,1373,1437],
  [1,103,432,94,158,230,286,358,1249,1372,1436],
  [1,277,864,94,158,228,286,358,1373,1437]]

def k444 : List (List ℕ) := [[0,1,12,33,94,159,233,286,354,1249,1372,1436],
  [0,1,24,33,94,159,225,286,360,1373,1437],
  [0,2,27,33,94,159,233,286,1373,1437],
  [0,2,27,33,94,159,235,286,1121,1372,1436],
  [0,3,8,33,94,159,231,286,356,1121,1372,1436],
  [0,5,36,33,94,159,229,286,358,1121,1372,1436],
  [0,5,72,33,94,159,231,286,356,1249,1372,1436],
  [0,55,216,33,94,159,227,286,360,1249,1372,1436],
  [0,113,108,33,94,159,229,286,356,1373,1437],
  [1,13,72,33,94,159,227,286,360,1121,1372,1436],
  [1,29,54,33,94,159,227,286,358,1373,1437],
  [1,41,108,33,94,159,233,286,354,1121,1372,1436],
  [1,43,72,33,94,159,231,286,354,1373,1437],
  [1,47,108,33,94,159,229,286,358,1249,1372,1436]]

def k445 : List (List ℕ) := [[0,1,2,94,157,227,358,1121,1373,1437],
  [0,1,2,94,157,229,286,358,1249,1373,1437],
  [0,1,4,94,157,231,286,354,1374,1438],
  [0,3,4,94,157,227,356,1374,1438],
  [1,1,2,94,157,227,358,1249,1373,1437],
  [1,1,2,94,157,229,286,358,1121,1373,1437],
  [1,1,4,94,157,229,354,1374,1438],
  [1,3,4,94,157,229,286,356,1374,1438]]

def k446 : List (List ℕ) := [[0,1,9,94,159,228,284,355,414,607,673],
  [0,1,9,94,159,228,284,355,414,607,673,1121],
  [1,1,18,94,159,226,286,355,414,607,673],
  [1,1,18,94,159,226,286,355,414,607,673,1121],
  [1,1,18,94,159,355,414,607,673],
  [1,1,18,94,159,355,414,607,673,1121]]

def k447 : List (List ℕ) := [[0,1,12,94,158,354],
  [1,1,12,94,158,226,286,354]]

def k448 : List (List ℕ) := [[0,1,12,94,158,226,286,354],
  [1,1,12,94,158,354]]

def k449 : List (List ℕ) := [[0,1,6,94,158,228,354,1121,1374,1438],
  [0,1,8,94,158,230,286,354,1249,1374,1438],
  [0,1,12,94,158,228,286,356,1121,1374,1438],
  [0,1,24,94,158,358,1121,1374,1438],
  [0,1,48,94,158,226,286,356,1375,1439],
  [0,7,48,94,158,226,354,1375,1439],
  [1,1,6,94,158,230,286,354,1121,1374,1438],
  [1,1,8,94,158,228,354,1249,1374,1438],
  [1,1,12,94,158,226,356,1121,1374,1438],
  [1,1,24,94,158,226,286,358,1121,1374,1438],
  [1,1,48,94,158,356,1375,1439],
  [1,7,48,94,158,228,286,354,1375,1439]]

def k450 : List (List ℕ) := [[0,1,12,33,94,159,228,286,357,607,1121,1373,1437],
  [0,1,16,33,94,159,228,286,355,607,1374,1438],
  [0,1,24,33,94,159,230,286,355,607,1249,1373,1437],
  [0,1,48,33,94,159,226,286,357,607,1374,1438],
  [1,1,12,33,94,159,228,286,357,607,1249,1373,1437],
  [1,1,24,33,94,159,230,286,353,607,1374,1438],
  [1,1,24,33,94,159,230,286,355,607,1121,1373,1437]]

def k451 : List (List ℕ) := [[0,1,6,94,158,227,357,607,1121,1373,1437],
  [0,1,6,94,158,229,286,357,607,1249,1373,1437],
  [0,1,8,94,158,227,355,607,1374,1438],
  [0,1,12,94,158,229,355,607,1249,1373,1437],
  [0,1,12,94,158,231,286,353,607,1374,1438],
  [0,1,12,94,158,231,286,355,607,1121,1373,1437],
  [0,1,24,94,158,225,357,607,1374,1438],
  [1,1,6,94,158,227,357,607,1249,1373,1437],
  [1,1,6,94,158,229,286,357,607,1121,1373,1437],
  [1,1,8,94,158,229,286,355,607,1374,1438],
  [1,1,12,94,158,229,353,607,1374,1438],
  [1,1,12,94,158,229,355,607,1121,1373,1437],
  [1,1,12,94,158,231,286,355,607,1249,1373,1437],
  [1,1,24,94,158,227,286,357,607,1374,1438]]

def k452 : List (List ℕ) := [[0,1,12,94,158,226,286,354,673,1121],
  [0,1,27,94,158,226,673,1121],
  [1,1,12,94,158,354,673,1121],
  [1,1,27,94,158,228,286,673,1121]]

def k453 : List (List ℕ) := [[0,1,12,94,158,354,673,1121],
  [0,1,27,94,158,228,286,673,1121],
  [1,1,12,94,158,226,286,354,673,1121],
  [1,1,27,94,158,226,673,1121]]

def k454 : List (List ℕ) := [[0,1,12,94,158,354,673,1121],
  [0,1,27,94,158,226,673,1121],
  [1,1,12,94,158,226,286,354,673,1121],
  [1,1,27,94,158,228,286,673,1121]]

def k455 : List (List ℕ) := [[0,1,12,33,94,159,228,286,353,607,1249,1631],
  [1,1,12,33,94,159,228,286,353,607,1121,1375,1439]]

def k456 : List (List ℕ) := [[0,1,18,94,158,226,286,354,673,1121],
  [0,1,18,94,158,354,673,1121],
  [0,1,81,94,158,226,673,1121],
  [0,4,81,94,158,230,284,673,1121],
  [1,1,9,94,158,228,284,354,673,1121],
  [1,5,81,94,158,228,286,673,1121]]

def k457 : List (List ℕ) := [[0,1,9,94,158,228,284,354,673,1121],
  [0,5,81,94,158,228,286,673,1121],
  [1,1,18,94,158,226,286,354,673,1121],
  [1,1,18,94,158,354,673,1121],
  [1,1,81,94,158,226,673,1121],
  [1,4,81,94,158,230,284,673,1121]]

def k458 : List (List ℕ) := [[0,1,9,94,158,228,284,354,673,1121],
  [0,1,81,94,158,226,673,1121],
  [0,4,81,94,158,230,284,673,1121],
  [1,1,18,94,158,226,286,354,673,1121],
  [1,1,18,94,158,354,673,1121],
  [1,5,81,94,158,228,286,673,1121]]

def k459 : List (List ℕ) := [[0,1,81,33,94,159,228,286,351,609,673],
  [0,17,54,33,94,159,228,284,353,607,673,1121],
  [1,1,81,33,94,159,230,284,351,609,673],
  [1,4,27,33,94,159,230,282,353,609,673,1121],
  [1,13,216,33,94,159,226,286,353,607,673,1121]]

def k460 : List (List ℕ) := [[0,2,81,94,158,227,351,609,673],
  [0,2,81,94,158,231,284,351,609,673],
  [0,8,27,94,158,231,282,353,609,673,1121],
  [0,41,108,94,158,227,286,353,607,673,1121],
  [1,4,81,94,158,229,286,351,609,673],
  [1,5,108,94,158,225,353,607,673,1121],
  [1,25,27,94,158,229,284,353,607,673,1121]]

def k461 : List (List ℕ) := [[0,1,6,94,158,226,1185],
  [0,1,6,94,158,290,1185],
  [0,1,12,94,158,226],
  [0,1,12,94,158,290],
  [0,2,9,94,158,228,286,929],
  [1,1,3,94,158,228,286,1185],
  [1,1,6,94,158,228,286],
  [1,1,9,94,158,226,929],
  [1,1,9,94,158,290,929]]

def k462 : List (List ℕ) := [[0,1,3,94,156,228,286,418,1313,1695,1759],
  [0,1,3,94,156,228,290,414,1185,1695,1759],
  [0,1,3,94,156,228,414,1249],
  [0,1,3,94,156,230,286,414,1249],
  [0,1,4,94,156,292,1185,1695,1759],
  [0,1,9,94,156,230,286,414],
  [0,1,12,94,156,226,286,420,1313,1695,1759],
  [0,1,12,94,156,420,1313,1695,1759],
  [0,1,18,94,156,226,286,354,673,1121],
  [0,1,18,94,156,226,290,414],
  [0,1,18,94,156,292,414],
  [0,1,18,94,156,354,673,1121],
  [0,4,9,94,156,228,284,356,414,673],
  [0,4,9,94,156,228,284,356,414,673,1121],
  [0,7,72,94,156,226,286,418],
  [0,7,72,94,156,418],
  [0,8,81,94,156,226,929],
  [0,16,81,94,156,232,282,929],
  [0,22,81,94,156,228,286,673,1121],
  [0,32,1215,94,156,228,350,673],
  [0,32,1215,94,156,232,284,350,673],
  [0,52,81,94,156,230,284,418,1185,1695,1759],
  [0,64,243,94,156,232,282,673,1121],
  [0,92,243,94,156,232,284,1185,1695,1759],
  [0,112,27,94,156,230,284,1249],
  [0,152,1215,94,156,230,284],
  [0,319,972,94,156,226,290,1185,1695,1759],
  [0,853,1620,94,156,228,286],
  [1,1,3,94,156,226,1249],
  [1,1,6,94,156,226,292,414,1185,1695,1759],
  [1,1,6,94,156,226,418,1313,1695,1759],
  [1,1,6,94,156,228,284,420,1313,1695,1759],
  [1,1,6,94,156,290,418,1313,1695,1759],
  [1,1,6,94,156,294,414,1185,1695,1759],
  [1,1,9,94,156,228,284,354,673,1121],
  [1,2,3,94,156,232,284,414,1249],
  [1,2,9,94,156,226,286,356,414,673],
  [1,2,9,94,156,226,286,356,414,673,1121],
  [1,2,9,94,156,232,284,414],
  [1,2,9,94,156,356,414,673],
  [1,2,9,94,156,356,414,673,1121],
  [1,5,27,94,156,228,286,418,1185,1695,1759],
  [1,7,36,94,156,228,284,418],
  [1,8,27,94,156,230,284,929],
  [1,10,243,94,156,226,673,1121],
  [1,17,54,94,156,228,1185,1695,1759],
  [1,19,27,94,156,228,286,1249],
  [1,19,243,94,156,226,418,1185,1695,1759],
  [1,23,216,94,156,290],
  [1,28,9,94,156,232,282,1249],
  [1,40,81,94,156,230,284,673,1121],
  [1,52,81,94,156,230,286,1185,1695,1759],
  [1,64,1215,94,156,230,286,350,673],
  [1,92,243,94,156,232,282,418,1185,1695,1759],
  [1,362,729,94,156,232,282],
  [1,1417,29160,94,156,226]]

def k463 : List (List ℕ) := [[0,1,3,94,228,284],
  [0,1,3,94,228,284,1313],
  [1,1,6,94],
  [1,1,6,94,226,286],
  [1,1,6,94,226,286,1313],
  [1,1,6,94,1313]]

def k464 : List (List ℕ) := [[0,1,3,94,158,226,290,418,1185,1694,1758],
  [0,1,3,94,158,226,290,418,1313,1694,1758],
  [0,1,3,94,158,226,294,414,1185,1694,1758],
  [0,1,3,94,158,292,418,1185,1694,1758],
  [0,1,3,94,158,296,414,1185,1694,1758],
  [0,1,9,94,158,226,286,420,1695,1759],
  [0,1,9,94,158,226,286,422,1313,1694,1758],
  [0,1,9,94,158,292,1695,1759],
  [0,2,1,94,158,230,286,418,1185,1694,1758],
  [0,2,1,94,158,230,290,414,1185,1694,1758],
  [0,2,3,94,158,230,286,414,1249],
  [0,4,3,94,158,230,286,418,1313,1694,1758],
  [0,4,9,94,158,226,356,414,673,1695,1759],
  [0,4,9,94,158,230,282,420,1695,1759],
  [0,4,9,94,158,230,282,422,1313,1694,1758],
  [0,5,3,94,158,228,286,420,1313,1694,1758],
  [0,5,6,94,158,228,286,418,1695,1759],
  [0,5,18,94,158,226,290,1695,1759],
  [0,8,3,94,158,234,282,414,1249],
  [0,8,9,94,158,228,290,414,1695,1759],
  [0,8,9,94,158,234,282,1695,1759],
  [0,10,9,94,158,232,286,414,1695,1759],
  [0,14,9,94,158,230,286,1695,1759],
  [0,16,9,94,158,230,284,356,414,673,1695,1759],
  [0,20,9,94,158,228,284,356,414,673,1121],
  [0,20,9,94,158,228,284,356,673,1695,1759],
  [0,53,9,94,158,228,290,1185,1694,1758],
  [1,1,3,94,158,226,420,1313,1694,1758],
  [1,1,6,94,158,226,418,1695,1759],
  [1,1,9,94,158,226,292,414,1695,1759],
  [1,1,9,94,158,294,414,1695,1759],
  [1,2,3,94,158,230,284,418,1695,1759],
  [1,2,3,94,158,294,1185,1694,1758],
  [1,4,3,94,158,230,284,420,1313,1694,1758],
  [1,4,9,94,158,226,286,356,414,673,1121],
  [1,4,9,94,158,226,286,356,673,1695,1759],
  [1,5,3,94,158,228,418,1313,1694,1758],
  [1,5,9,94,158,228,284,420,1695,1759],
  [1,5,9,94,158,228,284,422,1313,1694,1758],
  [1,7,9,94,158,226,292,1185,1694,1758],
  [1,8,3,94,158,228,292,414,1185,1694,1758],
  [1,8,3,94,158,228,418,1185,1694,1758],
  [1,8,9,94,158,230,414,1695,1759],
  [1,8,9,94,158,234,284,414,1695,1759],
  [1,10,3,94,158,232,284,414,1249],
  [1,10,9,94,158,232,284,1695,1759],
  [1,16,9,94,158,230,282,356,414,673,1121],
  [1,16,9,94,158,230,282,356,673,1695,1759],
  [1,20,9,94,158,228,286,356,414,673,1695,1759],
  [1,31,18,94,158,228,1695,1759],
  [1,40,9,94,158,230,1185,1694,1758]]

def k465 : List (List ℕ) := [[0,1,2,94,158,226,290,1185,1695,1759],
  [0,1,2,94,158,292,1185,1695,1759],
  [0,1,9,94,158,226,290,414],
  [0,1,9,94,158,292,414],
  [0,2,3,94,158,228,290,414,1185,1695,1759],
  [0,2,3,94,158,228,414,1249],
  [0,2,3,94,158,230,286,414,1249],
  [0,2,9,94,158,230,286,414],
  [0,5,18,94,158,226,286,420,1313,1695,1759],
  [0,5,18,94,158,228,286],
  [0,5,18,94,158,420,1313,1695,1759],
  [0,8,9,94,158,228,284,356,414,673],
  [0,8,9,94,158,228,284,356,414,673,1121],
  [0,8,9,94,158,228,286,418,1313,1695,1759],
  [0,11,36,94,158,226,286,418],
  [0,11,36,94,158,418],
  [1,1,1,94,158,228,1185,1695,1759],
  [1,1,3,94,158,226,292,414,1185,1695,1759],
  [1,1,3,94,158,294,414,1185,1695,1759],
  [1,4,3,94,158,232,284,414,1249],
  [1,4,9,94,158,226,286,356,414,673],
  [1,4,9,94,158,226,286,356,414,673,1121],
  [1,4,9,94,158,226,418,1313,1695,1759],
  [1,4,9,94,158,232,284,414],
  [1,4,9,94,158,290,418,1313,1695,1759],
  [1,4,9,94,158,356,414,673],
  [1,4,9,94,158,356,414,673,1121],
  [1,5,9,94,158,228,284,420,1313,1695,1759],
  [1,5,36,94,158,226],
  [1,5,36,94,158,290],
  [1,11,18,94,158,228,284,418]]

def k466 : List (List ℕ) := [[0,1,3,94,158,228,290,414,1185,1695,1759],
  [0,1,9,94,158,228,286,418,1313,1695,1759],
  [0,1,9,94,158,290,418,1313,1695,1759],
  [0,1,9,94,158,356,414,673],
  [0,1,9,94,158,356,414,673,1121],
  [0,1,18,94,158,228,284,420,1313,1695,1759],
  [0,1,27,94,158,228,286,1249],
  [0,1,27,94,158,290],
  [0,1,36,94,158,226,290,414],
  [0,1,36,94,158,226,418,1313,1695,1759],
  [0,1,36,94,158,228,284,418],
  [0,2,9,94,158,228,284,356,414,673],
  [0,2,9,94,158,228,284,356,414,673,1121],
  [0,5,243,94,158,226,673,1121],
  [0,16,81,94,158,232,282,929],
  [0,19,486,94,158,226,418,1185,1695,1759],
  [0,26,81,94,158,230,284,418,1185,1695,1759],
  [0,32,1215,94,158,232,284,350,673],
  [0,64,243,94,158,232,282,673,1121],
  [0,92,243,94,158,232,284,1185,1695,1759],
  [0,119,54,94,158,230,284,1249],
  [0,167,810,94,158,228,286],
  [0,167,1944,94,158,226,290,1185,1695,1759],
  [0,935,11664,94,158,226],
  [1,1,2,94,158,228,1185,1695,1759],
  [1,1,3,94,158,232,284,414,1249],
  [1,1,6,94,158,228,414],
  [1,1,6,94,158,228,414,1249],
  [1,1,9,94,158,232,284,414],
  [1,1,9,94,158,418],
  [1,1,9,94,158,420,1313,1695,1759],
  [1,1,12,94,158,226,292,414,1185,1695,1759],
  [1,1,16,94,158,226,286,418],
  [1,1,18,94,158,354,673,1121],
  [1,1,36,94,158,226,286,354,673,1121],
  [1,4,27,94,158,230,284,929],
  [1,4,81,94,158,226,929],
  [1,5,72,94,158,226,286,420,1313,1695,1759],
  [1,20,81,94,158,230,284,673,1121],
  [1,26,81,94,158,230,286,1185,1695,1759],
  [1,28,9,94,158,232,282,1249],
  [1,32,1215,94,158,230,286,350,673],
  [1,92,243,94,158,232,282,418,1185,1695,1759],
  [1,158,1215,94,158,230,284],
  [1,362,729,94,158,232,282]]

def k467 : List (List ℕ) := [[0,1,3,94,158,226,420,1313,1694,1758],
  [0,1,6,94,158,226,418,1695,1759],
  [0,1,9,94,158,226,292,1185,1694,1758],
  [0,2,1,94,158,228,292,414,1185,1694,1758],
  [0,2,1,94,158,228,418,1185,1694,1758],
  [0,2,1,94,158,232,284,414,1249],
  [0,2,3,94,158,228,414,1249],
  [0,2,3,94,158,230,284,418,1695,1759],
  [0,2,3,94,158,230,414,1695,1759],
  [0,2,3,94,158,232,284,1695,1759],
  [0,4,3,94,158,230,284,420,1313,1694,1758],
  [0,4,9,94,158,226,286,356,414,673,1121],
  [0,4,9,94,158,226,286,356,673,1695,1759],
  [0,5,3,94,158,228,418,1313,1694,1758],
  [0,5,9,94,158,228,284,420,1695,1759],
  [0,5,9,94,158,228,284,422,1313,1694,1758],
  [0,8,9,94,158,234,284,414,1695,1759],
  [0,16,9,94,158,230,282,356,414,673,1121],
  [0,16,9,94,158,230,282,356,673,1695,1759],
  [0,20,9,94,158,228,286,356,414,673,1695,1759],
  [0,31,18,94,158,228,1695,1759],
  [0,40,9,94,158,230,1185,1694,1758],
  [1,1,3,94,158,226,290,418,1313,1694,1758],
  [1,1,6,94,158,226,290,1695,1759],
  [1,1,9,94,158,226,286,420,1695,1759],
  [1,1,9,94,158,226,286,422,1313,1694,1758],
  [1,2,1,94,158,230,286,418,1185,1694,1758],
  [1,2,1,94,158,230,290,414,1185,1694,1758],
  [1,2,3,94,158,232,286,414,1695,1759],
  [1,4,3,94,158,230,286,418,1313,1694,1758],
  [1,4,3,94,158,230,286,1695,1759],
  [1,4,9,94,158,226,356,414,673,1695,1759],
  [1,4,9,94,158,230,282,420,1695,1759],
  [1,4,9,94,158,230,282,422,1313,1694,1758],
  [1,5,3,94,158,228,286,420,1313,1694,1758],
  [1,5,6,94,158,228,286,418,1695,1759],
  [1,8,3,94,158,234,282,414,1249],
  [1,8,9,94,158,228,290,414,1695,1759],
  [1,8,9,94,158,234,282,1695,1759],
  [1,16,9,94,158,230,284,356,414,673,1695,1759],
  [1,20,9,94,158,228,284,356,414,673,1121],
  [1,20,9,94,158,228,284,356,673,1695,1759],
  [1,41,9,94,158,228,290,1185,1694,1758]]

def k468 : List (List ℕ) := [[0,1,3,33,94,159,227,292,414,1185,1694,1758],
  [0,1,3,33,94,159,229,414,1695,1759],
  [0,1,3,33,94,159,231,284,414,1249],
  [0,1,6,33,94,159,225,294,414,1185,1694,1758],
  [0,1,6,33,94,159,227,418,1313,1694,1758],
  [0,1,36,33,94,159,225,286,354,673,1121],
  [0,1,48,33,94,159,225,286,420,1695,1759],
  [0,1,72,33,94,159,225,286,422,1313,1694,1758],
  [0,2,3,33,94,159,229,284,420,1313,1694,1758],
  [0,2,9,33,94,159,227,286,356,414,673,1695,1759],
  [0,4,9,33,94,159,233,284,414,1695,1759],
  [0,4,81,33,94,159,227,929,1695,1759],
  [0,5,24,33,94,159,225,290,418,1185,1694,1758],
  [0,8,9,33,94,159,229,282,356,414,673,1121],
  [0,8,9,33,94,159,229,282,356,673,1695,1759],
  [0,28,81,33,94,159,229,286,929,1695,1759],
  [0,32,81,33,94,159,231,282,418,929,1695,1759],
  [0,37,432,33,94,159,225,290,1695,1759],
  [0,38,243,33,94,159,227,286,673,1121],
  [0,64,1215,33,94,159,229,350,673,1695,1759],
  [0,64,1215,33,94,159,231,284,350,418,673,1695,1759],
  [0,67,18,33,94,159,229,284,1249],
  [0,128,243,33,94,159,231,282,673,1121],
  [0,133,486,33,94,159,227,418,1185,1694,1758],
  [0,188,243,33,94,159,229,284,420,1185,1694,1758],
  [0,368,243,33,94,159,231,284,418,1185,1694,1758],
  [0,728,243,33,94,159,229,1185,1694,1758],
  [0,1129,729,33,94,159,231,284,1695,1759],
  [0,2722,3645,33,94,159,229,284,418,1695,1759],
  [0,4807,14580,33,94,159,227,286,418,1695,1759],
  [1,1,1,33,94,159,229,290,414,1185,1694,1758],
  [1,1,9,33,94,159,227,284,354,673,1121],
  [1,1,9,33,94,159,227,290,414,1695,1759],
  [1,1,9,33,94,159,231,286,414,1695,1759],
  [1,1,18,33,94,159,225,292,414,1695,1759],
  [1,1,24,33,94,159,225,420,1313,1694,1758],
  [1,1,36,33,94,159,227,284,420,1695,1759],
  [1,2,3,33,94,159,229,286,418,1313,1694,1758],
  [1,2,9,33,94,159,227,284,356,414,673,1121],
  [1,2,9,33,94,159,227,284,356,673,1695,1759],
  [1,2,9,33,94,159,229,282,420,1695,1759],
  [1,2,9,33,94,159,229,282,422,1313,1694,1758],
  [1,4,3,33,94,159,233,282,414,1249],
  [1,4,9,33,94,159,233,282,1695,1759],
  [1,4,81,33,94,159,227,286,418,929,1695,1759],
  [1,8,9,33,94,159,229,284,356,414,673,1695,1759],
  [1,13,243,33,94,159,227,286,420,1185,1694,1758],
  [1,17,108,33,94,159,227,286,1249],
  [1,17,216,33,94,159,225,418,1695,1759],
  [1,25,72,33,94,159,225,292,1185,1694,1758],
  [1,28,81,33,94,159,229,284,418,929,1695,1759],
  [1,32,81,33,94,159,231,284,929,1695,1759],
  [1,44,9,33,94,159,231,282,1249],
  [1,64,1215,33,94,159,229,286,350,418,673,1695,1759],
  [1,64,1215,33,94,159,231,286,350,673,1695,1759],
  [1,88,3645,33,94,159,227,1695,1759],
  [1,148,243,33,94,159,229,284,673,1121],
  [1,175,243,33,94,159,227,290,1185,1694,1758],
  [1,184,243,33,94,159,231,282,420,1185,1694,1758],
  [1,184,243,33,94,159,231,286,1185,1694,1758],
  [1,619,243,33,94,159,229,286,418,1185,1694,1758],
  [1,1048,729,33,94,159,231,282,418,1695,1759],
  [1,3937,3645,33,94,159,229,286,1695,1759]]

def k469 : List (List ℕ) := [[0,1,3,94,157,227,1249],
  [0,5,3,94,157,229,286],
  [0,64,3,94,157,231,284,1249],
  [1,1,3,94,157,227],
  [1,4,3,94,157,231,284],
  [1,16,1,94,157,233,282,1249],
  [1,17,3,94,157,229,286,1249]]

def k470 : List (List ℕ) := [[0,1,6,94,158,354,673,1121],
  [0,7,3,94,158,228,286,1249],
  [0,8,27,94,158,226,929],
  [0,8,27,94,158,230,284,929],
  [0,10,81,94,158,226,673,1121],
  [0,16,81,94,158,230,284,673,1121],
  [0,74,81,94,158,228,286,1185],
  [0,317,243,94,158,228,286],
  [1,1,6,94,158,226,286,354,673,1121],
  [1,2,9,94,158,290],
  [1,7,3,94,158,230,284,1249],
  [1,16,27,94,158,228,286,929],
  [1,26,81,94,158,228,286,673,1121],
  [1,34,81,94,158,226,1185],
  [1,40,81,94,158,230,284,1185],
  [1,61,243,94,158,226],
  [1,202,243,94,158,230,284]]

def k471 : List (List ℕ) := [[0,1,6,94,158,354,673,1121],
  [0,8,27,94,158,226,929],
  [0,8,27,94,158,230,284,929],
  [0,10,81,94,158,226,673,1121],
  [0,16,81,94,158,230,284,673,1121],
  [0,74,81,94,158,228,286,1185],
  [0,95,27,94,158,228,286,1249],
  [0,253,486,94,158,226],
  [0,259,486,94,158,228,286],
  [1,1,6,94,158,226,286,354,673,1121],
  [1,2,9,94,158,290],
  [1,7,3,94,158,230,284,1249],
  [1,16,27,94,158,228,286,929],
  [1,26,81,94,158,228,286,673,1121],
  [1,32,27,94,158,226,1249],
  [1,34,81,94,158,226,1185],
  [1,40,81,94,158,230,284,1185],
  [1,202,243,94,158,230,284]]

def k472 : List (List ℕ) := [[0,1,12,94,158,226,286,354,673,1121],
  [0,1,24,94,158,354,673,1121],
  [0,2,27,94,158,226,929],
  [0,2,27,94,158,228,286,929],
  [0,7,6,94,158,230,284,1249],
  [0,13,81,94,158,228,286,673,1121],
  [0,26,81,94,158,230,284,1185],
  [0,31,486,94,158,228,286],
  [0,80,243,94,158,230,284],
  [1,1,18,94,158,290],
  [1,1,81,94,158,226,1185],
  [1,4,27,94,158,230,284,929],
  [1,5,81,94,158,226,673,1121],
  [1,7,6,94,158,228,286,1249],
  [1,8,81,94,158,230,284,673,1121],
  [1,25,81,94,158,228,286,1185],
  [1,82,243,94,158,226]]

def k473 : List (List ℕ) := [[0,1,3,94,158,226,286,354],
  [0,1,3,94,158,354,1121],
  [0,4,27,94,158,226],
  [0,4,27,94,158,228,286,1121],
  [1,1,3,94,158,226,286,354,1121],
  [1,1,3,94,158,354],
  [1,4,27,94,158,226,1121],
  [1,4,27,94,158,228,286]]

def k474 : List (List ℕ) := [[0,1,12,94,158,226,286,354],
  [0,1,24,94,158,354],
  [0,1,27,94,158,226,1121],
  [0,1,27,94,158,228,286],
  [1,1,12,94,158,226,286,354,1121],
  [1,1,24,94,158,354,1121],
  [1,1,27,94,158,226],
  [1,1,27,94,158,228,286,1121]]

def k475 : List (List ℕ) := [[0,1,6,94,158,228,354,1121,1374,1438],
  [0,1,8,94,158,230,286,354,1249,1374,1438],
  [0,1,12,94,158,228,286,356,1121,1374,1438],
  [0,1,16,94,158,226,354,1375,1439],
  [0,1,16,94,158,356,1375,1439],
  [0,1,24,94,158,358,1121,1374,1438],
  [1,1,6,94,158,230,286,354,1121,1374,1438],
  [1,1,8,94,158,228,354,1249,1374,1438],
  [1,1,12,94,158,226,356,1121,1374,1438],
  [1,1,16,94,158,226,286,356,1375,1439],
  [1,1,16,94,158,228,286,354,1375,1439],
  [1,1,24,94,158,226,286,358,1121,1374,1438]]

def k476 : List (List ℕ) := [[0,1,36,94,158,232,286,356,1249,1372,1436],
  [0,4,27,94,158,232,1373,1437],
  [0,4,27,94,158,234,1121,1372,1436],
  [0,5,24,94,158,232,354,1249,1372,1436],
  [0,5,48,94,158,226,286,360,1373,1437],
  [0,7,24,94,158,226,286,362,1121,1372,1436],
  [0,13,18,94,158,226,360,1121,1372,1436],
  [0,16,27,94,158,226,360,1249,1372,1436],
  [0,25,12,94,158,230,356,1121,1372,1436],
  [0,59,54,94,158,234,286,354,1121,1372,1436],
  [0,109,72,94,158,230,286,358,1121,1372,1436],
  [0,151,144,94,158,232,286,354,1373,1437],
  [0,179,216,94,158,230,286,358,1249,1372,1436],
  [0,311,432,94,158,228,286,358,1373,1437],
  [0,769,432,94,158,228,356,1373,1437],
  [1,1,36,94,158,230,356,1249,1372,1436],
  [1,4,27,94,158,234,286,1373,1437],
  [1,4,27,94,158,236,286,1121,1372,1436],
  [1,5,24,94,158,234,286,354,1249,1372,1436],
  [1,5,48,94,158,360,1373,1437],
  [1,7,24,94,158,362,1121,1372,1436],
  [1,13,18,94,158,228,286,360,1121,1372,1436],
  [1,16,27,94,158,228,286,360,1249,1372,1436],
  [1,25,12,94,158,232,286,356,1121,1372,1436],
  [1,59,54,94,158,232,354,1121,1372,1436],
  [1,109,72,94,158,228,358,1121,1372,1436],
  [1,151,144,94,158,230,354,1373,1437],
  [1,179,216,94,158,228,358,1249,1372,1436],
  [1,311,432,94,158,226,358,1373,1437],
  [1,769,432,94,158,230,286,356,1373,1437]]

def k477 : List (List ℕ) := [[0,1,1,94,158,225,359,607,1373,1437],
  [0,1,9,94,158,233,353,607,1121,1372,1436],
  [0,1,9,94,158,235,286,353,607,1249,1372,1436],
  [0,3,1,94,158,229,357,607,1249,1372,1436],
  [0,3,1,94,158,231,286,357,607,1121,1372,1436],
  [0,5,3,94,158,227,359,607,1121,1372,1436],
  [0,5,3,94,158,229,286,359,607,1249,1372,1436],
  [0,5,9,94,158,231,355,609,1121,1372,1436],
  [0,5,9,94,158,233,286,355,609,1249,1372,1436],
  [0,17,27,94,158,231,353,607,1373,1437],
  [0,35,54,94,158,231,286,355,607,1373,1437],
  [0,59,54,94,158,229,286,357,607,1373,1437],
  [1,1,1,94,158,227,286,359,607,1373,1437],
  [1,1,9,94,158,233,353,607,1249,1372,1436],
  [1,1,9,94,158,235,286,353,607,1121,1372,1436],
  [1,3,1,94,158,229,357,607,1121,1372,1436],
  [1,3,1,94,158,231,286,357,607,1249,1372,1436],
  [1,5,3,94,158,227,359,607,1249,1372,1436],
  [1,5,3,94,158,229,286,359,607,1121,1372,1436],
  [1,5,9,94,158,231,355,609,1249,1372,1436],
  [1,5,9,94,158,233,286,355,609,1121,1372,1436],
  [1,17,27,94,158,233,286,353,607,1373,1437],
  [1,35,54,94,158,229,355,607,1373,1437],
  [1,59,54,94,158,227,357,607,1373,1437]]

def k478 : List (List ℕ) := [[0,1,3,94,156,232,354,1249,1372,1436],
  [0,1,6,94,156,360,1373,1437],
  [0,1,9,94,156,228,358,1121,1372,1436],
  [0,4,9,94,156,228,286,360,1121,1372,1436],
  [0,4,27,94,156,232,1373,1437],
  [0,4,27,94,156,234,1121,1372,1436],
  [0,5,18,94,156,232,286,356,1249,1372,1436],
  [0,7,6,94,156,230,356,1121,1372,1436],
  [0,13,9,94,156,232,286,354,1373,1437],
  [0,16,27,94,156,226,360,1249,1372,1436],
  [0,19,27,94,156,230,286,358,1249,1372,1436],
  [0,25,27,94,156,234,286,354,1121,1372,1436],
  [0,179,108,94,156,228,286,358,1373,1437],
  [0,307,108,94,156,228,356,1373,1437],
  [1,1,3,94,156,234,286,354,1249,1372,1436],
  [1,1,6,94,156,226,286,360,1373,1437],
  [1,1,9,94,156,230,286,358,1121,1372,1436],
  [1,4,9,94,156,226,360,1121,1372,1436],
  [1,4,27,94,156,234,286,1373,1437],
  [1,4,27,94,156,236,286,1121,1372,1436],
  [1,5,18,94,156,230,356,1249,1372,1436],
  [1,7,6,94,156,232,286,356,1121,1372,1436],
  [1,13,9,94,156,230,354,1373,1437],
  [1,16,27,94,156,228,286,360,1249,1372,1436],
  [1,19,27,94,156,228,358,1249,1372,1436],
  [1,25,27,94,156,232,354,1121,1372,1436],
  [1,179,108,94,156,226,358,1373,1437],
  [1,307,108,94,156,230,286,356,1373,1437]]

def k479 : List (List ℕ) := [[0,1,4,94,158,230,356,1249,1372,1436],
  [0,1,6,94,158,232,354,1121,1372,1436],
  [0,1,24,94,158,362,1121,1372,1436],
  [0,3,8,94,158,228,358,1121,1372,1436],
  [0,3,16,94,158,226,358,1373,1437],
  [0,7,18,94,158,228,286,360,1121,1372,1436],
  [0,7,48,94,158,230,354,1373,1437],
  [0,8,27,94,158,234,286,354,1121,1372,1436],
  [0,83,144,94,158,232,286,354,1373,1437],
  [0,103,216,94,158,230,286,358,1249,1372,1436],
  [0,277,432,94,158,228,286,358,1373,1437],
  [1,1,6,94,158,226,360,1121,1372,1436],
  [1,1,6,94,158,232,286,356,1121,1372,1436],
  [1,1,8,94,158,228,358,1249,1372,1436],
  [1,1,8,94,158,232,354,1249,1372,1436],
  [1,1,9,94,158,232,286,356,1249,1372,1436],
  [1,1,16,94,158,226,286,360,1373,1437],
  [1,1,24,94,158,226,286,362,1121,1372,1436],
  [1,1,24,94,158,234,286,354,1249,1372,1436],
  [1,1,48,94,158,360,1373,1437],
  [1,2,27,94,158,234,286,1373,1437],
  [1,2,27,94,158,236,286,1121,1372,1436],
  [1,5,12,94,158,230,356,1121,1372,1436],
  [1,5,16,94,158,228,356,1373,1437],
  [1,8,27,94,158,228,286,360,1249,1372,1436],
  [1,31,72,94,158,230,286,358,1121,1372,1436],
  [1,479,432,94,158,230,286,356,1373,1437]]

def k480 : List (List ℕ) := [[0,1,4,94,158,228,354,671,1121,1374,1438],
  [0,1,16,94,158,226,354,671,801,1375,1439],
  [0,1,16,94,158,358,671,1121,1374,1438],
  [0,7,32,94,158,226,354,671,1375,1439],
  [1,1,8,94,158,226,356,671,1121,1374,1438],
  [1,1,16,94,158,356,671,801,1375,1439],
  [1,1,32,94,158,356,671,1375,1439],
  [1,3,16,94,158,228,354,671,1249,1374,1438]]

def k481 : List (List ℕ) := [[0,1,9,94,159,226,286,355,414,607,673],
  [0,1,9,94,159,226,286,355,414,607,673,1121],
  [0,1,9,94,159,355,414,607,673],
  [0,1,9,94,159,355,414,607,673,1121],
  [1,1,9,94,159,228,284,355,414,609,673],
  [1,1,9,94,159,228,284,355,414,609,673,1121]]

def k482 : List (List ℕ) := [[0,1,6,94,158,226,286,354],
  [1,1,6,94,158,354]]

def k483 : List (List ℕ) := [[0,1,6,94,158,354],
  [1,1,6,94,158,226,286,354]]

def k484 : List (List ℕ) := [[0,1,3,94,158,230,286,354,1121,1374,1438],
  [0,1,4,94,158,228,354,1249,1374,1438],
  [0,1,6,94,158,226,356,1121,1374,1438],
  [0,1,12,94,158,226,286,358,1121,1374,1438],
  [0,1,24,94,158,356,1375,1439],
  [0,7,24,94,158,228,286,354,1375,1439],
  [1,1,3,94,158,228,354,1121,1374,1438],
  [1,1,4,94,158,230,286,354,1249,1374,1438],
  [1,1,6,94,158,228,286,356,1121,1374,1438],
  [1,1,12,94,158,358,1121,1374,1438],
  [1,1,24,94,158,226,286,356,1375,1439],
  [1,7,24,94,158,226,354,1375,1439]]

def k485 : List (List ℕ) := [[0,1,6,94,158,354,673,1121],
  [0,2,27,94,158,228,286,673,1121],
  [1,1,6,94,158,226,286,354,673,1121],
  [1,2,27,94,158,226,673,1121]]

def k486 : List (List ℕ) := [[0,1,6,94,158,226,286,354,673,1121],
  [0,2,27,94,158,226,673,1121],
  [1,1,6,94,158,354,673,1121],
  [1,2,27,94,158,228,286,673,1121]]

def k487 : List (List ℕ) := [[0,1,6,94,158,226,286,354,673,1121],
  [0,2,27,94,158,228,286,673,1121],
  [1,1,6,94,158,354,673,1121],
  [1,2,27,94,158,226,673,1121]]

def k488 : List (List ℕ) := [[0,2,9,94,158,228,284,354,673,1121],
  [0,10,81,94,158,228,286,673,1121],
  [1,1,9,94,158,226,286,354,673,1121],
  [1,1,9,94,158,354,673,1121],
  [1,2,81,94,158,226,673,1121],
  [1,8,81,94,158,230,284,673,1121]]

def k489 : List (List ℕ) := [[0,1,9,94,158,226,286,354,673,1121],
  [0,1,9,94,158,354,673,1121],
  [0,2,81,94,158,226,673,1121],
  [0,8,81,94,158,230,284,673,1121],
  [1,2,9,94,158,228,284,354,673,1121],
  [1,10,81,94,158,228,286,673,1121]]

def k490 : List (List ℕ) := [[0,1,9,94,158,226,286,354,673,1121],
  [0,1,9,94,158,354,673,1121],
  [0,10,81,94,158,228,286,673,1121],
  [1,2,9,94,158,228,284,354,673,1121],
  [1,2,81,94,158,226,673,1121],
  [1,8,81,94,158,230,284,673,1121]]

def k491 : List (List ℕ) := [[0,2,81,33,94,159,230,284,351,609,673],
  [0,8,27,33,94,159,230,282,353,609,673,1121],
  [0,13,108,33,94,159,226,286,353,607,673,1121],
  [1,2,81,33,94,159,228,286,351,609,673],
  [1,17,27,33,94,159,228,284,353,607,673,1121]]

def k492 : List (List ℕ) := [[0,5,54,94,158,225,353,607,673,1121],
  [0,8,81,94,158,229,286,351,609,673],
  [0,25,27,94,158,229,284,353,609,673,1121],
  [1,4,81,94,158,227,351,609,673],
  [1,4,81,94,158,231,284,351,609,673],
  [1,16,27,94,158,231,282,353,609,673,1121],
  [1,41,54,94,158,227,286,353,607,673,1121]]

def k493 : List (List ℕ) := [[0,1,8,94,158,354,673,1121],
  [0,1,16,94,158,354,673],
  [0,1,36,94,158,228,286,929],
  [0,3,8,94,158,226,290,1249,3935],
  [0,5,12,94,158,230,286,1185,3231],
  [0,19,12,94,158,226],
  [0,37,24,94,158,226,290,1185,3231],
  [1,1,2,94,158,290],
  [1,1,36,94,158,226,929],
  [1,3,8,94,158,292,1185,3231],
  [1,17,24,94,158,228,286],
  [1,29,24,94,158,228,1185,3231]]

def k494 : List (List ℕ) := [[0,1,18,94,158,290,929],
  [0,2,9,94,158,228,286,929],
  [0,5,12,94,158,226,1185],
  [0,5,24,94,158,226],
  [1,1,3,94,158,228,286,1185],
  [1,1,6,94,158,228,286],
  [1,1,12,94,158,290,1185],
  [1,1,24,94,158,290],
  [1,5,18,94,158,226,929]]

def k495 : List (List ℕ) := [[0,1,3,94,156,228,286,418,1313,1695,1759],
  [0,1,3,94,156,228,290,414,1185,1695,1759],
  [0,1,9,94,156,356,414,673],
  [0,1,9,94,156,356,414,673,1121],
  [0,1,12,94,156,290,418,1313,1695,1759],
  [0,1,12,94,156,294,414,1185,1695,1759],
  [0,4,9,94,156,228,284,356,414,673],
  [0,4,9,94,156,228,284,356,414,673,1121],
  [0,5,6,94,156,230,286,414,1249],
  [0,5,18,94,156,230,286,414],
  [0,5,24,94,156,226,286,420,1313,1695,1759],
  [0,5,36,94,156,226,286,354,673,1121],
  [0,5,36,94,156,226,290,414],
  [0,5,162,94,156,228,1185,1695,1759],
  [0,8,27,94,156,228,286,929],
  [0,11,432,94,156,290],
  [0,16,81,94,156,232,282,929],
  [0,22,27,94,156,230,284,418,1185,1695,1759],
  [0,23,243,94,156,226,418,1185,1695,1759],
  [0,32,1215,94,156,228,350,673],
  [0,32,1215,94,156,232,284,350,673],
  [0,35,81,94,156,228,286,673,1121],
  [0,35,144,94,156,226,286,418],
  [0,64,243,94,156,232,282,673,1121],
  [0,92,243,94,156,232,284,1185,1695,1759],
  [0,109,4860,94,156,228,286],
  [0,254,405,94,156,230,284],
  [0,287,54,94,156,230,284,1249],
  [0,1031,1944,94,156,226,290,1185,1695,1759],
  [1,1,6,94,156,228,284,420,1313,1695,1759],
  [1,1,6,94,156,228,414],
  [1,1,6,94,156,228,414,1249],
  [1,1,8,94,156,292,1185,1695,1759],
  [1,1,9,94,156,228,284,354,673,1121],
  [1,1,24,94,156,420,1313,1695,1759],
  [1,1,36,94,156,292,414],
  [1,1,36,94,156,354,673,1121],
  [1,2,3,94,156,232,284,414,1249],
  [1,2,9,94,156,232,284,414],
  [1,4,9,94,156,230,284,929],
  [1,4,81,94,156,226,929],
  [1,5,9,94,156,226,286,356,414,673],
  [1,5,9,94,156,226,286,356,414,673,1121],
  [1,5,12,94,156,226,292,414,1185,1695,1759],
  [1,5,12,94,156,226,418,1313,1695,1759],
  [1,7,36,94,156,228,284,418],
  [1,7,144,94,156,418],
  [1,16,27,94,156,230,284,673,1121],
  [1,22,27,94,156,230,286,1185,1695,1759],
  [1,25,243,94,156,226,673,1121],
  [1,28,9,94,156,232,282,1249],
  [1,43,81,94,156,228,286,418,1185,1695,1759],
  [1,64,1215,94,156,230,286,350,673],
  [1,92,243,94,156,232,282,418,1185,1695,1759],
  [1,119,54,94,156,228,286,1249],
  [1,362,729,94,156,232,282],
  [1,10409,58320,94,156,226]]

def k496 : List (List ℕ) := [[0,1,3,94,228,284],
  [0,1,3,94,228,284,1313],
  [0,1,12,94],
  [0,1,12,94,1313],
  [1,5,12,94,226,286],
  [1,5,12,94,226,286,1313]]

def k497 : List (List ℕ) := [[0,1,3,94,158,294,1185,1694,1758],
  [0,1,18,94,158,294,414,1695,1759],
  [0,2,1,94,158,230,286,418,1185,1694,1758],
  [0,2,1,94,158,230,290,414,1185,1694,1758],
  [0,4,3,94,158,230,286,418,1313,1694,1758],
  [0,4,9,94,158,230,282,420,1695,1759],
  [0,4,9,94,158,230,282,422,1313,1694,1758],
  [0,5,3,94,158,230,286,414,1249],
  [0,5,6,94,158,226,290,418,1313,1694,1758],
  [0,5,18,94,158,226,286,420,1695,1759],
  [0,5,18,94,158,226,286,422,1313,1694,1758],
  [0,8,3,94,158,234,282,414,1249],
  [0,8,9,94,158,234,282,1695,1759],
  [0,10,9,94,158,226,356,414,673,1695,1759],
  [0,11,6,94,158,226,290,418,1185,1694,1758],
  [0,11,6,94,158,226,294,414,1185,1694,1758],
  [0,11,9,94,158,228,290,414,1695,1759],
  [0,13,6,94,158,228,286,420,1313,1694,1758],
  [0,13,9,94,158,232,286,414,1695,1759],
  [0,13,12,94,158,228,286,418,1695,1759],
  [0,16,9,94,158,230,284,356,414,673,1695,1759],
  [0,17,9,94,158,230,286,1695,1759],
  [0,26,9,94,158,228,284,356,414,673,1121],
  [0,26,9,94,158,228,284,356,673,1695,1759],
  [0,37,36,94,158,226,290,1695,1759],
  [0,145,18,94,158,228,290,1185,1694,1758],
  [1,1,6,94,158,292,418,1185,1694,1758],
  [1,1,6,94,158,296,414,1185,1694,1758],
  [1,1,18,94,158,292,1695,1759],
  [1,2,3,94,158,230,284,418,1695,1759],
  [1,4,3,94,158,230,284,420,1313,1694,1758],
  [1,5,6,94,158,226,420,1313,1694,1758],
  [1,5,12,94,158,226,418,1695,1759],
  [1,8,9,94,158,234,284,414,1695,1759],
  [1,10,9,94,158,226,286,356,414,673,1121],
  [1,10,9,94,158,226,286,356,673,1695,1759],
  [1,11,3,94,158,228,292,414,1185,1694,1758],
  [1,11,3,94,158,228,418,1185,1694,1758],
  [1,11,9,94,158,230,414,1695,1759],
  [1,11,18,94,158,226,292,414,1695,1759],
  [1,13,3,94,158,232,284,414,1249],
  [1,13,6,94,158,228,418,1313,1694,1758],
  [1,13,9,94,158,232,284,1695,1759],
  [1,13,18,94,158,228,284,420,1695,1759],
  [1,13,18,94,158,228,284,422,1313,1694,1758],
  [1,16,9,94,158,230,282,356,414,673,1121],
  [1,16,9,94,158,230,282,356,673,1695,1759],
  [1,26,9,94,158,228,286,356,414,673,1695,1759],
  [1,40,9,94,158,230,1185,1694,1758],
  [1,71,18,94,158,226,292,1185,1694,1758],
  [1,83,36,94,158,228,1695,1759]]

def k498 : List (List ℕ) := [[0,1,6,94,158,294,414,1185,1695,1759],
  [0,2,3,94,158,228,290,414,1185,1695,1759],
  [0,2,9,94,158,290,418,1313,1695,1759],
  [0,2,9,94,158,356,414,673],
  [0,2,9,94,158,356,414,673,1121],
  [0,5,3,94,158,230,286,414,1249],
  [0,5,4,94,158,226,290,1185,1695,1759],
  [0,5,9,94,158,230,286,414],
  [0,5,18,94,158,226,290,414],
  [0,5,18,94,158,228,286],
  [0,5,72,94,158,290],
  [0,8,9,94,158,228,284,356,414,673],
  [0,8,9,94,158,228,284,356,414,673,1121],
  [0,8,9,94,158,228,286,418,1313,1695,1759],
  [0,25,36,94,158,226,286,420,1313,1695,1759],
  [0,55,72,94,158,226,286,418],
  [1,1,1,94,158,228,1185,1695,1759],
  [1,1,3,94,158,228,414],
  [1,1,3,94,158,228,414,1249],
  [1,1,4,94,158,292,1185,1695,1759],
  [1,1,18,94,158,292,414],
  [1,4,3,94,158,232,284,414,1249],
  [1,4,9,94,158,232,284,414],
  [1,5,6,94,158,226,292,414,1185,1695,1759],
  [1,5,9,94,158,228,284,420,1313,1695,1759],
  [1,5,36,94,158,420,1313,1695,1759],
  [1,10,9,94,158,226,286,356,414,673],
  [1,10,9,94,158,226,286,356,414,673,1121],
  [1,10,9,94,158,226,418,1313,1695,1759],
  [1,11,18,94,158,228,284,418],
  [1,11,72,94,158,418],
  [1,25,72,94,158,226]]

def k499 : List (List ℕ) := [[0,1,3,94,158,228,290,414,1185,1695,1759],
  [0,1,9,94,158,228,286,418,1313,1695,1759],
  [0,1,12,94,158,228,414,1249],
  [0,1,18,94,158,228,284,420,1313,1695,1759],
  [0,1,18,94,158,418],
  [0,1,18,94,158,420,1313,1695,1759],
  [0,1,36,94,158,228,284,418],
  [0,1,36,94,158,354,673,1121],
  [0,1,108,94,158,290],
  [0,2,9,94,158,228,284,356,414,673],
  [0,2,9,94,158,228,284,356,414,673,1121],
  [0,2,81,94,158,226,929],
  [0,5,72,94,158,226,290,414],
  [0,5,72,94,158,226,418,1313,1695,1759],
  [0,11,27,94,158,230,284,418,1185,1695,1759],
  [0,16,81,94,158,232,282,929],
  [0,25,486,94,158,226,673,1121],
  [0,32,1215,94,158,232,284,350,673],
  [0,49,405,94,158,230,284],
  [0,64,243,94,158,232,282,673,1121],
  [0,92,243,94,158,232,284,1185,1695,1759],
  [0,301,108,94,158,230,284,1249],
  [0,1253,3240,94,158,228,286],
  [0,1399,3888,94,158,226,290,1185,1695,1759],
  [1,1,2,94,158,228,1185,1695,1759],
  [1,1,3,94,158,232,284,414,1249],
  [1,1,9,94,158,232,284,414],
  [1,1,12,94,158,228,414],
  [1,1,18,94,158,290,418,1313,1695,1759],
  [1,1,18,94,158,356,414,673],
  [1,1,18,94,158,356,414,673,1121],
  [1,2,9,94,158,230,284,929],
  [1,5,24,94,158,226,292,414,1185,1695,1759],
  [1,5,32,94,158,226,286,418],
  [1,5,72,94,158,226,286,354,673,1121],
  [1,7,54,94,158,228,286,1249],
  [1,8,27,94,158,230,284,673,1121],
  [1,11,27,94,158,230,286,1185,1695,1759],
  [1,23,486,94,158,226,418,1185,1695,1759],
  [1,25,144,94,158,226,286,420,1313,1695,1759],
  [1,28,9,94,158,232,282,1249],
  [1,32,1215,94,158,230,286,350,673],
  [1,92,243,94,158,232,282,418,1185,1695,1759],
  [1,362,729,94,158,232,282],
  [1,3257,23328,94,158,226]]

def k500 : List (List ℕ) := [[0,1,1,94,158,232,284,1695,1759],
  [0,1,3,94,158,226,292,414,1695,1759],
  [0,2,3,94,158,230,284,418,1695,1759],
  [0,2,3,94,158,230,414,1695,1759],
  [0,3,1,94,158,228,292,414,1185,1694,1758],
  [0,3,1,94,158,228,418,1185,1694,1758],
  [0,3,1,94,158,232,284,414,1249],
  [0,4,3,94,158,230,284,420,1313,1694,1758],
  [0,5,6,94,158,226,420,1313,1694,1758],
  [0,5,12,94,158,226,418,1695,1759],
  [0,8,9,94,158,234,284,414,1695,1759],
  [0,10,9,94,158,226,286,356,414,673,1121],
  [0,10,9,94,158,226,286,356,673,1695,1759],
  [0,13,6,94,158,228,418,1313,1694,1758],
  [0,13,18,94,158,228,284,420,1695,1759],
  [0,13,18,94,158,228,284,422,1313,1694,1758],
  [0,16,9,94,158,230,282,356,414,673,1121],
  [0,16,9,94,158,230,282,356,673,1695,1759],
  [0,26,9,94,158,228,286,356,414,673,1695,1759],
  [0,40,9,94,158,230,1185,1694,1758],
  [0,41,18,94,158,226,292,1185,1694,1758],
  [0,71,36,94,158,228,1695,1759],
  [1,1,1,94,158,226,290,418,1185,1694,1758],
  [1,1,1,94,158,226,294,414,1185,1694,1758],
  [1,1,1,94,158,232,286,414,1695,1759],
  [1,1,3,94,158,228,414,1249],
  [1,2,1,94,158,230,286,418,1185,1694,1758],
  [1,2,1,94,158,230,290,414,1185,1694,1758],
  [1,3,4,94,158,226,290,1695,1759],
  [1,4,3,94,158,230,286,418,1313,1694,1758],
  [1,4,3,94,158,230,286,1695,1759],
  [1,4,9,94,158,230,282,420,1695,1759],
  [1,4,9,94,158,230,282,422,1313,1694,1758],
  [1,5,6,94,158,226,290,418,1313,1694,1758],
  [1,5,18,94,158,226,286,420,1695,1759],
  [1,5,18,94,158,226,286,422,1313,1694,1758],
  [1,8,3,94,158,234,282,414,1249],
  [1,8,9,94,158,228,290,414,1695,1759],
  [1,8,9,94,158,234,282,1695,1759],
  [1,10,9,94,158,226,356,414,673,1695,1759],
  [1,13,6,94,158,228,286,420,1313,1694,1758],
  [1,13,12,94,158,228,286,418,1695,1759],
  [1,16,9,94,158,230,284,356,414,673,1695,1759],
  [1,26,9,94,158,228,284,356,414,673,1121],
  [1,26,9,94,158,228,284,356,673,1695,1759],
  [1,121,18,94,158,228,290,1185,1694,1758]]

def k501 : List (List ℕ) := [[0,1,3,33,94,159,229,414,1695,1759],
  [0,1,12,33,94,159,227,284,422,1313,1694,1758],
  [0,1,18,33,94,159,227,284,420,1695,1759],
  [0,1,36,33,94,159,225,292,414,1695,1759],
  [0,1,48,33,94,159,225,290,418,1185,1694,1758],
  [0,2,3,33,94,159,229,284,420,1313,1694,1758],
  [0,4,9,33,94,159,233,284,414,1695,1759],
  [0,5,6,33,94,159,227,292,414,1185,1694,1758],
  [0,5,6,33,94,159,231,284,414,1249],
  [0,5,9,33,94,159,227,286,356,414,673,1695,1759],
  [0,5,12,33,94,159,227,418,1313,1694,1758],
  [0,5,72,33,94,159,225,286,354,673,1121],
  [0,5,96,33,94,159,225,286,420,1695,1759],
  [0,5,144,33,94,159,225,286,422,1313,1694,1758],
  [0,8,9,33,94,159,229,282,356,414,673,1121],
  [0,8,9,33,94,159,229,282,356,673,1695,1759],
  [0,14,81,33,94,159,227,286,418,929,1695,1759],
  [0,19,144,33,94,159,225,292,1185,1694,1758],
  [0,32,81,33,94,159,231,282,418,929,1695,1759],
  [0,46,81,33,94,159,229,286,929,1695,1759],
  [0,64,1215,33,94,159,229,350,673,1695,1759],
  [0,64,1215,33,94,159,231,284,350,418,673,1695,1759],
  [0,65,243,33,94,159,227,286,673,1121],
  [0,128,243,33,94,159,231,282,673,1121],
  [0,179,36,33,94,159,229,284,1249],
  [0,251,243,33,94,159,229,284,420,1185,1694,1758],
  [0,314,243,33,94,159,227,418,1185,1694,1758],
  [0,368,243,33,94,159,231,284,418,1185,1694,1758],
  [0,791,243,33,94,159,229,1185,1694,1758],
  [0,2501,1458,33,94,159,231,284,1695,1759],
  [0,12149,7290,33,94,159,229,284,418,1695,1759],
  [0,23281,29160,33,94,159,227,1695,1759],
  [1,1,1,33,94,159,229,290,414,1185,1694,1758],
  [1,1,4,33,94,159,227,286,420,1313,1694,1758],
  [1,1,9,33,94,159,227,284,354,673,1121],
  [1,1,12,33,94,159,225,294,414,1185,1694,1758],
  [1,2,3,33,94,159,229,286,418,1313,1694,1758],
  [1,2,9,33,94,159,229,282,420,1695,1759],
  [1,2,9,33,94,159,229,282,422,1313,1694,1758],
  [1,4,3,33,94,159,233,282,414,1249],
  [1,4,9,33,94,159,233,282,1695,1759],
  [1,5,9,33,94,159,227,284,356,414,673,1121],
  [1,5,9,33,94,159,227,284,356,673,1695,1759],
  [1,5,18,33,94,159,227,290,414,1695,1759],
  [1,5,18,33,94,159,231,286,414,1695,1759],
  [1,5,48,33,94,159,225,420,1313,1694,1758],
  [1,8,9,33,94,159,229,284,356,414,673,1695,1759],
  [1,14,81,33,94,159,227,929,1695,1759],
  [1,25,432,33,94,159,225,418,1695,1759],
  [1,32,81,33,94,159,231,284,929,1695,1759],
  [1,44,9,33,94,159,231,282,1249],
  [1,46,81,33,94,159,229,284,418,929,1695,1759],
  [1,64,1215,33,94,159,229,286,350,418,673,1695,1759],
  [1,64,1215,33,94,159,231,286,350,673,1695,1759],
  [1,76,243,33,94,159,227,286,420,1185,1694,1758],
  [1,79,864,33,94,159,225,290,1695,1759],
  [1,169,216,33,94,159,227,286,1249],
  [1,184,243,33,94,159,229,284,673,1121],
  [1,184,243,33,94,159,231,282,420,1185,1694,1758],
  [1,184,243,33,94,159,231,286,1185,1694,1758],
  [1,745,243,33,94,159,229,286,418,1185,1694,1758],
  [1,1048,729,33,94,159,231,282,418,1695,1759],
  [1,2005,972,33,94,159,227,290,1185,1694,1758],
  [1,9511,29160,33,94,159,227,286,418,1695,1759],
  [1,14579,7290,33,94,159,229,286,1695,1759]]

def k502 : List (List ℕ) := [[0,5,6,94,157,227,1249],
  [0,13,6,94,157,229,286],
  [0,82,3,94,157,231,284,1249],
  [1,4,3,94,157,231,284],
  [1,5,6,94,157,227],
  [1,16,1,94,157,233,282,1249],
  [1,73,6,94,157,229,286,1249]]

def k503 : List (List ℕ) := [[0,1,12,94,158,226,286,354,673,1121],
  [0,7,6,94,158,230,284,1249],
  [0,8,27,94,158,228,286,929],
  [0,13,81,94,158,228,286,673,1121],
  [0,20,81,94,158,226,1185],
  [0,26,81,94,158,230,284,1185],
  [0,80,243,94,158,230,284],
  [0,101,243,94,158,226],
  [1,1,12,94,158,354,673,1121],
  [1,1,18,94,158,290],
  [1,4,27,94,158,226,929],
  [1,4,27,94,158,230,284,929],
  [1,5,81,94,158,226,673,1121],
  [1,7,6,94,158,228,286,1249],
  [1,8,81,94,158,230,284,673,1121],
  [1,46,81,94,158,228,286,1185],
  [1,335,486,94,158,228,286]]

def k504 : List (List ℕ) := [[0,1,12,94,158,354,673,1121],
  [0,1,18,94,158,290],
  [0,4,27,94,158,226,929],
  [0,4,27,94,158,230,284,929],
  [0,5,81,94,158,226,673,1121],
  [0,8,81,94,158,230,284,673,1121],
  [0,46,81,94,158,228,286,1185],
  [0,91,54,94,158,228,286,1249],
  [0,379,972,94,158,228,286],
  [1,1,12,94,158,226,286,354,673,1121],
  [1,7,6,94,158,230,284,1249],
  [1,8,27,94,158,228,286,929],
  [1,13,81,94,158,228,286,673,1121],
  [1,14,27,94,158,226,1249],
  [1,20,81,94,158,226,1185],
  [1,26,81,94,158,230,284,1185],
  [1,80,243,94,158,230,284],
  [1,113,972,94,158,226]]

def k505 : List (List ℕ) := [[0,1,24,94,158,354,673,1121],
  [0,1,36,94,158,290],
  [0,2,27,94,158,226,929],
  [0,7,3,94,158,228,286,1249],
  [0,8,27,94,158,230,284,929],
  [0,10,81,94,158,226,673,1121],
  [0,16,81,94,158,230,284,673,1121],
  [0,53,81,94,158,228,286,1185],
  [0,511,486,94,158,228,286],
  [1,1,6,94,158,226,286,354,673,1121],
  [1,7,3,94,158,230,284,1249],
  [1,10,27,94,158,228,286,929],
  [1,13,81,94,158,226,1185],
  [1,26,81,94,158,228,286,673,1121],
  [1,40,81,94,158,230,284,1185],
  [1,202,243,94,158,230,284],
  [1,241,972,94,158,226]]

def k506 : List (List ℕ) := [[0,1,12,94,158,226,286,354,1121],
  [0,1,12,94,158,354],
  [0,1,27,94,158,226,1121],
  [0,1,27,94,158,228,286],
  [1,1,12,94,158,226,286,354],
  [1,1,12,94,158,354,1121],
  [1,1,27,94,158,226],
  [1,1,27,94,158,228,286,1121]]

def k507 : List (List ℕ) := [[0,5,18,94,159,226,286,355,414,607,673],
  [0,5,18,94,159,226,286,355,414,607,673,1121],
  [1,1,9,94,159,228,284,355,414,609,673],
  [1,1,9,94,159,228,284,355,414,609,673,1121],
  [1,1,18,94,159,355,414,607,673],
  [1,1,18,94,159,355,414,607,673,1121]]

def k508 : List (List ℕ) := [[0,1,18,94,158,354,673,1121],
  [0,2,9,94,158,228,284,354,673,1121],
  [0,13,81,94,158,228,286,673,1121],
  [1,5,18,94,158,226,286,354,673,1121],
  [1,5,81,94,158,226,673,1121],
  [1,8,81,94,158,230,284,673,1121]]

def k509 : List (List ℕ) := [[0,5,18,94,158,226,286,354,673,1121],
  [0,5,81,94,158,226,673,1121],
  [0,8,81,94,158,230,284,673,1121],
  [1,1,18,94,158,354,673,1121],
  [1,2,9,94,158,228,284,354,673,1121],
  [1,13,81,94,158,228,286,673,1121]]

def k510 : List (List ℕ) := [[0,5,18,94,158,226,286,354,673,1121],
  [0,13,81,94,158,228,286,673,1121],
  [1,1,18,94,158,354,673,1121],
  [1,2,9,94,158,228,284,354,673,1121],
  [1,5,81,94,158,226,673,1121],
  [1,8,81,94,158,230,284,673,1121]]

def k511 : List (List ℕ) := [[0,2,81,33,94,159,230,284,351,609,673],
  [0,8,27,33,94,159,230,282,353,609,673,1121],
  [0,65,216,33,94,159,226,286,353,607,673,1121],
  [1,2,81,33,94,159,228,286,351,609,673],
  [1,23,27,33,94,159,228,284,353,607,673,1121]]

def k512 : List (List ℕ) := [[0,8,81,94,158,229,286,351,609,673],
  [0,25,108,94,158,225,353,607,673,1121],
  [0,31,27,94,158,229,284,353,609,673,1121],
  [1,4,81,94,158,227,351,609,673],
  [1,4,81,94,158,231,284,351,609,673],
  [1,16,27,94,158,231,282,353,609,673,1121],
  [1,145,108,94,158,227,286,353,607,673,1121]]

def k513 : List (List ℕ) := [[0,1,3,94,158,228,286],
  [0,1,6,94,158,290,1185],
  [0,1,12,94,158,290],
  [0,2,3,94,158,228,286,1185],
  [0,5,9,94,158,226,929],
  [1,1,9,94,158,290,929],
  [1,4,9,94,158,228,286,929],
  [1,5,6,94,158,226,1185],
  [1,5,12,94,158,226]]

def k514 : List (List ℕ) := [[0,1,3,94,156,228,284,420,1313,1695,1759],
  [0,1,3,94,156,228,414],
  [0,1,3,94,156,228,414,1249],
  [0,1,4,94,156,292,1185,1695,1759],
  [0,1,12,94,156,420,1313,1695,1759],
  [0,1,18,94,156,292,414],
  [0,1,18,94,156,354,673,1121],
  [0,2,9,94,156,228,284,354,673,1121],
  [0,4,3,94,156,232,284,414,1249],
  [0,4,9,94,156,232,284,414],
  [0,5,6,94,156,226,292,414,1185,1695,1759],
  [0,5,6,94,156,226,418,1313,1695,1759],
  [0,7,18,94,156,228,284,418],
  [0,7,72,94,156,418],
  [0,10,9,94,156,226,286,356,414,673],
  [0,10,9,94,156,226,286,356,414,673,1121],
  [0,32,27,94,156,228,286,929],
  [0,32,27,94,156,230,284,673,1121],
  [0,38,243,94,156,226,418,1185,1695,1759],
  [0,50,243,94,156,226,673,1121],
  [0,56,9,94,156,232,282,1249],
  [0,56,27,94,156,230,284,418,1185,1695,1759],
  [0,64,81,94,156,232,282,929],
  [0,119,27,94,156,228,286,1249],
  [0,128,1215,94,156,230,286,350,673],
  [0,187,81,94,156,228,1185,1695,1759],
  [0,224,243,94,156,232,284,1185,1695,1759],
  [0,1342,405,94,156,230,284],
  [0,36449,29160,94,156,226],
  [1,1,6,94,156,290,418,1313,1695,1759],
  [1,1,6,94,156,294,414,1185,1695,1759],
  [1,2,3,94,156,228,286,418,1313,1695,1759],
  [1,2,3,94,156,228,290,414,1185,1695,1759],
  [1,2,9,94,156,356,414,673],
  [1,2,9,94,156,356,414,673,1121],
  [1,5,3,94,156,230,286,414,1249],
  [1,5,9,94,156,230,286,414],
  [1,5,12,94,156,226,286,420,1313,1695,1759],
  [1,5,18,94,156,226,286,354,673,1121],
  [1,5,18,94,156,226,290,414],
  [1,8,9,94,156,228,284,356,414,673],
  [1,8,9,94,156,228,284,356,414,673,1121],
  [1,16,9,94,156,230,284,929],
  [1,16,81,94,156,226,929],
  [1,23,216,94,156,290],
  [1,35,72,94,156,226,286,418],
  [1,56,27,94,156,230,286,1185,1695,1759],
  [1,64,1215,94,156,228,350,673],
  [1,64,1215,94,156,232,284,350,673],
  [1,70,81,94,156,228,286,673,1121],
  [1,106,81,94,156,228,286,418,1185,1695,1759],
  [1,128,243,94,156,232,282,673,1121],
  [1,224,243,94,156,232,282,418,1185,1695,1759],
  [1,287,27,94,156,230,284,1249],
  [1,656,729,94,156,232,282],
  [1,1367,972,94,156,226,290,1185,1695,1759],
  [1,4322,1215,94,156,228,286]]

/-- factors occurring in lines 57-153: each is a sum of monomials
`[flag, numerator, denominator, factors]`, see `Verif.Loop.monoVal`; part 3 -/
def coefTab3 : List (List (List ℕ)) := [
  k413, k414, k415, k416, k417, k418, k419, k420, k421, k422, k423, k424, k425, k426, k427,
  k428, k429, k430, k431, k432, k433, k434, k435, k436, k437, k438, k439, k440, k441, k442,
  k443, k444, k445, k446, k447, k448, k449, k450, k451, k452, k453, k454, k455, k456, k457,
  k458, k459, k460, k461, k462, k463, k464, k465, k466, k467, k468, k469, k470, k471, k472,
  k473, k474, k475, k476, k477, k478, k479, k480, k481, k482, k483, k484, k485, k486, k487,
  k488, k489, k490, k491, k492, k493, k494, k495, k496, k497, k498, k499, k500, k501, k502,
  k503, k504, k505, k506, k507, k508, k509, k510, k511, k512, k513, k514]

end Verif.Loop
