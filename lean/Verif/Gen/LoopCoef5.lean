import Verif.Model.LoopDefs

/-! Generated by /verif/tools/gen_loop.py from /repo/wilson/match/smeft_loop.py. -/

set_option autoImplicit false
set_option maxRecDepth 20000

namespace Verif.Loop

def k613 : List (List ℕ) := [[0,2,1,94,158,230,282,420,1695,1759],
  [0,2,1,94,158,230,282,422,1313,1694,1758],
  [0,3,1,94,158,228,414,1249],
  [0,3,2,94,158,226,286,420,1695,1759],
  [0,3,2,94,158,226,286,422,1313,1694,1758],
  [0,4,1,94,158,228,290,414,1695,1759],
  [0,4,1,94,158,234,282,1695,1759],
  [0,5,1,94,158,232,286,414,1695,1759],
  [0,6,1,94,158,226,290,418,1185,1694,1758],
  [0,6,1,94,158,226,294,414,1185,1694,1758],
  [0,6,1,94,158,226,356,414,673,1695,1759],
  [0,6,1,94,158,230,286,418,1313,1694,1758],
  [0,6,1,94,158,230,286,1695,1759],
  [0,8,1,94,158,230,284,356,414,673,1695,1759],
  [0,9,1,94,158,230,286,418,1185,1694,1758],
  [0,9,1,94,158,230,290,414,1185,1694,1758],
  [0,9,2,94,158,226,290,418,1313,1694,1758],
  [0,12,1,94,158,234,282,414,1249],
  [0,14,1,94,158,228,284,356,414,673,1121],
  [0,14,1,94,158,228,284,356,673,1695,1759],
  [0,17,4,94,158,226,290,1695,1759],
  [0,21,2,94,158,228,286,420,1313,1694,1758],
  [0,21,4,94,158,228,286,418,1695,1759],
  [0,67,2,94,158,228,290,1185,1694,1758],
  [1,2,1,94,158,226,292,414,1695,1759],
  [1,3,1,94,158,230,284,418,1695,1759],
  [1,3,1,94,158,230,414,1695,1759],
  [1,4,1,94,158,234,284,414,1695,1759],
  [1,5,1,94,158,232,284,1695,1759],
  [1,6,1,94,158,226,286,356,414,673,1121],
  [1,6,1,94,158,226,286,356,673,1695,1759],
  [1,6,1,94,158,230,284,420,1313,1694,1758],
  [1,7,2,94,158,228,284,420,1695,1759],
  [1,7,2,94,158,228,284,422,1313,1694,1758],
  [1,8,1,94,158,230,282,356,414,673,1121],
  [1,8,1,94,158,230,282,356,673,1695,1759],
  [1,9,2,94,158,226,420,1313,1694,1758],
  [1,9,4,94,158,226,418,1695,1759],
  [1,14,1,94,158,228,286,356,414,673,1695,1759],
  [1,15,1,94,158,228,292,414,1185,1694,1758],
  [1,15,1,94,158,228,418,1185,1694,1758],
  [1,15,1,94,158,232,284,414,1249],
  [1,20,1,94,158,230,1185,1694,1758],
  [1,21,2,94,158,228,418,1313,1694,1758],
  [1,27,2,94,158,226,292,1185,1694,1758],
  [1,37,4,94,158,228,1695,1759]]

def k614 : List (List ℕ) := [[0,1,1,33,94,159,229,282,420,1695,1759],
  [0,1,1,33,94,159,229,282,422,1313,1694,1758],
  [0,1,2,33,94,159,227,284,354,673,1121],
  [0,2,1,33,94,159,233,282,1695,1759],
  [0,3,1,33,94,159,227,284,356,414,673,1121],
  [0,3,1,33,94,159,227,284,356,673,1695,1759],
  [0,3,1,33,94,159,229,286,418,1313,1694,1758],
  [0,3,2,33,94,159,227,286,420,1313,1694,1758],
  [0,3,2,33,94,159,227,290,414,1695,1759],
  [0,3,2,33,94,159,231,286,414,1695,1759],
  [0,3,4,33,94,159,225,294,414,1185,1694,1758],
  [0,3,16,33,94,159,225,290,418,1185,1694,1758],
  [0,4,1,33,94,159,229,284,356,414,673,1695,1759],
  [0,5,1,33,94,159,227,286,418,929,1695,1759],
  [0,6,1,33,94,159,233,282,414,1249],
  [0,8,1,33,94,159,231,282,418,929,1695,1759],
  [0,9,2,33,94,159,229,290,414,1185,1694,1758],
  [0,9,16,33,94,159,225,420,1313,1694,1758],
  [0,13,1,33,94,159,229,286,929,1695,1759],
  [0,22,1,33,94,159,231,282,1249],
  [0,23,6,33,94,159,227,290,1185,1694,1758],
  [0,31,6,33,94,159,229,1185,1694,1758],
  [0,32,135,33,94,159,229,286,350,418,673,1695,1759],
  [0,32,135,33,94,159,231,286,350,673,1695,1759],
  [0,45,16,33,94,159,225,418,1695,1759],
  [0,56,3,33,94,159,231,284,418,1185,1694,1758],
  [0,91,6,33,94,159,229,284,420,1185,1694,1758],
  [0,91,12,33,94,159,227,418,1185,1694,1758],
  [0,98,27,33,94,159,229,284,673,1121],
  [0,107,24,33,94,159,227,286,1249],
  [0,161,18,33,94,159,231,284,1695,1759],
  [0,2429,180,33,94,159,227,1695,1759],
  [0,4279,180,33,94,159,229,284,418,1695,1759],
  [1,1,2,33,94,159,227,284,422,1313,1694,1758],
  [1,1,4,33,94,159,225,292,414,1695,1759],
  [1,2,1,33,94,159,233,284,414,1695,1759],
  [1,3,1,33,94,159,227,286,356,414,673,1695,1759],
  [1,3,1,33,94,159,229,284,420,1313,1694,1758],
  [1,3,2,33,94,159,229,414,1695,1759],
  [1,3,8,33,94,159,225,286,354,673,1121],
  [1,3,8,33,94,159,227,284,420,1695,1759],
  [1,3,16,33,94,159,225,286,422,1313,1694,1758],
  [1,4,1,33,94,159,229,282,356,414,673,1121],
  [1,4,1,33,94,159,229,282,356,673,1695,1759],
  [1,5,1,33,94,159,227,929,1695,1759],
  [1,8,1,33,94,159,231,284,929,1695,1759],
  [1,9,2,33,94,159,227,292,414,1185,1694,1758],
  [1,9,2,33,94,159,231,284,414,1249],
  [1,9,4,33,94,159,227,418,1313,1694,1758],
  [1,9,32,33,94,159,225,286,420,1695,1759],
  [1,13,1,33,94,159,229,284,418,929,1695,1759],
  [1,17,3,33,94,159,227,286,420,1185,1694,1758],
  [1,21,16,33,94,159,225,292,1185,1694,1758],
  [1,28,3,33,94,159,231,282,420,1185,1694,1758],
  [1,28,3,33,94,159,231,286,1185,1694,1758],
  [1,32,135,33,94,159,229,350,673,1695,1759],
  [1,32,135,33,94,159,231,284,350,418,673,1695,1759],
  [1,37,27,33,94,159,227,286,673,1121],
  [1,61,32,33,94,159,225,290,1695,1759],
  [1,64,27,33,94,159,231,282,673,1121],
  [1,94,9,33,94,159,231,282,418,1695,1759],
  [1,97,4,33,94,159,229,284,1249],
  [1,155,6,33,94,159,229,286,418,1185,1694,1758],
  [1,4009,180,33,94,159,229,286,1695,1759],
  [1,5713,360,33,94,159,227,286,418,1695,1759]]

def k615 : List (List ℕ) := [[0,6,1,94,157,231,284],
  [0,9,2,94,157,227],
  [0,72,1,94,157,233,282,1249],
  [0,129,2,94,157,229,286,1249],
  [1,9,2,94,157,227,1249],
  [1,21,2,94,157,229,286],
  [1,132,1,94,157,231,284,1249]]

def k616 : List (List ℕ) := [[0,1,4,94,158,226,286,354,673,1121],
  [0,2,1,94,158,226,929],
  [0,2,1,94,158,230,284,929],
  [0,3,2,94,158,290],
  [0,5,1,94,158,228,286,1185],
  [0,7,2,94,158,230,284,1249],
  [0,13,27,94,158,228,286,673,1121],
  [0,34,3,94,158,228,286],
  [1,1,4,94,158,354,673,1121],
  [1,4,1,94,158,228,286,929],
  [1,5,27,94,158,226,673,1121],
  [1,7,2,94,158,228,286,1249],
  [1,7,3,94,158,230,284,1185],
  [1,8,3,94,158,226,1185],
  [1,8,27,94,158,230,284,673,1121],
  [1,71,9,94,158,226],
  [1,89,18,94,158,230,284]]

def k617 : List (List ℕ) := [[0,1,4,94,158,226,286,354,673,1121],
  [0,2,1,94,158,226,929],
  [0,2,1,94,158,230,284,929],
  [0,3,2,94,158,290],
  [0,4,3,94,158,226,1249],
  [0,5,1,94,158,228,286,1185],
  [0,7,2,94,158,230,284,1249],
  [0,13,27,94,158,228,286,673,1121],
  [0,431,36,94,158,228,286],
  [1,1,4,94,158,354,673,1121],
  [1,4,1,94,158,228,286,929],
  [1,5,27,94,158,226,673,1121],
  [1,7,3,94,158,230,284,1185],
  [1,8,3,94,158,226,1185],
  [1,8,27,94,158,230,284,673,1121],
  [1,29,6,94,158,228,286,1249],
  [1,89,18,94,158,230,284],
  [1,307,36,94,158,226]]

def k618 : List (List ℕ) := [[0,1,1,94,158,226,929],
  [0,1,4,94,158,226,286,354,673,1121],
  [0,2,1,94,158,230,284,929],
  [0,3,4,94,158,290],
  [0,7,2,94,158,230,284,1249],
  [0,13,27,94,158,228,286,673,1121],
  [0,19,6,94,158,228,286,1185],
  [0,341,36,94,158,228,286],
  [1,1,8,94,158,354,673,1121],
  [1,3,1,94,158,228,286,929],
  [1,5,6,94,158,226,1185],
  [1,5,27,94,158,226,673,1121],
  [1,7,2,94,158,228,286,1249],
  [1,7,3,94,158,230,284,1185],
  [1,8,27,94,158,230,284,673,1121],
  [1,89,18,94,158,230,284],
  [1,95,18,94,158,226]]

def k619 : List (List ℕ) := [[0,1,1,94,159,228,284,355,414,607,673],
  [0,1,1,94,159,228,284,355,414,607,673,1121],
  [0,1,2,94,159,355,414,607,673],
  [0,1,2,94,159,355,414,607,673,1121],
  [1,3,2,94,159,226,286,355,414,607,673],
  [1,3,2,94,159,226,286,355,414,607,673,1121]]

def k620 : List (List ℕ) := [[0,1,3,94,158,226,673,1121],
  [0,3,2,94,158,226,286,354,673,1121],
  [0,4,9,94,158,230,284,673,1121],
  [1,1,1,94,158,228,284,354,673,1121],
  [1,1,2,94,158,354,673,1121],
  [1,7,9,94,158,228,286,673,1121]]

def k621 : List (List ℕ) := [[0,1,1,94,158,228,284,354,673,1121],
  [0,1,2,94,158,354,673,1121],
  [0,7,9,94,158,228,286,673,1121],
  [1,1,3,94,158,226,673,1121],
  [1,3,2,94,158,226,286,354,673,1121],
  [1,4,9,94,158,230,284,673,1121]]

def k622 : List (List ℕ) := [[0,1,1,94,158,228,284,354,673,1121],
  [0,1,2,94,158,354,673,1121],
  [0,1,3,94,158,226,673,1121],
  [0,4,9,94,158,230,284,673,1121],
  [1,3,2,94,158,226,286,354,673,1121],
  [1,7,9,94,158,228,286,673,1121]]

def k623 : List (List ℕ) := [[0,1,9,33,94,159,228,286,351,609,673],
  [0,25,6,33,94,159,228,284,353,607,673,1121],
  [1,1,9,33,94,159,230,284,351,609,673],
  [1,4,3,33,94,159,230,282,353,609,673,1121],
  [1,13,8,33,94,159,226,286,353,607,673,1121]]

def k624 : List (List ℕ) := [[0,2,9,94,158,227,351,609,673],
  [0,2,9,94,158,231,284,351,609,673],
  [0,8,3,94,158,231,282,353,609,673,1121],
  [0,83,12,94,158,227,286,353,607,673,1121],
  [1,4,9,94,158,229,286,351,609,673],
  [1,5,4,94,158,225,353,607,673,1121],
  [1,11,1,94,158,229,284,353,607,673,1121]]

def k625 : List (List ℕ) := [[0,1,3,94,158,290,929],
  [0,2,3,94,158,228,286,929],
  [0,3,2,94,158,226,1185],
  [0,3,4,94,158,226],
  [1,1,1,94,158,226,929],
  [1,1,1,94,158,228,286,1185],
  [1,1,2,94,158,228,286],
  [1,1,2,94,158,290,1185],
  [1,1,4,94,158,290]]

def k626 : List (List ℕ) := [[0,1,1,94,156,228,286,418,1313,1695,1759],
  [0,1,1,94,156,228,290,414,1185,1695,1759],
  [0,1,1,94,156,230,286,414],
  [0,1,2,94,156,226,286,354,673,1121],
  [0,1,2,94,156,226,290,414],
  [0,1,2,94,156,290,418,1313,1695,1759],
  [0,1,2,94,156,294,414,1185,1695,1759],
  [0,1,3,94,156,226,1249],
  [0,2,3,94,156,356,414,673],
  [0,2,3,94,156,356,414,673,1121],
  [0,3,1,94,156,230,286,414,1249],
  [0,3,4,94,156,226,286,420,1313,1695,1759],
  [0,4,3,94,156,228,284,356,414,673],
  [0,4,3,94,156,228,284,356,414,673,1121],
  [0,7,8,94,156,226,286,418],
  [0,16,9,94,156,232,282,929],
  [0,32,9,94,156,228,286,929],
  [0,32,405,94,156,228,350,673],
  [0,32,405,94,156,232,284,350,673],
  [0,64,81,94,156,232,282,673,1121],
  [0,118,81,94,156,228,286,673,1121],
  [0,133,81,94,156,226,418,1185,1695,1759],
  [0,154,9,94,156,230,284,1249],
  [0,197,324,94,156,226,290,1185,1695,1759],
  [0,220,27,94,156,230,284,418,1185,1695,1759],
  [0,268,81,94,156,232,284,1185,1695,1759],
  [0,269,54,94,156,228,1185,1695,1759],
  [0,2432,405,94,156,230,284],
  [0,9613,9720,94,156,226],
  [1,1,1,94,156,228,414,1249],
  [1,1,2,94,156,228,284,420,1313,1695,1759],
  [1,1,3,94,156,228,284,354,673,1121],
  [1,1,4,94,156,420,1313,1695,1759],
  [1,1,6,94,156,292,414],
  [1,1,6,94,156,354,673,1121],
  [1,1,8,94,156,290],
  [1,2,1,94,156,226,286,356,414,673],
  [1,2,1,94,156,226,286,356,414,673,1121],
  [1,2,1,94,156,232,284,414,1249],
  [1,2,3,94,156,228,414],
  [1,2,3,94,156,232,284,414],
  [1,3,2,94,156,226,292,414,1185,1695,1759],
  [1,3,2,94,156,226,418,1313,1695,1759],
  [1,3,4,94,156,292,1185,1695,1759],
  [1,7,12,94,156,228,284,418],
  [1,7,24,94,156,418],
  [1,8,9,94,156,226,929],
  [1,10,27,94,156,226,673,1121],
  [1,28,3,94,156,232,282,1249],
  [1,40,9,94,156,230,284,929],
  [1,64,405,94,156,230,286,350,673],
  [1,73,9,94,156,228,286,1249],
  [1,152,81,94,156,230,284,673,1121],
  [1,175,27,94,156,228,286,418,1185,1695,1759],
  [1,220,27,94,156,230,286,1185,1695,1759],
  [1,268,81,94,156,232,282,418,1185,1695,1759],
  [1,682,243,94,156,232,282],
  [1,6581,1620,94,156,228,286]]

def k627 : List (List ℕ) := [[0,1,1,94,228,284],
  [0,1,1,94,228,284,1313],
  [0,1,2,94],
  [0,1,2,94,1313],
  [1,3,2,94,226,286],
  [1,3,2,94,226,286,1313]]

def k628 : List (List ℕ) := [[0,1,1,94,158,226,286,420,1695,1759],
  [0,1,1,94,158,226,286,422,1313,1694,1758],
  [0,1,3,94,158,294,414,1695,1759],
  [0,2,1,94,158,294,1185,1694,1758],
  [0,3,1,94,158,226,290,418,1313,1694,1758],
  [0,4,1,94,158,226,356,414,673,1695,1759],
  [0,4,1,94,158,228,290,414,1695,1759],
  [0,4,1,94,158,230,286,418,1313,1694,1758],
  [0,4,3,94,158,230,282,420,1695,1759],
  [0,4,3,94,158,230,282,422,1313,1694,1758],
  [0,6,1,94,158,230,286,414,1249],
  [0,6,1,94,158,230,286,418,1185,1694,1758],
  [0,6,1,94,158,230,286,1695,1759],
  [0,6,1,94,158,230,290,414,1185,1694,1758],
  [0,7,1,94,158,226,290,418,1185,1694,1758],
  [0,7,1,94,158,226,294,414,1185,1694,1758],
  [0,7,1,94,158,228,286,420,1313,1694,1758],
  [0,7,2,94,158,228,286,418,1695,1759],
  [0,8,1,94,158,234,282,414,1249],
  [0,8,3,94,158,234,282,1695,1759],
  [0,14,3,94,158,232,286,414,1695,1759],
  [0,16,3,94,158,230,284,356,414,673,1695,1759],
  [0,23,6,94,158,226,290,1695,1759],
  [0,28,3,94,158,228,284,356,414,673,1121],
  [0,28,3,94,158,228,284,356,673,1695,1759],
  [0,79,3,94,158,228,290,1185,1694,1758],
  [1,1,1,94,158,292,418,1185,1694,1758],
  [1,1,1,94,158,296,414,1185,1694,1758],
  [1,1,3,94,158,292,1695,1759],
  [1,2,1,94,158,230,284,418,1695,1759],
  [1,3,1,94,158,226,420,1313,1694,1758],
  [1,3,2,94,158,226,418,1695,1759],
  [1,4,1,94,158,226,286,356,414,673,1121],
  [1,4,1,94,158,226,286,356,673,1695,1759],
  [1,4,1,94,158,230,284,420,1313,1694,1758],
  [1,4,1,94,158,230,414,1695,1759],
  [1,7,1,94,158,228,418,1313,1694,1758],
  [1,7,3,94,158,226,292,414,1695,1759],
  [1,7,3,94,158,228,284,420,1695,1759],
  [1,7,3,94,158,228,284,422,1313,1694,1758],
  [1,8,3,94,158,234,284,414,1695,1759],
  [1,12,1,94,158,228,292,414,1185,1694,1758],
  [1,12,1,94,158,228,418,1185,1694,1758],
  [1,14,1,94,158,232,284,414,1249],
  [1,14,3,94,158,232,284,1695,1759],
  [1,15,1,94,158,226,292,1185,1694,1758],
  [1,15,2,94,158,228,1695,1759],
  [1,16,3,94,158,230,282,356,414,673,1121],
  [1,16,3,94,158,230,282,356,673,1695,1759],
  [1,28,3,94,158,228,286,356,414,673,1695,1759],
  [1,40,3,94,158,230,1185,1694,1758]]

def k629 : List (List ℕ) := [[0,1,1,94,158,226,290,414],
  [0,1,1,94,158,294,414,1185,1695,1759],
  [0,2,1,94,158,228,290,414,1185,1695,1759],
  [0,2,1,94,158,230,286,414],
  [0,4,3,94,158,290,418,1313,1695,1759],
  [0,4,3,94,158,356,414,673],
  [0,4,3,94,158,356,414,673,1121],
  [0,5,2,94,158,226,286,420,1313,1695,1759],
  [0,5,6,94,158,228,286],
  [0,5,12,94,158,290],
  [0,6,1,94,158,230,286,414,1249],
  [0,8,3,94,158,228,284,356,414,673],
  [0,8,3,94,158,228,284,356,414,673,1121],
  [0,8,3,94,158,228,286,418,1313,1695,1759],
  [0,9,2,94,158,226,290,1185,1695,1759],
  [0,11,4,94,158,226,286,418],
  [1,1,3,94,158,292,414],
  [1,2,1,94,158,228,414,1249],
  [1,3,1,94,158,226,292,414,1185,1695,1759],
  [1,3,1,94,158,228,1185,1695,1759],
  [1,3,2,94,158,292,1185,1695,1759],
  [1,4,1,94,158,226,286,356,414,673],
  [1,4,1,94,158,226,286,356,414,673,1121],
  [1,4,1,94,158,226,418,1313,1695,1759],
  [1,4,1,94,158,232,284,414,1249],
  [1,4,3,94,158,228,414],
  [1,4,3,94,158,232,284,414],
  [1,5,3,94,158,228,284,420,1313,1695,1759],
  [1,5,4,94,158,226],
  [1,5,6,94,158,420,1313,1695,1759],
  [1,11,6,94,158,228,284,418],
  [1,11,12,94,158,418]]

def k630 : List (List ℕ) := [[0,1,1,94,158,228,290,414,1185,1695,1759],
  [0,1,2,94,158,228,414,1249],
  [0,1,3,94,158,228,286,418,1313,1695,1759],
  [0,1,3,94,158,290],
  [0,1,3,94,158,418],
  [0,1,3,94,158,420,1313,1695,1759],
  [0,1,4,94,158,226,290,414],
  [0,1,4,94,158,226,418,1313,1695,1759],
  [0,1,6,94,158,228,284,420,1313,1695,1759],
  [0,1,6,94,158,354,673,1121],
  [0,1,12,94,158,228,284,418],
  [0,2,3,94,158,228,284,356,414,673],
  [0,2,3,94,158,228,284,356,414,673,1121],
  [0,4,9,94,158,226,929],
  [0,5,27,94,158,226,673,1121],
  [0,16,9,94,158,232,282,929],
  [0,32,405,94,158,232,284,350,673],
  [0,64,81,94,158,232,282,673,1121],
  [0,110,27,94,158,230,284,418,1185,1695,1759],
  [0,161,18,94,158,230,284,1249],
  [0,181,135,94,158,228,286],
  [0,268,81,94,158,232,284,1185,1695,1759],
  [0,982,405,94,158,230,284],
  [0,1261,648,94,158,226,290,1185,1695,1759],
  [1,1,1,94,158,232,284,414,1249],
  [1,1,3,94,158,232,284,414],
  [1,1,3,94,158,290,418,1313,1695,1759],
  [1,1,3,94,158,356,414,673],
  [1,1,3,94,158,356,414,673,1121],
  [1,1,4,94,158,226,286,354,673,1121],
  [1,1,6,94,158,228,414],
  [1,3,2,94,158,228,1185,1695,1759],
  [1,3,4,94,158,226,292,414,1185,1695,1759],
  [1,5,8,94,158,226,286,420,1313,1695,1759],
  [1,5,9,94,158,228,286,1249],
  [1,9,16,94,158,226,286,418],
  [1,20,9,94,158,230,284,929],
  [1,28,3,94,158,232,282,1249],
  [1,32,405,94,158,230,286,350,673],
  [1,76,81,94,158,230,284,673,1121],
  [1,110,27,94,158,230,286,1185,1695,1759],
  [1,133,162,94,158,226,418,1185,1695,1759],
  [1,268,81,94,158,232,282,418,1185,1695,1759],
  [1,682,243,94,158,232,282],
  [1,5699,3888,94,158,226]]

def k631 : List (List ℕ) := [[0,2,1,94,158,230,284,418,1695,1759],
  [0,2,1,94,158,230,414,1695,1759],
  [0,3,1,94,158,226,420,1313,1694,1758],
  [0,3,2,94,158,226,418,1695,1759],
  [0,4,1,94,158,226,286,356,414,673,1121],
  [0,4,1,94,158,226,286,356,673,1695,1759],
  [0,4,1,94,158,230,284,420,1313,1694,1758],
  [0,4,3,94,158,226,292,414,1695,1759],
  [0,7,1,94,158,228,418,1313,1694,1758],
  [0,7,3,94,158,228,284,420,1695,1759],
  [0,7,3,94,158,228,284,422,1313,1694,1758],
  [0,8,3,94,158,234,284,414,1695,1759],
  [0,9,1,94,158,226,292,1185,1694,1758],
  [0,10,1,94,158,228,292,414,1185,1694,1758],
  [0,10,1,94,158,228,418,1185,1694,1758],
  [0,10,1,94,158,232,284,414,1249],
  [0,10,3,94,158,232,284,1695,1759],
  [0,16,3,94,158,230,282,356,414,673,1121],
  [0,16,3,94,158,230,282,356,673,1695,1759],
  [0,28,3,94,158,228,286,356,414,673,1695,1759],
  [0,37,6,94,158,228,1695,1759],
  [0,40,3,94,158,230,1185,1694,1758],
  [1,1,1,94,158,226,286,420,1695,1759],
  [1,1,1,94,158,226,286,422,1313,1694,1758],
  [1,2,1,94,158,228,414,1249],
  [1,3,1,94,158,226,290,418,1313,1694,1758],
  [1,4,1,94,158,226,290,418,1185,1694,1758],
  [1,4,1,94,158,226,294,414,1185,1694,1758],
  [1,4,1,94,158,226,356,414,673,1695,1759],
  [1,4,1,94,158,230,286,418,1313,1694,1758],
  [1,4,1,94,158,230,286,1695,1759],
  [1,4,3,94,158,230,282,420,1695,1759],
  [1,4,3,94,158,230,282,422,1313,1694,1758],
  [1,6,1,94,158,230,286,418,1185,1694,1758],
  [1,6,1,94,158,230,290,414,1185,1694,1758],
  [1,7,1,94,158,228,286,420,1313,1694,1758],
  [1,7,2,94,158,228,286,418,1695,1759],
  [1,8,1,94,158,234,282,414,1249],
  [1,8,3,94,158,228,290,414,1695,1759],
  [1,8,3,94,158,234,282,1695,1759],
  [1,10,3,94,158,232,286,414,1695,1759],
  [1,16,3,94,158,230,284,356,414,673,1695,1759],
  [1,17,6,94,158,226,290,1695,1759],
  [1,28,3,94,158,228,284,356,414,673,1121],
  [1,28,3,94,158,228,284,356,673,1695,1759],
  [1,67,3,94,158,228,290,1185,1694,1758]]

def k632 : List (List ℕ) := [[0,1,1,33,94,159,229,414,1695,1759],
  [0,1,3,33,94,159,227,284,422,1313,1694,1758],
  [0,1,4,33,94,159,225,286,354,673,1121],
  [0,1,4,33,94,159,227,284,420,1695,1759],
  [0,1,6,33,94,159,225,292,414,1695,1759],
  [0,1,8,33,94,159,225,286,422,1313,1694,1758],
  [0,2,1,33,94,159,227,286,356,414,673,1695,1759],
  [0,2,1,33,94,159,229,284,420,1313,1694,1758],
  [0,3,1,33,94,159,227,292,414,1185,1694,1758],
  [0,3,1,33,94,159,231,284,414,1249],
  [0,3,2,33,94,159,227,418,1313,1694,1758],
  [0,3,16,33,94,159,225,286,420,1695,1759],
  [0,4,3,33,94,159,233,284,414,1695,1759],
  [0,5,8,33,94,159,225,418,1695,1759],
  [0,7,8,33,94,159,225,292,1185,1694,1758],
  [0,8,3,33,94,159,229,282,356,414,673,1121],
  [0,8,3,33,94,159,229,282,356,673,1695,1759],
  [0,20,9,33,94,159,227,286,418,929,1695,1759],
  [0,32,9,33,94,159,231,282,418,929,1695,1759],
  [0,52,9,33,94,159,229,286,929,1695,1759],
  [0,64,405,33,94,159,229,350,673,1695,1759],
  [0,64,405,33,94,159,231,284,350,418,673,1695,1759],
  [0,74,81,33,94,159,227,286,673,1121],
  [0,97,6,33,94,159,229,284,1249],
  [0,128,81,33,94,159,231,282,673,1121],
  [0,856,81,33,94,159,229,284,420,1185,1694,1758],
  [0,1072,81,33,94,159,231,284,418,1185,1694,1758],
  [0,1396,81,33,94,159,229,1185,1694,1758],
  [0,1721,162,33,94,159,227,418,1185,1694,1758],
  [0,1931,243,33,94,159,231,284,1695,1759],
  [0,13532,1215,33,94,159,229,284,418,1695,1759],
  [0,15989,2430,33,94,159,227,1695,1759],
  [1,1,1,33,94,159,227,286,420,1313,1694,1758],
  [1,1,1,33,94,159,227,290,414,1695,1759],
  [1,1,1,33,94,159,231,286,414,1695,1759],
  [1,1,2,33,94,159,225,294,414,1185,1694,1758],
  [1,1,3,33,94,159,227,284,354,673,1121],
  [1,1,8,33,94,159,225,290,418,1185,1694,1758],
  [1,2,1,33,94,159,227,284,356,414,673,1121],
  [1,2,1,33,94,159,227,284,356,673,1695,1759],
  [1,2,1,33,94,159,229,286,418,1313,1694,1758],
  [1,2,3,33,94,159,229,282,420,1695,1759],
  [1,2,3,33,94,159,229,282,422,1313,1694,1758],
  [1,3,1,33,94,159,229,290,414,1185,1694,1758],
  [1,3,8,33,94,159,225,420,1313,1694,1758],
  [1,4,1,33,94,159,233,282,414,1249],
  [1,4,3,33,94,159,233,282,1695,1759],
  [1,8,3,33,94,159,229,284,356,414,673,1695,1759],
  [1,20,9,33,94,159,227,929,1695,1759],
  [1,32,9,33,94,159,231,284,929,1695,1759],
  [1,44,3,33,94,159,231,282,1249],
  [1,52,9,33,94,159,229,284,418,929,1695,1759],
  [1,59,48,33,94,159,225,290,1695,1759],
  [1,64,405,33,94,159,229,286,350,418,673,1695,1759],
  [1,64,405,33,94,159,231,286,350,673,1695,1759],
  [1,107,36,33,94,159,227,286,1249],
  [1,196,81,33,94,159,229,284,673,1121],
  [1,329,81,33,94,159,227,286,420,1185,1694,1758],
  [1,536,81,33,94,159,231,282,420,1185,1694,1758],
  [1,536,81,33,94,159,231,286,1185,1694,1758],
  [1,842,81,33,94,159,227,290,1185,1694,1758],
  [1,1688,243,33,94,159,231,282,418,1695,1759],
  [1,1955,81,33,94,159,229,286,418,1185,1694,1758],
  [1,14747,1215,33,94,159,229,286,1695,1759],
  [1,24283,4860,33,94,159,227,286,418,1695,1759]]

def k633 : List (List ℕ) := [[0,3,1,94,157,227,1249],
  [0,7,1,94,157,229,286],
  [0,88,1,94,157,231,284,1249],
  [1,3,1,94,157,227],
  [1,4,1,94,157,231,284],
  [1,43,1,94,157,229,286,1249],
  [1,48,1,94,157,233,282,1249]]

def k634 : List (List ℕ) := [[0,1,6,94,158,354,673,1121],
  [0,2,3,94,158,290],
  [0,7,3,94,158,228,286,1249],
  [0,8,9,94,158,226,929],
  [0,8,9,94,158,230,284,929],
  [0,10,3,94,158,228,286,1185],
  [0,10,81,94,158,226,673,1121],
  [0,16,81,94,158,230,284,673,1121],
  [0,37,9,94,158,228,286],
  [1,1,6,94,158,226,286,354,673,1121],
  [1,7,3,94,158,230,284,1249],
  [1,14,9,94,158,226,1185],
  [1,16,9,94,158,228,286,929],
  [1,16,9,94,158,230,284,1185],
  [1,26,81,94,158,228,286,673,1121],
  [1,46,27,94,158,230,284],
  [1,83,27,94,158,226]]

def k635 : List (List ℕ) := [[0,1,6,94,158,354,673,1121],
  [0,2,3,94,158,290],
  [0,8,9,94,158,226,929],
  [0,8,9,94,158,230,284,929],
  [0,10,3,94,158,228,286,1185],
  [0,10,81,94,158,226,673,1121],
  [0,16,81,94,158,230,284,673,1121],
  [0,29,9,94,158,228,286,1249],
  [0,199,54,94,158,228,286],
  [1,1,6,94,158,226,286,354,673,1121],
  [1,7,3,94,158,230,284,1249],
  [1,8,9,94,158,226,1249],
  [1,14,9,94,158,226,1185],
  [1,16,9,94,158,228,286,929],
  [1,16,9,94,158,230,284,1185],
  [1,26,81,94,158,228,286,673,1121],
  [1,46,27,94,158,230,284],
  [1,143,54,94,158,226]]

def k636 : List (List ℕ) := [[0,1,4,94,158,226,286,354,673,1121],
  [0,2,1,94,158,228,286,929],
  [0,7,2,94,158,230,284,1249],
  [0,13,27,94,158,228,286,673,1121],
  [0,35,27,94,158,226,1185],
  [0,62,27,94,158,230,284,1185],
  [0,215,81,94,158,226],
  [0,242,81,94,158,230,284],
  [1,1,2,94,158,290],
  [1,1,8,94,158,354,673,1121],
  [1,2,3,94,158,226,929],
  [1,4,3,94,158,230,284,929],
  [1,5,27,94,158,226,673,1121],
  [1,7,2,94,158,228,286,1249],
  [1,8,27,94,158,230,284,673,1121],
  [1,97,27,94,158,228,286,1185],
  [1,833,162,94,158,228,286]]

def k637 : List (List ℕ) := [[0,1,4,94,158,226,286,354],
  [0,1,8,94,158,354,1121],
  [0,1,9,94,158,226,1121],
  [0,1,9,94,158,228,286],
  [1,1,4,94,158,226,286,354,1121],
  [1,1,8,94,158,354],
  [1,1,9,94,158,226],
  [1,1,9,94,158,228,286,1121]]

def k638 : List (List ℕ) := [[0,1,1,94,159,226,286,355,414,607,673],
  [0,1,1,94,159,226,286,355,414,607,673,1121],
  [1,1,3,94,159,228,284,355,414,609,673],
  [1,1,3,94,159,228,284,355,414,609,673,1121],
  [1,1,3,94,159,355,414,607,673],
  [1,1,3,94,159,355,414,607,673,1121]]

def k639 : List (List ℕ) := [[0,1,3,94,158,354,673,1121],
  [0,2,3,94,158,228,284,354,673,1121],
  [0,14,27,94,158,228,286,673,1121],
  [1,1,1,94,158,226,286,354,673,1121],
  [1,2,9,94,158,226,673,1121],
  [1,8,27,94,158,230,284,673,1121]]

def k640 : List (List ℕ) := [[0,1,1,94,158,226,286,354,673,1121],
  [0,2,9,94,158,226,673,1121],
  [0,8,27,94,158,230,284,673,1121],
  [1,1,3,94,158,354,673,1121],
  [1,2,3,94,158,228,284,354,673,1121],
  [1,14,27,94,158,228,286,673,1121]]

def k641 : List (List ℕ) := [[0,1,1,94,158,226,286,354,673,1121],
  [0,14,27,94,158,228,286,673,1121],
  [1,1,3,94,158,354,673,1121],
  [1,2,3,94,158,228,284,354,673,1121],
  [1,2,9,94,158,226,673,1121],
  [1,8,27,94,158,230,284,673,1121]]

def k642 : List (List ℕ) := [[0,2,27,33,94,159,230,284,351,609,673],
  [0,8,9,33,94,159,230,282,353,609,673,1121],
  [0,13,12,33,94,159,226,286,353,607,673,1121],
  [1,2,27,33,94,159,228,286,351,609,673],
  [1,25,9,33,94,159,228,284,353,607,673,1121]]

def k643 : List (List ℕ) := [[0,5,6,94,158,225,353,607,673,1121],
  [0,8,27,94,158,229,286,351,609,673],
  [0,11,3,94,158,229,284,353,609,673,1121],
  [1,4,27,94,158,227,351,609,673],
  [1,4,27,94,158,231,284,351,609,673],
  [1,16,9,94,158,231,282,353,609,673,1121],
  [1,83,18,94,158,227,286,353,607,673,1121]]

def k644 : List (List ℕ) := [[0,1,4,94,158,290,1185],
  [0,1,6,94,158,226,929],
  [0,1,8,94,158,290],
  [1,1,4,94,158,226,1185],
  [1,1,6,94,158,290,929],
  [1,1,8,94,158,226]]

def k645 : List (List ℕ) := [[0,1,2,94,156,228,414,1249],
  [0,1,3,94,156,226,286,356,414,673],
  [0,1,3,94,156,226,286,356,414,673,1121],
  [0,1,4,94,156,226,292,414,1185,1695,1759],
  [0,1,4,94,156,226,418,1313,1695,1759],
  [0,1,6,94,156,228,414],
  [0,1,8,94,156,420,1313,1695,1759],
  [0,1,12,94,156,292,414],
  [0,1,12,94,156,354,673,1121],
  [0,3,2,94,156,228,286,1249],
  [0,3,8,94,156,292,1185,1695,1759],
  [0,5,81,94,156,226,673,1121],
  [0,7,48,94,156,418],
  [0,8,81,94,156,230,284,673,1121],
  [0,91,144,94,156,226],
  [1,1,2,94,156,230,286,414,1249],
  [1,1,3,94,156,226,1249],
  [1,1,3,94,156,228,286],
  [1,1,3,94,156,356,414,673],
  [1,1,3,94,156,356,414,673,1121],
  [1,1,4,94,156,290,418,1313,1695,1759],
  [1,1,4,94,156,294,414,1185,1695,1759],
  [1,1,6,94,156,230,286,414],
  [1,1,8,94,156,226,286,420,1313,1695,1759],
  [1,1,9,94,156,230,284],
  [1,1,12,94,156,226,286,354,673,1121],
  [1,1,12,94,156,226,290,414],
  [1,3,8,94,156,226,290,1185,1695,1759],
  [1,3,16,94,156,290],
  [1,7,6,94,156,230,284,1249],
  [1,7,48,94,156,226,286,418],
  [1,13,81,94,156,228,286,673,1121]]

def k646 : List (List ℕ) := [[0,1,4,94,226,286],
  [0,1,4,94,226,286,1313],
  [1,1,4,94],
  [1,1,4,94,1313]]

def k647 : List (List ℕ) := [[0,1,1,94,158,228,292,414,1185,1694,1758],
  [0,1,1,94,158,228,418,1185,1694,1758],
  [0,1,1,94,158,232,284,414,1249],
  [0,1,2,94,158,226,292,414,1695,1759],
  [0,1,2,94,158,226,420,1313,1694,1758],
  [0,1,2,94,158,228,418,1313,1694,1758],
  [0,1,2,94,158,292,418,1185,1694,1758],
  [0,1,2,94,158,296,414,1185,1694,1758],
  [0,1,3,94,158,230,414,1695,1759],
  [0,1,3,94,158,232,284,1695,1759],
  [0,1,4,94,158,226,418,1695,1759],
  [0,1,6,94,158,228,284,420,1695,1759],
  [0,1,6,94,158,228,284,422,1313,1694,1758],
  [0,1,6,94,158,292,1695,1759],
  [0,2,3,94,158,226,286,356,414,673,1121],
  [0,2,3,94,158,226,286,356,673,1695,1759],
  [0,2,3,94,158,228,286,356,414,673,1695,1759],
  [0,7,12,94,158,228,1695,1759],
  [0,19,6,94,158,226,292,1185,1694,1758],
  [1,1,1,94,158,230,286,414,1249],
  [1,1,1,94,158,294,1185,1694,1758],
  [1,1,2,94,158,226,290,418,1313,1694,1758],
  [1,1,2,94,158,228,286,420,1313,1694,1758],
  [1,1,3,94,158,228,290,414,1695,1759],
  [1,1,3,94,158,230,286,1695,1759],
  [1,1,3,94,158,232,286,414,1695,1759],
  [1,1,4,94,158,228,286,418,1695,1759],
  [1,1,6,94,158,226,286,420,1695,1759],
  [1,1,6,94,158,226,286,422,1313,1694,1758],
  [1,1,6,94,158,294,414,1695,1759],
  [1,2,3,94,158,226,356,414,673,1695,1759],
  [1,2,3,94,158,228,284,356,414,673,1121],
  [1,2,3,94,158,228,284,356,673,1695,1759],
  [1,3,2,94,158,226,290,418,1185,1694,1758],
  [1,3,2,94,158,226,294,414,1185,1694,1758],
  [1,3,4,94,158,226,290,1695,1759],
  [1,13,6,94,158,228,290,1185,1694,1758]]

def k648 : List (List ℕ) := [[0,1,1,94,158,228,414,1249],
  [0,1,2,94,158,226,292,414,1185,1695,1759],
  [0,1,3,94,158,228,414],
  [0,1,6,94,158,292,414],
  [0,2,3,94,158,226,286,356,414,673],
  [0,2,3,94,158,226,286,356,414,673,1121],
  [0,2,3,94,158,226,418,1313,1695,1759],
  [0,3,4,94,158,292,1185,1695,1759],
  [0,5,12,94,158,420,1313,1695,1759],
  [0,5,24,94,158,226],
  [0,11,24,94,158,418],
  [1,1,1,94,158,230,286,414,1249],
  [1,1,2,94,158,294,414,1185,1695,1759],
  [1,1,3,94,158,230,286,414],
  [1,1,6,94,158,226,290,414],
  [1,2,3,94,158,290,418,1313,1695,1759],
  [1,2,3,94,158,356,414,673],
  [1,2,3,94,158,356,414,673,1121],
  [1,3,4,94,158,226,290,1185,1695,1759],
  [1,5,12,94,158,226,286,420,1313,1695,1759],
  [1,5,24,94,158,290],
  [1,11,24,94,158,226,286,418]]

def k649 : List (List ℕ) := [[0,1,6,94,158,228,286,1249],
  [0,1,6,94,158,290,418,1313,1695,1759],
  [0,1,6,94,158,356,414,673],
  [0,1,6,94,158,356,414,673,1121],
  [0,1,8,94,158,226,292,414,1185,1695,1759],
  [0,1,12,94,158,290],
  [0,1,24,94,158,226,286,354,673,1121],
  [0,3,32,94,158,226,286,418],
  [0,4,81,94,158,230,284,673,1121],
  [0,5,48,94,158,226,286,420,1313,1695,1759],
  [1,1,4,94,158,228,414,1249],
  [1,1,6,94,158,418],
  [1,1,6,94,158,420,1313,1695,1759],
  [1,1,12,94,158,228,414],
  [1,1,12,94,158,354,673,1121],
  [1,1,18,94,158,230,284],
  [1,1,24,94,158,226,290,414],
  [1,1,24,94,158,226,418,1313,1695,1759],
  [1,1,32,94,158,226],
  [1,3,16,94,158,226,290,1185,1695,1759],
  [1,5,162,94,158,226,673,1121],
  [1,7,12,94,158,230,284,1249],
  [1,13,72,94,158,228,286]]

def k650 : List (List ℕ) := [[0,1,1,94,158,226,290,418,1185,1694,1758],
  [0,1,1,94,158,226,294,414,1185,1694,1758],
  [0,1,1,94,158,228,414,1249],
  [0,1,2,94,158,226,290,418,1313,1694,1758],
  [0,1,2,94,158,228,286,420,1313,1694,1758],
  [0,1,3,94,158,232,286,414,1695,1759],
  [0,1,4,94,158,228,286,418,1695,1759],
  [0,1,6,94,158,226,286,420,1695,1759],
  [0,1,6,94,158,226,286,422,1313,1694,1758],
  [0,2,3,94,158,226,356,414,673,1695,1759],
  [0,2,3,94,158,228,284,356,414,673,1121],
  [0,2,3,94,158,228,284,356,673,1695,1759],
  [0,7,12,94,158,226,290,1695,1759],
  [0,13,6,94,158,228,290,1185,1694,1758],
  [1,1,1,94,158,228,292,414,1185,1694,1758],
  [1,1,1,94,158,228,418,1185,1694,1758],
  [1,1,1,94,158,232,284,414,1249],
  [1,1,2,94,158,226,420,1313,1694,1758],
  [1,1,2,94,158,228,418,1313,1694,1758],
  [1,1,3,94,158,226,292,414,1695,1759],
  [1,1,3,94,158,232,284,1695,1759],
  [1,1,4,94,158,226,418,1695,1759],
  [1,1,4,94,158,228,1695,1759],
  [1,1,6,94,158,228,284,420,1695,1759],
  [1,1,6,94,158,228,284,422,1313,1694,1758],
  [1,2,3,94,158,226,286,356,414,673,1121],
  [1,2,3,94,158,226,286,356,673,1695,1759],
  [1,2,3,94,158,228,286,356,414,673,1695,1759],
  [1,13,6,94,158,226,292,1185,1694,1758]]

def k651 : List (List ℕ) := [[0,1,3,33,94,159,227,284,356,414,673,1121],
  [0,1,3,33,94,159,227,284,356,673,1695,1759],
  [0,1,3,33,94,159,229,286,1695,1759],
  [0,1,4,33,94,159,225,294,414,1185,1694,1758],
  [0,1,4,33,94,159,227,286,420,1313,1694,1758],
  [0,1,6,33,94,159,227,290,414,1695,1759],
  [0,1,6,33,94,159,231,286,414,1695,1759],
  [0,1,16,33,94,159,225,420,1313,1694,1758],
  [0,1,96,33,94,159,225,290,1695,1759],
  [0,3,16,33,94,159,225,290,418,1185,1694,1758],
  [0,4,27,33,94,159,229,284,673,1121],
  [0,5,8,33,94,159,227,286,1249],
  [0,7,48,33,94,159,225,418,1695,1759],
  [0,13,12,33,94,159,227,290,1185,1694,1758],
  [1,1,2,33,94,159,227,292,414,1185,1694,1758],
  [1,1,2,33,94,159,227,418,1185,1694,1758],
  [1,1,2,33,94,159,231,284,414,1249],
  [1,1,3,33,94,159,227,286,356,414,673,1695,1759],
  [1,1,3,33,94,159,229,284,418,1695,1759],
  [1,1,4,33,94,159,227,418,1313,1694,1758],
  [1,1,6,33,94,159,231,284,1695,1759],
  [1,1,9,33,94,159,227,286,673,1121],
  [1,1,12,33,94,159,225,292,414,1695,1759],
  [1,1,12,33,94,159,227,284,420,1695,1759],
  [1,1,12,33,94,159,227,284,422,1313,1694,1758],
  [1,1,24,33,94,159,225,286,354,673,1121],
  [1,1,32,33,94,159,225,286,420,1695,1759],
  [1,1,48,33,94,159,225,286,422,1313,1694,1758],
  [1,5,4,33,94,159,229,284,1249],
  [1,5,72,33,94,159,227,1695,1759],
  [1,7,72,33,94,159,227,286,418,1695,1759],
  [1,23,48,33,94,159,225,292,1185,1694,1758]]

def k652 : List (List ℕ) := [[0,1,6,94,158,290],
  [0,1,9,94,158,230,284],
  [0,1,12,94,158,226,286,354,673,1121],
  [0,1,18,94,158,228,286],
  [0,7,6,94,158,230,284,1249],
  [0,13,81,94,158,228,286,673,1121],
  [1,1,3,94,158,226],
  [1,1,12,94,158,354,673,1121],
  [1,5,81,94,158,226,673,1121],
  [1,7,6,94,158,228,286,1249],
  [1,8,81,94,158,230,284,673,1121]]

def k653 : List (List ℕ) := [[0,1,12,94,158,354,673,1121],
  [0,5,81,94,158,226,673,1121],
  [0,8,81,94,158,230,284,673,1121],
  [0,11,6,94,158,228,286,1249],
  [0,29,36,94,158,226],
  [1,1,6,94,158,290],
  [1,1,9,94,158,230,284],
  [1,1,12,94,158,226,286,354,673,1121],
  [1,2,3,94,158,226,1249],
  [1,7,6,94,158,230,284,1249],
  [1,13,81,94,158,228,286,673,1121],
  [1,19,36,94,158,228,286]]

def k654 : List (List ℕ) := [[0,1,4,94,158,290],
  [1,1,4,94,158,226],
  [1,1,8,94,158,354,673,1121]]

def k655 : List (List ℕ) := [[0,1,6,94,159,355,414,607,673],
  [0,1,6,94,159,355,414,607,673,1121],
  [1,1,6,94,159,226,286,355,414,607,673],
  [1,1,6,94,159,226,286,355,414,607,673,1121]]

def k656 : List (List ℕ) := [[0,1,6,94,158,226,286,354,673,1121],
  [0,1,27,94,158,226,673,1121],
  [1,1,6,94,158,354,673,1121],
  [1,1,27,94,158,228,286,673,1121]]

def k657 : List (List ℕ) := [[0,1,6,94,158,354,673,1121],
  [0,1,27,94,158,228,286,673,1121],
  [1,1,6,94,158,226,286,354,673,1121],
  [1,1,27,94,158,226,673,1121]]

def k658 : List (List ℕ) := [[0,1,6,94,158,354,673,1121],
  [0,1,27,94,158,226,673,1121],
  [1,1,6,94,158,226,286,354,673,1121],
  [1,1,27,94,158,228,286,673,1121]]

def k659 : List (List ℕ) := [[0,1,8,94,158,354,673,1121],
  [0,1,12,94,158,226,929],
  [0,1,16,94,158,354,673],
  [0,3,1,94,158,294,1185,3999],
  [0,3,2,94,158,226],
  [0,3,8,94,158,226,290,1249,3935],
  [0,7,1,94,158,228,290,1185,3999],
  [1,1,2,94,158,290],
  [1,1,12,94,158,228,286,929],
  [1,2,1,94,158,230,1185,3999],
  [1,5,8,94,158,228,286],
  [1,11,1,94,158,226,292,1185,3999]]

def k660 : List (List ℕ) := [[0,1,2,94,158,226,929],
  [0,3,4,94,158,290,1185],
  [0,3,8,94,158,290],
  [1,1,2,94,158,290,929],
  [1,3,4,94,158,226,1185],
  [1,3,8,94,158,226]]

def k661 : List (List ℕ) := [[0,1,1,94,156,226,286,356,414,673],
  [0,1,1,94,156,226,286,356,414,673,1121],
  [0,1,2,94,156,228,414],
  [0,1,4,94,156,292,414],
  [0,1,4,94,156,354,673,1121],
  [0,3,2,94,156,228,414,1249],
  [0,3,4,94,156,226,292,414,1185,1695,1759],
  [0,3,4,94,156,226,418,1313,1695,1759],
  [0,3,8,94,156,420,1313,1695,1759],
  [0,5,27,94,156,226,673,1121],
  [0,7,16,94,156,418],
  [0,8,27,94,156,230,284,673,1121],
  [0,9,2,94,156,228,286,1249],
  [0,9,8,94,156,292,1185,1695,1759],
  [0,139,48,94,156,226],
  [1,1,1,94,156,226,1249],
  [1,1,1,94,156,356,414,673],
  [1,1,1,94,156,356,414,673,1121],
  [1,1,2,94,156,230,286,414],
  [1,1,3,94,156,230,284],
  [1,1,4,94,156,226,286,354,673,1121],
  [1,1,4,94,156,226,290,414],
  [1,3,2,94,156,228,286],
  [1,3,2,94,156,230,286,414,1249],
  [1,3,4,94,156,290,418,1313,1695,1759],
  [1,3,4,94,156,294,414,1185,1695,1759],
  [1,3,8,94,156,226,286,420,1313,1695,1759],
  [1,7,2,94,156,230,284,1249],
  [1,7,16,94,156,226,286,418],
  [1,9,8,94,156,226,290,1185,1695,1759],
  [1,13,27,94,156,228,286,673,1121],
  [1,17,16,94,156,290]]

def k662 : List (List ℕ) := [[0,3,4,94,226,286],
  [0,3,4,94,226,286,1313],
  [1,3,4,94],
  [1,3,4,94,1313]]

def k663 : List (List ℕ) := [[0,1,1,94,158,230,414,1695,1759],
  [0,1,1,94,158,232,284,1695,1759],
  [0,1,2,94,158,228,284,420,1695,1759],
  [0,1,2,94,158,228,284,422,1313,1694,1758],
  [0,1,2,94,158,292,1695,1759],
  [0,2,1,94,158,226,286,356,414,673,1121],
  [0,2,1,94,158,226,286,356,673,1695,1759],
  [0,2,1,94,158,228,286,356,414,673,1695,1759],
  [0,3,1,94,158,228,292,414,1185,1694,1758],
  [0,3,1,94,158,228,418,1185,1694,1758],
  [0,3,1,94,158,232,284,414,1249],
  [0,3,2,94,158,226,292,414,1695,1759],
  [0,3,2,94,158,226,420,1313,1694,1758],
  [0,3,2,94,158,228,418,1313,1694,1758],
  [0,3,2,94,158,292,418,1185,1694,1758],
  [0,3,2,94,158,296,414,1185,1694,1758],
  [0,3,4,94,158,226,418,1695,1759],
  [0,7,4,94,158,228,1695,1759],
  [0,19,2,94,158,226,292,1185,1694,1758],
  [1,1,1,94,158,228,290,414,1695,1759],
  [1,1,1,94,158,230,286,1695,1759],
  [1,1,1,94,158,232,286,414,1695,1759],
  [1,1,2,94,158,226,286,420,1695,1759],
  [1,1,2,94,158,226,286,422,1313,1694,1758],
  [1,1,2,94,158,294,414,1695,1759],
  [1,2,1,94,158,226,356,414,673,1695,1759],
  [1,2,1,94,158,228,284,356,414,673,1121],
  [1,2,1,94,158,228,284,356,673,1695,1759],
  [1,3,1,94,158,230,286,414,1249],
  [1,3,1,94,158,294,1185,1694,1758],
  [1,3,2,94,158,226,290,418,1313,1694,1758],
  [1,3,2,94,158,228,286,420,1313,1694,1758],
  [1,3,4,94,158,228,286,418,1695,1759],
  [1,9,2,94,158,226,290,418,1185,1694,1758],
  [1,9,2,94,158,226,294,414,1185,1694,1758],
  [1,9,4,94,158,226,290,1695,1759],
  [1,13,2,94,158,228,290,1185,1694,1758]]

def k664 : List (List ℕ) := [[0,1,1,94,158,228,414],
  [0,1,2,94,158,292,414],
  [0,2,1,94,158,226,286,356,414,673],
  [0,2,1,94,158,226,286,356,414,673,1121],
  [0,2,1,94,158,226,418,1313,1695,1759],
  [0,3,1,94,158,228,414,1249],
  [0,3,2,94,158,226,292,414,1185,1695,1759],
  [0,5,4,94,158,420,1313,1695,1759],
  [0,5,8,94,158,226],
  [0,9,4,94,158,292,1185,1695,1759],
  [0,11,8,94,158,418],
  [1,1,1,94,158,230,286,414],
  [1,1,2,94,158,226,290,414],
  [1,2,1,94,158,290,418,1313,1695,1759],
  [1,2,1,94,158,356,414,673],
  [1,2,1,94,158,356,414,673,1121],
  [1,3,1,94,158,230,286,414,1249],
  [1,3,2,94,158,294,414,1185,1695,1759],
  [1,5,4,94,158,226,286,420,1313,1695,1759],
  [1,5,8,94,158,290],
  [1,9,4,94,158,226,290,1185,1695,1759],
  [1,11,8,94,158,226,286,418]]

def k665 : List (List ℕ) := [[0,1,2,94,158,228,286,1249],
  [0,1,2,94,158,290,418,1313,1695,1759],
  [0,1,2,94,158,356,414,673],
  [0,1,2,94,158,356,414,673,1121],
  [0,1,8,94,158,226,286,354,673,1121],
  [0,3,4,94,158,290],
  [0,3,8,94,158,226,292,414,1185,1695,1759],
  [0,4,27,94,158,230,284,673,1121],
  [0,5,16,94,158,226,286,420,1313,1695,1759],
  [0,9,32,94,158,226,286,418],
  [1,1,2,94,158,418],
  [1,1,2,94,158,420,1313,1695,1759],
  [1,1,4,94,158,228,414],
  [1,1,4,94,158,354,673,1121],
  [1,1,6,94,158,230,284],
  [1,1,8,94,158,226,290,414],
  [1,1,8,94,158,226,418,1313,1695,1759],
  [1,3,4,94,158,228,414,1249],
  [1,5,54,94,158,226,673,1121],
  [1,7,4,94,158,230,284,1249],
  [1,9,16,94,158,226,290,1185,1695,1759],
  [1,13,24,94,158,228,286],
  [1,19,32,94,158,226]]

def k666 : List (List ℕ) := [[0,1,1,94,158,232,286,414,1695,1759],
  [0,1,2,94,158,226,286,420,1695,1759],
  [0,1,2,94,158,226,286,422,1313,1694,1758],
  [0,2,1,94,158,226,356,414,673,1695,1759],
  [0,2,1,94,158,228,284,356,414,673,1121],
  [0,2,1,94,158,228,284,356,673,1695,1759],
  [0,3,1,94,158,226,290,418,1185,1694,1758],
  [0,3,1,94,158,226,294,414,1185,1694,1758],
  [0,3,1,94,158,228,414,1249],
  [0,3,2,94,158,226,290,418,1313,1694,1758],
  [0,3,2,94,158,228,286,420,1313,1694,1758],
  [0,3,4,94,158,228,286,418,1695,1759],
  [0,7,4,94,158,226,290,1695,1759],
  [0,13,2,94,158,228,290,1185,1694,1758],
  [1,1,1,94,158,226,292,414,1695,1759],
  [1,1,1,94,158,232,284,1695,1759],
  [1,1,2,94,158,228,284,420,1695,1759],
  [1,1,2,94,158,228,284,422,1313,1694,1758],
  [1,2,1,94,158,226,286,356,414,673,1121],
  [1,2,1,94,158,226,286,356,673,1695,1759],
  [1,2,1,94,158,228,286,356,414,673,1695,1759],
  [1,3,1,94,158,228,292,414,1185,1694,1758],
  [1,3,1,94,158,228,418,1185,1694,1758],
  [1,3,1,94,158,232,284,414,1249],
  [1,3,2,94,158,226,420,1313,1694,1758],
  [1,3,2,94,158,228,418,1313,1694,1758],
  [1,3,4,94,158,226,418,1695,1759],
  [1,3,4,94,158,228,1695,1759],
  [1,13,2,94,158,226,292,1185,1694,1758]]

def k667 : List (List ℕ) := [[0,1,1,33,94,159,227,284,356,414,673,1121],
  [0,1,1,33,94,159,227,284,356,673,1695,1759],
  [0,1,1,33,94,159,229,286,1695,1759],
  [0,1,2,33,94,159,227,290,414,1695,1759],
  [0,1,2,33,94,159,231,286,414,1695,1759],
  [0,3,4,33,94,159,225,294,414,1185,1694,1758],
  [0,3,4,33,94,159,227,286,420,1313,1694,1758],
  [0,3,16,33,94,159,225,420,1313,1694,1758],
  [0,4,9,33,94,159,229,284,673,1121],
  [0,7,24,33,94,159,227,1695,1759],
  [0,9,16,33,94,159,225,290,418,1185,1694,1758],
  [0,13,4,33,94,159,227,290,1185,1694,1758],
  [0,15,8,33,94,159,227,286,1249],
  [0,15,16,33,94,159,225,418,1695,1759],
  [1,1,1,33,94,159,227,286,356,414,673,1695,1759],
  [1,1,1,33,94,159,229,284,418,1695,1759],
  [1,1,2,33,94,159,231,284,1695,1759],
  [1,1,3,33,94,159,227,286,673,1121],
  [1,1,4,33,94,159,225,292,414,1695,1759],
  [1,1,4,33,94,159,227,284,420,1695,1759],
  [1,1,4,33,94,159,227,284,422,1313,1694,1758],
  [1,1,8,33,94,159,225,286,354,673,1121],
  [1,1,16,33,94,159,225,286,422,1313,1694,1758],
  [1,3,2,33,94,159,227,292,414,1185,1694,1758],
  [1,3,2,33,94,159,227,418,1185,1694,1758],
  [1,3,2,33,94,159,231,284,414,1249],
  [1,3,4,33,94,159,227,418,1313,1694,1758],
  [1,3,32,33,94,159,225,286,420,1695,1759],
  [1,15,4,33,94,159,229,284,1249],
  [1,15,32,33,94,159,225,290,1695,1759],
  [1,19,24,33,94,159,227,286,418,1695,1759],
  [1,23,16,33,94,159,225,292,1185,1694,1758]]

def k668 : List (List ℕ) := [[0,1,3,94,158,230,284],
  [0,1,4,94,158,226,286,354,673,1121],
  [0,3,2,94,158,290],
  [0,7,2,94,158,230,284,1249],
  [0,7,6,94,158,228,286],
  [0,13,27,94,158,228,286,673,1121],
  [1,1,4,94,158,354,673,1121],
  [1,3,1,94,158,226],
  [1,5,27,94,158,226,673,1121],
  [1,7,2,94,158,228,286,1249],
  [1,8,27,94,158,230,284,673,1121]]

def k669 : List (List ℕ) := [[0,1,4,94,158,354,673,1121],
  [0,5,27,94,158,226,673,1121],
  [0,8,27,94,158,230,284,673,1121],
  [0,11,2,94,158,228,286,1249],
  [0,53,12,94,158,226],
  [1,1,3,94,158,230,284],
  [1,1,4,94,158,226,286,354,673,1121],
  [1,2,1,94,158,226,1249],
  [1,3,2,94,158,290],
  [1,7,2,94,158,230,284,1249],
  [1,13,27,94,158,228,286,673,1121],
  [1,31,12,94,158,228,286]]

def k670 : List (List ℕ) := [[0,3,4,94,158,290],
  [1,1,8,94,158,354,673,1121],
  [1,3,4,94,158,226]]

def k671 : List (List ℕ) := [[0,1,2,94,159,355,414,607,673],
  [0,1,2,94,159,355,414,607,673,1121],
  [1,1,2,94,159,226,286,355,414,607,673],
  [1,1,2,94,159,226,286,355,414,607,673,1121]]

def k672 : List (List ℕ) := [[0,1,2,94,158,226,286,354,673,1121],
  [0,1,9,94,158,226,673,1121],
  [1,1,2,94,158,354,673,1121],
  [1,1,9,94,158,228,286,673,1121]]

def k673 : List (List ℕ) := [[0,1,2,94,158,354,673,1121],
  [0,1,9,94,158,228,286,673,1121],
  [1,1,2,94,158,226,286,354,673,1121],
  [1,1,9,94,158,226,673,1121]]

def k674 : List (List ℕ) := [[0,1,2,94,158,354,673,1121],
  [0,1,9,94,158,226,673,1121],
  [1,1,2,94,158,226,286,354,673,1121],
  [1,1,9,94,158,228,286,673,1121]]

def k675 : List (List ℕ) := [[0,1,2,94,158,226,1185],
  [0,1,3,94,158,290,929],
  [0,1,4,94,158,226],
  [1,1,2,94,158,290,1185],
  [1,1,3,94,158,226,929],
  [1,1,4,94,158,290]]

def k676 : List (List ℕ) := [[0,1,1,94,156,230,286,414,1249],
  [0,1,2,94,156,290,418,1313,1695,1759],
  [0,1,2,94,156,294,414,1185,1695,1759],
  [0,1,3,94,156,230,286,414],
  [0,1,4,94,156,226,286,420,1313,1695,1759],
  [0,1,6,94,156,226,286,354,673,1121],
  [0,1,6,94,156,226,290,414],
  [0,1,6,94,156,228,286],
  [0,2,3,94,156,226,1249],
  [0,2,3,94,156,356,414,673],
  [0,2,3,94,156,356,414,673,1121],
  [0,2,9,94,156,230,284],
  [0,3,4,94,156,226,290,1185,1695,1759],
  [0,7,3,94,156,230,284,1249],
  [0,7,24,94,156,226,286,418],
  [0,26,81,94,156,228,286,673,1121],
  [1,1,1,94,156,228,414,1249],
  [1,1,2,94,156,226,292,414,1185,1695,1759],
  [1,1,2,94,156,226,418,1313,1695,1759],
  [1,1,3,94,156,228,414],
  [1,1,4,94,156,420,1313,1695,1759],
  [1,1,6,94,156,292,414],
  [1,1,6,94,156,354,673,1121],
  [1,1,8,94,156,290],
  [1,2,3,94,156,226,286,356,414,673],
  [1,2,3,94,156,226,286,356,414,673,1121],
  [1,3,1,94,156,228,286,1249],
  [1,3,4,94,156,292,1185,1695,1759],
  [1,7,24,94,156,418],
  [1,10,81,94,156,226,673,1121],
  [1,16,81,94,156,230,284,673,1121],
  [1,19,72,94,156,226]]

def k677 : List (List ℕ) := [[0,1,2,94],
  [0,1,2,94,1313],
  [1,1,2,94,226,286],
  [1,1,2,94,226,286,1313]]

def k678 : List (List ℕ) := [[0,1,1,94,158,226,290,418,1313,1694,1758],
  [0,1,1,94,158,228,286,420,1313,1694,1758],
  [0,1,2,94,158,228,286,418,1695,1759],
  [0,1,3,94,158,226,286,420,1695,1759],
  [0,1,3,94,158,226,286,422,1313,1694,1758],
  [0,1,3,94,158,294,414,1695,1759],
  [0,2,1,94,158,230,286,414,1249],
  [0,2,1,94,158,294,1185,1694,1758],
  [0,2,3,94,158,228,290,414,1695,1759],
  [0,2,3,94,158,230,286,1695,1759],
  [0,2,3,94,158,232,286,414,1695,1759],
  [0,3,1,94,158,226,290,418,1185,1694,1758],
  [0,3,1,94,158,226,294,414,1185,1694,1758],
  [0,3,2,94,158,226,290,1695,1759],
  [0,4,3,94,158,226,356,414,673,1695,1759],
  [0,4,3,94,158,228,284,356,414,673,1121],
  [0,4,3,94,158,228,284,356,673,1695,1759],
  [0,13,3,94,158,228,290,1185,1694,1758],
  [1,1,1,94,158,226,292,414,1695,1759],
  [1,1,1,94,158,226,420,1313,1694,1758],
  [1,1,1,94,158,228,418,1313,1694,1758],
  [1,1,1,94,158,292,418,1185,1694,1758],
  [1,1,1,94,158,296,414,1185,1694,1758],
  [1,1,2,94,158,226,418,1695,1759],
  [1,1,3,94,158,228,284,420,1695,1759],
  [1,1,3,94,158,228,284,422,1313,1694,1758],
  [1,1,3,94,158,292,1695,1759],
  [1,2,1,94,158,228,292,414,1185,1694,1758],
  [1,2,1,94,158,228,418,1185,1694,1758],
  [1,2,1,94,158,232,284,414,1249],
  [1,2,3,94,158,230,414,1695,1759],
  [1,2,3,94,158,232,284,1695,1759],
  [1,4,3,94,158,226,286,356,414,673,1121],
  [1,4,3,94,158,226,286,356,673,1695,1759],
  [1,4,3,94,158,228,286,356,414,673,1695,1759],
  [1,7,6,94,158,228,1695,1759],
  [1,19,3,94,158,226,292,1185,1694,1758]]

def k679 : List (List ℕ) := [[0,1,1,94,158,294,414,1185,1695,1759],
  [0,1,3,94,158,226,290,414],
  [0,2,1,94,158,230,286,414,1249],
  [0,2,3,94,158,230,286,414],
  [0,3,2,94,158,226,290,1185,1695,1759],
  [0,4,3,94,158,290,418,1313,1695,1759],
  [0,4,3,94,158,356,414,673],
  [0,4,3,94,158,356,414,673,1121],
  [0,5,6,94,158,226,286,420,1313,1695,1759],
  [0,5,12,94,158,290],
  [0,11,12,94,158,226,286,418],
  [1,1,1,94,158,226,292,414,1185,1695,1759],
  [1,1,3,94,158,292,414],
  [1,2,1,94,158,228,414,1249],
  [1,2,3,94,158,228,414],
  [1,3,2,94,158,292,1185,1695,1759],
  [1,4,3,94,158,226,286,356,414,673],
  [1,4,3,94,158,226,286,356,414,673,1121],
  [1,4,3,94,158,226,418,1313,1695,1759],
  [1,5,6,94,158,420,1313,1695,1759],
  [1,5,12,94,158,226],
  [1,11,12,94,158,418]]

def k680 : List (List ℕ) := [[0,1,2,94,158,228,414,1249],
  [0,1,3,94,158,290],
  [0,1,3,94,158,418],
  [0,1,3,94,158,420,1313,1695,1759],
  [0,1,6,94,158,228,414],
  [0,1,6,94,158,354,673,1121],
  [0,1,9,94,158,230,284],
  [0,1,12,94,158,226,290,414],
  [0,1,12,94,158,226,418,1313,1695,1759],
  [0,3,8,94,158,226,290,1185,3679],
  [0,5,81,94,158,226,673,1121],
  [0,7,6,94,158,230,284,1249],
  [0,13,36,94,158,228,286],
  [1,1,3,94,158,228,286,1249],
  [1,1,3,94,158,290,418,1313,1695,1759],
  [1,1,3,94,158,356,414,673],
  [1,1,3,94,158,356,414,673,1121],
  [1,1,4,94,158,226,292,414,1185,3679],
  [1,1,12,94,158,226,286,354,673,1121],
  [1,3,16,94,158,226,286,418],
  [1,5,24,94,158,226,286,420,1313,1695,1759],
  [1,7,16,94,158,226],
  [1,8,81,94,158,230,284,673,1121]]

def k681 : List (List ℕ) := [[0,1,1,94,158,226,420,1313,1694,1758],
  [0,1,1,94,158,228,418,1313,1694,1758],
  [0,1,2,94,158,226,418,1695,1759],
  [0,1,2,94,158,228,1695,1759],
  [0,1,3,94,158,228,284,420,1695,1759],
  [0,1,3,94,158,228,284,422,1313,1694,1758],
  [0,2,1,94,158,228,292,414,1185,1694,1758],
  [0,2,1,94,158,228,418,1185,1694,1758],
  [0,2,1,94,158,232,284,414,1249],
  [0,2,3,94,158,226,292,414,1695,1759],
  [0,2,3,94,158,232,284,1695,1759],
  [0,4,3,94,158,226,286,356,414,673,1121],
  [0,4,3,94,158,226,286,356,673,1695,1759],
  [0,4,3,94,158,228,286,356,414,673,1695,1759],
  [0,13,3,94,158,226,292,1185,1694,1758],
  [1,1,1,94,158,226,290,418,1313,1694,1758],
  [1,1,1,94,158,228,286,420,1313,1694,1758],
  [1,1,2,94,158,228,286,418,1695,1759],
  [1,1,3,94,158,226,286,420,1695,1759],
  [1,1,3,94,158,226,286,422,1313,1694,1758],
  [1,2,1,94,158,226,290,418,1185,1694,1758],
  [1,2,1,94,158,226,294,414,1185,1694,1758],
  [1,2,1,94,158,228,414,1249],
  [1,2,3,94,158,232,286,414,1695,1759],
  [1,4,3,94,158,226,356,414,673,1695,1759],
  [1,4,3,94,158,228,284,356,414,673,1121],
  [1,4,3,94,158,228,284,356,673,1695,1759],
  [1,7,6,94,158,226,290,1695,1759],
  [1,13,3,94,158,228,290,1185,1694,1758]]

def k682 : List (List ℕ) := [[0,1,1,33,94,159,227,292,414,1185,1694,1758],
  [0,1,1,33,94,159,227,418,1185,1694,1758],
  [0,1,1,33,94,159,231,284,414,1249],
  [0,1,2,33,94,159,227,418,1313,1694,1758],
  [0,1,3,33,94,159,231,284,1695,1759],
  [0,1,6,33,94,159,225,292,414,1695,1759],
  [0,1,6,33,94,159,227,284,420,1695,1759],
  [0,1,6,33,94,159,227,284,422,1313,1694,1758],
  [0,1,12,33,94,159,225,286,354,673,1121],
  [0,1,16,33,94,159,225,286,420,1695,1759],
  [0,1,24,33,94,159,225,286,422,1313,1694,1758],
  [0,2,3,33,94,159,227,286,356,414,673,1695,1759],
  [0,2,3,33,94,159,229,284,418,1695,1759],
  [0,2,9,33,94,159,227,286,673,1121],
  [0,5,2,33,94,159,229,284,1249],
  [0,5,24,33,94,159,225,418,1695,1759],
  [0,23,24,33,94,159,225,292,1185,1694,1758],
  [0,23,36,33,94,159,227,1695,1759],
  [1,1,2,33,94,159,225,294,414,1185,1694,1758],
  [1,1,2,33,94,159,227,286,420,1313,1694,1758],
  [1,1,3,33,94,159,227,290,414,1695,1759],
  [1,1,3,33,94,159,231,286,414,1695,1759],
  [1,1,8,33,94,159,225,420,1313,1694,1758],
  [1,2,3,33,94,159,227,284,356,414,673,1121],
  [1,2,3,33,94,159,227,284,356,673,1695,1759],
  [1,2,3,33,94,159,229,286,1695,1759],
  [1,3,8,33,94,159,225,290,418,1185,1694,1758],
  [1,5,4,33,94,159,227,286,1249],
  [1,8,27,33,94,159,229,284,673,1121],
  [1,11,36,33,94,159,227,286,418,1695,1759],
  [1,13,6,33,94,159,227,290,1185,1694,1758],
  [1,25,48,33,94,159,225,290,1695,1759]]

def k683 : List (List ℕ) := [[0,1,6,94,158,354,673,1121],
  [0,2,3,94,158,290],
  [0,7,3,94,158,228,286,1249],
  [0,8,9,94,158,228,286],
  [0,10,81,94,158,226,673,1121],
  [0,16,81,94,158,230,284,673,1121],
  [1,1,6,94,158,226,286,354,673,1121],
  [1,2,9,94,158,230,284],
  [1,4,3,94,158,226],
  [1,7,3,94,158,230,284,1249],
  [1,26,81,94,158,228,286,673,1121]]

def k684 : List (List ℕ) := [[0,1,6,94,158,226,286,354,673,1121],
  [0,1,18,94,158,228,286],
  [0,2,9,94,158,230,284],
  [0,4,3,94,158,226,1249],
  [0,7,3,94,158,230,284,1249],
  [0,7,18,94,158,226],
  [0,26,81,94,158,228,286,673,1121],
  [1,1,6,94,158,354,673,1121],
  [1,2,3,94,158,290],
  [1,10,81,94,158,226,673,1121],
  [1,11,3,94,158,228,286,1249],
  [1,16,81,94,158,230,284,673,1121]]

def k685 : List (List ℕ) := [[0,1,2,94,158,226],
  [1,1,2,94,158,290],
  [1,1,8,94,158,354,673,1121]]

def k686 : List (List ℕ) := [[0,1,8,94,158,354,1121],
  [1,1,8,94,158,354]]

def k687 : List (List ℕ) := [[0,1,3,94,159,226,286,355,414,607,673],
  [0,1,3,94,159,226,286,355,414,607,673,1121],
  [1,1,3,94,159,355,414,607,673],
  [1,1,3,94,159,355,414,607,673,1121]]

def k688 : List (List ℕ) := [[0,1,3,94,158,354,673,1121],
  [0,2,27,94,158,228,286,673,1121],
  [1,1,3,94,158,226,286,354,673,1121],
  [1,2,27,94,158,226,673,1121]]

def k689 : List (List ℕ) := [[0,1,3,94,158,226,286,354,673,1121],
  [0,2,27,94,158,226,673,1121],
  [1,1,3,94,158,354,673,1121],
  [1,2,27,94,158,228,286,673,1121]]

def k690 : List (List ℕ) := [[0,1,3,94,158,226,286,354,673,1121],
  [0,2,27,94,158,228,286,673,1121],
  [1,1,3,94,158,354,673,1121],
  [1,2,27,94,158,226,673,1121]]

def k691 : List (List ℕ) := [[0,1,6,94,158,290,929],
  [0,2,3,94,158,228,286,929],
  [0,5,4,94,158,226,1185],
  [0,5,8,94,158,226],
  [1,1,1,94,158,228,286,1185],
  [1,1,2,94,158,228,286],
  [1,1,4,94,158,290,1185],
  [1,1,8,94,158,290],
  [1,5,6,94,158,226,929]]

def k692 : List (List ℕ) := [[0,1,1,94,156,228,286,418,1313,1695,1759],
  [0,1,1,94,156,228,290,414,1185,1695,1759],
  [0,1,3,94,156,356,414,673],
  [0,1,3,94,156,356,414,673,1121],
  [0,1,4,94,156,290,418,1313,1695,1759],
  [0,1,4,94,156,294,414,1185,1695,1759],
  [0,1,48,94,156,290],
  [0,4,3,94,156,228,284,356,414,673],
  [0,4,3,94,156,228,284,356,414,673,1121],
  [0,5,2,94,156,230,286,414,1249],
  [0,5,6,94,156,230,286,414],
  [0,5,8,94,156,226,286,420,1313,1695,1759],
  [0,5,12,94,156,226,286,354,673,1121],
  [0,5,12,94,156,226,290,414],
  [0,8,3,94,156,228,286,929],
  [0,16,9,94,156,232,282,929],
  [0,32,405,94,156,228,350,673],
  [0,32,405,94,156,232,284,350,673],
  [0,35,27,94,156,228,286,673,1121],
  [0,35,48,94,156,226,286,418],
  [0,64,81,94,156,232,282,673,1121],
  [0,71,18,94,156,228,1185,1695,1759],
  [0,91,81,94,156,226,418,1185,1695,1759],
  [0,206,27,94,156,230,284,418,1185,1695,1759],
  [0,268,81,94,156,232,284,1185,1695,1759],
  [0,287,18,94,156,230,284,1249],
  [0,487,648,94,156,226,290,1185,1695,1759],
  [0,1912,405,94,156,230,284],
  [1,1,2,94,156,228,284,420,1313,1695,1759],
  [1,1,2,94,156,228,414],
  [1,1,2,94,156,228,414,1249],
  [1,1,3,94,156,228,284,354,673,1121],
  [1,1,8,94,156,420,1313,1695,1759],
  [1,1,12,94,156,292,414],
  [1,1,12,94,156,354,673,1121],
  [1,2,1,94,156,232,284,414,1249],
  [1,2,3,94,156,232,284,414],
  [1,3,8,94,156,292,1185,1695,1759],
  [1,4,1,94,156,230,284,929],
  [1,4,9,94,156,226,929],
  [1,5,3,94,156,226,286,356,414,673],
  [1,5,3,94,156,226,286,356,414,673,1121],
  [1,5,4,94,156,226,292,414,1185,1695,1759],
  [1,5,4,94,156,226,418,1313,1695,1759],
  [1,7,12,94,156,228,284,418],
  [1,7,48,94,156,418],
  [1,16,9,94,156,230,284,673,1121],
  [1,25,81,94,156,226,673,1121],
  [1,28,3,94,156,232,282,1249],
  [1,49,9,94,156,228,286,418,1185,1695,1759],
  [1,64,405,94,156,230,286,350,673],
  [1,103,60,94,156,228,286],
  [1,119,18,94,156,228,286,1249],
  [1,206,27,94,156,230,286,1185,1695,1759],
  [1,268,81,94,156,232,282,418,1185,1695,1759],
  [1,682,243,94,156,232,282],
  [1,4249,19440,94,156,226]]

def k693 : List (List ℕ) := [[0,1,1,94,228,284],
  [0,1,1,94,228,284,1313],
  [0,1,4,94],
  [0,1,4,94,1313],
  [1,5,4,94,226,286],
  [1,5,4,94,226,286,1313]]

def k694 : List (List ℕ) := [[0,1,1,94,158,294,1185,1694,1758],
  [0,1,6,94,158,294,414,1695,1759],
  [0,4,1,94,158,230,286,418,1313,1694,1758],
  [0,4,3,94,158,230,282,420,1695,1759],
  [0,4,3,94,158,230,282,422,1313,1694,1758],
  [0,5,1,94,158,230,286,414,1249],
  [0,5,2,94,158,226,290,418,1313,1694,1758],
  [0,5,6,94,158,226,286,420,1695,1759],
  [0,5,6,94,158,226,286,422,1313,1694,1758],
  [0,6,1,94,158,230,286,418,1185,1694,1758],
  [0,6,1,94,158,230,290,414,1185,1694,1758],
  [0,8,1,94,158,234,282,414,1249],
  [0,8,3,94,158,234,282,1695,1759],
  [0,10,3,94,158,226,356,414,673,1695,1759],
  [0,11,2,94,158,226,290,418,1185,1694,1758],
  [0,11,2,94,158,226,294,414,1185,1694,1758],
  [0,11,3,94,158,228,290,414,1695,1759],
  [0,13,2,94,158,228,286,420,1313,1694,1758],
  [0,13,3,94,158,232,286,414,1695,1759],
  [0,13,4,94,158,228,286,418,1695,1759],
  [0,16,3,94,158,230,284,356,414,673,1695,1759],
  [0,17,3,94,158,230,286,1695,1759],
  [0,26,3,94,158,228,284,356,414,673,1121],
  [0,26,3,94,158,228,284,356,673,1695,1759],
  [0,37,12,94,158,226,290,1695,1759],
  [0,145,6,94,158,228,290,1185,1694,1758],
  [1,1,2,94,158,292,418,1185,1694,1758],
  [1,1,2,94,158,296,414,1185,1694,1758],
  [1,1,6,94,158,292,1695,1759],
  [1,2,1,94,158,230,284,418,1695,1759],
  [1,4,1,94,158,230,284,420,1313,1694,1758],
  [1,5,2,94,158,226,420,1313,1694,1758],
  [1,5,4,94,158,226,418,1695,1759],
  [1,8,3,94,158,234,284,414,1695,1759],
  [1,10,3,94,158,226,286,356,414,673,1121],
  [1,10,3,94,158,226,286,356,673,1695,1759],
  [1,11,1,94,158,228,292,414,1185,1694,1758],
  [1,11,1,94,158,228,418,1185,1694,1758],
  [1,11,3,94,158,230,414,1695,1759],
  [1,11,6,94,158,226,292,414,1695,1759],
  [1,13,1,94,158,232,284,414,1249],
  [1,13,2,94,158,228,418,1313,1694,1758],
  [1,13,3,94,158,232,284,1695,1759],
  [1,13,6,94,158,228,284,420,1695,1759],
  [1,13,6,94,158,228,284,422,1313,1694,1758],
  [1,16,3,94,158,230,282,356,414,673,1121],
  [1,16,3,94,158,230,282,356,673,1695,1759],
  [1,26,3,94,158,228,286,356,414,673,1695,1759],
  [1,40,3,94,158,230,1185,1694,1758],
  [1,71,6,94,158,226,292,1185,1694,1758],
  [1,83,12,94,158,228,1695,1759]]

def k695 : List (List ℕ) := [[0,1,2,94,158,294,414,1185,1695,1759],
  [0,2,1,94,158,228,290,414,1185,1695,1759],
  [0,2,3,94,158,290,418,1313,1695,1759],
  [0,2,3,94,158,356,414,673],
  [0,2,3,94,158,356,414,673,1121],
  [0,5,1,94,158,230,286,414,1249],
  [0,5,3,94,158,230,286,414],
  [0,5,6,94,158,226,290,414],
  [0,5,6,94,158,228,286],
  [0,5,24,94,158,290],
  [0,8,3,94,158,228,284,356,414,673],
  [0,8,3,94,158,228,284,356,414,673,1121],
  [0,8,3,94,158,228,286,418,1313,1695,1759],
  [0,15,4,94,158,226,290,1185,1695,1759],
  [0,25,12,94,158,226,286,420,1313,1695,1759],
  [0,55,24,94,158,226,286,418],
  [1,1,1,94,158,228,414],
  [1,1,1,94,158,228,414,1249],
  [1,1,6,94,158,292,414],
  [1,3,1,94,158,228,1185,1695,1759],
  [1,3,4,94,158,292,1185,1695,1759],
  [1,4,1,94,158,232,284,414,1249],
  [1,4,3,94,158,232,284,414],
  [1,5,2,94,158,226,292,414,1185,1695,1759],
  [1,5,3,94,158,228,284,420,1313,1695,1759],
  [1,5,12,94,158,420,1313,1695,1759],
  [1,10,3,94,158,226,286,356,414,673],
  [1,10,3,94,158,226,286,356,414,673,1121],
  [1,10,3,94,158,226,418,1313,1695,1759],
  [1,11,6,94,158,228,284,418],
  [1,11,24,94,158,418],
  [1,25,24,94,158,226]]

def k696 : List (List ℕ) := [[0,1,1,94,158,228,290,414,1185,1695,1759],
  [0,1,3,94,158,228,286,418,1313,1695,1759],
  [0,1,4,94,158,228,414,1249],
  [0,1,6,94,158,228,284,420,1313,1695,1759],
  [0,1,6,94,158,418],
  [0,1,6,94,158,420,1313,1695,1759],
  [0,1,12,94,158,228,284,418],
  [0,1,12,94,158,290],
  [0,1,12,94,158,354,673,1121],
  [0,2,3,94,158,228,284,356,414,673],
  [0,2,3,94,158,228,284,356,414,673,1121],
  [0,2,9,94,158,226,929],
  [0,5,24,94,158,226,290,414],
  [0,5,24,94,158,226,418,1313,1695,1759],
  [0,16,9,94,158,232,282,929],
  [0,25,162,94,158,226,673,1121],
  [0,32,405,94,158,232,284,350,673],
  [0,64,81,94,158,232,282,673,1121],
  [0,103,27,94,158,230,284,418,1185,1695,1759],
  [0,268,81,94,158,232,284,1185,1695,1759],
  [0,301,36,94,158,230,284,1249],
  [0,722,405,94,158,230,284],
  [0,1253,1080,94,158,228,286],
  [0,1943,1296,94,158,226,290,1185,1695,1759],
  [1,1,1,94,158,232,284,414,1249],
  [1,1,3,94,158,232,284,414],
  [1,1,4,94,158,228,414],
  [1,1,6,94,158,290,418,1313,1695,1759],
  [1,1,6,94,158,356,414,673],
  [1,1,6,94,158,356,414,673,1121],
  [1,2,1,94,158,230,284,929],
  [1,3,2,94,158,228,1185,1695,1759],
  [1,5,8,94,158,226,292,414,1185,1695,1759],
  [1,5,24,94,158,226,286,354,673,1121],
  [1,7,18,94,158,228,286,1249],
  [1,8,9,94,158,230,284,673,1121],
  [1,15,32,94,158,226,286,418],
  [1,25,48,94,158,226,286,420,1313,1695,1759],
  [1,28,3,94,158,232,282,1249],
  [1,32,405,94,158,230,286,350,673],
  [1,91,162,94,158,226,418,1185,1695,1759],
  [1,103,27,94,158,230,286,1185,1695,1759],
  [1,268,81,94,158,232,282,418,1185,1695,1759],
  [1,682,243,94,158,232,282],
  [1,4489,7776,94,158,226]]

def k697 : List (List ℕ) := [[0,1,1,94,158,226,292,414,1695,1759],
  [0,2,1,94,158,230,284,418,1695,1759],
  [0,2,1,94,158,230,414,1695,1759],
  [0,3,1,94,158,232,284,1695,1759],
  [0,4,1,94,158,230,284,420,1313,1694,1758],
  [0,5,2,94,158,226,420,1313,1694,1758],
  [0,5,4,94,158,226,418,1695,1759],
  [0,8,3,94,158,234,284,414,1695,1759],
  [0,9,1,94,158,228,292,414,1185,1694,1758],
  [0,9,1,94,158,228,418,1185,1694,1758],
  [0,9,1,94,158,232,284,414,1249],
  [0,10,3,94,158,226,286,356,414,673,1121],
  [0,10,3,94,158,226,286,356,673,1695,1759],
  [0,13,2,94,158,228,418,1313,1694,1758],
  [0,13,6,94,158,228,284,420,1695,1759],
  [0,13,6,94,158,228,284,422,1313,1694,1758],
  [0,16,3,94,158,230,282,356,414,673,1121],
  [0,16,3,94,158,230,282,356,673,1695,1759],
  [0,26,3,94,158,228,286,356,414,673,1695,1759],
  [0,40,3,94,158,230,1185,1694,1758],
  [0,41,6,94,158,226,292,1185,1694,1758],
  [0,71,12,94,158,228,1695,1759],
  [1,1,1,94,158,228,414,1249],
  [1,3,1,94,158,226,290,418,1185,1694,1758],
  [1,3,1,94,158,226,294,414,1185,1694,1758],
  [1,3,1,94,158,232,286,414,1695,1759],
  [1,4,1,94,158,230,286,418,1313,1694,1758],
  [1,4,1,94,158,230,286,1695,1759],
  [1,4,3,94,158,230,282,420,1695,1759],
  [1,4,3,94,158,230,282,422,1313,1694,1758],
  [1,5,2,94,158,226,290,418,1313,1694,1758],
  [1,5,6,94,158,226,286,420,1695,1759],
  [1,5,6,94,158,226,286,422,1313,1694,1758],
  [1,6,1,94,158,230,286,418,1185,1694,1758],
  [1,6,1,94,158,230,290,414,1185,1694,1758],
  [1,8,1,94,158,234,282,414,1249],
  [1,8,3,94,158,228,290,414,1695,1759],
  [1,8,3,94,158,234,282,1695,1759],
  [1,9,4,94,158,226,290,1695,1759],
  [1,10,3,94,158,226,356,414,673,1695,1759],
  [1,13,2,94,158,228,286,420,1313,1694,1758],
  [1,13,4,94,158,228,286,418,1695,1759],
  [1,16,3,94,158,230,284,356,414,673,1695,1759],
  [1,26,3,94,158,228,284,356,414,673,1121],
  [1,26,3,94,158,228,284,356,673,1695,1759],
  [1,121,6,94,158,228,290,1185,1694,1758]]

def k698 : List (List ℕ) := [[0,1,1,33,94,159,229,414,1695,1759],
  [0,1,4,33,94,159,227,284,422,1313,1694,1758],
  [0,1,6,33,94,159,227,284,420,1695,1759],
  [0,1,12,33,94,159,225,292,414,1695,1759],
  [0,1,16,33,94,159,225,290,418,1185,1694,1758],
  [0,2,1,33,94,159,229,284,420,1313,1694,1758],
  [0,4,3,33,94,159,233,284,414,1695,1759],
  [0,5,2,33,94,159,227,292,414,1185,1694,1758],
  [0,5,2,33,94,159,231,284,414,1249],
  [0,5,3,33,94,159,227,286,356,414,673,1695,1759],
  [0,5,4,33,94,159,227,418,1313,1694,1758],
  [0,5,24,33,94,159,225,286,354,673,1121],
  [0,5,32,33,94,159,225,286,420,1695,1759],
  [0,5,48,33,94,159,225,286,422,1313,1694,1758],
  [0,5,48,33,94,159,225,418,1695,1759],
  [0,8,3,33,94,159,229,282,356,414,673,1121],
  [0,8,3,33,94,159,229,282,356,673,1695,1759],
  [0,14,9,33,94,159,227,286,418,929,1695,1759],
  [0,19,48,33,94,159,225,292,1185,1694,1758],
  [0,32,9,33,94,159,231,282,418,929,1695,1759],
  [0,46,9,33,94,159,229,286,929,1695,1759],
  [0,64,405,33,94,159,229,350,673,1695,1759],
  [0,64,405,33,94,159,231,284,350,418,673,1695,1759],
  [0,65,81,33,94,159,227,286,673,1121],
  [0,128,81,33,94,159,231,282,673,1121],
  [0,179,12,33,94,159,229,284,1249],
  [0,694,81,33,94,159,227,418,1185,1694,1758],
  [0,793,81,33,94,159,229,284,420,1185,1694,1758],
  [0,1072,81,33,94,159,231,284,418,1185,1694,1758],
  [0,1333,81,33,94,159,229,1185,1694,1758],
  [0,3781,486,33,94,159,231,284,1695,1759],
  [0,21979,2430,33,94,159,229,284,418,1695,1759],
  [0,39701,9720,33,94,159,227,1695,1759],
  [1,1,3,33,94,159,227,284,354,673,1121],
  [1,1,4,33,94,159,225,294,414,1185,1694,1758],
  [1,2,1,33,94,159,229,286,418,1313,1694,1758],
  [1,2,3,33,94,159,229,282,420,1695,1759],
  [1,2,3,33,94,159,229,282,422,1313,1694,1758],
  [1,3,1,33,94,159,229,290,414,1185,1694,1758],
  [1,3,4,33,94,159,227,286,420,1313,1694,1758],
  [1,4,1,33,94,159,233,282,414,1249],
  [1,4,3,33,94,159,233,282,1695,1759],
  [1,5,3,33,94,159,227,284,356,414,673,1121],
  [1,5,3,33,94,159,227,284,356,673,1695,1759],
  [1,5,6,33,94,159,227,290,414,1695,1759],
  [1,5,6,33,94,159,231,286,414,1695,1759],
  [1,5,16,33,94,159,225,420,1313,1694,1758],
  [1,8,3,33,94,159,229,284,356,414,673,1695,1759],
  [1,14,9,33,94,159,227,929,1695,1759],
  [1,32,9,33,94,159,231,284,929,1695,1759],
  [1,44,3,33,94,159,231,282,1249],
  [1,46,9,33,94,159,229,284,418,929,1695,1759],
  [1,53,96,33,94,159,225,290,1695,1759],
  [1,64,405,33,94,159,229,286,350,418,673,1695,1759],
  [1,64,405,33,94,159,231,286,350,673,1695,1759],
  [1,169,72,33,94,159,227,286,1249],
  [1,184,81,33,94,159,229,284,673,1121],
  [1,266,81,33,94,159,227,286,420,1185,1694,1758],
  [1,536,81,33,94,159,231,282,420,1185,1694,1758],
  [1,536,81,33,94,159,231,286,1185,1694,1758],
  [1,1688,243,33,94,159,231,282,418,1695,1759],
  [1,1829,81,33,94,159,229,286,418,1185,1694,1758],
  [1,2765,324,33,94,159,227,290,1185,1694,1758],
  [1,24409,2430,33,94,159,229,286,1695,1759],
  [1,25931,9720,33,94,159,227,286,418,1695,1759]]

def k699 : List (List ℕ) := [[0,5,2,94,157,227,1249],
  [0,13,2,94,157,229,286],
  [0,82,1,94,157,231,284,1249],
  [1,4,1,94,157,231,284],
  [1,5,2,94,157,227],
  [1,48,1,94,157,233,282,1249],
  [1,73,2,94,157,229,286,1249]]

def k700 : List (List ℕ) := [[0,1,4,94,158,226,286,354,673,1121],
  [0,7,2,94,158,230,284,1249],
  [0,8,3,94,158,228,286,929],
  [0,13,27,94,158,228,286,673,1121],
  [0,56,27,94,158,226,1185],
  [0,62,27,94,158,230,284,1185],
  [0,242,81,94,158,230,284],
  [0,317,81,94,158,226],
  [1,1,2,94,158,290],
  [1,1,4,94,158,354,673,1121],
  [1,4,3,94,158,226,929],
  [1,4,3,94,158,230,284,929],
  [1,5,27,94,158,226,673,1121],
  [1,7,2,94,158,228,286,1249],
  [1,8,27,94,158,230,284,673,1121],
  [1,118,27,94,158,228,286,1185],
  [1,1037,162,94,158,228,286]]

def k701 : List (List ℕ) := [[0,1,2,94,158,290],
  [0,1,4,94,158,354,673,1121],
  [0,4,3,94,158,226,929],
  [0,4,3,94,158,230,284,929],
  [0,5,27,94,158,226,673,1121],
  [0,8,27,94,158,230,284,673,1121],
  [0,91,18,94,158,228,286,1249],
  [0,118,27,94,158,228,286,1185],
  [0,1783,324,94,158,228,286],
  [1,1,4,94,158,226,286,354,673,1121],
  [1,7,2,94,158,230,284,1249],
  [1,8,3,94,158,228,286,929],
  [1,13,27,94,158,228,286,673,1121],
  [1,14,9,94,158,226,1249],
  [1,56,27,94,158,226,1185],
  [1,62,27,94,158,230,284,1185],
  [1,242,81,94,158,230,284],
  [1,977,324,94,158,226]]

def k702 : List (List ℕ) := [[0,1,12,94,158,290],
  [0,1,24,94,158,354,673,1121],
  [0,2,9,94,158,226,929],
  [0,7,3,94,158,228,286,1249],
  [0,8,9,94,158,230,284,929],
  [0,10,81,94,158,226,673,1121],
  [0,16,81,94,158,230,284,673,1121],
  [0,23,9,94,158,228,286,1185],
  [0,109,54,94,158,228,286],
  [1,1,6,94,158,226,286,354,673,1121],
  [1,7,3,94,158,230,284,1249],
  [1,7,9,94,158,226,1185],
  [1,10,9,94,158,228,286,929],
  [1,16,9,94,158,230,284,1185],
  [1,26,81,94,158,228,286,673,1121],
  [1,43,108,94,158,226],
  [1,46,27,94,158,230,284]]

/-- factors occurring in lines 57-153: each is a sum of monomials
`[flag, numerator, denominator, factors]`, see `Verif.Loop.monoVal`; part 5 -/
def coefTab5 : List (List (List ℕ)) := [
  k613, k614, k615, k616, k617, k618, k619, k620, k621, k622, k623, k624, k625, k626, k627,
  k628, k629, k630, k631, k632, k633, k634, k635, k636, k637, k638, k639, k640, k641, k642,
  k643, k644, k645, k646, k647, k648, k649, k650, k651, k652, k653, k654, k655, k656, k657,
  k658, k659, k660, k661, k662, k663, k664, k665, k666, k667, k668, k669, k670, k671, k672,
  k673, k674, k675, k676, k677, k678, k679, k680, k681, k682, k683, k684, k685, k686, k687,
  k688, k689, k690, k691, k692, k693, k694, k695, k696, k697, k698, k699, k700, k701, k702]

end Verif.Loop
