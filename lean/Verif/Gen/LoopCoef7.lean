import Verif.Model.LoopDefs

/-! Generated by /verif/tools/gen_loop.py from /repo/wilson/match/smeft_loop.py. -/

set_option autoImplicit false
set_option maxRecDepth 20000

namespace Verif.Loop

def k807 : List (List ℕ) := [[0,1,1,94,158,228,290,414,1695,1759],
  [0,1,1,94,158,234,282,1695,1759],
  [0,1,2,94,158,226,286,420,1695,1759],
  [0,1,2,94,158,226,286,422,1313,1694,1758],
  [0,1,2,94,158,230,282,420,1695,1759],
  [0,1,2,94,158,230,282,422,1313,1694,1758],
  [0,2,1,94,158,226,356,414,673,1695,1759],
  [0,2,1,94,158,230,284,356,414,673,1695,1759],
  [0,3,1,94,158,228,286,420,1313,1694,1758],
  [0,3,1,94,158,234,282,414,1249],
  [0,3,2,94,158,226,290,418,1313,1694,1758],
  [0,3,2,94,158,226,290,1695,1759],
  [0,3,2,94,158,228,286,418,1695,1759],
  [0,3,2,94,158,228,414,1249],
  [0,3,2,94,158,230,286,418,1313,1694,1758],
  [0,3,2,94,158,230,286,1695,1759],
  [0,3,2,94,158,232,286,414,1695,1759],
  [0,4,1,94,158,228,284,356,414,673,1121],
  [0,4,1,94,158,228,284,356,673,1695,1759],
  [0,9,4,94,158,226,290,418,1185,1694,1758],
  [0,9,4,94,158,226,294,414,1185,1694,1758],
  [0,9,4,94,158,230,286,418,1185,1694,1758],
  [0,9,4,94,158,230,290,414,1185,1694,1758],
  [0,10,1,94,158,228,290,1185,1694,1758],
  [1,1,1,94,158,228,284,420,1695,1759],
  [1,1,1,94,158,228,284,422,1313,1694,1758],
  [1,1,1,94,158,234,284,414,1695,1759],
  [1,2,1,94,158,226,286,356,414,673,1121],
  [1,2,1,94,158,226,286,356,673,1695,1759],
  [1,2,1,94,158,230,282,356,414,673,1121],
  [1,2,1,94,158,230,282,356,673,1695,1759],
  [1,3,1,94,158,228,418,1313,1694,1758],
  [1,3,2,94,158,226,420,1313,1694,1758],
  [1,3,2,94,158,230,284,420,1313,1694,1758],
  [1,3,2,94,158,232,284,1695,1759],
  [1,3,4,94,158,226,292,414,1695,1759],
  [1,3,4,94,158,226,418,1695,1759],
  [1,3,4,94,158,230,284,418,1695,1759],
  [1,3,4,94,158,230,414,1695,1759],
  [1,4,1,94,158,228,286,356,414,673,1695,1759],
  [1,5,1,94,158,226,292,1185,1694,1758],
  [1,5,1,94,158,230,1185,1694,1758],
  [1,5,2,94,158,228,1695,1759],
  [1,9,2,94,158,228,292,414,1185,1694,1758],
  [1,9,2,94,158,228,418,1185,1694,1758],
  [1,9,2,94,158,232,284,414,1249]]

def k808 : List (List ℕ) := [[0,1,1,33,94,159,227,284,356,414,673,1121],
  [0,1,1,33,94,159,227,284,356,673,1695,1759],
  [0,1,1,33,94,159,229,284,356,414,673,1695,1759],
  [0,1,2,33,94,159,227,290,414,1695,1759],
  [0,1,2,33,94,159,231,286,414,1695,1759],
  [0,1,2,33,94,159,233,282,1695,1759],
  [0,1,4,33,94,159,229,282,420,1695,1759],
  [0,1,4,33,94,159,229,282,422,1313,1694,1758],
  [0,1,8,33,94,159,227,284,354,673,1121],
  [0,2,1,33,94,159,227,865,1695,1759],
  [0,2,1,33,94,159,231,284,865,1695,1759],
  [0,3,2,33,94,159,227,286,1249],
  [0,3,2,33,94,159,233,282,414,1249],
  [0,3,4,33,94,159,229,286,418,1313,1694,1758],
  [0,3,8,33,94,159,225,294,414,1185,1694,1758],
  [0,3,16,33,94,159,225,290,418,1185,1694,1758],
  [0,3,16,33,94,159,225,420,1313,1694,1758],
  [0,4,1,33,94,159,229,284,418,865,1695,1759],
  [0,8,135,33,94,159,229,286,350,418,673,1695,1759],
  [0,8,135,33,94,159,231,286,350,673,1695,1759],
  [0,9,8,33,94,159,229,290,414,1185,1694,1758],
  [0,9,16,33,94,159,227,286,420,1313,1694,1758],
  [0,11,2,33,94,159,231,282,1249],
  [0,11,3,33,94,159,227,286,420,1185,1694,1758],
  [0,11,3,33,94,159,231,282,420,1185,1694,1758],
  [0,11,3,33,94,159,231,286,1185,1694,1758],
  [0,53,32,33,94,159,225,290,1695,1759],
  [0,55,54,33,94,159,229,284,673,1121],
  [0,169,18,33,94,159,231,282,418,1695,1759],
  [0,329,48,33,94,159,227,290,1185,1694,1758],
  [0,379,24,33,94,159,229,286,418,1185,1694,1758],
  [0,7093,360,33,94,159,229,286,1695,1759],
  [0,8101,720,33,94,159,227,286,418,1695,1759],
  [1,1,1,33,94,159,227,286,356,414,673,1695,1759],
  [1,1,1,33,94,159,229,282,356,414,673,1121],
  [1,1,1,33,94,159,229,282,356,673,1695,1759],
  [1,1,2,33,94,159,233,284,414,1695,1759],
  [1,1,8,33,94,159,225,286,354,673,1121],
  [1,1,8,33,94,159,225,292,414,1695,1759],
  [1,1,16,33,94,159,225,286,422,1313,1694,1758],
  [1,2,1,33,94,159,227,286,418,865,1695,1759],
  [1,2,1,33,94,159,231,282,418,865,1695,1759],
  [1,3,2,33,94,159,227,292,414,1185,1694,1758],
  [1,3,2,33,94,159,231,284,414,1249],
  [1,3,4,33,94,159,227,418,1313,1694,1758],
  [1,3,4,33,94,159,229,284,420,1313,1694,1758],
  [1,3,8,33,94,159,229,414,1695,1759],
  [1,3,16,33,94,159,227,284,422,1313,1694,1758],
  [1,3,32,33,94,159,225,286,420,1695,1759],
  [1,4,1,33,94,159,229,286,865,1695,1759],
  [1,5,32,33,94,159,227,284,420,1695,1759],
  [1,7,1,33,94,159,229,284,1249],
  [1,8,135,33,94,159,229,350,673,1695,1759],
  [1,8,135,33,94,159,231,284,350,418,673,1695,1759],
  [1,11,16,33,94,159,225,292,1185,1694,1758],
  [1,16,27,33,94,159,231,282,673,1121],
  [1,21,16,33,94,159,225,418,1695,1759],
  [1,22,3,33,94,159,229,284,420,1185,1694,1758],
  [1,22,3,33,94,159,231,284,418,1185,1694,1758],
  [1,23,54,33,94,159,227,286,673,1121],
  [1,59,6,33,94,159,229,1185,1694,1758],
  [1,89,9,33,94,159,231,284,1695,1759],
  [1,415,48,33,94,159,227,418,1185,1694,1758],
  [1,3479,180,33,94,159,229,284,418,1695,1759],
  [1,17237,1440,33,94,159,227,1695,1759]]

def k809 : List (List ℕ) := [[0,3,2,94,157,227],
  [0,3,2,94,157,231,284],
  [0,18,1,94,157,233,282,1249],
  [0,21,1,94,157,229,286,1249],
  [1,3,1,94,157,229,286],
  [1,3,2,94,157,227,1249],
  [1,75,2,94,157,231,284,1249]]

def k810 : List (List ℕ) := [[0,1,1,94,158,228,286,865],
  [0,1,16,94,158,226,286,354,673,1121],
  [0,7,8,94,158,230,284,1249],
  [0,11,12,94,158,226,1185],
  [0,11,12,94,158,230,284,1185],
  [0,13,108,94,158,228,286,673,1121],
  [0,181,72,94,158,230,284],
  [0,283,72,94,158,226],
  [1,1,2,94,158,226,865],
  [1,1,2,94,158,230,284,865],
  [1,1,16,94,158,354,673,1121],
  [1,2,27,94,158,230,284,673,1121],
  [1,3,4,94,158,290],
  [1,5,108,94,158,226,673,1121],
  [1,7,8,94,158,228,286,1249],
  [1,11,6,94,158,228,286,1185],
  [1,205,36,94,158,228,286]]

def k811 : List (List ℕ) := [[0,1,18,33,94,159,228,286,351,607,673],
  [0,29,24,33,94,159,228,284,353,607,673,1121],
  [1,1,3,33,94,159,230,282,353,609,673,1121],
  [1,1,18,33,94,159,230,284,351,607,673],
  [1,13,24,33,94,159,226,286,353,607,673,1121]]

def k812 : List (List ℕ) := [[0,1,4,94,159,228,284,355,414,607,673],
  [0,1,4,94,159,228,284,355,414,607,673,1121],
  [0,1,4,94,159,355,414,607,673],
  [0,1,4,94,159,355,414,607,673,1121],
  [1,1,2,94,159,226,286,355,414,607,673],
  [1,1,2,94,159,226,286,355,414,607,673,1121]]

def k813 : List (List ℕ) := [[0,1,9,94,158,227,351,607,673],
  [0,1,9,94,158,231,284,351,607,673],
  [0,2,3,94,158,231,282,353,609,673,1121],
  [0,13,6,94,158,227,286,353,607,673,1121],
  [1,1,9,94,158,229,286,351,609,673],
  [1,5,12,94,158,225,353,607,673,1121],
  [1,37,12,94,158,229,284,353,607,673,1121]]

def k814 : List (List ℕ) := [[0,1,16,94,158,354,673,1121],
  [0,1,36,94,158,226,673,1121],
  [1,1,16,94,158,226,286,354,673,1121],
  [1,1,36,94,158,228,286,673,1121]]

def k815 : List (List ℕ) := [[0,1,16,94,158,226,286,354,673,1121],
  [0,1,36,94,158,226,673,1121],
  [1,1,16,94,158,354,673,1121],
  [1,1,36,94,158,228,286,673,1121]]

def k816 : List (List ℕ) := [[0,1,2,94,158,226,286,354,673,1121],
  [0,1,9,94,158,226,673,1121],
  [0,1,9,94,158,230,284,673,1121],
  [1,1,4,94,158,228,284,354,673,1121],
  [1,1,4,94,158,354,673,1121],
  [1,2,9,94,158,228,286,673,1121]]

def k817 : List (List ℕ) := [[0,1,4,94,158,228,284,354,673,1121],
  [0,1,4,94,158,354,673,1121],
  [0,2,9,94,158,228,286,673,1121],
  [1,1,2,94,158,226,286,354,673,1121],
  [1,1,9,94,158,226,673,1121],
  [1,1,9,94,158,230,284,673,1121]]

def k818 : List (List ℕ) := [[0,1,4,94,158,228,284,354,673,1121],
  [0,1,4,94,158,354,673,1121],
  [0,1,9,94,158,226,673,1121],
  [0,1,9,94,158,230,284,673,1121],
  [1,1,2,94,158,226,286,354,673,1121],
  [1,2,9,94,158,228,286,673,1121]]

def k819 : List (List ℕ) := [[0,1,1,94,158,228,286,1185],
  [0,1,1,94,158,290,1185],
  [0,4,3,94,158,226,865],
  [0,5,2,94,158,228,286],
  [0,5,2,94,158,290],
  [1,2,1,94,158,226,1185],
  [1,2,3,94,158,228,286,865],
  [1,2,3,94,158,290,865],
  [1,5,1,94,158,226]]

def k820 : List (List ℕ) := [[0,1,1,94,156,226,286,420,1313,1695,1759],
  [0,1,1,94,156,228,286,418,1313,1695,1759],
  [0,1,1,94,156,228,290,414,1185,1695,1759],
  [0,1,1,94,156,290,418,1313,1695,1759],
  [0,1,1,94,156,294,414,1185,1695,1759],
  [0,2,3,94,156,226,286,354,673,1121],
  [0,2,3,94,156,226,290,414],
  [0,4,1,94,156,230,286,414,1249],
  [0,4,3,94,156,228,284,356,414,673],
  [0,4,3,94,156,228,284,356,414,673,1121],
  [0,4,3,94,156,230,286,414],
  [0,4,3,94,156,356,414,673],
  [0,4,3,94,156,356,414,673,1121],
  [0,7,4,94,156,290],
  [0,7,6,94,156,226,286,418],
  [0,7,9,94,156,226,1249],
  [0,16,3,94,156,230,284,865],
  [0,16,9,94,156,226,865],
  [0,16,9,94,156,228,286,673,1121],
  [0,32,405,94,156,228,350,673],
  [0,32,405,94,156,232,284,350,673],
  [0,64,81,94,156,232,282,673,1121],
  [0,164,27,94,156,228,286,418,1185,1695,1759],
  [0,164,27,94,156,230,286,1185,1695,1759],
  [0,164,81,94,156,232,282,418,1185,1695,1759],
  [0,175,9,94,156,230,284,1249],
  [0,407,81,94,156,226,290,1185,1695,1759],
  [0,1910,243,94,156,232,282],
  [0,51979,1620,94,156,228,286],
  [1,1,1,94,156,228,414],
  [1,1,2,94,156,228,284,420,1313,1695,1759],
  [1,1,2,94,156,420,1313,1695,1759],
  [1,1,3,94,156,228,284,354,673,1121],
  [1,1,3,94,156,292,414],
  [1,1,3,94,156,354,673,1121],
  [1,2,1,94,156,226,292,414,1185,1695,1759],
  [1,2,1,94,156,226,418,1313,1695,1759],
  [1,2,1,94,156,228,414,1249],
  [1,2,1,94,156,232,284,414,1249],
  [1,2,3,94,156,232,284,414],
  [1,3,2,94,156,292,1185,1695,1759],
  [1,7,12,94,156,228,284,418],
  [1,7,12,94,156,418],
  [1,8,3,94,156,226,286,356,414,673],
  [1,8,3,94,156,226,286,356,414,673,1121],
  [1,16,3,94,156,228,286,865],
  [1,16,9,94,156,232,282,865],
  [1,28,3,94,156,232,282,1249],
  [1,40,81,94,156,226,673,1121],
  [1,56,27,94,156,230,284,673,1121],
  [1,64,405,94,156,230,286,350,673],
  [1,98,9,94,156,228,286,1249],
  [1,164,27,94,156,230,284,418,1185,1695,1759],
  [1,164,81,94,156,226,418,1185,1695,1759],
  [1,164,81,94,156,232,284,1185,1695,1759],
  [1,409,54,94,156,228,1185,1695,1759],
  [1,10918,405,94,156,230,284],
  [1,35813,2430,94,156,226]]

def k821 : List (List ℕ) := [[0,1,1,94],
  [0,1,1,94,228,284],
  [0,1,1,94,228,284,1313],
  [0,1,1,94,1313],
  [1,2,1,94,226,286],
  [1,2,1,94,226,286,1313]]

def k822 : List (List ℕ) := [[0,2,3,94,158,294,414,1695,1759],
  [0,4,1,94,158,226,290,418,1313,1694,1758],
  [0,4,1,94,158,228,286,418,1695,1759],
  [0,4,1,94,158,230,286,418,1313,1694,1758],
  [0,4,1,94,158,294,1185,1694,1758],
  [0,4,3,94,158,226,286,420,1695,1759],
  [0,4,3,94,158,226,286,422,1313,1694,1758],
  [0,4,3,94,158,230,282,420,1695,1759],
  [0,4,3,94,158,230,282,422,1313,1694,1758],
  [0,6,1,94,158,230,286,418,1185,1694,1758],
  [0,6,1,94,158,230,290,414,1185,1694,1758],
  [0,8,1,94,158,228,286,420,1313,1694,1758],
  [0,8,1,94,158,230,286,414,1249],
  [0,8,1,94,158,234,282,414,1249],
  [0,8,3,94,158,234,282,1695,1759],
  [0,10,1,94,158,226,290,418,1185,1694,1758],
  [0,10,1,94,158,226,294,414,1185,1694,1758],
  [0,14,3,94,158,228,290,414,1695,1759],
  [0,16,3,94,158,226,290,1695,1759],
  [0,16,3,94,158,226,356,414,673,1695,1759],
  [0,16,3,94,158,230,284,356,414,673,1695,1759],
  [0,16,3,94,158,232,286,414,1695,1759],
  [0,20,3,94,158,230,286,1695,1759],
  [0,32,3,94,158,228,284,356,414,673,1121],
  [0,32,3,94,158,228,284,356,673,1695,1759],
  [0,92,3,94,158,228,290,1185,1694,1758],
  [1,2,1,94,158,226,418,1695,1759],
  [1,2,1,94,158,230,284,418,1695,1759],
  [1,2,1,94,158,292,418,1185,1694,1758],
  [1,2,1,94,158,296,414,1185,1694,1758],
  [1,2,3,94,158,292,1695,1759],
  [1,4,1,94,158,226,420,1313,1694,1758],
  [1,4,1,94,158,230,284,420,1313,1694,1758],
  [1,8,1,94,158,228,418,1313,1694,1758],
  [1,8,3,94,158,228,284,420,1695,1759],
  [1,8,3,94,158,228,284,422,1313,1694,1758],
  [1,8,3,94,158,234,284,414,1695,1759],
  [1,10,3,94,158,226,292,414,1695,1759],
  [1,14,1,94,158,228,292,414,1185,1694,1758],
  [1,14,1,94,158,228,418,1185,1694,1758],
  [1,14,3,94,158,230,414,1695,1759],
  [1,16,1,94,158,232,284,414,1249],
  [1,16,3,94,158,226,286,356,414,673,1121],
  [1,16,3,94,158,226,286,356,673,1695,1759],
  [1,16,3,94,158,230,282,356,414,673,1121],
  [1,16,3,94,158,230,282,356,673,1695,1759],
  [1,16,3,94,158,232,284,1695,1759],
  [1,26,3,94,158,228,1695,1759],
  [1,32,3,94,158,228,286,356,414,673,1695,1759],
  [1,40,3,94,158,230,1185,1694,1758],
  [1,64,3,94,158,226,292,1185,1694,1758]]

def k823 : List (List ℕ) := [[0,2,1,94,158,228,290,414,1185,1695,1759],
  [0,2,1,94,158,294,414,1185,1695,1759],
  [0,4,3,94,158,226,290,414],
  [0,5,6,94,158,228,286],
  [0,5,6,94,158,290],
  [0,6,1,94,158,226,290,1185,1695,1759],
  [0,8,1,94,158,230,286,414,1249],
  [0,8,3,94,158,228,284,356,414,673],
  [0,8,3,94,158,228,284,356,414,673,1121],
  [0,8,3,94,158,228,286,418,1313,1695,1759],
  [0,8,3,94,158,230,286,414],
  [0,8,3,94,158,290,418,1313,1695,1759],
  [0,8,3,94,158,356,414,673],
  [0,8,3,94,158,356,414,673,1121],
  [0,10,3,94,158,226,286,420,1313,1695,1759],
  [0,11,3,94,158,226,286,418],
  [1,2,1,94,158,228,414],
  [1,2,3,94,158,292,414],
  [1,3,1,94,158,228,1185,1695,1759],
  [1,3,1,94,158,292,1185,1695,1759],
  [1,4,1,94,158,226,292,414,1185,1695,1759],
  [1,4,1,94,158,228,414,1249],
  [1,4,1,94,158,232,284,414,1249],
  [1,4,3,94,158,232,284,414],
  [1,5,3,94,158,226],
  [1,5,3,94,158,228,284,420,1313,1695,1759],
  [1,5,3,94,158,420,1313,1695,1759],
  [1,11,6,94,158,228,284,418],
  [1,11,6,94,158,418],
  [1,16,3,94,158,226,286,356,414,673],
  [1,16,3,94,158,226,286,356,414,673,1121],
  [1,16,3,94,158,226,418,1313,1695,1759]]

def k824 : List (List ℕ) := [[0,1,1,94,158,228,290,414,1185,1695,1759],
  [0,1,1,94,158,228,414,1249],
  [0,1,3,94,158,226,290,414],
  [0,1,3,94,158,226,418,1313,1695,1759],
  [0,1,3,94,158,228,286,418,1313,1695,1759],
  [0,1,3,94,158,354,673,1121],
  [0,1,6,94,158,228,284,420,1313,1695,1759],
  [0,1,12,94,158,228,284,418],
  [0,2,3,94,158,228,284,356,414,673],
  [0,2,3,94,158,228,284,356,414,673,1121],
  [0,2,3,94,158,418],
  [0,2,3,94,158,420,1313,1695,1759],
  [0,8,3,94,158,230,284,865],
  [0,20,81,94,158,226,673,1121],
  [0,32,405,94,158,232,284,350,673],
  [0,64,81,94,158,232,282,673,1121],
  [0,79,162,94,158,226,290,1185,1695,1759],
  [0,82,27,94,158,230,286,1185,1695,1759],
  [0,82,81,94,158,226,418,1185,1695,1759],
  [0,91,9,94,158,230,284,1249],
  [0,164,81,94,158,232,282,418,1185,1695,1759],
  [0,283,180,94,158,228,286],
  [0,1910,243,94,158,232,282],
  [0,5791,972,94,158,226],
  [1,1,1,94,158,226,292,414,1185,1695,1759],
  [1,1,1,94,158,232,284,414,1249],
  [1,1,3,94,158,226,286,354,673,1121],
  [1,1,3,94,158,232,284,414],
  [1,2,3,94,158,290,418,1313,1695,1759],
  [1,2,3,94,158,356,414,673],
  [1,2,3,94,158,356,414,673,1121],
  [1,3,2,94,158,228,1185,1695,1759],
  [1,3,4,94,158,226,286,418],
  [1,4,3,94,158,290],
  [1,5,6,94,158,226,286,420,1313,1695,1759],
  [1,7,9,94,158,228,286,1249],
  [1,8,9,94,158,226,865],
  [1,16,9,94,158,232,282,865],
  [1,28,3,94,158,232,282,1249],
  [1,28,27,94,158,230,284,673,1121],
  [1,32,405,94,158,230,286,350,673],
  [1,82,27,94,158,230,284,418,1185,1695,1759],
  [1,164,81,94,158,232,284,1185,1695,1759],
  [1,5693,405,94,158,230,284]]

def k825 : List (List ℕ) := [[0,2,1,94,158,226,292,414,1695,1759],
  [0,2,1,94,158,226,418,1695,1759],
  [0,2,1,94,158,230,284,418,1695,1759],
  [0,2,1,94,158,230,414,1695,1759],
  [0,4,1,94,158,226,420,1313,1694,1758],
  [0,4,1,94,158,230,284,420,1313,1694,1758],
  [0,4,1,94,158,232,284,1695,1759],
  [0,8,1,94,158,228,418,1313,1694,1758],
  [0,8,3,94,158,228,284,420,1695,1759],
  [0,8,3,94,158,228,284,422,1313,1694,1758],
  [0,8,3,94,158,234,284,414,1695,1759],
  [0,12,1,94,158,228,292,414,1185,1694,1758],
  [0,12,1,94,158,228,418,1185,1694,1758],
  [0,12,1,94,158,232,284,414,1249],
  [0,16,3,94,158,226,286,356,414,673,1121],
  [0,16,3,94,158,226,286,356,673,1695,1759],
  [0,16,3,94,158,230,282,356,414,673,1121],
  [0,16,3,94,158,230,282,356,673,1695,1759],
  [0,20,3,94,158,228,1695,1759],
  [0,32,3,94,158,228,286,356,414,673,1695,1759],
  [0,40,3,94,158,226,292,1185,1694,1758],
  [0,40,3,94,158,230,1185,1694,1758],
  [1,4,1,94,158,226,290,418,1313,1694,1758],
  [1,4,1,94,158,226,290,1695,1759],
  [1,4,1,94,158,228,286,418,1695,1759],
  [1,4,1,94,158,228,414,1249],
  [1,4,1,94,158,230,286,418,1313,1694,1758],
  [1,4,1,94,158,230,286,1695,1759],
  [1,4,1,94,158,232,286,414,1695,1759],
  [1,4,3,94,158,226,286,420,1695,1759],
  [1,4,3,94,158,226,286,422,1313,1694,1758],
  [1,4,3,94,158,230,282,420,1695,1759],
  [1,4,3,94,158,230,282,422,1313,1694,1758],
  [1,6,1,94,158,226,290,418,1185,1694,1758],
  [1,6,1,94,158,226,294,414,1185,1694,1758],
  [1,6,1,94,158,230,286,418,1185,1694,1758],
  [1,6,1,94,158,230,290,414,1185,1694,1758],
  [1,8,1,94,158,228,286,420,1313,1694,1758],
  [1,8,1,94,158,234,282,414,1249],
  [1,8,3,94,158,228,290,414,1695,1759],
  [1,8,3,94,158,234,282,1695,1759],
  [1,16,3,94,158,226,356,414,673,1695,1759],
  [1,16,3,94,158,230,284,356,414,673,1695,1759],
  [1,32,3,94,158,228,284,356,414,673,1121],
  [1,32,3,94,158,228,284,356,673,1695,1759],
  [1,80,3,94,158,228,290,1185,1694,1758]]

def k826 : List (List ℕ) := [[0,1,1,33,94,159,229,414,1695,1759],
  [0,1,2,33,94,159,227,284,422,1313,1694,1758],
  [0,1,3,33,94,159,225,286,354,673,1121],
  [0,1,3,33,94,159,225,292,414,1695,1759],
  [0,1,4,33,94,159,225,286,420,1695,1759],
  [0,1,6,33,94,159,225,286,422,1313,1694,1758],
  [0,2,1,33,94,159,227,418,1313,1694,1758],
  [0,2,1,33,94,159,229,284,420,1313,1694,1758],
  [0,4,1,33,94,159,227,292,414,1185,1694,1758],
  [0,4,1,33,94,159,231,284,414,1249],
  [0,4,3,33,94,159,233,284,414,1695,1759],
  [0,5,12,33,94,159,227,284,420,1695,1759],
  [0,8,3,33,94,159,227,286,356,414,673,1695,1759],
  [0,8,3,33,94,159,229,282,356,414,673,1121],
  [0,8,3,33,94,159,229,282,356,673,1695,1759],
  [0,9,4,33,94,159,225,290,1695,1759],
  [0,11,6,33,94,159,225,292,1185,1694,1758],
  [0,32,9,33,94,159,227,865,1695,1759],
  [0,32,9,33,94,159,231,284,865,1695,1759],
  [0,56,3,33,94,159,229,284,1249],
  [0,64,9,33,94,159,229,284,418,865,1695,1759],
  [0,64,405,33,94,159,229,350,673,1695,1759],
  [0,64,405,33,94,159,231,284,350,418,673,1695,1759],
  [0,92,81,33,94,159,227,286,673,1121],
  [0,128,81,33,94,159,231,282,673,1121],
  [0,328,81,33,94,159,227,286,420,1185,1694,1758],
  [0,328,81,33,94,159,231,282,420,1185,1694,1758],
  [0,328,81,33,94,159,231,286,1185,1694,1758],
  [0,1069,81,33,94,159,229,286,418,1185,1694,1758],
  [0,3496,243,33,94,159,231,282,418,1695,1759],
  [0,40063,1215,33,94,159,229,286,1695,1759],
  [0,55291,2430,33,94,159,227,286,418,1695,1759],
  [1,1,1,33,94,159,225,294,414,1185,1694,1758],
  [1,1,2,33,94,159,225,290,418,1185,1694,1758],
  [1,1,2,33,94,159,225,420,1313,1694,1758],
  [1,1,3,33,94,159,227,284,354,673,1121],
  [1,2,1,33,94,159,229,286,418,1313,1694,1758],
  [1,2,3,33,94,159,229,282,420,1695,1759],
  [1,2,3,33,94,159,229,282,422,1313,1694,1758],
  [1,3,1,33,94,159,229,290,414,1185,1694,1758],
  [1,3,2,33,94,159,227,286,420,1313,1694,1758],
  [1,4,1,33,94,159,227,286,1249],
  [1,4,1,33,94,159,233,282,414,1249],
  [1,4,3,33,94,159,227,290,414,1695,1759],
  [1,4,3,33,94,159,231,286,414,1695,1759],
  [1,4,3,33,94,159,233,282,1695,1759],
  [1,8,3,33,94,159,227,284,356,414,673,1121],
  [1,8,3,33,94,159,227,284,356,673,1695,1759],
  [1,8,3,33,94,159,229,284,356,414,673,1695,1759],
  [1,19,6,33,94,159,225,418,1695,1759],
  [1,32,9,33,94,159,227,286,418,865,1695,1759],
  [1,32,9,33,94,159,231,282,418,865,1695,1759],
  [1,44,3,33,94,159,231,282,1249],
  [1,64,9,33,94,159,229,286,865,1695,1759],
  [1,64,405,33,94,159,229,286,350,418,673,1695,1759],
  [1,64,405,33,94,159,231,286,350,673,1695,1759],
  [1,116,81,33,94,159,229,1185,1694,1758],
  [1,220,81,33,94,159,229,284,673,1121],
  [1,656,81,33,94,159,229,284,420,1185,1694,1758],
  [1,656,81,33,94,159,231,284,418,1185,1694,1758],
  [1,721,162,33,94,159,227,290,1185,1694,1758],
  [1,745,162,33,94,159,227,418,1185,1694,1758],
  [1,3172,243,33,94,159,231,284,1695,1759],
  [1,41278,1215,33,94,159,229,284,418,1695,1759],
  [1,101267,4860,33,94,159,227,1695,1759]]

def k827 : List (List ℕ) := [[0,4,1,94,157,227,1249],
  [0,8,1,94,157,229,286],
  [0,100,1,94,157,231,284,1249],
  [1,4,1,94,157,227],
  [1,4,1,94,157,231,284],
  [1,48,1,94,157,233,282,1249],
  [1,56,1,94,157,229,286,1249]]

def k828 : List (List ℕ) := [[0,1,6,94,158,354,673,1121],
  [0,7,3,94,158,228,286,1249],
  [0,8,9,94,158,226,1185],
  [0,8,9,94,158,230,284,1185],
  [0,10,81,94,158,226,673,1121],
  [0,16,9,94,158,228,286,865],
  [0,16,81,94,158,230,284,673,1121],
  [0,134,27,94,158,230,284],
  [0,212,27,94,158,226],
  [1,1,6,94,158,226,286,354,673,1121],
  [1,4,3,94,158,290],
  [1,7,3,94,158,230,284,1249],
  [1,8,9,94,158,226,865],
  [1,8,9,94,158,230,284,865],
  [1,16,9,94,158,228,286,1185],
  [1,26,81,94,158,228,286,673,1121],
  [1,310,27,94,158,228,286]]

def k829 : List (List ℕ) := [[0,1,4,94,158,226,286,354,673,1121],
  [0,2,1,94,158,290],
  [0,4,3,94,158,226,865],
  [0,4,3,94,158,230,284,865],
  [0,7,2,94,158,230,284,1249],
  [0,13,27,94,158,228,286,673,1121],
  [0,92,27,94,158,228,286,1185],
  [0,1325,81,94,158,228,286],
  [1,1,4,94,158,354,673,1121],
  [1,5,27,94,158,226,673,1121],
  [1,7,2,94,158,228,286,1249],
  [1,8,3,94,158,228,286,865],
  [1,8,27,94,158,230,284,673,1121],
  [1,46,27,94,158,226,1185],
  [1,46,27,94,158,230,284,1185],
  [1,568,81,94,158,230,284],
  [1,919,81,94,158,226]]

def k830 : List (List ℕ) := [[0,1,4,94,158,226,286,354],
  [0,1,4,94,158,354,1121],
  [0,1,9,94,158,226,1121],
  [0,1,9,94,158,228,286],
  [1,1,4,94,158,226,286,354,1121],
  [1,1,4,94,158,354],
  [1,1,9,94,158,226],
  [1,1,9,94,158,228,286,1121]]

def k831 : List (List ℕ) := [[0,2,3,94,158,228,284,354,673,1121],
  [0,2,3,94,158,354,673,1121],
  [0,16,27,94,158,228,286,673,1121],
  [1,4,3,94,158,226,286,354,673,1121],
  [1,8,27,94,158,226,673,1121],
  [1,8,27,94,158,230,284,673,1121]]

def k832 : List (List ℕ) := [[0,4,3,94,158,226,286,354,673,1121],
  [0,8,27,94,158,226,673,1121],
  [0,8,27,94,158,230,284,673,1121],
  [1,2,3,94,158,228,284,354,673,1121],
  [1,2,3,94,158,354,673,1121],
  [1,16,27,94,158,228,286,673,1121]]

def k833 : List (List ℕ) := [[0,4,3,94,158,226,286,354,673,1121],
  [0,16,27,94,158,228,286,673,1121],
  [1,2,3,94,158,228,284,354,673,1121],
  [1,2,3,94,158,354,673,1121],
  [1,8,27,94,158,226,673,1121],
  [1,8,27,94,158,230,284,673,1121]]

def k834 : List (List ℕ) := [[0,2,27,33,94,159,230,284,351,609,673],
  [0,8,9,33,94,159,230,282,353,609,673,1121],
  [0,13,9,33,94,159,226,286,353,607,673,1121],
  [1,2,27,33,94,159,228,286,351,609,673],
  [1,29,9,33,94,159,228,284,353,607,673,1121]]

def k835 : List (List ℕ) := [[0,2,3,94,159,226,286,355,414,609,673],
  [0,2,3,94,159,226,286,355,414,609,673,1121],
  [1,1,3,94,159,228,284,355,414,609,673],
  [1,1,3,94,159,228,284,355,414,609,673,1121],
  [1,1,3,94,159,355,414,609,673],
  [1,1,3,94,159,355,414,609,673,1121]]

def k836 : List (List ℕ) := [[0,5,9,94,158,225,353,609,673,1121],
  [0,8,27,94,158,229,286,351,609,673],
  [0,37,9,94,158,229,284,353,609,673,1121],
  [1,4,27,94,158,227,351,609,673],
  [1,4,27,94,158,231,284,351,609,673],
  [1,16,9,94,158,231,282,353,609,673,1121],
  [1,26,9,94,158,227,286,353,609,673,1121]]

def k837 : List (List ℕ) := [[0,2,3,94,158,226,1185],
  [0,2,9,94,158,228,286,865],
  [0,2,9,94,158,290,865],
  [0,5,3,94,158,226],
  [1,1,3,94,158,228,286,1185],
  [1,1,3,94,158,290,1185],
  [1,4,9,94,158,226,865],
  [1,5,6,94,158,228,286],
  [1,5,6,94,158,290]]

def k838 : List (List ℕ) := [[0,1,2,94,156,292,1185,1695,1759],
  [0,1,3,94,156,228,414],
  [0,1,6,94,156,228,284,420,1313,1695,1759],
  [0,1,6,94,156,420,1313,1695,1759],
  [0,1,9,94,156,228,284,354,673,1121],
  [0,1,9,94,156,292,414],
  [0,1,9,94,156,354,673,1121],
  [0,1,480,94,350,548,671],
  [0,2,3,94,156,226,292,414,1185,1695,1759],
  [0,2,3,94,156,226,418,1313,1695,1759],
  [0,2,3,94,156,228,414,1249],
  [0,2,3,94,156,232,284,414,1249],
  [0,2,9,94,156,232,284,414],
  [0,2,9,94,158,226,286,546,671,865],
  [0,7,36,94,156,228,284,418],
  [0,7,36,94,156,418],
  [0,8,9,94,156,226,286,356,414,673],
  [0,8,9,94,156,226,286,356,414,673,1121],
  [0,11,54,94,158,228,284,546,671,1185],
  [0,11,54,94,158,546,671,1185],
  [0,17,108,94,156,290],
  [0,28,9,94,156,232,282,1249],
  [0,32,27,94,156,230,284,865],
  [0,32,81,94,156,226,865],
  [0,40,243,94,156,226,673,1121],
  [0,56,81,94,156,230,284,673,1121],
  [0,64,1215,94,156,230,286,350,673],
  [0,98,27,94,156,228,286,1249],
  [0,121,324,94,158,228,284,546,671],
  [0,121,324,94,158,546,671],
  [0,176,81,94,156,228,286,418,1185,1695,1759],
  [0,176,81,94,156,230,286,1185,1695,1759],
  [0,176,243,94,156,232,282,418,1185,1695,1759],
  [0,1400,729,94,156,232,282],
  [0,25021,4860,94,156,228,286],
  [1,1,3,94,156,226,286,420,1313,1695,1759],
  [1,1,3,94,156,228,286,418,1313,1695,1759],
  [1,1,3,94,156,228,290,414,1185,1695,1759],
  [1,1,3,94,156,290,418,1313,1695,1759],
  [1,1,3,94,156,294,414,1185,1695,1759],
  [1,1,9,94,158,228,284,546,671,865],
  [1,1,9,94,158,546,671,865],
  [1,2,9,94,156,226,286,354,673,1121],
  [1,2,9,94,156,226,290,414],
  [1,4,3,94,156,230,286,414,1249],
  [1,4,9,94,156,228,284,356,414,673],
  [1,4,9,94,156,228,284,356,414,673,1121],
  [1,4,9,94,156,230,286,414],
  [1,4,9,94,156,356,414,673],
  [1,4,9,94,156,356,414,673,1121],
  [1,7,18,94,156,226,286,418],
  [1,7,27,94,156,226,1249],
  [1,11,27,94,158,226,286,546,671,1185],
  [1,16,27,94,156,228,286,673,1121],
  [1,32,27,94,156,228,286,865],
  [1,32,81,94,156,232,282,865],
  [1,32,1215,94,156,228,350,673],
  [1,32,1215,94,156,232,284,350,673],
  [1,64,243,94,156,232,282,673,1121],
  [1,67,243,94,156,226,290,1185,1695,1759],
  [1,121,162,94,158,226,286,546,671],
  [1,175,27,94,156,230,284,1249],
  [1,176,81,94,156,230,284,418,1185,1695,1759],
  [1,176,243,94,156,226,418,1185,1695,1759],
  [1,176,243,94,156,232,284,1185,1695,1759],
  [1,271,162,94,156,228,1185,1695,1759],
  [1,6532,1215,94,156,230,284],
  [1,13487,7290,94,156,226]]

def k839 : List (List ℕ) := [[0,2,3,94,226,286],
  [0,2,3,94,226,286,1313],
  [1,1,3,94],
  [1,1,3,94,228,284],
  [1,1,3,94,228,284,1313],
  [1,1,3,94,1313]]

def k840 : List (List ℕ) := [[0,2,3,94,158,226,418,1695,1759],
  [0,2,3,94,158,230,284,418,1695,1759],
  [0,2,3,94,158,292,418,1185,1694,1758],
  [0,2,3,94,158,296,414,1185,1694,1758],
  [0,2,9,94,158,292,1695,1759],
  [0,4,3,94,158,226,420,1313,1694,1758],
  [0,4,3,94,158,230,284,420,1313,1694,1758],
  [0,8,3,94,158,228,418,1313,1694,1758],
  [0,8,9,94,158,228,284,420,1695,1759],
  [0,8,9,94,158,228,284,422,1313,1694,1758],
  [0,8,9,94,158,234,284,414,1695,1759],
  [0,10,9,94,158,226,292,414,1695,1759],
  [0,14,3,94,158,228,292,414,1185,1694,1758],
  [0,14,3,94,158,228,418,1185,1694,1758],
  [0,14,9,94,158,230,414,1695,1759],
  [0,16,3,94,158,232,284,414,1249],
  [0,16,9,94,158,226,286,356,414,673,1121],
  [0,16,9,94,158,226,286,356,673,1695,1759],
  [0,16,9,94,158,230,282,356,414,673,1121],
  [0,16,9,94,158,230,282,356,673,1695,1759],
  [0,16,9,94,158,232,284,1695,1759],
  [0,26,9,94,158,228,1695,1759],
  [0,32,9,94,158,228,286,356,414,673,1695,1759],
  [0,40,9,94,158,230,1185,1694,1758],
  [0,64,9,94,158,226,292,1185,1694,1758],
  [1,2,1,94,158,230,286,418,1185,1694,1758],
  [1,2,1,94,158,230,290,414,1185,1694,1758],
  [1,2,9,94,158,294,414,1695,1759],
  [1,4,3,94,158,226,290,418,1313,1694,1758],
  [1,4,3,94,158,228,286,418,1695,1759],
  [1,4,3,94,158,230,286,418,1313,1694,1758],
  [1,4,3,94,158,294,1185,1694,1758],
  [1,4,9,94,158,226,286,420,1695,1759],
  [1,4,9,94,158,226,286,422,1313,1694,1758],
  [1,4,9,94,158,230,282,420,1695,1759],
  [1,4,9,94,158,230,282,422,1313,1694,1758],
  [1,8,3,94,158,228,286,420,1313,1694,1758],
  [1,8,3,94,158,230,286,414,1249],
  [1,8,3,94,158,234,282,414,1249],
  [1,8,9,94,158,234,282,1695,1759],
  [1,10,3,94,158,226,290,418,1185,1694,1758],
  [1,10,3,94,158,226,294,414,1185,1694,1758],
  [1,14,9,94,158,228,290,414,1695,1759],
  [1,16,9,94,158,226,290,1695,1759],
  [1,16,9,94,158,226,356,414,673,1695,1759],
  [1,16,9,94,158,230,284,356,414,673,1695,1759],
  [1,16,9,94,158,232,286,414,1695,1759],
  [1,20,9,94,158,230,286,1695,1759],
  [1,32,9,94,158,228,284,356,414,673,1121],
  [1,32,9,94,158,228,284,356,673,1695,1759],
  [1,92,9,94,158,228,290,1185,1694,1758]]

def k841 : List (List ℕ) := [[0,1,1,94,158,228,1185,1695,1759],
  [0,1,1,94,158,292,1185,1695,1759],
  [0,2,3,94,158,228,414],
  [0,2,9,94,158,292,414],
  [0,4,3,94,158,226,292,414,1185,1695,1759],
  [0,4,3,94,158,228,414,1249],
  [0,4,3,94,158,232,284,414,1249],
  [0,4,9,94,158,232,284,414],
  [0,5,9,94,158,226],
  [0,5,9,94,158,228,284,420,1313,1695,1759],
  [0,5,9,94,158,420,1313,1695,1759],
  [0,11,18,94,158,228,284,418],
  [0,11,18,94,158,418],
  [0,16,9,94,158,226,286,356,414,673],
  [0,16,9,94,158,226,286,356,414,673,1121],
  [0,16,9,94,158,226,418,1313,1695,1759],
  [1,2,1,94,158,226,290,1185,1695,1759],
  [1,2,3,94,158,228,290,414,1185,1695,1759],
  [1,2,3,94,158,294,414,1185,1695,1759],
  [1,4,9,94,158,226,290,414],
  [1,5,18,94,158,228,286],
  [1,5,18,94,158,290],
  [1,8,3,94,158,230,286,414,1249],
  [1,8,9,94,158,228,284,356,414,673],
  [1,8,9,94,158,228,284,356,414,673,1121],
  [1,8,9,94,158,228,286,418,1313,1695,1759],
  [1,8,9,94,158,230,286,414],
  [1,8,9,94,158,290,418,1313,1695,1759],
  [1,8,9,94,158,356,414,673],
  [1,8,9,94,158,356,414,673,1121],
  [1,10,9,94,158,226,286,420,1313,1695,1759],
  [1,11,9,94,158,226,286,418]]

def k842 : List (List ℕ) := [[0,1,2,94,158,228,1185,1695,1759],
  [0,1,3,94,158,226,292,414,1185,1695,1759],
  [0,1,3,94,158,232,284,414,1249],
  [0,1,4,94,158,226,286,418],
  [0,1,9,94,158,226,286,354,673,1121],
  [0,1,9,94,158,232,284,414],
  [0,1,18,94,546,671,865],
  [0,2,9,94,158,290,418,1313,1695,1759],
  [0,2,9,94,158,356,414,673],
  [0,2,9,94,158,356,414,673,1121],
  [0,5,18,94,158,226,286,420,1313,1695,1759],
  [0,7,27,94,158,228,286,1249],
  [0,11,108,94,228,284,546,671,1185],
  [0,16,27,94,158,230,284,865],
  [0,28,9,94,158,232,282,1249],
  [0,28,81,94,158,230,284,673,1121],
  [0,32,1215,94,158,230,286,350,673],
  [0,88,81,94,158,230,286,1185,1695,1759],
  [0,88,243,94,158,226,418,1185,1695,1759],
  [0,121,648,94,228,284,546,671],
  [0,176,243,94,158,232,282,418,1185,1695,1759],
  [0,1400,729,94,158,232,282],
  [0,4069,2916,94,158,226],
  [1,1,3,94,158,228,290,414,1185,1695,1759],
  [1,1,3,94,158,228,414,1249],
  [1,1,9,94,158,226,290,414],
  [1,1,9,94,158,226,418,1313,1695,1759],
  [1,1,9,94,158,228,286,418,1313,1695,1759],
  [1,1,9,94,158,354,673,1121],
  [1,1,18,94,158,228,284,420,1313,1695,1759],
  [1,1,18,94,228,284,546,671,865],
  [1,1,36,94,158,228,284,418],
  [1,2,9,94,158,228,284,356,414,673],
  [1,2,9,94,158,228,284,356,414,673,1121],
  [1,2,9,94,158,418],
  [1,2,9,94,158,420,1313,1695,1759],
  [1,8,27,94,158,290],
  [1,11,108,94,546,671,1185],
  [1,16,81,94,158,226,865],
  [1,20,243,94,158,226,673,1121],
  [1,32,81,94,158,232,282,865],
  [1,32,1215,94,158,232,284,350,673],
  [1,64,243,94,158,232,282,673,1121],
  [1,88,81,94,158,230,284,418,1185,1695,1759],
  [1,91,27,94,158,230,284,1249],
  [1,121,648,94,546,671],
  [1,176,243,94,158,232,284,1185,1695,1759],
  [1,283,540,94,158,228,286],
  [1,419,486,94,158,226,290,1185,1695,1759],
  [1,3032,1215,94,158,230,284]]

def k843 : List (List ℕ) := [[0,2,1,94,158,226,290,418,1185,1694,1758],
  [0,2,1,94,158,226,294,414,1185,1694,1758],
  [0,2,1,94,158,230,286,418,1185,1694,1758],
  [0,2,1,94,158,230,290,414,1185,1694,1758],
  [0,4,3,94,158,226,290,418,1313,1694,1758],
  [0,4,3,94,158,226,290,1695,1759],
  [0,4,3,94,158,228,286,418,1695,1759],
  [0,4,3,94,158,228,414,1249],
  [0,4,3,94,158,230,286,418,1313,1694,1758],
  [0,4,3,94,158,230,286,1695,1759],
  [0,4,3,94,158,232,286,414,1695,1759],
  [0,4,9,94,158,226,286,420,1695,1759],
  [0,4,9,94,158,226,286,422,1313,1694,1758],
  [0,4,9,94,158,230,282,420,1695,1759],
  [0,4,9,94,158,230,282,422,1313,1694,1758],
  [0,8,3,94,158,228,286,420,1313,1694,1758],
  [0,8,3,94,158,234,282,414,1249],
  [0,8,9,94,158,228,290,414,1695,1759],
  [0,8,9,94,158,234,282,1695,1759],
  [0,16,9,94,158,226,356,414,673,1695,1759],
  [0,16,9,94,158,230,284,356,414,673,1695,1759],
  [0,32,9,94,158,228,284,356,414,673,1121],
  [0,32,9,94,158,228,284,356,673,1695,1759],
  [0,80,9,94,158,228,290,1185,1694,1758],
  [1,2,3,94,158,226,292,414,1695,1759],
  [1,2,3,94,158,226,418,1695,1759],
  [1,2,3,94,158,230,284,418,1695,1759],
  [1,2,3,94,158,230,414,1695,1759],
  [1,4,1,94,158,228,292,414,1185,1694,1758],
  [1,4,1,94,158,228,418,1185,1694,1758],
  [1,4,1,94,158,232,284,414,1249],
  [1,4,3,94,158,226,420,1313,1694,1758],
  [1,4,3,94,158,230,284,420,1313,1694,1758],
  [1,4,3,94,158,232,284,1695,1759],
  [1,8,3,94,158,228,418,1313,1694,1758],
  [1,8,9,94,158,228,284,420,1695,1759],
  [1,8,9,94,158,228,284,422,1313,1694,1758],
  [1,8,9,94,158,234,284,414,1695,1759],
  [1,16,9,94,158,226,286,356,414,673,1121],
  [1,16,9,94,158,226,286,356,673,1695,1759],
  [1,16,9,94,158,230,282,356,414,673,1121],
  [1,16,9,94,158,230,282,356,673,1695,1759],
  [1,20,9,94,158,228,1695,1759],
  [1,32,9,94,158,228,286,356,414,673,1695,1759],
  [1,40,9,94,158,226,292,1185,1694,1758],
  [1,40,9,94,158,230,1185,1694,1758]]

def k844 : List (List ℕ) := [[0,1,1,33,94,159,229,290,414,1185,1694,1758],
  [0,1,2,33,94,159,227,286,420,1313,1694,1758],
  [0,1,3,33,94,159,225,294,414,1185,1694,1758],
  [0,1,6,33,94,159,225,290,418,1185,1694,1758],
  [0,1,6,33,94,159,225,420,1313,1694,1758],
  [0,1,9,33,94,159,227,284,354,673,1121],
  [0,1,9,33,94,161,225,286,546,671,865],
  [0,2,3,33,94,159,229,286,418,1313,1694,1758],
  [0,2,9,33,94,159,229,282,420,1695,1759],
  [0,2,9,33,94,159,229,282,422,1313,1694,1758],
  [0,4,3,33,94,159,227,286,1249],
  [0,4,3,33,94,159,233,282,414,1249],
  [0,4,9,33,94,159,227,290,414,1695,1759],
  [0,4,9,33,94,159,231,286,414,1695,1759],
  [0,4,9,33,94,159,233,282,1695,1759],
  [0,8,9,33,94,159,227,284,356,414,673,1121],
  [0,8,9,33,94,159,227,284,356,673,1695,1759],
  [0,8,9,33,94,159,229,284,356,414,673,1695,1759],
  [0,11,54,33,94,161,227,284,546,671,1185],
  [0,44,9,33,94,159,231,282,1249],
  [0,64,81,33,94,159,227,865,1695,1759],
  [0,64,81,33,94,159,231,284,865,1695,1759],
  [0,64,1215,33,94,159,229,286,350,418,673,1695,1759],
  [0,64,1215,33,94,159,231,286,350,673,1695,1759],
  [0,79,108,33,94,159,225,290,1695,1759],
  [0,121,324,33,94,161,227,284,546,671],
  [0,128,81,33,94,159,229,284,418,865,1695,1759],
  [0,220,243,33,94,159,229,284,673,1121],
  [0,352,243,33,94,159,227,286,420,1185,1694,1758],
  [0,352,243,33,94,159,231,282,420,1185,1694,1758],
  [0,352,243,33,94,159,231,286,1185,1694,1758],
  [0,1651,243,33,94,159,229,286,418,1185,1694,1758],
  [0,2081,486,33,94,159,227,290,1185,1694,1758],
  [0,3124,729,33,94,159,231,282,418,1695,1759],
  [0,31537,3645,33,94,159,229,286,1695,1759],
  [0,32509,7290,33,94,159,227,286,418,1695,1759],
  [1,1,3,33,94,159,229,414,1695,1759],
  [1,1,6,33,94,159,227,284,422,1313,1694,1758],
  [1,1,9,33,94,159,225,286,354,673,1121],
  [1,1,9,33,94,159,225,292,414,1695,1759],
  [1,1,9,33,94,161,227,284,546,671,865],
  [1,1,12,33,94,159,225,286,420,1695,1759],
  [1,1,18,33,94,159,225,286,422,1313,1694,1758],
  [1,2,3,33,94,159,227,418,1313,1694,1758],
  [1,2,3,33,94,159,229,284,420,1313,1694,1758],
  [1,4,3,33,94,159,227,292,414,1185,1694,1758],
  [1,4,3,33,94,159,231,284,414,1249],
  [1,4,9,33,94,159,233,284,414,1695,1759],
  [1,5,36,33,94,159,227,284,420,1695,1759],
  [1,8,9,33,94,159,227,286,356,414,673,1695,1759],
  [1,8,9,33,94,159,229,282,356,414,673,1121],
  [1,8,9,33,94,159,229,282,356,673,1695,1759],
  [1,11,18,33,94,159,225,292,1185,1694,1758],
  [1,11,54,33,94,161,225,286,546,671,1185],
  [1,23,54,33,94,159,225,418,1695,1759],
  [1,56,9,33,94,159,229,284,1249],
  [1,64,81,33,94,159,227,286,418,865,1695,1759],
  [1,64,81,33,94,159,231,282,418,865,1695,1759],
  [1,64,1215,33,94,159,229,350,673,1695,1759],
  [1,64,1215,33,94,159,231,284,350,418,673,1695,1759],
  [1,92,243,33,94,159,227,286,673,1121],
  [1,121,324,33,94,161,225,286,546,671],
  [1,128,81,33,94,159,229,286,865,1695,1759],
  [1,128,243,33,94,159,231,282,673,1121],
  [1,704,243,33,94,159,229,284,420,1185,1694,1758],
  [1,704,243,33,94,159,231,284,418,1185,1694,1758],
  [1,1244,243,33,94,159,229,1185,1694,1758],
  [1,1975,486,33,94,159,227,418,1185,1694,1758],
  [1,3448,729,33,94,159,231,284,1695,1759],
  [1,30322,3645,33,94,159,229,284,418,1695,1759],
  [1,74333,14580,33,94,159,227,1695,1759]]

def k845 : List (List ℕ) := [[0,4,3,94,157,227],
  [0,4,3,94,157,231,284],
  [0,16,1,94,157,233,282,1249],
  [0,56,3,94,157,229,286,1249],
  [1,4,3,94,157,227,1249],
  [1,8,3,94,157,229,286],
  [1,100,3,94,157,231,284,1249]]

def k846 : List (List ℕ) := [[0,1,12,94,158,354,673,1121],
  [0,1,12,94,226,286,546,671,865],
  [0,4,9,94,158,290],
  [0,5,81,94,158,226,673,1121],
  [0,7,6,94,158,228,286,1249],
  [0,8,27,94,158,226,865],
  [0,8,27,94,158,230,284,865],
  [0,8,81,94,158,230,284,673,1121],
  [0,11,72,94,546,671,1185],
  [0,88,81,94,158,228,286,1185],
  [0,121,432,94,546,671],
  [0,835,243,94,158,228,286],
  [1,1,12,94,158,226,286,354,673,1121],
  [1,1,12,94,546,671,865],
  [1,7,6,94,158,230,284,1249],
  [1,11,72,94,226,286,546,671,1185],
  [1,13,81,94,158,228,286,673,1121],
  [1,16,27,94,158,228,286,865],
  [1,44,81,94,158,226,1185],
  [1,44,81,94,158,230,284,1185],
  [1,121,432,94,226,286,546,671],
  [1,377,243,94,158,230,284],
  [1,566,243,94,158,226]]

def k847 : List (List ℕ) := [[0,1,9,94,158,228,284,546,865],
  [0,1,9,94,158,546,865],
  [0,11,27,94,158,226,286,546,1185],
  [0,121,162,94,158,226,286,546],
  [1,1,480,94,350,548],
  [1,2,9,94,158,226,286,546,865],
  [1,11,54,94,158,228,284,546,1185],
  [1,11,54,94,158,546,1185],
  [1,121,324,94,158,228,284,546],
  [1,121,324,94,158,546]]

def k848 : List (List ℕ) := [[0,1,18,94,228,284,546,865],
  [0,11,108,94,546,1185],
  [0,121,648,94,546],
  [1,1,18,94,546,865],
  [1,11,108,94,228,284,546,1185],
  [1,121,648,94,228,284,546]]

def k849 : List (List ℕ) := [[0,1,9,33,94,161,227,284,546,865],
  [0,11,54,33,94,161,225,286,546,1185],
  [0,121,324,33,94,161,225,286,546],
  [1,1,9,33,94,161,225,286,546,865],
  [1,11,54,33,94,161,227,284,546,1185],
  [1,121,324,33,94,161,227,284,546]]

def k850 : List (List ℕ) := [[0,1,12,94,546,865],
  [0,11,72,94,226,286,546,1185],
  [0,121,432,94,226,286,546],
  [1,1,12,94,226,286,546,865],
  [1,11,72,94,546,1185],
  [1,121,432,94,546]]

def k851 : List (List ℕ) := [[0,1,12,94,158,226,286,354,1121],
  [0,1,12,94,158,354],
  [0,1,27,94,158,226],
  [0,1,27,94,158,228,286,1121],
  [0,1,96,94,546,671,1121],
  [1,1,12,94,158,226,286,354],
  [1,1,12,94,158,354,1121],
  [1,1,27,94,158,226,1121],
  [1,1,27,94,158,228,286],
  [1,1,96,94,546,671]]

def k852 : List (List ℕ) := [[0,1,12,94,158,226,286,354,673,1121],
  [0,1,27,94,158,228,286,673,1121],
  [1,1,12,94,158,354,673,1121],
  [1,1,27,94,158,226,673,1121]]

def k853 : List (List ℕ) := [[0,2,9,94,158,228,284,354,673,1121],
  [0,2,9,94,158,354,673,1121],
  [0,8,81,94,158,226,673,1121],
  [0,8,81,94,158,230,284,673,1121],
  [1,4,9,94,158,226,286,354,673,1121],
  [1,16,81,94,158,228,286,673,1121]]

def k854 : List (List ℕ) := [[0,2,81,33,94,159,228,286,351,609,673],
  [0,29,27,33,94,159,228,284,353,607,673,1121],
  [1,2,81,33,94,159,230,284,351,609,673],
  [1,8,27,33,94,159,230,282,353,609,673,1121],
  [1,13,27,33,94,159,226,286,353,607,673,1121]]

def k855 : List (List ℕ) := [[0,1,9,94,159,228,284,355,414,609,673],
  [0,1,9,94,159,228,284,355,414,609,673,1121],
  [0,1,9,94,159,355,414,609,673],
  [0,1,9,94,159,355,414,609,673,1121],
  [1,2,9,94,159,226,286,355,414,609,673],
  [1,2,9,94,159,226,286,355,414,609,673,1121]]

def k856 : List (List ℕ) := [[0,4,81,94,158,227,351,609,673],
  [0,4,81,94,158,231,284,351,609,673],
  [0,16,27,94,158,231,282,353,609,673,1121],
  [0,26,27,94,158,227,286,353,609,673,1121],
  [1,5,27,94,158,225,353,609,673,1121],
  [1,8,81,94,158,229,286,351,609,673],
  [1,37,27,94,158,229,284,353,609,673,1121]]

def k857 : List (List ℕ) := [[0,1,8,94,159,229,287,414,607],
  [0,1,16,94,159,225,291,414,607],
  [0,1,27,94,159,229,285,609,673,1121],
  [0,3,8,94,159,229,287,414,607,1249],
  [0,3,16,94,159,225,291,414,607,1185],
  [0,3,32,94,159,225,287,418,607],
  [0,3,32,94,159,225,287,418,607,1313],
  [0,7,8,94,159,227,287,607,1249],
  [0,17,8,94,159,227,287,607,1185],
  [0,83,96,94,159,227,287,607],
  [1,1,4,94,159,225,287,356,414,607,673],
  [1,1,4,94,159,225,287,356,414,607,673,1121],
  [1,1,27,94,159,227,287,609,673,1121],
  [1,5,4,94,159,229,285,607,1185],
  [1,7,8,94,159,225,289,607,1185],
  [1,7,8,94,159,229,285,607,1249],
  [1,11,24,94,159,229,285,607],
  [1,17,64,94,159,225,289,607]]

def k858 : List (List ℕ) := [[0,1,8,33,94,287,356,414,607,673],
  [0,1,8,33,94,287,356,414,607,673,1121],
  [0,1,16,33,94,289,607,1185],
  [0,1,27,33,94,226,287,607,673,1121],
  [0,5,8,33,94,228,285,607,1185],
  [0,7,16,33,94,228,285,607,1249],
  [0,11,48,33,94,228,285,607],
  [1,1,16,33,94,228,287,414,607],
  [1,1,27,33,94,228,285,607,673,1121],
  [1,1,32,33,94,291,414,607],
  [1,3,16,33,94,226,287,607,1249],
  [1,3,16,33,94,228,287,414,607,1249],
  [1,3,32,33,94,291,414,607,1185],
  [1,3,64,33,94,287,418,607],
  [1,3,64,33,94,287,418,607,1313],
  [1,7,128,33,94,289,607],
  [1,9,16,33,94,226,287,607,1185],
  [1,11,192,33,94,226,287,607]]

def k859 : List (List ℕ) := [[0,1,4,33,94,158,227,285],
  [1,1,6,33,94,158,229,283],
  [1,5,96,33,94,158,225,287]]

def k860 : List (List ℕ) := [[0,1,8,33,94,227,287,1313,3679],
  [0,1,8,33,94,227,1185,4127],
  [1,3,32,33,94,225,287,418,1313,3679],
  [1,3,32,33,94,225,290,1185,4127],
  [1,9,64,33,94,225,287]]

def k861 : List (List ℕ) := [[2,1,8,33,94,227,287,1185,1759,4063],
  [2,1,8,33,94,227,287,1313,1695,1759],
  [3,3,32,33,94,225,287,418,1313,1695,1759],
  [3,3,32,33,94,225,289,1185,1759,4063],
  [3,9,64,33,94,225,287]]

def k862 : List (List ℕ) := [[0,1,8,33,94,231,283,3231],
  [0,1,64,33,94,162,227,285,482,3231],
  [0,1,64,35,94,162,227,285,3231],
  [0,5,96,33,94,225,289,3231],
  [1,1,96,33,94,162,229,283,482,3231],
  [1,1,96,35,94,162,229,283,3231],
  [1,5,128,33,94,227,287,3231],
  [1,5,1536,33,94,162,225,287,482,3231],
  [1,5,1536,35,94,162,225,287,3231],
  [1,7,48,33,94,229,285,3231]]

def k863 : List (List ℕ) := [[0,1,8,33,94,227,287,1313,1759,4063],
  [0,1,32,33,94,225,287,418,1313,1759,4063],
  [0,4,1,33,94,227,1185,4191],
  [1,1,8,33,94,225,289,1313,1759,4063],
  [1,3,1,33,94,225,290,1185,4191],
  [1,3,64,33,94,225,287]]

def k864 : List (List ℕ) := [[0,1,1,94,159,230,283],
  [0,1,4,94,159,226,289,1313,1759,4063],
  [0,1,4,94,227,285,481],
  [0,1,16,94,159,226,287,418,1313,1759,4063],
  [0,1,16,94,159,226,287,1249],
  [0,9,64,94,159,289],
  [0,10,1,94,226,290,1185,4255],
  [0,29,48,94,159,226,287],
  [1,1,4,94,159,228,287,1313,1759,4063],
  [1,1,6,94,229,283,481],
  [1,3,1,94,292,1185,4255],
  [1,3,32,94,159,289,418,1313,1759,4063],
  [1,5,3,94,159,228,285],
  [1,5,96,94,225,287,481],
  [1,8,1,94,228,1185,4255]]

def k865 : List (List ℕ) := [[2,1,8,33,94,227,287,1185,3679],
  [2,1,8,33,94,227,287,1313,1759,4063],
  [2,1,32,33,94,225,287,418,1313,1759,4063],
  [3,1,8,33,94,225,289,1313,1759,4063],
  [3,3,32,33,94,225,289,1185,3679],
  [3,3,64,33,94,225,287]]

def k866 : List (List ℕ) := [[2,1,4,94,159,226,289,1313,1759,4063],
  [2,1,4,94,159,228,287,1185,1759,4063],
  [2,1,16,94,159,226,287,418,1313,1759,4063],
  [2,1,16,94,159,226,287,1249],
  [2,3,32,94,159,291,1185,1759,4063],
  [2,9,64,94,159,289],
  [3,1,4,94,159,228,287,1313,1759,4063],
  [3,3,32,94,159,289,418,1313,1759,4063],
  [3,5,16,94,159,226,289,1185,1759,4063]]

def k867 : List (List ℕ) := [[0,3,32,33,94,159,226,287]]

def k868 : List (List ℕ) := [[2,5,96,33,94,159,226,287]]

def k869 : List (List ℕ) := [[0,1,12,33,94,225,287],
  [1,1,12,33,94,227,285]]

def k870 : List (List ℕ) := [[0,1,24,33,94,225,287],
  [1,1,12,33,94,227,285]]

def k871 : List (List ℕ) := [[0,7,48,33,94,225,287],
  [1,1,12,33,94,227,285]]

def k872 : List (List ℕ) := [[1,1,6,33,94,225,287,353,673,1121]]

def k873 : List (List ℕ) := [[0,1,6,33,94,161,226,286,545,607,1185],
  [0,1,12,33,94,161,226,286,545,607],
  [1,5,48,33,94,161,545,607,1185],
  [1,5,96,33,94,161,545,607]]

def k874 : List (List ℕ) := [[0,1,8,94,159,228,414,607],
  [0,1,16,94,159,292,414,607],
  [0,1,18,94,159,228,286,607],
  [0,3,8,94,159,228,414,607,1249],
  [0,3,16,94,159,292,414,607,1185],
  [0,3,32,94,159,418,607],
  [0,3,32,94,159,418,607,1313],
  [0,5,36,94,159,226,607,1185],
  [0,7,288,94,159,226,607],
  [0,35,576,94,159,290,607],
  [1,1,4,94,159,356,414,607,673],
  [1,1,4,94,159,356,414,607,673,1121],
  [1,1,9,94,159,228,286,607,1185],
  [1,1,36,94,159,290,607,1185],
  [1,1,48,94,161,546,607,1121]]

def k875 : List (List ℕ) := [[0,5,24,94,225,545,607,1185],
  [1,1,3,94,227,286,545,607,1185],
  [1,1,4,94,225,545,607,1249],
  [1,1,6,94,227,286,545,607],
  [1,1,48,94,225,545,607]]

def k876 : List (List ℕ) := [[0,2,27,94,158,228,284,545],
  [0,35,432,94,158,545],
  [1,5,54,94,158,226,286,545]]

def k877 : List (List ℕ) := [[0,1,27,94,228,284,545],
  [1,17,864,94,545]]

def k878 : List (List ℕ) := [[0,1,8,94,545,1313],
  [0,3,16,94,545]]

def k879 : List (List ℕ) := [[2,1,8,94,545,1313],
  [2,3,16,94,545]]

def k880 : List (List ℕ) := [[0,2,27,33,94,161,227,284,545],
  [1,5,108,33,94,161,225,286,545]]

def k881 : List (List ℕ) := [[0,1,18,94,545],
  [1,1,18,94,226,286,545]]

def k882 : List (List ℕ) := [[0,1,72,94,545],
  [1,1,18,94,226,286,545]]

def k883 : List (List ℕ) := [[0,1,18,94,226,286,545],
  [0,5,72,94,545]]

def k884 : List (List ℕ) := [[0,1,16,94,353,545]]

def k885 : List (List ℕ) := [[1,1,32,94,353,545,671]]

def k886 : List (List ℕ) := [[0,1,8,94,159,229,287,414,607],
  [0,1,16,94,159,225,291,414,607],
  [0,1,27,94,159,229,285,609,673,1121],
  [0,3,8,94,159,229,287,414,607,1249],
  [0,3,16,94,159,225,291,414,607,1185],
  [0,3,32,94,159,225,287,418,607],
  [0,3,32,94,159,225,287,418,607,1313],
  [0,7,8,94,159,227,287,607,1249],
  [0,15,32,94,159,227,287,607],
  [0,31,36,94,159,227,287,607,1185],
  [1,1,4,94,159,225,287,356,414,607,673],
  [1,1,4,94,159,225,287,356,414,607,673,1121],
  [1,1,4,94,159,229,285,607],
  [1,1,27,94,159,227,287,609,673,1121],
  [1,5,9,94,159,229,285,607,1185],
  [1,5,64,94,159,225,289,607],
  [1,7,8,94,159,229,285,607,1249],
  [1,11,36,94,159,225,289,607,1185]]

def k887 : List (List ℕ) := [[0,1,16,33,94,228,287,414,607],
  [0,1,27,33,94,228,285,607,673,1121],
  [0,1,32,33,94,291,414,607],
  [0,3,16,33,94,228,287,414,607,1249],
  [0,3,32,33,94,291,414,607,1185],
  [0,3,64,33,94,287,418,607],
  [0,3,64,33,94,287,418,607,1313],
  [0,5,24,33,94,226,287,607,1185],
  [0,13,48,33,94,226,287,607,1249],
  [0,23,576,33,94,226,287,607],
  [0,35,1152,33,94,289,607],
  [1,1,8,33,94,228,285,607],
  [1,1,8,33,94,287,356,414,607,673],
  [1,1,8,33,94,287,356,414,607,673,1121],
  [1,1,27,33,94,226,287,607,673,1121],
  [1,1,72,33,94,289,607,1185],
  [1,5,18,33,94,228,285,607,1185],
  [1,7,16,33,94,228,285,607,1249]]

def k888 : List (List ℕ) := [[0,4,81,33,94,158,229,283],
  [1,5,81,33,94,158,227,285],
  [1,103,2592,33,94,158,225,287]]

def k889 : List (List ℕ) := [[0,5,1,33,94,225,418,1313,4319],
  [0,5,64,33,94,225,287],
  [0,5,96,33,94,225,290,1185,4127],
  [1,1,12,33,94,227,1185,4127],
  [1,8,1,33,94,227,1313,4319]]

def k890 : List (List ℕ) := [[2,1,12,33,94,227,287,1185,3679],
  [2,1,12,33,94,227,1313,4127],
  [2,5,64,33,94,225,287],
  [3,5,96,33,94,225,289,1185,3679],
  [3,5,96,33,94,225,418,1313,4127]]

def k891 : List (List ℕ) := [[0,1,324,33,94,162,229,283,482,3231],
  [0,1,324,35,94,162,229,283,3231],
  [0,13,324,33,94,229,285,3231],
  [0,239,10368,33,94,227,287,3231],
  [1,1,27,33,94,231,283,3231],
  [1,5,1296,33,94,162,227,285,482,3231],
  [1,5,1296,35,94,162,227,285,3231],
  [1,17,1296,33,94,225,289,3231],
  [1,103,41472,33,94,162,225,287,482,3231],
  [1,103,41472,35,94,162,225,287,3231]]

def k892 : List (List ℕ) := [[0,1,12,33,94,227,287,1313,1695,1759],
  [0,1,12,33,94,227,1185,4127],
  [0,1,32,33,94,225,287,418,1313,1695,1759],
  [0,3,64,33,94,225,287],
  [1,1,12,33,94,225,289,1313,1695,1759],
  [1,5,96,33,94,225,290,1185,4127]]

def k893 : List (List ℕ) := [[0,1,6,94,159,226,289,1313,3679],
  [0,1,48,94,159,226,287,418,1313,3679],
  [0,4,9,94,159,228,285],
  [0,4,81,94,229,283,481],
  [0,5,1,94,292,1185,4383],
  [0,16,1,94,228,1185,4383],
  [1,1,6,94,159,228,287,1313,3679],
  [1,1,16,94,159,226,287,1249],
  [1,5,64,94,159,289],
  [1,5,81,94,227,285,481],
  [1,5,96,94,159,289,418,1313,3679],
  [1,8,27,94,159,230,283],
  [1,18,1,94,226,290,1185,4383],
  [1,23,216,94,159,226,287],
  [1,103,2592,94,225,287,481]]

def k894 : List (List ℕ) := [[2,1,12,33,94,227,287,1313,1695,1759],
  [2,1,32,33,94,225,287,418,1313,1695,1759],
  [2,3,64,33,94,225,287],
  [2,5,96,33,94,225,289,1185,1695,1759],
  [3,1,12,33,94,225,289,1313,1695,1759],
  [3,1,12,33,94,227,287,1185,1695,1759]]

def k895 : List (List ℕ) := [[2,1,6,94,159,226,289,1313,1695,1759],
  [2,1,6,94,159,228,287,1185,3679],
  [2,1,48,94,159,226,287,418,1313,1695,1759],
  [2,5,96,94,159,291,1185,3679],
  [3,1,6,94,159,228,287,1313,1695,1759],
  [3,1,16,94,159,226,287],
  [3,1,16,94,159,226,287,1249],
  [3,3,16,94,159,226,289,1185,3679],
  [3,5,64,94,159,289],
  [3,5,96,94,159,289,418,1313,1695,1759]]

def k896 : List (List ℕ) := [[1,3,32,33,94,159,226,287]]

def k897 : List (List ℕ) := [[3,5,96,33,94,159,226,287]]

def k898 : List (List ℕ) := [[0,1,27,33,94,225,287],
  [1,1,27,33,94,227,285]]

def k899 : List (List ℕ) := [[0,1,108,33,94,225,287],
  [1,1,27,33,94,227,285]]

def k900 : List (List ℕ) := [[0,1,27,33,94,227,285],
  [1,61,432,33,94,225,287]]

def k901 : List (List ℕ) := [[0,1,16,33,94,225,287]]

def k902 : List (List ℕ) := [[0,1,24,33,94,225,287,353]]

def k903 : List (List ℕ) := [[0,1,24,33,94,225,287,353,737]]

def k904 : List (List ℕ) := [[0,1,324,33,94,158,227,285],
  [0,197,2592,33,94,158,225,287],
  [1,1,162,33,94,158,229,283]]

def k905 : List (List ℕ) := [[0,1,96,33,94,225,289,1185,1695,1759],
  [0,1,96,33,94,225,418,1313,4127],
  [1,1,24,33,94,227,287,1185,1695,1759],
  [1,1,24,33,94,227,1313,4127],
  [1,1,64,33,94,225,287]]

def k906 : List (List ℕ) := [[2,1,24,33,94,227,287,1313,1695,1759],
  [2,1,96,33,94,225,289,1185,1695,1759],
  [3,1,24,33,94,227,287,1185,1695,1759],
  [3,1,64,33,94,225,287],
  [3,1,96,33,94,225,287,418,1313,1695,1759]]

def k907 : List (List ℕ) := [[0,1,216,33,94,231,283,3231],
  [0,1,5184,33,94,162,227,285,482,3231],
  [0,1,5184,35,94,162,227,285,3231],
  [0,5,2592,33,94,225,289,3231],
  [0,197,41472,33,94,162,225,287,482,3231],
  [0,197,41472,35,94,162,225,287,3231],
  [1,1,2592,33,94,162,229,283,482,3231],
  [1,1,2592,35,94,162,229,283,3231],
  [1,5,1296,33,94,229,285,3231],
  [1,217,10368,33,94,227,287,3231]]

def k908 : List (List ℕ) := [[0,1,24,33,94,225,289,1313,1695,1759],
  [0,1,96,33,94,225,290,1185,4127],
  [1,1,24,33,94,227,287,1313,1695,1759],
  [1,1,24,33,94,227,1185,4127],
  [1,1,32,33,94,225,287,418,1313,1695,1759],
  [1,3,64,33,94,225,287]]

def k909 : List (List ℕ) := [[0,1,12,94,159,226,290,1313,4127],
  [0,1,12,94,159,228,1185,4127],
  [0,1,16,94,159,226,287,1249],
  [0,1,27,94,159,230,283],
  [0,1,64,94,159,289],
  [0,1,96,94,159,292,1185,4127],
  [0,1,324,94,227,285,481],
  [0,197,2592,94,225,287,481],
  [1,1,12,94,159,228,1313,4127],
  [1,1,16,94,159,226,290,1185,4127],
  [1,1,27,94,159,228,285],
  [1,1,48,94,159,226,287],
  [1,1,48,94,159,226,418,1313,4127],
  [1,1,96,94,159,290,418,1313,4127],
  [1,1,162,94,229,283,481]]

def k910 : List (List ℕ) := [[2,1,24,33,94,225,289,1313,1695,1759],
  [2,1,96,33,94,225,290,1185,4127],
  [3,1,24,33,94,227,287,1313,1695,1759],
  [3,1,24,33,94,227,1185,4127],
  [3,1,32,33,94,225,287,418,1313,1695,1759],
  [3,3,64,33,94,225,287]]

def k911 : List (List ℕ) := [[2,1,8,94,159,226,287],
  [2,1,12,94,159,228,287,1185,1759,4063],
  [2,1,12,94,159,228,287,1313,1695,1759],
  [2,1,16,94,159,226,287,1249],
  [2,1,48,94,159,226,287,418,1313,1695,1759],
  [2,1,64,94,159,289],
  [2,1,96,94,159,289,418,1313,1695,1759],
  [2,1,96,94,159,291,1185,1759,4063],
  [3,1,12,94,159,226,289,1313,1695,1759],
  [3,1,16,94,159,226,289,1185,1759,4063]]

def k912 : List (List ℕ) := [[0,1,108,33,94,225,287],
  [1,1,108,33,94,227,285]]

def k913 : List (List ℕ) := [[0,1,8,94,159,229,287,414,607],
  [0,1,16,94,159,225,291,414,607],
  [0,1,27,94,159,229,285,609,673,1121],
  [0,3,8,94,159,229,287,414,607,1249],
  [0,3,16,94,159,225,291,414,607,1185],
  [0,3,32,94,159,225,287,418,607],
  [0,3,32,94,159,225,287,418,607,1313],
  [0,5,192,94,159,225,289,607],
  [0,7,8,94,159,227,287,607,1249],
  [0,11,72,94,159,227,287,607,1185],
  [0,23,96,94,159,227,287,607],
  [1,1,4,94,159,225,287,356,414,607,673],
  [1,1,4,94,159,225,287,356,414,607,673,1121],
  [1,1,8,94,159,229,285,607],
  [1,1,27,94,159,227,287,609,673,1121],
  [1,1,72,94,159,225,289,607,1185],
  [1,5,36,94,159,229,285,607,1185],
  [1,7,8,94,159,229,285,607,1249]]

def k914 : List (List ℕ) := [[0,1,8,33,94,287,356,414,607,673],
  [0,1,8,33,94,287,356,414,607,673,1121],
  [0,1,16,33,94,228,285,607],
  [0,1,27,33,94,226,287,607,673,1121],
  [0,5,72,33,94,228,285,607,1185],
  [0,7,16,33,94,228,285,607,1249],
  [1,1,16,33,94,228,287,414,607],
  [1,1,27,33,94,228,285,607,673,1121],
  [1,1,32,33,94,291,414,607],
  [1,1,48,33,94,226,287,607,1185],
  [1,1,144,33,94,289,607,1185],
  [1,3,16,33,94,228,287,414,607,1249],
  [1,3,32,33,94,291,414,607,1185],
  [1,3,64,33,94,287,418,607],
  [1,3,64,33,94,287,418,607,1313],
  [1,17,48,33,94,226,287,607,1249],
  [1,23,1152,33,94,289,607],
  [1,29,576,33,94,226,287,607]]

def k915 : List (List ℕ) := [[0,3,32,94,159,225,287,358,607,1121,1374,1438],
  [0,3,32,94,159,229,287,354,607,1249,1374,1438],
  [0,5,64,94,159,225,287,356,607,1631],
  [1,3,16,94,159,227,287,356,607,1121,1374,1438],
  [1,11,64,94,159,227,287,354,607,1631]]

def k916 : List (List ℕ) := [[0,1,192,33,94,230,287,354,607,1249,1373,1437],
  [0,5,64,33,94,287,360,607,1121,1373,1437],
  [0,7,24,33,94,226,287,358,607,1249,1373,1437],
  [0,11,128,33,94,287,358,607,1374,1438],
  [0,13,32,33,94,228,287,356,607,1121,1373,1437],
  [0,119,384,33,94,228,287,354,607,1374,1438],
  [1,1,12,33,94,230,287,354,607,1121,1373,1437],
  [1,11,64,33,94,228,287,356,607,1249,1373,1437],
  [1,25,48,33,94,226,287,356,607,1374,1438],
  [1,101,192,33,94,226,287,358,607,1121,1373,1437]]

def k917 : List (List ℕ) := [[0,1,16,33,94,229,287,355,1249,1373,1437],
  [0,3,32,33,94,227,287,357,1121,1373,1437],
  [0,7,192,33,94,225,287,357,1374,1438],
  [0,7,192,33,94,227,287,355,1374,1438],
  [1,1,16,33,94,229,287,355,1121,1373,1437],
  [1,1,24,33,94,229,287,353,1374,1438],
  [1,3,32,33,94,227,287,357,1249,1373,1437]]

def k918 : List (List ℕ) := [[0,1,16,33,94,158,229,287,356,1121,1372,1436],
  [0,3,32,33,94,158,227,287,358,1249,1372,1436],
  [0,7,192,33,94,158,229,287,354,1373,1437],
  [1,1,16,33,94,158,229,287,356,1249,1372,1436],
  [1,1,24,33,94,158,225,287,358,1373,1437],
  [1,3,32,33,94,158,227,287,358,1121,1372,1436],
  [1,5,192,33,94,158,227,287,356,1373,1437]]

def k919 : List (List ℕ) := [[0,1,64,33,94,231,287,356,1121,1372,1436,3935],
  [0,1,256,33,94,162,229,287,356,482,1249,1372,1436,3935],
  [0,1,256,35,94,162,229,287,356,1249,1372,1436,3935],
  [0,1,384,33,94,162,225,287,358,482,1373,1437,3935],
  [0,1,384,35,94,162,225,287,358,1373,1437,3935],
  [0,3,128,33,94,229,287,358,1249,1372,1436,3935],
  [0,3,512,33,94,162,227,287,358,482,1121,1372,1436,3935],
  [0,3,512,35,94,162,227,287,358,1121,1372,1436,3935],
  [0,5,3072,33,94,162,227,287,356,482,1373,1437,3935],
  [0,5,3072,35,94,162,227,287,356,1373,1437,3935],
  [0,7,768,33,94,231,287,354,1373,1437,3935],
  [1,1,64,33,94,231,287,356,1249,1372,1436,3935],
  [1,1,96,33,94,227,287,358,1373,1437,3935],
  [1,1,256,33,94,162,229,287,356,482,1121,1372,1436,3935],
  [1,1,256,35,94,162,229,287,356,1121,1372,1436,3935],
  [1,3,128,33,94,229,287,358,1121,1372,1436,3935],
  [1,3,512,33,94,162,227,287,358,482,1249,1372,1436,3935],
  [1,3,512,35,94,162,227,287,358,1249,1372,1436,3935],
  [1,5,768,33,94,229,287,356,1373,1437,3935],
  [1,7,3072,33,94,162,229,287,354,482,1373,1437,3935],
  [1,7,3072,35,94,162,229,287,354,1373,1437,3935]]

def k920 : List (List ℕ) := [[0,1,12,94,159,226,287,358,1373,1437],
  [0,1,16,94,159,226,287,360,1121,1372,1436],
  [0,1,16,94,159,228,287,358,1249,1372,1436],
  [0,1,16,94,159,230,287,356,1121,1372,1436],
  [0,1,16,94,229,287,356,481,1121,1372,1436],
  [0,3,32,94,227,287,358,481,1249,1372,1436],
  [0,5,96,94,159,230,287,354,1373,1437],
  [0,7,192,94,229,287,354,481,1373,1437],
  [1,1,16,94,159,226,287,360,1249,1372,1436],
  [1,1,16,94,159,228,287,358,1121,1372,1436],
  [1,1,16,94,159,230,287,356,1249,1372,1436],
  [1,1,16,94,229,287,356,481,1249,1372,1436],
  [1,1,24,94,225,287,358,481,1373,1437],
  [1,3,32,94,227,287,358,481,1121,1372,1436],
  [1,5,192,94,227,287,356,481,1373,1437],
  [1,7,96,94,159,228,287,356,1373,1437]]

def k921 : List (List ℕ) := [[2,1,16,94,159,226,287,358,1121,1373,1437],
  [2,3,16,94,159,228,287,356,1249,1373,1437],
  [3,1,8,94,159,228,287,354,1374,1438],
  [3,1,16,94,159,226,287,358,1249,1373,1437],
  [3,3,16,94,159,228,287,356,1121,1373,1437]]

def k922 : List (List ℕ) := [[0,3,16,33,94,159,228,287,356,1249,1373,1437],
  [1,3,16,33,94,159,228,287,356,1121,1373,1437],
  [1,3,32,33,94,159,226,287,356,1374,1438],
  [1,3,32,33,94,159,228,287,354,1374,1438]]

def k923 : List (List ℕ) := [[2,3,16,33,94,159,228,287,356,1249,1373,1437],
  [3,3,16,33,94,159,228,287,356,1121,1373,1437],
  [3,3,32,33,94,159,226,287,356,1374,1438],
  [3,3,32,33,94,159,228,287,354,1374,1438]]

def k924 : List (List ℕ) := [[1,1,108,33,94,227,285],
  [1,1,216,33,94,225,287]]

def k925 : List (List ℕ) := [[0,67,432,33,94,225,287],
  [1,1,108,33,94,227,285]]

def k926 : List (List ℕ) := [[0,1,8,94,159,227,287,357,607,1249,1373,1437],
  [1,1,8,94,159,227,287,357,607,1121,1373,1437],
  [1,1,16,94,159,225,287,357,607,1374,1438],
  [1,1,16,94,159,227,287,355,607,1374,1438]]

def k927 : List (List ℕ) := [[0,1,16,33,94,226,287,357,607,1249,1373,1437],
  [1,1,16,33,94,226,287,357,607,1121,1373,1437],
  [1,1,32,33,94,226,287,355,607,1374,1438],
  [1,1,32,33,94,287,357,607,1374,1438]]

def k928 : List (List ℕ) := [[0,1,16,33,94,229,287,356,1121,1372,1436],
  [0,3,32,33,94,227,287,358,1249,1372,1436],
  [0,7,192,33,94,229,287,354,1373,1437],
  [1,1,16,33,94,229,287,356,1249,1372,1436],
  [1,1,24,33,94,225,287,358,1373,1437],
  [1,3,32,33,94,227,287,358,1121,1372,1436],
  [1,5,192,33,94,227,287,356,1373,1437]]

def k929 : List (List ℕ) := [[0,1,16,94,159,225,287,357,607,1121,1374,1438],
  [0,1,16,94,159,229,287,353,607,1249,1374,1438],
  [0,1,32,94,159,225,287,355,607,1375,1439],
  [0,1,32,94,159,227,287,353,607,1375,1439],
  [1,1,8,94,159,227,287,355,607,1249,1374,1438]]

def k930 : List (List ℕ) := [[0,1,3,33,94,230,287,355,607,1249,1372,1436],
  [0,1,12,33,94,232,287,353,607,1121,1372,1436],
  [0,1,32,33,94,228,287,357,607,1121,1372,1436],
  [0,3,16,33,94,226,287,359,607,1121,1372,1436],
  [0,19,192,33,94,230,287,353,607,1373,1437],
  [0,21,64,33,94,226,287,357,607,1373,1437],
  [1,1,16,33,94,226,287,359,607,1249,1372,1436],
  [1,1,32,33,94,287,361,607,1121,1372,1436],
  [1,1,64,33,94,287,359,607,1373,1437],
  [1,5,24,33,94,230,287,355,607,1121,1372,1436],
  [1,7,32,33,94,228,287,357,607,1249,1372,1436],
  [1,11,96,33,94,232,287,353,607,1249,1372,1436],
  [1,67,192,33,94,228,287,355,607,1373,1437]]

def k931 : List (List ℕ) := [[1,1,16,94,159,225,287,353,607]]

def k932 : List (List ℕ) := [[0,1,8,33,94,230,287,355,607,1249,1372,1436],
  [0,3,16,33,94,228,287,357,607,1121,1372,1436],
  [0,17,96,33,94,226,287,357,607,1373,1437],
  [1,1,8,33,94,230,287,355,607,1121,1372,1436],
  [1,1,24,33,94,228,287,355,607,1373,1437],
  [1,1,24,33,94,230,287,353,607,1373,1437],
  [1,1,32,33,94,287,359,607,1373,1437],
  [1,3,16,33,94,228,287,357,607,1249,1372,1436]]

def k933 : List (List ℕ) := [[0,1,48,33,94,225,287,353,1121]]

def k934 : List (List ℕ) := [[0,1,48,33,94,225,287,353,737,1121]]

def k935 : List (List ℕ) := [[1,1,16,33,94,225,287]]

def k936 : List (List ℕ) := [[0,1,54,94,158,228,284,545],
  [0,23,432,94,158,545],
  [1,1,108,94,158,226,286,545]]

def k937 : List (List ℕ) := [[0,1,108,94,228,284,545],
  [1,5,864,94,545]]

def k938 : List (List ℕ) := [[0,1,54,33,94,161,227,284,545],
  [1,1,216,33,94,161,225,286,545]]

def k939 : List (List ℕ) := [[0,1,36,94,226,286,545],
  [1,1,36,94,545]]

def k940 : List (List ℕ) := [[0,1,48,33,94,161,545,607,1185],
  [0,1,96,33,94,161,545,607],
  [1,1,12,33,94,161,226,286,545,607,1185],
  [1,1,24,33,94,161,226,286,545,607]]

def k941 : List (List ℕ) := [[0,1,8,94,159,228,414,607],
  [0,1,16,94,159,292,414,607],
  [0,1,72,94,159,226,607,1185],
  [0,1,72,94,159,228,286,607],
  [0,1,72,94,159,290,607,1185],
  [0,3,8,94,159,228,414,607,1249],
  [0,3,16,94,159,292,414,607,1185],
  [0,3,32,94,159,418,607],
  [0,3,32,94,159,418,607,1313],
  [0,23,576,94,159,290,607],
  [0,25,288,94,159,226,607],
  [1,1,4,94,159,356,414,607,673],
  [1,1,4,94,159,356,414,607,673,1121],
  [1,1,36,94,159,228,286,607,1185],
  [1,1,48,94,161,546,607,1121]]

def k942 : List (List ℕ) := [[0,1,24,94,225,545,607,1185],
  [1,1,4,94,225,545,607,1249],
  [1,1,6,94,227,286,545,607,1185],
  [1,1,12,94,227,286,545,607],
  [1,5,48,94,225,545,607]]

def k943 : List (List ℕ) := [[0,3,32,94,159,228,354,607,1249,1630],
  [0,3,32,94,159,358,607,1121,1630],
  [0,5,64,94,159,356,607,1631],
  [1,3,16,94,159,226,356,607,1121,1630],
  [1,11,64,94,159,226,354,607,1631]]

def k944 : List (List ℕ) := [[0,1,4,94,225,358,545,607,1249,1629],
  [0,1,8,94,229,354,545,607,1249,1629],
  [0,1,16,94,225,356,545,607,1630],
  [0,3,4,94,227,356,545,607,1121,1629],
  [0,5,16,94,227,354,545,607,1630],
  [1,1,4,94,225,358,545,607,1121,1629],
  [1,1,8,94,229,354,545,607,1121,1629],
  [1,3,4,94,227,356,545,607,1249,1629]]

def k945 : List (List ℕ) := [[0,3,32,94,228,355,545,1249,1629],
  [1,1,16,94,228,353,545,1630],
  [1,1,64,94,226,355,545,1630],
  [1,1,64,94,357,545,1630],
  [1,3,32,94,228,355,545,1121,1629]]

def k946 : List (List ℕ) := [[0,1,32,94,158,228,354,545,1629],
  [0,3,32,94,158,228,356,545,1121,1628],
  [0,5,64,94,158,226,356,545,1629],
  [1,1,64,94,158,358,545,1629],
  [1,3,32,94,158,228,356,545,1249,1628]]

def k947 : List (List ℕ) := [[0,1,36,94,226,286,545],
  [0,1,72,94,545]]

def k948 : List (List ℕ) := [[0,1,36,94,226,286,545],
  [0,7,72,94,545]]

def k949 : List (List ℕ) := [[0,1,8,94,159,226,357,607,1249,1629],
  [1,1,8,94,159,226,357,607,1121,1629],
  [1,1,16,94,159,226,355,607,1630],
  [1,1,16,94,159,357,607,1630]]

def k950 : List (List ℕ) := [[0,1,32,94,228,354,545,1629],
  [0,3,32,94,228,356,545,1121,1628],
  [0,5,64,94,226,356,545,1629],
  [1,1,64,94,358,545,1629],
  [1,3,32,94,228,356,545,1249,1628]]

def k951 : List (List ℕ) := [[0,1,16,94,159,228,353,607,1249,1630],
  [0,1,16,94,159,357,607,1121,1630],
  [0,1,32,94,159,226,353,607,1631],
  [0,1,32,94,159,355,607,1631],
  [1,1,8,94,159,226,355,607,1249,1630]]

def k952 : List (List ℕ) := [[0,1,8,94,229,353,545,607,1629],
  [0,1,8,94,231,353,545,607,1121,1628],
  [0,3,32,94,225,357,545,607,1629],
  [0,5,16,94,229,355,545,607,1249,1628],
  [1,1,8,94,231,353,545,607,1249,1628],
  [1,5,16,94,229,355,545,607,1121,1628],
  [1,13,32,94,227,355,545,607,1629]]

def k953 : List (List ℕ) := [[1,1,16,94,159,353,607]]

def k954 : List (List ℕ) := [[0,1,32,94,225,357,545,607,1629],
  [0,3,16,94,229,355,545,607,1249,1628],
  [1,1,16,94,229,353,545,607,1629],
  [1,3,16,94,229,355,545,607,1121,1628],
  [1,5,32,94,227,355,545,607,1629]]

def k955 : List (List ℕ) := [[0,1,32,94,353,545,1121]]

def k956 : List (List ℕ) := [[1,1,64,94,353,545,671,1121]]

/-- factors occurring in lines 57-153: each is a sum of monomials
`[flag, numerator, denominator, factors]`, see `Verif.Loop.monoVal`; part 7 -/
def coefTab7 : List (List (List ℕ)) := [
  k807, k808, k809, k810, k811, k812, k813, k814, k815, k816, k817, k818, k819, k820, k821,
  k822, k823, k824, k825, k826, k827, k828, k829, k830, k831, k832, k833, k834, k835, k836,
  k837, k838, k839, k840, k841, k842, k843, k844, k845, k846, k847, k848, k849, k850, k851,
  k852, k853, k854, k855, k856, k857, k858, k859, k860, k861, k862, k863, k864, k865, k866,
  k867, k868, k869, k870, k871, k872, k873, k874, k875, k876, k877, k878, k879, k880, k881,
  k882, k883, k884, k885, k886, k887, k888, k889, k890, k891, k892, k893, k894, k895, k896,
  k897, k898, k899, k900, k901, k902, k903, k904, k905, k906, k907, k908, k909, k910, k911,
  k912, k913, k914, k915, k916, k917, k918, k919, k920, k921, k922, k923, k924, k925, k926,
  k927, k928, k929, k930, k931, k932, k933, k934, k935, k936, k937, k938, k939, k940, k941,
  k942, k943, k944, k945, k946, k947, k948, k949, k950, k951, k952, k953, k954, k955, k956]

end Verif.Loop
