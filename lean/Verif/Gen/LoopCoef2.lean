import Verif.Model.LoopDefs

/-! Generated by /verif/tools/gen_loop.py from /repo/wilson/match/smeft_loop.py. -/

set_option autoImplicit false
set_option maxRecDepth 20000

namespace Verif.Loop

def k274 : List (List ℕ) := [[0,1,1,33,94,159,227,286,356,414,673,1695,1759],
  [0,1,1,33,94,159,229,414,1695,1759],
  [0,1,8,33,94,159,225,286,354,673,1121],
  [0,1,12,33,94,159,227,284,422,1313,1694,1758],
  [0,1,16,33,94,159,225,286,422,1313,1694,1758],
  [0,1,16,33,94,159,225,290,418,1185,1694,1758],
  [0,1,24,33,94,159,225,292,414,1695,1759],
  [0,2,1,33,94,159,229,284,420,1313,1694,1758],
  [0,3,2,33,94,159,227,292,414,1185,1694,1758],
  [0,3,2,33,94,159,231,284,414,1249],
  [0,3,4,33,94,159,227,418,1313,1694,1758],
  [0,3,16,33,94,159,225,292,1185,1694,1758],
  [0,3,32,33,94,159,225,286,420,1695,1759],
  [0,4,3,33,94,159,233,284,414,1695,1759],
  [0,5,96,33,94,159,225,290,1695,1759],
  [0,8,3,33,94,159,229,282,356,414,673,1121],
  [0,8,3,33,94,159,229,282,356,673,1695,1759],
  [0,8,9,33,94,159,227,865,1695,1759],
  [0,32,9,33,94,159,231,284,865,1695,1759],
  [0,34,9,33,94,159,229,284,418,865,1695,1759],
  [0,47,81,33,94,159,227,286,673,1121],
  [0,64,405,33,94,159,229,350,673,1695,1759],
  [0,64,405,33,94,159,231,284,350,418,673,1695,1759],
  [0,76,81,33,94,159,227,286,420,1185,1694,1758],
  [0,128,81,33,94,159,231,282,673,1121],
  [0,149,12,33,94,159,229,284,1249],
  [0,199,81,33,94,159,229,1185,1694,1758],
  [0,328,81,33,94,159,231,282,420,1185,1694,1758],
  [0,328,81,33,94,159,231,286,1185,1694,1758],
  [0,439,81,33,94,159,229,286,418,1185,1694,1758],
  [0,3496,243,33,94,159,231,282,418,1695,1759],
  [0,38501,2430,33,94,159,229,286,1695,1759],
  [0,51019,9720,33,94,159,227,286,418,1695,1759],
  [1,1,1,33,94,159,227,284,356,414,673,1121],
  [1,1,1,33,94,159,227,284,356,673,1695,1759],
  [1,1,2,33,94,159,227,290,414,1695,1759],
  [1,1,2,33,94,159,231,286,414,1695,1759],
  [1,1,3,33,94,159,227,284,354,673,1121],
  [1,1,4,33,94,159,227,286,420,1313,1694,1758],
  [1,1,8,33,94,159,225,294,414,1185,1694,1758],
  [1,2,1,33,94,159,229,286,418,1313,1694,1758],
  [1,2,3,33,94,159,229,282,420,1695,1759],
  [1,2,3,33,94,159,229,282,422,1313,1694,1758],
  [1,3,1,33,94,159,229,290,414,1185,1694,1758],
  [1,3,16,33,94,159,225,420,1313,1694,1758],
  [1,4,1,33,94,159,233,282,414,1249],
  [1,4,3,33,94,159,233,282,1695,1759],
  [1,5,16,33,94,159,225,418,1695,1759],
  [1,8,3,33,94,159,229,284,356,414,673,1695,1759],
  [1,8,9,33,94,159,227,286,418,865,1695,1759],
  [1,32,9,33,94,159,231,282,418,865,1695,1759],
  [1,34,9,33,94,159,229,286,865,1695,1759],
  [1,44,3,33,94,159,231,282,1249],
  [1,64,405,33,94,159,229,286,350,418,673,1695,1759],
  [1,64,405,33,94,159,231,286,350,673,1695,1759],
  [1,71,81,33,94,159,227,418,1185,1694,1758],
  [1,95,72,33,94,159,227,286,1249],
  [1,160,81,33,94,159,229,284,673,1121],
  [1,341,81,33,94,159,229,284,420,1185,1694,1758],
  [1,656,81,33,94,159,231,284,418,1185,1694,1758],
  [1,695,324,33,94,159,227,290,1185,1694,1758],
  [1,6749,486,33,94,159,231,284,1695,1759],
  [1,40489,9720,33,94,159,227,1695,1759],
  [1,40931,2430,33,94,159,229,284,418,1695,1759]]

def k275 : List (List ℕ) := [[0,3,2,94,157,227,1249],
  [0,11,2,94,157,229,286],
  [0,70,1,94,157,231,284,1249],
  [1,3,2,94,157,227],
  [1,4,1,94,157,231,284],
  [1,47,2,94,157,229,286,1249],
  [1,48,1,94,157,233,282,1249]]

def k276 : List (List ℕ) := [[0,1,9,94,158,226,1185],
  [0,1,24,94,158,354,673,1121],
  [0,7,3,94,158,228,286,1249],
  [0,8,9,94,158,230,284,1185],
  [0,10,9,94,158,228,286,865],
  [0,10,81,94,158,226,673,1121],
  [0,16,81,94,158,230,284,673,1121],
  [0,134,27,94,158,230,284],
  [0,163,108,94,158,226],
  [1,1,1,94,158,228,286,1185],
  [1,1,6,94,158,226,286,354,673,1121],
  [1,1,24,94,158,290],
  [1,2,9,94,158,226,865],
  [1,7,3,94,158,230,284,1249],
  [1,8,9,94,158,230,284,865],
  [1,26,81,94,158,228,286,673,1121],
  [1,109,18,94,158,228,286]]

def k277 : List (List ℕ) := [[0,1,9,94,158,226,1185],
  [0,1,24,94,158,354,673,1121],
  [0,8,9,94,158,230,284,1185],
  [0,10,9,94,158,228,286,865],
  [0,10,81,94,158,226,673,1121],
  [0,16,81,94,158,230,284,673,1121],
  [0,29,9,94,158,228,286,1249],
  [0,134,27,94,158,230,284],
  [0,877,216,94,158,226],
  [1,1,1,94,158,228,286,1185],
  [1,1,6,94,158,226,286,354,673,1121],
  [1,1,24,94,158,290],
  [1,2,9,94,158,226,865],
  [1,5,36,94,158,226,1249],
  [1,7,3,94,158,230,284,1249],
  [1,8,9,94,158,230,284,865],
  [1,26,81,94,158,228,286,673,1121],
  [1,175,27,94,158,228,286]]

def k278 : List (List ℕ) := [[0,1,4,94,158,226,286,354,673,1121],
  [0,1,8,94,158,290],
  [0,2,3,94,158,226,865],
  [0,4,3,94,158,230,284,865],
  [0,7,2,94,158,230,284,1249],
  [0,13,27,94,158,228,286,673,1121],
  [0,71,27,94,158,228,286,1185],
  [0,818,81,94,158,228,286],
  [1,1,8,94,158,354,673,1121],
  [1,2,1,94,158,228,286,865],
  [1,5,27,94,158,226,673,1121],
  [1,7,2,94,158,228,286,1249],
  [1,8,27,94,158,230,284,673,1121],
  [1,25,27,94,158,226,1185],
  [1,46,27,94,158,230,284,1185],
  [1,568,81,94,158,230,284],
  [1,581,162,94,158,226]]

def k279 : List (List ℕ) := [[0,1,8,94,158,354,673,1121],
  [0,2,1,94,158,228,286,865],
  [0,5,27,94,158,226,673,1121],
  [0,8,27,94,158,230,284,673,1121],
  [0,25,27,94,158,226,1185],
  [0,46,27,94,158,230,284,1185],
  [0,91,18,94,158,228,286,1249],
  [0,568,81,94,158,230,284],
  [0,4283,648,94,158,226],
  [1,1,4,94,158,226,286,354,673,1121],
  [1,1,8,94,158,290],
  [1,2,3,94,158,226,865],
  [1,4,3,94,158,230,284,865],
  [1,7,2,94,158,230,284,1249],
  [1,13,27,94,158,228,286,673,1121],
  [1,29,36,94,158,226,1249],
  [1,71,27,94,158,228,286,1185],
  [1,3563,324,94,158,228,286]]

def k280 : List (List ℕ) := [[0,1,4,94,158,226,286,354,1121],
  [0,1,8,94,158,354],
  [0,1,9,94,158,226,1121],
  [0,1,9,94,158,228,286],
  [1,1,4,94,158,226,286,354],
  [1,1,8,94,158,354,1121],
  [1,1,9,94,158,226],
  [1,1,9,94,158,228,286,1121]]

def k281 : List (List ℕ) := [[0,1,2,94,159,226,286,355,414,607,673],
  [0,1,2,94,159,226,286,355,414,607,673,1121],
  [1,1,3,94,159,228,284,355,414,609,673],
  [1,1,3,94,159,228,284,355,414,609,673,1121],
  [1,1,12,94,159,355,414,607,673],
  [1,1,12,94,159,355,414,607,673,1121]]

def k282 : List (List ℕ) := [[0,1,12,94,158,354,673,1121],
  [0,2,3,94,158,228,284,354,673,1121],
  [0,11,27,94,158,228,286,673,1121],
  [1,1,2,94,158,226,286,354,673,1121],
  [1,1,9,94,158,226,673,1121],
  [1,8,27,94,158,230,284,673,1121]]

def k283 : List (List ℕ) := [[0,1,2,94,158,226,286,354,673,1121],
  [0,1,9,94,158,226,673,1121],
  [0,8,27,94,158,230,284,673,1121],
  [1,1,12,94,158,354,673,1121],
  [1,2,3,94,158,228,284,354,673,1121],
  [1,11,27,94,158,228,286,673,1121]]

def k284 : List (List ℕ) := [[0,1,2,94,158,226,286,354,673,1121],
  [0,11,27,94,158,228,286,673,1121],
  [1,1,9,94,158,226,673,1121],
  [1,1,12,94,158,354,673,1121],
  [1,2,3,94,158,228,284,354,673,1121],
  [1,8,27,94,158,230,284,673,1121]]

def k285 : List (List ℕ) := [[0,2,27,33,94,159,230,284,351,609,673],
  [0,8,9,33,94,159,230,282,353,609,673,1121],
  [0,13,24,33,94,159,226,286,353,607,673,1121],
  [1,2,27,33,94,159,228,286,351,609,673],
  [1,19,9,33,94,159,228,284,353,607,673,1121]]

def k286 : List (List ℕ) := [[0,3,1,94,158,229,284,353,609,673,1121],
  [0,5,12,94,158,225,353,607,673,1121],
  [0,8,27,94,158,229,286,351,609,673],
  [1,4,27,94,158,227,351,609,673],
  [1,4,27,94,158,231,284,351,609,673],
  [1,16,9,94,158,231,282,353,609,673,1121],
  [1,103,36,94,158,227,286,353,607,673,1121]]

def k287 : List (List ℕ) := [[0,1,4,94,158,226,1185],
  [0,1,8,94,158,290,1185],
  [0,5,8,94,158,226],
  [0,5,16,94,158,290],
  [1,1,6,94,158,226,865],
  [1,1,12,94,158,290,865]]

def k288 : List (List ℕ) := [[0,1,12,94,158,290,865],
  [0,2,3,94,158,226,865],
  [1,1,4,94,158,226,1185],
  [1,1,8,94,158,290,1185],
  [1,3,2,94,158,226,1249],
  [1,5,16,94,158,290],
  [1,31,8,94,158,226]]

def k289 : List (List ℕ) := [[0,1,3,94,156,226,286,356,414,673],
  [0,1,3,94,156,226,286,356,414,673,1121],
  [0,1,4,94,156,226,292,414,1185,1695,1759],
  [0,1,4,94,156,226,418,1313,1695,1759],
  [0,1,6,94,156,356,414,673],
  [0,1,6,94,156,356,414,673,1121],
  [0,1,8,94,156,290,418,1313,1695,1759],
  [0,1,8,94,156,294,414,1185,1695,1759],
  [0,1,24,94,156,226,1249],
  [0,3,2,94,156,228,286,1249],
  [0,5,81,94,156,226,673,1121],
  [0,7,96,94,156,290],
  [0,8,81,94,156,230,284,673,1121],
  [0,205,144,94,156,226],
  [1,1,2,94,156,230,286,414,1249],
  [1,1,4,94,156,228,414,1249],
  [1,1,6,94,156,228,286],
  [1,1,6,94,156,230,286,414],
  [1,1,8,94,156,226,286,420,1313,1695,1759],
  [1,1,9,94,156,230,284],
  [1,1,12,94,156,226,286,354,673,1121],
  [1,1,12,94,156,226,290,414],
  [1,1,12,94,156,228,414],
  [1,1,16,94,156,420,1313,1695,1759],
  [1,1,24,94,156,292,414],
  [1,1,24,94,156,354,673,1121],
  [1,3,8,94,156,226,290,1185,1695,1759],
  [1,3,16,94,156,292,1185,1695,1759],
  [1,7,6,94,156,230,284,1249],
  [1,7,48,94,156,226,286,418],
  [1,7,96,94,156,418],
  [1,13,81,94,156,228,286,673,1121]]

def k290 : List (List ℕ) := [[0,1,4,94,226,286],
  [0,1,4,94,226,286,1313],
  [0,1,8,94],
  [0,1,8,94,1313]]

def k291 : List (List ℕ) := [[0,1,1,94,158,228,292,414,1185,1694,1758],
  [0,1,1,94,158,228,418,1185,1694,1758],
  [0,1,1,94,158,232,284,414,1249],
  [0,1,2,94,158,226,420,1313,1694,1758],
  [0,1,2,94,158,228,418,1313,1694,1758],
  [0,1,2,94,158,294,1185,1694,1758],
  [0,1,3,94,158,230,414,1695,1759],
  [0,1,3,94,158,232,284,1695,1759],
  [0,1,4,94,158,226,292,414,1695,1759],
  [0,1,4,94,158,226,418,1695,1759],
  [0,1,6,94,158,228,284,420,1695,1759],
  [0,1,6,94,158,228,284,422,1313,1694,1758],
  [0,1,12,94,158,294,414,1695,1759],
  [0,2,3,94,158,226,286,356,414,673,1121],
  [0,2,3,94,158,226,286,356,673,1695,1759],
  [0,2,3,94,158,228,286,356,414,673,1695,1759],
  [0,5,3,94,158,226,292,1185,1694,1758],
  [0,7,12,94,158,228,1695,1759],
  [1,1,1,94,158,230,286,414,1249],
  [1,1,2,94,158,226,290,418,1313,1694,1758],
  [1,1,2,94,158,226,290,1695,1759],
  [1,1,2,94,158,228,286,420,1313,1694,1758],
  [1,1,3,94,158,228,290,414,1695,1759],
  [1,1,3,94,158,230,286,1695,1759],
  [1,1,3,94,158,232,286,414,1695,1759],
  [1,1,4,94,158,228,286,418,1695,1759],
  [1,1,4,94,158,292,418,1185,1694,1758],
  [1,1,4,94,158,296,414,1185,1694,1758],
  [1,1,6,94,158,226,286,420,1695,1759],
  [1,1,6,94,158,226,286,422,1313,1694,1758],
  [1,1,12,94,158,292,1695,1759],
  [1,2,3,94,158,226,356,414,673,1695,1759],
  [1,2,3,94,158,228,284,356,414,673,1121],
  [1,2,3,94,158,228,284,356,673,1695,1759],
  [1,3,4,94,158,226,290,418,1185,1694,1758],
  [1,3,4,94,158,226,294,414,1185,1694,1758],
  [1,13,6,94,158,228,290,1185,1694,1758]]

def k292 : List (List ℕ) := [[0,1,2,94,158,226,292,414,1185,1695,1759],
  [0,1,3,94,158,290,418,1313,1695,1759],
  [0,1,3,94,158,356,414,673],
  [0,1,3,94,158,356,414,673,1121],
  [0,1,4,94,158,294,414,1185,1695,1759],
  [0,2,3,94,158,226,286,356,414,673],
  [0,2,3,94,158,226,286,356,414,673,1121],
  [0,2,3,94,158,226,418,1313,1695,1759],
  [0,5,24,94,158,226],
  [0,5,48,94,158,290],
  [1,1,1,94,158,230,286,414,1249],
  [1,1,2,94,158,228,414,1249],
  [1,1,3,94,158,230,286,414],
  [1,1,6,94,158,226,290,414],
  [1,1,6,94,158,228,414],
  [1,1,12,94,158,292,414],
  [1,3,4,94,158,226,290,1185,1695,1759],
  [1,3,8,94,158,292,1185,1695,1759],
  [1,5,12,94,158,226,286,420,1313,1695,1759],
  [1,5,24,94,158,420,1313,1695,1759],
  [1,11,24,94,158,226,286,418],
  [1,11,48,94,158,418]]

def k293 : List (List ℕ) := [[0,1,6,94,158,228,286,1249],
  [0,1,8,94,158,226,292,414,1185,1695,1759],
  [0,1,8,94,158,228,414,1249],
  [0,1,12,94,158,418],
  [0,1,12,94,158,420,1313,1695,1759],
  [0,1,24,94,158,226,286,354,673,1121],
  [0,1,24,94,158,228,414],
  [0,1,24,94,158,354,673,1121],
  [0,1,96,94,158,226],
  [0,3,32,94,158,226,286,418],
  [0,4,81,94,158,230,284,673,1121],
  [0,5,48,94,158,226,286,420,1313,1695,1759],
  [1,1,12,94,158,290,418,1313,1695,1759],
  [1,1,12,94,158,356,414,673],
  [1,1,12,94,158,356,414,673,1121],
  [1,1,18,94,158,230,284],
  [1,1,24,94,158,226,290,414],
  [1,1,24,94,158,226,418,1313,1695,1759],
  [1,1,48,94,158,290],
  [1,3,16,94,158,226,290,1185,1695,1759],
  [1,5,162,94,158,226,673,1121],
  [1,7,12,94,158,230,284,1249],
  [1,13,72,94,158,228,286]]

def k294 : List (List ℕ) := [[0,1,2,94,158,226,290,418,1313,1694,1758],
  [0,1,2,94,158,228,286,420,1313,1694,1758],
  [0,1,2,94,158,228,290,414,1695,1759],
  [0,1,3,94,158,226,290,1695,1759],
  [0,1,3,94,158,232,286,414,1695,1759],
  [0,1,4,94,158,226,290,418,1185,1694,1758],
  [0,1,4,94,158,226,294,414,1185,1694,1758],
  [0,1,4,94,158,228,286,418,1695,1759],
  [0,1,6,94,158,226,286,420,1695,1759],
  [0,1,6,94,158,226,286,422,1313,1694,1758],
  [0,2,3,94,158,226,356,414,673,1695,1759],
  [0,2,3,94,158,228,284,356,414,673,1121],
  [0,2,3,94,158,228,284,356,673,1695,1759],
  [0,13,6,94,158,228,290,1185,1694,1758],
  [1,1,1,94,158,228,292,414,1185,1694,1758],
  [1,1,1,94,158,228,418,1185,1694,1758],
  [1,1,1,94,158,232,284,414,1249],
  [1,1,2,94,158,226,420,1313,1694,1758],
  [1,1,2,94,158,228,414,1249],
  [1,1,2,94,158,228,418,1313,1694,1758],
  [1,1,3,94,158,232,284,1695,1759],
  [1,1,4,94,158,226,418,1695,1759],
  [1,1,6,94,158,228,284,420,1695,1759],
  [1,1,6,94,158,228,284,422,1313,1694,1758],
  [1,1,12,94,158,226,292,414,1695,1759],
  [1,2,3,94,158,226,286,356,414,673,1121],
  [1,2,3,94,158,226,286,356,673,1695,1759],
  [1,2,3,94,158,226,292,1185,1694,1758],
  [1,2,3,94,158,228,286,356,414,673,1695,1759],
  [1,3,4,94,158,228,1695,1759]]

def k295 : List (List ℕ) := [[0,1,3,33,94,159,227,284,356,414,673,1121],
  [0,1,3,33,94,159,227,284,356,673,1695,1759],
  [0,1,3,33,94,159,229,286,1695,1759],
  [0,1,4,33,94,159,227,286,420,1313,1694,1758],
  [0,1,6,33,94,159,227,290,414,1695,1759],
  [0,1,6,33,94,159,231,286,414,1695,1759],
  [0,1,16,33,94,159,225,420,1313,1694,1758],
  [0,1,24,33,94,159,225,292,414,1695,1759],
  [0,4,27,33,94,159,229,284,673,1121],
  [0,5,8,33,94,159,227,286,1249],
  [0,5,48,33,94,159,225,418,1695,1759],
  [0,5,72,33,94,159,227,286,418,1695,1759],
  [0,13,12,33,94,159,227,290,1185,1694,1758],
  [0,13,48,33,94,159,225,292,1185,1694,1758],
  [1,1,2,33,94,159,227,292,414,1185,1694,1758],
  [1,1,2,33,94,159,227,418,1185,1694,1758],
  [1,1,2,33,94,159,231,284,414,1249],
  [1,1,3,33,94,159,227,286,356,414,673,1695,1759],
  [1,1,3,33,94,159,229,284,418,1695,1759],
  [1,1,4,33,94,159,227,418,1313,1694,1758],
  [1,1,6,33,94,159,231,284,1695,1759],
  [1,1,8,33,94,159,225,294,414,1185,1694,1758],
  [1,1,9,33,94,159,227,286,673,1121],
  [1,1,12,33,94,159,227,284,420,1695,1759],
  [1,1,12,33,94,159,227,284,422,1313,1694,1758],
  [1,1,24,33,94,159,225,286,354,673,1121],
  [1,1,32,33,94,159,225,286,420,1695,1759],
  [1,1,48,33,94,159,225,286,422,1313,1694,1758],
  [1,3,16,33,94,159,225,290,418,1185,1694,1758],
  [1,5,4,33,94,159,229,284,1249],
  [1,7,96,33,94,159,225,290,1695,1759],
  [1,17,72,33,94,159,227,1695,1759]]

def k296 : List (List ℕ) := [[0,1,2,94,157,227],
  [0,13,2,94,157,229,286,1249],
  [1,1,2,94,157,227,1249],
  [1,1,2,94,157,229,286],
  [1,6,1,94,157,231,284,1249]]

def k297 : List (List ℕ) := [[0,1,9,94,158,230,284],
  [0,1,12,94,158,226,286,354,673,1121],
  [0,1,24,94,158,354,673,1121],
  [0,7,6,94,158,230,284,1249],
  [0,13,81,94,158,228,286,673,1121],
  [1,1,6,94,158,226],
  [1,1,24,94,158,290],
  [1,5,18,94,158,228,286],
  [1,5,81,94,158,226,673,1121],
  [1,7,6,94,158,228,286,1249],
  [1,8,81,94,158,230,284,673,1121]]

def k298 : List (List ℕ) := [[0,1,12,94,158,226,1249],
  [0,1,24,94,158,290],
  [0,5,81,94,158,226,673,1121],
  [0,8,81,94,158,230,284,673,1121],
  [0,11,6,94,158,228,286,1249],
  [0,199,72,94,158,226],
  [1,1,9,94,158,230,284],
  [1,1,12,94,158,226,286,354,673,1121],
  [1,1,24,94,158,354,673,1121],
  [1,7,6,94,158,230,284,1249],
  [1,7,36,94,158,228,286],
  [1,13,81,94,158,228,286,673,1121]]

def k299 : List (List ℕ) := [[0,1,4,94,158,226],
  [0,1,8,94,158,290],
  [1,1,8,94,158,354,673,1121]]

def k300 : List (List ℕ) := [[0,1,8,94,158,290],
  [0,3,4,94,158,226,1249],
  [0,19,8,94,158,226],
  [1,1,8,94,158,354,673,1121]]

def k301 : List (List ℕ) := [[0,1,4,94,158,354],
  [1,1,4,94,158,354,1121]]

def k302 : List (List ℕ) := [[0,3,4,94,156,228,354,1249,1374,1438],
  [0,3,8,94,156,226,356,1121,1374,1438],
  [1,1,1,94,156,356,3487],
  [1,2,1,94,156,226,354,3487],
  [1,3,4,94,156,228,354,1121,1374,1438],
  [1,3,8,94,156,226,356,1249,1374,1438]]

def k303 : List (List ℕ) := [[0,5,64,94,158,356,1375,1439],
  [0,7,32,94,158,358,1121,1374,1438],
  [0,27,32,94,158,228,354,1249,1374,1438],
  [1,1,16,94,158,226,356,1121,1374,1438],
  [1,3,8,94,158,226,356,1249,1374,1438],
  [1,5,8,94,158,228,354,1121,1374,1438],
  [1,35,64,94,158,226,354,1375,1439]]

def k304 : List (List ℕ) := [[0,3,2,94,158,227,353,607,1375,1439],
  [0,3,4,94,158,227,355,607,1121,1374,1438],
  [1,3,4,94,158,225,355,607,1375,1439],
  [1,3,4,94,158,227,355,607,1249,1374,1438]]

def k305 : List (List ℕ) := [[1,1,6,94,159,226,286,355,414,607,673],
  [1,1,6,94,159,226,286,355,414,607,673,1121],
  [1,1,12,94,159,355,414,607,673],
  [1,1,12,94,159,355,414,607,673,1121]]

def k306 : List (List ℕ) := [[1,1,8,94,158,354,673,1121]]

def k307 : List (List ℕ) := [[0,1,8,94,158,354,673,1121]]

def k308 : List (List ℕ) := [[0,1,6,94,158,226,286,354,673,1121],
  [0,1,12,94,158,354,673,1121],
  [0,1,27,94,158,226,673,1121],
  [1,1,27,94,158,228,286,673,1121]]

def k309 : List (List ℕ) := [[0,1,27,94,158,228,286,673,1121],
  [1,1,6,94,158,226,286,354,673,1121],
  [1,1,12,94,158,354,673,1121],
  [1,1,27,94,158,226,673,1121]]

def k310 : List (List ℕ) := [[0,1,27,94,158,226,673,1121],
  [1,1,6,94,158,226,286,354,673,1121],
  [1,1,12,94,158,354,673,1121],
  [1,1,27,94,158,228,286,673,1121]]

def k311 : List (List ℕ) := [[0,1,9,33,94,159,228,284,353,609,673,1121],
  [1,13,72,33,94,159,226,286,353,607,673,1121]]

def k312 : List (List ℕ) := [[0,7,12,94,158,227,286,353,607,673,1121],
  [1,2,9,94,158,229,284,353,609,673,1121],
  [1,5,36,94,158,225,353,607,673,1121]]

def k313 : List (List ℕ) := [[0,1,2,94,158,226,865],
  [1,3,4,94,158,226,1249],
  [1,15,8,94,158,226]]

def k314 : List (List ℕ) := [[0,1,1,94,158,228,286,1185],
  [0,1,3,94,158,226,865],
  [0,1,4,94,158,290,1185],
  [0,1,8,94,158,226],
  [0,2,1,94,158,228,286],
  [0,3,4,94,158,226,1249],
  [0,5,8,94,158,290],
  [1,1,2,94,158,226,1185],
  [1,1,6,94,158,228,286,865],
  [1,1,6,94,158,290,865]]

def k315 : List (List ℕ) := [[0,1,2,94,156,228,414],
  [0,1,4,94,156,292,414],
  [0,1,4,94,156,354,673,1121],
  [0,1,6,94,156,228,286,865],
  [0,1,8,94,156,354,673],
  [0,2,1,94,156,228,1185,2655,2719],
  [0,3,2,94,156,230,290,414,1249,2335,2399,2655,2719],
  [0,3,4,94,156,226,290,418,1249,2335,2399,2655,2719],
  [0,3,4,94,156,226,292,414,1185,2655,2719],
  [0,3,8,94,156,292,1185,2655,2719],
  [0,3,8,94,156,420,1313,2975],
  [0,7,16,94,156,418],
  [0,9,4,94,156,230,1249,2335,2399,2655,2719],
  [0,11,8,94,156,226],
  [1,1,1,94,156,230,286,1185,2655,2719],
  [1,1,1,94,156,356,414,673],
  [1,1,1,94,156,356,414,673,1121],
  [1,1,6,94,156,226,865],
  [1,2,1,94,156,228,286],
  [1,3,2,94,156,232,414,1249,2335,2399,2655,2719],
  [1,3,4,94,156,226,418,1313,2975],
  [1,3,4,94,156,294,414,1185,2655,2719],
  [1,3,8,94,156,228,418,1249,2335,2399,2655,2719],
  [1,5,16,94,156,290],
  [1,7,4,94,156,226,290,1185,2655,2719],
  [1,21,8,94,156,228,290,1249,2335,2399,2655,2719]]

def k316 : List (List ℕ) := [[1,3,4,94],
  [1,3,4,94,1313]]

def k317 : List (List ℕ) := [[0,1,2,94,158,292,414],
  [0,3,2,94,158,292,414,1185],
  [1,1,2,94,158,226,290,414],
  [1,3,2,94,158,226,290,414,1185]]

def k318 : List (List ℕ) := [[0,1,1,94,158,228,414],
  [0,1,2,94,158,292,414],
  [0,3,2,94,158,292,414,1185],
  [0,5,1,94,158,420,1313,3551],
  [0,11,8,94,158,418],
  [0,15,1,94,158,228,418,1249,3615],
  [1,2,1,94,158,356,414,673],
  [1,2,1,94,158,356,414,673,1121],
  [1,5,8,94,158,226],
  [1,8,1,94,158,226,418,1313,3551],
  [1,12,1,94,158,230,1249,3615]]

def k319 : List (List ℕ) := [[0,1,1,94,158,226],
  [0,1,2,94,158,226,418,1313,2975],
  [0,1,2,94,158,230,286,1185,3231],
  [0,1,2,94,158,356,414,673],
  [0,1,2,94,158,356,414,673,1121],
  [0,1,12,94,158,228,286,865],
  [0,3,4,94,158,232,414,1249,2335,2399,2655,2719],
  [0,5,8,94,158,226,290,1185,3231],
  [0,5,16,94,158,228,418,1249,2335,2399,2655,2719],
  [0,17,16,94,158,228,290,1249,2335,2399,2655,2719],
  [1,1,1,94,158,228,286],
  [1,1,4,94,158,228,414],
  [1,1,8,94,158,226,290,418,1249,2335,2399,2655,2719],
  [1,3,4,94,158,228,1185,3231],
  [1,3,4,94,158,230,290,414,1249,2335,2399,2655,2719],
  [1,3,16,94,158,292,1185,3231],
  [1,5,4,94,158,230,1249,2335,2399,2655,2719],
  [1,5,16,94,158,420,1313,2975],
  [1,5,32,94,158,290],
  [1,11,32,94,158,418]]

def k320 : List (List ℕ) := [[0,1,1,94,158,228,414],
  [0,1,2,94,158,226,290,414],
  [0,3,1,94,158,228,414,1249],
  [0,3,2,94,158,226,290,414,1185]]

def k321 : List (List ℕ) := [[0,1,4,33,94,159,225,290,414],
  [0,1,6,33,94,159,227,286,865],
  [0,3,4,33,94,159,225],
  [0,3,4,33,94,159,225,290,414,1185],
  [1,1,1,33,94,159,227,286,1185],
  [1,2,1,33,94,159,227,286]]

def k322 : List (List ℕ) := [[2,1,2,33,94,159,225,1185],
  [2,3,4,33,94,159,225]]

def k323 : List (List ℕ) := [[0,1,4,94,158,226,1185],
  [0,1,4,94,158,354,673,1121],
  [0,1,6,94,158,228,286,865],
  [0,1,8,94,158,354,673],
  [1,1,1,94,158,228,286,1185],
  [1,1,6,94,158,226,865],
  [1,2,1,94,158,228,286],
  [1,3,4,94,158,226],
  [1,3,4,94,158,226,1249]]

def k324 : List (List ℕ) := [[0,1,2,94,158,226,356,1121,1374,1438],
  [0,9,16,94,158,228,354,1249,1374,1438],
  [1,1,16,94,158,358,1121,1374,1438],
  [1,3,8,94,158,226,356,1249,1374,1438],
  [1,3,32,94,158,226,354,1375,1439],
  [1,3,32,94,158,356,1375,1439],
  [1,5,8,94,158,228,354,1121,1374,1438]]

def k325 : List (List ℕ) := [[1,1,4,94,158,354,673,1121],
  [1,1,8,94,158,354,673]]

def k326 : List (List ℕ) := [[0,1,16,94,158,354],
  [1,1,8,94,158,354,1121]]

def k327 : List (List ℕ) := [[0,1,8,94,158,354,1121],
  [1,1,16,94,158,354]]

def k328 : List (List ℕ) := [[0,1,1,94,158,226,292,1185,2527,2591,2719,2911],
  [0,3,4,94,158,228,354,1185,2527,2591,2719,2911],
  [0,3,8,94,158,226,356,1121,1375,1439,2527,2591],
  [0,3,16,94,158,228,354,1249,1375,1439,2655,2719],
  [0,3,16,94,158,292,354,1185,2527,2591,2719,2911],
  [0,5,8,94,158,290,356,1121,1375,1439,2527,2591],
  [0,11,48,94,158,290],
  [1,1,2,94,158,228,290,1185,2527,2591,2719,2911],
  [1,1,2,94,158,294,1185,2527,2591,2719,2911],
  [1,1,4,94,158,226,290,354,1121,1375,1439,2527,2591],
  [1,1,4,94,158,228,354,1121,1375,1439,2527,2591],
  [1,3,8,94,158,226,290,354,1249,1375,1439,2655,2719],
  [1,5,12,94,158,226],
  [1,5,16,94,158,358,1121,1375,1439,2527,2591],
  [1,9,8,94,158,226,290,354,1185,2527,2591,2719,2911],
  [1,9,32,94,158,354]]

def k329 : List (List ℕ) := [[0,1,2,94,158,228,290,1185,2527,2591,2719,2911],
  [0,1,2,94,158,294,1185,2527,2591,2719,2911],
  [0,1,8,94,158,226,290,356,1121,1374,1438,2527,2591],
  [0,1,8,94,158,226,358,1249,1374,1438,2655,2719],
  [0,1,16,94,158,226,358,1121,1374,1438,2527,2591],
  [0,3,32,94,158,356,1631],
  [0,5,8,94,158,226,290,356,1249,1374,1438,2655,2719],
  [0,5,8,94,158,228,356,1121,1374,1438,2527,2591],
  [0,9,8,94,158,226,290,354,1185,2527,2591,2719,2911],
  [0,11,48,94,158,226,290,1631],
  [0,103,96,94,158,226,354,1631],
  [1,1,1,94,158,226,292,1185,2527,2591,2719,2911],
  [1,1,4,94,158,228,290,354,1121,1374,1438,2527,2591],
  [1,1,4,94,158,230,354,1121,1374,1438,2527,2591],
  [1,1,4,94,158,290,358,1121,1374,1438,2527,2591],
  [1,1,8,94,158,228,290,354,1249,1374,1438,2655,2719],
  [1,1,8,94,158,290,358,1249,1374,1438,2655,2719],
  [1,1,16,94,158,230,354,1249,1374,1438,2655,2719],
  [1,1,16,94,158,360,1121,1374,1438,2527,2591],
  [1,3,4,94,158,228,354,1185,2527,2591,2719,2911],
  [1,3,16,94,158,292,354,1185,2527,2591,2719,2911],
  [1,7,16,94,158,228,356,1249,1374,1438,2655,2719],
  [1,11,48,94,158,290,354,1631],
  [1,19,24,94,158,228,1631]]

def k330 : List (List ℕ) := [[0,1,1,33,94,159,228,290,351,607,1185,2527,2591,2719,2911],
  [0,1,3,33,94,159,226,351,607],
  [0,1,4,33,94,159,228,353,607,1121,1375,1439,2527,2591],
  [0,3,16,33,94,159,228,353,607,1249,1375,1439,2655,2719],
  [0,5,8,33,94,159,294,351,607,1185,2527,2591,2719,2911],
  [0,7,4,33,94,159,226,290,353,607,1185,2527,2591,2719,2911],
  [1,1,8,33,94,159,226,355,607,1121,1375,1439,2527,2591],
  [1,5,4,33,94,159,228,353,607,1185,2527,2591,2719,2911],
  [1,5,16,33,94,159,292,353,607,1185,2527,2591,2719,2911],
  [1,5,16,33,94,159,357,607,1121,1375,1439,2527,2591],
  [1,5,24,33,94,159,290,351,607],
  [1,7,96,33,94,159,353,607],
  [1,13,8,33,94,159,226,292,351,607,1185,2527,2591,2719,2911]]

def k331 : List (List ℕ) := [[1,3,4,94,159,353,545,607,737,1121],
  [1,5,8,94,159,353,545,607,737]]

def k332 : List (List ℕ) := [[0,1,2,94,159,226,357,414,607,673,1121,1375,1439,2207,2271],
  [0,1,2,94,159,355,414,607,673],
  [0,1,2,94,159,357,607,673,1121,1375,1439,2207,2271],
  [0,3,4,94,159,230,351,607,1249,1375,1439,2335,2399],
  [0,3,4,94,159,230,353,414,607,1249,1375,1439,2335,2399],
  [0,3,8,94,159,226,355,607,1121,1375,1439,2207,2271],
  [0,3,16,94,159,353,420,607,1313,2207,2271,2335,2399],
  [0,7,32,94,159,353,607],
  [1,1,2,94,159,226,355,607,673,1121,1375,1439,2207,2271],
  [1,1,2,94,159,359,414,607,673,1121,1375,1439,2207,2271],
  [1,1,4,94,159,228,351,414,607],
  [1,1,8,94,159,292,351,414,607],
  [1,3,4,94,159,232,351,414,607,1249,1375,1439,2335,2399],
  [1,3,8,94,159,226,353,418,607,1313,2207,2271,2335,2399],
  [1,3,8,94,159,292,351,414,607,1185],
  [1,3,16,94,159,357,607,1121,1375,1439,2207,2271],
  [1,15,16,94,159,228,353,607,1249,1375,1439,2335,2399]]

def k333 : List (List ℕ) := [[0,1,2,94,158,231,353,607,1121,1374,1438,2527,2591],
  [0,1,4,94,158,227,290,355,607,1121,1374,1438,2527,2591],
  [0,3,2,94,158,231,290,351,607,1249,1374,1438,2655,2719],
  [0,3,4,94,158,225,355,607,1375,1439],
  [0,5,2,94,158,229,353,607,1185,2527,2591,2719,2911],
  [0,5,8,94,158,225,290,357,607,1121,1374,1438,2527,2591],
  [0,5,8,94,158,225,292,353,607,1185,2527,2591,2719,2911],
  [0,5,12,94,158,225,290,353,607,1375,1439],
  [0,7,6,94,158,229,351,607,1375,1439],
  [0,9,4,94,158,231,353,607,1249,1374,1438,2655,2719],
  [0,13,4,94,158,227,292,351,607,1185,2527,2591,2719,2911],
  [1,1,1,94,158,229,290,351,609,1185,2527,2591,2719,2911],
  [1,1,2,94,158,229,290,353,607,1121,1374,1438,2527,2591],
  [1,1,4,94,158,229,355,607,1121,1374,1438,2527,2591],
  [1,3,2,94,158,233,351,607,1249,1374,1438,2655,2719],
  [1,3,8,94,158,229,355,607,1249,1374,1438,2655,2719],
  [1,5,4,94,158,225,294,351,607,1185,2527,2591,2719,2911],
  [1,5,8,94,158,227,357,607,1121,1374,1438,2527,2591],
  [1,5,12,94,158,227,290,351,607,1375,1439],
  [1,7,2,94,158,227,290,353,607,1185,2527,2591,2719,2911],
  [1,15,8,94,158,229,290,353,607,1249,1374,1438,2655,2719],
  [1,55,24,94,158,227,353,607,1375,1439]]

def k334 : List (List ℕ) := [[0,1,2,94,158,354,673,1121],
  [0,1,4,94,158,354,673]]

def k335 : List (List ℕ) := [[0,1,2,94,159,355,414,607,673],
  [0,1,2,94,159,355,414,607,673,1121]]

def k336 : List (List ℕ) := [[0,1,2,94,158,354,737,1121],
  [0,1,4,94,158,354,737]]

def k337 : List (List ℕ) := [[0,3,8,94,158,226,354,1249,1631],
  [1,3,8,94,158,226,354,1121,1631]]

def k338 : List (List ℕ) := [[0,1,4,94,158,226,1249],
  [1,1,4,94,158,226,1185]]

def k339 : List (List ℕ) := [[0,3,4,94,158,226,1185],
  [1,3,4,94,158,226,1249]]

def k340 : List (List ℕ) := [[0,1,4,94,158,290,865],
  [0,3,4,94,158,226,1185],
  [0,15,8,94,158,226],
  [1,1,2,94,158,226,865],
  [1,3,8,94,158,290,1185],
  [1,15,16,94,158,290]]

def k341 : List (List ℕ) := [[0,1,1,94,156,226,286,356,414,673],
  [0,1,1,94,156,226,286,356,414,673,1121],
  [0,1,4,94,156,228,414],
  [0,1,8,94,156,292,414],
  [0,1,8,94,156,354,673,1121],
  [0,1,32,94,156,290],
  [0,3,4,94,156,226,292,414,1185,1695,1759],
  [0,3,4,94,156,226,418,1313,1695,1759],
  [0,3,4,94,156,228,414,1249],
  [0,3,16,94,156,420,1313,1695,1759],
  [0,5,27,94,156,226,673,1121],
  [0,7,32,94,156,418],
  [0,8,27,94,156,230,284,673,1121],
  [0,9,2,94,156,228,286,1249],
  [0,9,16,94,156,292,1185,1695,1759],
  [0,73,48,94,156,226],
  [1,1,2,94,156,230,286,414],
  [1,1,2,94,156,356,414,673],
  [1,1,2,94,156,356,414,673,1121],
  [1,1,3,94,156,230,284],
  [1,1,4,94,156,226,286,354,673,1121],
  [1,1,4,94,156,226,290,414],
  [1,3,2,94,156,230,286,414,1249],
  [1,3,8,94,156,226,286,420,1313,1695,1759],
  [1,3,8,94,156,290,418,1313,1695,1759],
  [1,3,8,94,156,294,414,1185,1695,1759],
  [1,5,8,94,156,226,1249],
  [1,7,2,94,156,230,284,1249],
  [1,7,16,94,156,226,286,418],
  [1,9,8,94,156,226,290,1185,1695,1759],
  [1,13,27,94,156,228,286,673,1121]]

def k342 : List (List ℕ) := [[0,3,4,94,226,286],
  [0,3,4,94,226,286,1313],
  [1,3,8,94],
  [1,3,8,94,1313]]

def k343 : List (List ℕ) := [[0,1,1,94,158,230,414,1695,1759],
  [0,1,1,94,158,232,284,1695,1759],
  [0,1,2,94,158,228,284,420,1695,1759],
  [0,1,2,94,158,228,284,422,1313,1694,1758],
  [0,1,4,94,158,292,1695,1759],
  [0,2,1,94,158,226,286,356,414,673,1121],
  [0,2,1,94,158,226,286,356,673,1695,1759],
  [0,2,1,94,158,228,286,356,414,673,1695,1759],
  [0,3,1,94,158,228,292,414,1185,1694,1758],
  [0,3,1,94,158,228,418,1185,1694,1758],
  [0,3,1,94,158,232,284,414,1249],
  [0,3,2,94,158,226,420,1313,1694,1758],
  [0,3,2,94,158,228,418,1313,1694,1758],
  [0,3,4,94,158,226,418,1695,1759],
  [0,3,4,94,158,292,418,1185,1694,1758],
  [0,3,4,94,158,296,414,1185,1694,1758],
  [0,5,4,94,158,226,292,414,1695,1759],
  [0,7,4,94,158,228,1695,1759],
  [0,8,1,94,158,226,292,1185,1694,1758],
  [1,1,1,94,158,228,290,414,1695,1759],
  [1,1,1,94,158,230,286,1695,1759],
  [1,1,1,94,158,232,286,414,1695,1759],
  [1,1,2,94,158,226,286,420,1695,1759],
  [1,1,2,94,158,226,286,422,1313,1694,1758],
  [1,1,4,94,158,294,414,1695,1759],
  [1,2,1,94,158,226,290,1695,1759],
  [1,2,1,94,158,226,356,414,673,1695,1759],
  [1,2,1,94,158,228,284,356,414,673,1121],
  [1,2,1,94,158,228,284,356,673,1695,1759],
  [1,3,1,94,158,230,286,414,1249],
  [1,3,2,94,158,226,290,418,1313,1694,1758],
  [1,3,2,94,158,228,286,420,1313,1694,1758],
  [1,3,2,94,158,294,1185,1694,1758],
  [1,3,4,94,158,228,286,418,1695,1759],
  [1,13,2,94,158,228,290,1185,1694,1758],
  [1,15,4,94,158,226,290,418,1185,1694,1758],
  [1,15,4,94,158,226,294,414,1185,1694,1758]]

def k344 : List (List ℕ) := [[0,1,2,94,158,228,414],
  [0,1,4,94,158,292,414],
  [0,2,1,94,158,226,286,356,414,673],
  [0,2,1,94,158,226,286,356,414,673,1121],
  [0,2,1,94,158,226,418,1313,1695,1759],
  [0,3,2,94,158,226,292,414,1185,1695,1759],
  [0,3,2,94,158,228,414,1249],
  [0,5,8,94,158,226],
  [0,5,8,94,158,420,1313,1695,1759],
  [0,9,8,94,158,292,1185,1695,1759],
  [0,11,16,94,158,418],
  [1,1,1,94,158,230,286,414],
  [1,1,1,94,158,290,418,1313,1695,1759],
  [1,1,1,94,158,356,414,673],
  [1,1,1,94,158,356,414,673,1121],
  [1,1,2,94,158,226,290,414],
  [1,3,1,94,158,230,286,414,1249],
  [1,3,4,94,158,294,414,1185,1695,1759],
  [1,5,4,94,158,226,286,420,1313,1695,1759],
  [1,5,16,94,158,290],
  [1,9,4,94,158,226,290,1185,1695,1759],
  [1,11,8,94,158,226,286,418]]

def k345 : List (List ℕ) := [[0,1,2,94,158,228,286,1249],
  [0,1,4,94,158,290,418,1313,1695,1759],
  [0,1,4,94,158,356,414,673],
  [0,1,4,94,158,356,414,673,1121],
  [0,1,8,94,158,226,286,354,673,1121],
  [0,3,8,94,158,226,292,414,1185,1695,1759],
  [0,4,27,94,158,230,284,673,1121],
  [0,5,16,94,158,226,286,420,1313,1695,1759],
  [0,9,32,94,158,226,286,418],
  [0,17,32,94,158,226],
  [1,1,4,94,158,418],
  [1,1,4,94,158,420,1313,1695,1759],
  [1,1,6,94,158,230,284],
  [1,1,8,94,158,226,290,414],
  [1,1,8,94,158,226,418,1313,1695,1759],
  [1,1,8,94,158,228,414],
  [1,1,8,94,158,354,673,1121],
  [1,3,8,94,158,228,414,1249],
  [1,3,16,94,158,290],
  [1,5,54,94,158,226,673,1121],
  [1,7,4,94,158,230,284,1249],
  [1,9,16,94,158,226,290,1185,1695,1759],
  [1,13,24,94,158,228,286]]

def k346 : List (List ℕ) := [[0,1,1,94,158,232,286,414,1695,1759],
  [0,1,2,94,158,226,286,420,1695,1759],
  [0,1,2,94,158,226,286,422,1313,1694,1758],
  [0,1,2,94,158,228,290,414,1695,1759],
  [0,2,1,94,158,226,356,414,673,1695,1759],
  [0,2,1,94,158,228,284,356,414,673,1121],
  [0,2,1,94,158,228,284,356,673,1695,1759],
  [0,3,2,94,158,226,290,418,1313,1694,1758],
  [0,3,2,94,158,226,290,1695,1759],
  [0,3,2,94,158,228,286,420,1313,1694,1758],
  [0,3,2,94,158,228,414,1249],
  [0,3,4,94,158,228,286,418,1695,1759],
  [0,9,4,94,158,226,290,418,1185,1694,1758],
  [0,9,4,94,158,226,294,414,1185,1694,1758],
  [0,13,2,94,158,228,290,1185,1694,1758],
  [1,1,1,94,158,232,284,1695,1759],
  [1,1,2,94,158,228,284,420,1695,1759],
  [1,1,2,94,158,228,284,422,1313,1694,1758],
  [1,2,1,94,158,226,286,356,414,673,1121],
  [1,2,1,94,158,226,286,356,673,1695,1759],
  [1,2,1,94,158,228,286,356,414,673,1695,1759],
  [1,3,1,94,158,228,292,414,1185,1694,1758],
  [1,3,1,94,158,228,418,1185,1694,1758],
  [1,3,1,94,158,232,284,414,1249],
  [1,3,2,94,158,226,420,1313,1694,1758],
  [1,3,2,94,158,228,418,1313,1694,1758],
  [1,3,4,94,158,226,292,414,1695,1759],
  [1,3,4,94,158,226,418,1695,1759],
  [1,5,1,94,158,226,292,1185,1694,1758],
  [1,5,4,94,158,228,1695,1759]]

def k347 : List (List ℕ) := [[0,1,1,33,94,159,227,284,356,414,673,1121],
  [0,1,1,33,94,159,227,284,356,673,1695,1759],
  [0,1,1,33,94,159,229,286,1695,1759],
  [0,1,2,33,94,159,227,290,414,1695,1759],
  [0,1,2,33,94,159,231,286,414,1695,1759],
  [0,3,4,33,94,159,227,286,420,1313,1694,1758],
  [0,3,8,33,94,159,225,294,414,1185,1694,1758],
  [0,3,16,33,94,159,225,290,418,1185,1694,1758],
  [0,3,16,33,94,159,225,420,1313,1694,1758],
  [0,4,9,33,94,159,229,284,673,1121],
  [0,13,4,33,94,159,227,290,1185,1694,1758],
  [0,15,8,33,94,159,227,286,1249],
  [0,17,24,33,94,159,227,286,418,1695,1759],
  [0,17,32,33,94,159,225,290,1695,1759],
  [1,1,1,33,94,159,227,286,356,414,673,1695,1759],
  [1,1,1,33,94,159,229,284,418,1695,1759],
  [1,1,2,33,94,159,231,284,1695,1759],
  [1,1,3,33,94,159,227,286,673,1121],
  [1,1,4,33,94,159,227,284,420,1695,1759],
  [1,1,4,33,94,159,227,284,422,1313,1694,1758],
  [1,1,8,33,94,159,225,286,354,673,1121],
  [1,1,8,33,94,159,225,292,414,1695,1759],
  [1,1,16,33,94,159,225,286,422,1313,1694,1758],
  [1,3,2,33,94,159,227,292,414,1185,1694,1758],
  [1,3,2,33,94,159,227,418,1185,1694,1758],
  [1,3,2,33,94,159,231,284,414,1249],
  [1,3,4,33,94,159,227,418,1313,1694,1758],
  [1,3,16,33,94,159,225,418,1695,1759],
  [1,3,32,33,94,159,225,286,420,1695,1759],
  [1,11,16,33,94,159,225,292,1185,1694,1758],
  [1,15,4,33,94,159,229,284,1249],
  [1,29,24,33,94,159,227,1695,1759]]

def k348 : List (List ℕ) := [[0,3,2,94,157,227],
  [0,39,2,94,157,229,286,1249],
  [1,3,2,94,157,227,1249],
  [1,3,2,94,157,229,286],
  [1,18,1,94,157,231,284,1249]]

def k349 : List (List ℕ) := [[0,1,3,94,158,230,284],
  [0,1,4,94,158,226,286,354,673,1121],
  [0,3,2,94,158,226],
  [0,7,2,94,158,230,284,1249],
  [0,13,27,94,158,228,286,673,1121],
  [1,1,8,94,158,354,673,1121],
  [1,3,8,94,158,290],
  [1,5,27,94,158,226,673,1121],
  [1,7,2,94,158,228,286,1249],
  [1,8,27,94,158,230,284,673,1121],
  [1,11,6,94,158,228,286]]

def k350 : List (List ℕ) := [[0,1,8,94,158,354,673,1121],
  [0,3,8,94,158,290],
  [0,5,12,94,158,228,286],
  [0,5,27,94,158,226,673,1121],
  [0,8,27,94,158,230,284,673,1121],
  [0,11,2,94,158,228,286,1249],
  [0,49,24,94,158,226],
  [1,1,3,94,158,230,284],
  [1,1,4,94,158,226,286,354,673,1121],
  [1,5,4,94,158,226,1249],
  [1,7,2,94,158,230,284,1249],
  [1,13,27,94,158,228,286,673,1121]]

def k351 : List (List ℕ) := [[0,1,2,94,156,226,865],
  [0,1,2,94,156,228,286],
  [0,1,2,94,156,228,414],
  [0,1,4,94,156,292,414],
  [0,1,4,94,156,354,673,1121],
  [0,1,8,94,156,354,673],
  [0,3,2,94,156,230,290,414,1249,2335,2399,2655,2719],
  [0,3,4,94,156,226,290,418,1249,2335,2399,2655,2719],
  [0,3,4,94,156,226,292,414,1185,2655,2719],
  [0,3,8,94,156,292,1185,2655,2719],
  [0,3,8,94,156,420,1313,2975],
  [0,7,16,94,156,418],
  [0,9,4,94,156,230,1249,2335,2399,2655,2719],
  [1,1,1,94,156,356,414,673],
  [1,1,1,94,156,356,414,673,1121],
  [1,1,2,94,156,228,286,865],
  [1,3,2,94,156,232,414,1249,2335,2399,2655,2719],
  [1,3,4,94,156,226,290,1185,2655,2719],
  [1,3,4,94,156,226,418,1313,2975],
  [1,3,4,94,156,294,414,1185,2655,2719],
  [1,3,8,94,156,228,418,1249,2335,2399,2655,2719],
  [1,5,16,94,156,290],
  [1,9,8,94,156,226],
  [1,21,8,94,156,228,290,1249,2335,2399,2655,2719]]

def k352 : List (List ℕ) := [[0,1,1,94,158,226],
  [0,1,2,94,158,226,418,1313,2975],
  [0,1,2,94,158,356,414,673],
  [0,1,2,94,158,356,414,673,1121],
  [0,1,4,94,158,228,286],
  [0,3,4,94,158,228,1185,2655,2719],
  [0,3,4,94,158,232,414,1249,2335,2399,2655,2719],
  [0,3,8,94,158,226,290,418,1249,2335,2399,2655,2719],
  [0,3,16,94,158,292,1185,2655,2719],
  [0,9,16,94,158,228,290,1249,2335,2399,2655,2719],
  [1,1,4,94,158,228,286,865],
  [1,1,4,94,158,228,414],
  [1,3,4,94,158,230,290,414,1249,2335,2399,2655,2719],
  [1,3,4,94,158,230,1249,2335,2399,2655,2719],
  [1,3,16,94,158,228,418,1249,2335,2399,2655,2719],
  [1,5,16,94,158,420,1313,2975],
  [1,5,32,94,158,290],
  [1,9,8,94,158,226,290,1185,2655,2719],
  [1,11,32,94,158,418]]

def k353 : List (List ℕ) := [[0,1,2,33,94,159,227,286],
  [0,1,4,33,94,159,225,290,414],
  [0,3,4,33,94,159,225],
  [0,3,4,33,94,159,225,290,414,1185],
  [1,1,2,33,94,159,227,286,865]]

def k354 : List (List ℕ) := [[0,1,2,94,158,226,865],
  [0,1,2,94,158,228,286],
  [0,1,4,94,158,354,673,1121],
  [0,1,8,94,158,354,673],
  [1,1,2,94,158,228,286,865],
  [1,3,4,94,158,226,1185],
  [1,3,4,94,158,226,1249],
  [1,13,4,94,158,226]]

def k355 : List (List ℕ) := [[0,3,4,94,158,226],
  [1,1,8,94,158,354,673,1121],
  [1,3,8,94,158,290]]

def k356 : List (List ℕ) := [[0,3,4,94,158,226,1249],
  [0,23,8,94,158,226],
  [1,1,8,94,158,354,673,1121],
  [1,3,8,94,158,290]]

def k357 : List (List ℕ) := [[0,1,4,94,159,355,414,607,673],
  [0,1,4,94,159,355,414,607,673,1121],
  [1,1,2,94,159,226,286,355,414,607,673],
  [1,1,2,94,159,226,286,355,414,607,673,1121]]

def k358 : List (List ℕ) := [[0,1,2,94,158,226,286,354,673,1121],
  [0,1,9,94,158,226,673,1121],
  [1,1,4,94,158,354,673,1121],
  [1,1,9,94,158,228,286,673,1121]]

def k359 : List (List ℕ) := [[0,1,4,94,158,354,673,1121],
  [0,1,9,94,158,228,286,673,1121],
  [1,1,2,94,158,226,286,354,673,1121],
  [1,1,9,94,158,226,673,1121]]

def k360 : List (List ℕ) := [[0,1,4,94,158,354,673,1121],
  [0,1,9,94,158,226,673,1121],
  [1,1,2,94,158,226,286,354,673,1121],
  [1,1,9,94,158,228,286,673,1121]]

def k361 : List (List ℕ) := [[0,1,3,33,94,159,228,284,353,609,673,1121],
  [1,13,24,33,94,159,226,286,353,607,673,1121]]

def k362 : List (List ℕ) := [[0,7,4,94,158,227,286,353,607,673,1121],
  [1,2,3,94,158,229,284,353,609,673,1121],
  [1,5,12,94,158,225,353,607,673,1121]]

def k363 : List (List ℕ) := [[0,1,16,94,158,290,865],
  [1,3,32,94,158,290,1185],
  [1,15,64,94,158,290]]

def k364 : List (List ℕ) := [[0,1,16,94,156,228,414],
  [0,1,32,94,156,292,414],
  [0,1,32,94,156,354,673,1121],
  [0,1,128,94,156,290],
  [0,3,16,94,156,228,414,1249],
  [0,3,64,94,156,420,1313,3679],
  [0,7,128,94,156,418],
  [0,9,1,94,156,292,418,1185,3807],
  [1,1,8,94,156,356,414,673],
  [1,1,8,94,156,356,414,673,1121],
  [1,1,32,94,156,226],
  [1,3,32,94,156,226,1249],
  [1,3,32,94,156,290,418,1313,3679],
  [1,6,1,94,156,294,1185,3807]]

def k365 : List (List ℕ) := [[1,3,32,94],
  [1,3,32,94,1313]]

def k366 : List (List ℕ) := [[0,1,16,94,158,292,414],
  [0,3,16,94,158,292,414,1185],
  [1,1,16,94,158,226,290,414],
  [1,3,16,94,158,226,290,414,1185]]

def k367 : List (List ℕ) := [[0,1,8,94,158,228,414],
  [0,1,16,94,158,292,414],
  [0,3,8,94,158,228,414,1249],
  [0,5,1,94,158,420,1313,3743],
  [0,9,1,94,158,292,418,1185,3871],
  [0,11,64,94,158,418],
  [1,1,4,94,158,356,414,673],
  [1,1,4,94,158,356,414,673,1121],
  [1,5,64,94,158,290],
  [1,6,1,94,158,294,1185,3871],
  [1,8,1,94,158,290,418,1313,3743]]

def k368 : List (List ℕ) := [[0,1,16,94,158,356,414,673],
  [0,1,16,94,158,356,414,673,1121],
  [1,1,16,94,158,418],
  [1,1,16,94,158,418,1313],
  [1,1,32,94,158,228,414],
  [1,1,32,94,158,354,673,1121],
  [1,3,32,94,158,228,414,1249],
  [1,3,64,94,158,290]]

def k369 : List (List ℕ) := [[0,1,8,94,158,228,414],
  [0,1,16,94,158,226,290,414],
  [0,3,8,94,158,228,414,1249],
  [0,3,16,94,158,226,290,414,1185]]

def k370 : List (List ℕ) := [[0,1,32,33,94,159,225,290,414],
  [0,3,32,33,94,159,225,290,414,1185]]

def k371 : List (List ℕ) := [[1,1,32,94,158,354,673,1121],
  [1,3,32,94,158,290]]

def k372 : List (List ℕ) := [[0,1,32,94,158,354,673,1121],
  [0,3,32,94,158,290],
  [1,3,16,94,158,226,1249],
  [1,5,32,94,158,226]]

def k373 : List (List ℕ) := [[0,1,16,94,159,355,414,607,673],
  [0,1,16,94,159,355,414,607,673,1121]]

def k374 : List (List ℕ) := [[1,1,32,94,158,354,673,1121]]

def k375 : List (List ℕ) := [[0,1,32,94,158,354,673,1121]]

def k376 : List (List ℕ) := [[1,1,16,94,158,354,673,1121]]

def k377 : List (List ℕ) := [[0,1,16,94,158,354,673,1121]]

def k378 : List (List ℕ) := [[0,1,3,94,158,226,865],
  [0,1,8,94,158,290,1185],
  [0,5,16,94,158,290],
  [1,1,2,94,158,226,1185],
  [1,1,12,94,158,290,865],
  [1,5,4,94,158,226]]

def k379 : List (List ℕ) := [[0,1,8,94,158,290,1185],
  [0,5,6,94,158,226,865],
  [0,5,16,94,158,290],
  [1,1,2,94,158,226,1185],
  [1,1,12,94,158,290,865],
  [1,7,4,94,158,226]]

def k380 : List (List ℕ) := [[0,1,1,94,156,230,286,414,1249],
  [0,1,3,94,156,230,286,414],
  [0,1,4,94,156,226,286,420,1313,1695,1759],
  [0,1,6,94,156,226,286,354,673,1121],
  [0,1,6,94,156,226,290,414],
  [0,1,6,94,156,356,414,673],
  [0,1,6,94,156,356,414,673,1121],
  [0,1,8,94,156,290,418,1313,1695,1759],
  [0,1,8,94,156,294,414,1185,1695,1759],
  [0,2,9,94,156,230,284],
  [0,3,4,94,156,226,290,1185,1695,1759],
  [0,5,6,94,156,228,286],
  [0,7,3,94,156,230,284,1249],
  [0,7,24,94,156,226,286,418],
  [0,7,24,94,156,226,1249],
  [0,7,96,94,156,290],
  [0,26,81,94,156,228,286,673,1121],
  [1,1,2,94,156,226,292,414,1185,1695,1759],
  [1,1,2,94,156,226,418,1313,1695,1759],
  [1,1,4,94,156,228,414,1249],
  [1,1,12,94,156,228,414],
  [1,1,16,94,156,420,1313,1695,1759],
  [1,1,24,94,156,292,414],
  [1,1,24,94,156,354,673,1121],
  [1,2,3,94,156,226,286,356,414,673],
  [1,2,3,94,156,226,286,356,414,673,1121],
  [1,3,1,94,156,228,286,1249],
  [1,3,16,94,156,292,1185,1695,1759],
  [1,7,96,94,156,418],
  [1,10,81,94,156,226,673,1121],
  [1,11,9,94,156,226],
  [1,16,81,94,156,230,284,673,1121]]

def k381 : List (List ℕ) := [[0,1,8,94],
  [0,1,8,94,1313],
  [1,1,2,94,226,286],
  [1,1,2,94,226,286,1313]]

def k382 : List (List ℕ) := [[0,1,1,94,158,226,290,418,1313,1694,1758],
  [0,1,1,94,158,228,286,420,1313,1694,1758],
  [0,1,2,94,158,228,286,418,1695,1759],
  [0,1,2,94,158,294,1185,1694,1758],
  [0,1,3,94,158,226,286,420,1695,1759],
  [0,1,3,94,158,226,286,422,1313,1694,1758],
  [0,1,12,94,158,294,414,1695,1759],
  [0,2,1,94,158,230,286,414,1249],
  [0,2,3,94,158,228,290,414,1695,1759],
  [0,2,3,94,158,230,286,1695,1759],
  [0,2,3,94,158,232,286,414,1695,1759],
  [0,4,3,94,158,226,356,414,673,1695,1759],
  [0,4,3,94,158,228,284,356,414,673,1121],
  [0,4,3,94,158,228,284,356,673,1695,1759],
  [0,5,4,94,158,226,290,1695,1759],
  [0,9,4,94,158,226,290,418,1185,1694,1758],
  [0,9,4,94,158,226,294,414,1185,1694,1758],
  [0,13,3,94,158,228,290,1185,1694,1758],
  [1,1,1,94,158,226,420,1313,1694,1758],
  [1,1,1,94,158,228,418,1313,1694,1758],
  [1,1,2,94,158,226,418,1695,1759],
  [1,1,3,94,158,228,284,420,1695,1759],
  [1,1,3,94,158,228,284,422,1313,1694,1758],
  [1,1,4,94,158,292,418,1185,1694,1758],
  [1,1,4,94,158,296,414,1185,1694,1758],
  [1,1,12,94,158,292,1695,1759],
  [1,2,1,94,158,228,292,414,1185,1694,1758],
  [1,2,1,94,158,228,418,1185,1694,1758],
  [1,2,1,94,158,232,284,414,1249],
  [1,2,3,94,158,230,414,1695,1759],
  [1,2,3,94,158,232,284,1695,1759],
  [1,3,4,94,158,226,292,414,1695,1759],
  [1,4,3,94,158,226,286,356,414,673,1121],
  [1,4,3,94,158,226,286,356,673,1695,1759],
  [1,4,3,94,158,228,286,356,414,673,1695,1759],
  [1,7,6,94,158,228,1695,1759],
  [1,29,6,94,158,226,292,1185,1694,1758]]

def k383 : List (List ℕ) := [[0,1,3,94,158,226,290,414],
  [0,1,3,94,158,290,418,1313,1695,1759],
  [0,1,3,94,158,356,414,673],
  [0,1,3,94,158,356,414,673,1121],
  [0,1,4,94,158,294,414,1185,1695,1759],
  [0,2,1,94,158,230,286,414,1249],
  [0,2,3,94,158,230,286,414],
  [0,3,2,94,158,226,290,1185,1695,1759],
  [0,5,6,94,158,226,286,420,1313,1695,1759],
  [0,5,48,94,158,290],
  [0,11,12,94,158,226,286,418],
  [1,1,1,94,158,226,292,414,1185,1695,1759],
  [1,1,2,94,158,228,414,1249],
  [1,1,6,94,158,228,414],
  [1,1,12,94,158,292,414],
  [1,3,8,94,158,292,1185,1695,1759],
  [1,4,3,94,158,226,286,356,414,673],
  [1,4,3,94,158,226,286,356,414,673,1121],
  [1,4,3,94,158,226,418,1313,1695,1759],
  [1,5,12,94,158,226],
  [1,5,24,94,158,420,1313,1695,1759],
  [1,11,48,94,158,418]]

def k384 : List (List ℕ) := [[0,1,8,94,158,228,414,1249],
  [0,1,9,94,158,230,284],
  [0,1,12,94,158,226,290,414],
  [0,1,12,94,158,226,418,1313,1695,1759],
  [0,1,12,94,158,418],
  [0,1,12,94,158,420,1313,1695,1759],
  [0,1,24,94,158,228,414],
  [0,1,24,94,158,354,673,1121],
  [0,3,8,94,158,226,290,1185,3679],
  [0,5,81,94,158,226,673,1121],
  [0,7,6,94,158,230,284,1249],
  [0,13,36,94,158,228,286],
  [1,1,3,94,158,228,286,1249],
  [1,1,4,94,158,226,292,414,1185,3679],
  [1,1,12,94,158,226,286,354,673,1121],
  [1,1,12,94,158,290,418,1313,1695,1759],
  [1,1,12,94,158,356,414,673],
  [1,1,12,94,158,356,414,673,1121],
  [1,1,48,94,158,226],
  [1,1,48,94,158,290],
  [1,3,16,94,158,226,286,418],
  [1,5,24,94,158,226,286,420,1313,1695,1759],
  [1,8,81,94,158,230,284,673,1121]]

def k385 : List (List ℕ) := [[0,1,1,94,158,226,420,1313,1694,1758],
  [0,1,1,94,158,228,418,1313,1694,1758],
  [0,1,1,94,158,228,1695,1759],
  [0,1,2,94,158,226,418,1695,1759],
  [0,1,3,94,158,228,284,420,1695,1759],
  [0,1,3,94,158,228,284,422,1313,1694,1758],
  [0,2,1,94,158,228,292,414,1185,1694,1758],
  [0,2,1,94,158,228,418,1185,1694,1758],
  [0,2,1,94,158,232,284,414,1249],
  [0,2,3,94,158,232,284,1695,1759],
  [0,4,3,94,158,226,286,356,414,673,1121],
  [0,4,3,94,158,226,286,356,673,1695,1759],
  [0,4,3,94,158,228,286,356,414,673,1695,1759],
  [0,5,12,94,158,226,292,414,1695,1759],
  [0,17,6,94,158,226,292,1185,1694,1758],
  [1,1,1,94,158,226,290,418,1313,1694,1758],
  [1,1,1,94,158,228,286,420,1313,1694,1758],
  [1,1,2,94,158,228,286,418,1695,1759],
  [1,1,2,94,158,228,290,414,1695,1759],
  [1,1,2,94,158,228,414,1249],
  [1,1,3,94,158,226,286,420,1695,1759],
  [1,1,3,94,158,226,286,422,1313,1694,1758],
  [1,2,3,94,158,232,286,414,1695,1759],
  [1,4,3,94,158,226,356,414,673,1695,1759],
  [1,4,3,94,158,228,284,356,414,673,1121],
  [1,4,3,94,158,228,284,356,673,1695,1759],
  [1,5,4,94,158,226,290,418,1185,1694,1758],
  [1,5,4,94,158,226,294,414,1185,1694,1758],
  [1,11,12,94,158,226,290,1695,1759],
  [1,13,3,94,158,228,290,1185,1694,1758]]

def k386 : List (List ℕ) := [[0,1,1,33,94,159,227,292,414,1185,1694,1758],
  [0,1,1,33,94,159,227,418,1185,1694,1758],
  [0,1,1,33,94,159,231,284,414,1249],
  [0,1,2,33,94,159,227,418,1313,1694,1758],
  [0,1,3,33,94,159,231,284,1695,1759],
  [0,1,6,33,94,159,227,284,420,1695,1759],
  [0,1,6,33,94,159,227,284,422,1313,1694,1758],
  [0,1,12,33,94,159,225,286,354,673,1121],
  [0,1,16,33,94,159,225,286,420,1695,1759],
  [0,1,24,33,94,159,225,286,422,1313,1694,1758],
  [0,1,24,33,94,159,225,292,414,1695,1759],
  [0,1,48,33,94,159,225,290,1695,1759],
  [0,2,3,33,94,159,227,286,356,414,673,1695,1759],
  [0,2,3,33,94,159,229,284,418,1695,1759],
  [0,2,9,33,94,159,227,286,673,1121],
  [0,5,2,33,94,159,229,284,1249],
  [0,5,24,33,94,159,225,292,1185,1694,1758],
  [0,13,36,33,94,159,227,286,418,1695,1759],
  [1,1,2,33,94,159,227,286,420,1313,1694,1758],
  [1,1,3,33,94,159,227,290,414,1695,1759],
  [1,1,3,33,94,159,231,286,414,1695,1759],
  [1,1,8,33,94,159,225,294,414,1185,1694,1758],
  [1,1,8,33,94,159,225,420,1313,1694,1758],
  [1,1,36,33,94,159,227,1695,1759],
  [1,2,3,33,94,159,227,284,356,414,673,1121],
  [1,2,3,33,94,159,227,284,356,673,1695,1759],
  [1,2,3,33,94,159,229,286,1695,1759],
  [1,5,4,33,94,159,227,286,1249],
  [1,5,24,33,94,159,225,418,1695,1759],
  [1,8,27,33,94,159,229,284,673,1121],
  [1,13,6,33,94,159,227,290,1185,1694,1758]]

def k387 : List (List ℕ) := [[0,1,1,94,157,227,1249],
  [0,1,1,94,157,229,286],
  [0,12,1,94,157,231,284,1249],
  [1,1,1,94,157,227],
  [1,13,1,94,157,229,286,1249]]

def k388 : List (List ℕ) := [[0,1,3,94,158,226],
  [0,1,24,94,158,354,673,1121],
  [0,7,3,94,158,228,286,1249],
  [0,10,81,94,158,226,673,1121],
  [0,16,81,94,158,230,284,673,1121],
  [1,1,6,94,158,226,286,354,673,1121],
  [1,1,24,94,158,290],
  [1,2,9,94,158,230,284],
  [1,4,9,94,158,228,286],
  [1,7,3,94,158,230,284,1249],
  [1,26,81,94,158,228,286,673,1121]]

def k389 : List (List ℕ) := [[0,1,6,94,158,226,286,354,673,1121],
  [0,1,24,94,158,290],
  [0,2,9,94,158,230,284],
  [0,7,3,94,158,230,284,1249],
  [0,7,12,94,158,226,1249],
  [0,25,18,94,158,228,286],
  [0,26,81,94,158,228,286,673,1121],
  [1,1,24,94,158,354,673,1121],
  [1,10,81,94,158,226,673,1121],
  [1,11,3,94,158,228,286,1249],
  [1,16,81,94,158,230,284,673,1121],
  [1,137,72,94,158,226]]

def k390 : List (List ℕ) := [[0,1,8,94,158,290],
  [1,1,2,94,158,226],
  [1,1,8,94,158,354,673,1121]]

def k391 : List (List ℕ) := [[0,1,8,94,158,354,673,1121],
  [1,1,8,94,158,226],
  [1,1,8,94,158,290],
  [1,3,4,94,158,226,1249]]

def k392 : List (List ℕ) := [[0,1,8,94,158,354],
  [1,1,8,94,158,354,1121]]

def k393 : List (List ℕ) := [[0,1,3,94,159,226,286,355,414,607,673],
  [0,1,3,94,159,226,286,355,414,607,673,1121],
  [1,1,12,94,159,355,414,607,673],
  [1,1,12,94,159,355,414,607,673,1121]]

def k394 : List (List ℕ) := [[0,1,12,94,158,354,673,1121],
  [0,2,27,94,158,228,286,673,1121],
  [1,1,3,94,158,226,286,354,673,1121],
  [1,2,27,94,158,226,673,1121]]

def k395 : List (List ℕ) := [[0,1,3,94,158,226,286,354,673,1121],
  [0,2,27,94,158,226,673,1121],
  [1,1,12,94,158,354,673,1121],
  [1,2,27,94,158,228,286,673,1121]]

def k396 : List (List ℕ) := [[0,1,3,94,158,226,286,354,673,1121],
  [0,2,27,94,158,228,286,673,1121],
  [1,1,12,94,158,354,673,1121],
  [1,2,27,94,158,226,673,1121]]

def k397 : List (List ℕ) := [[0,13,36,33,94,159,226,286,353,607,673,1121],
  [1,2,9,33,94,159,228,284,353,609,673,1121]]

def k398 : List (List ℕ) := [[0,4,9,94,158,229,284,353,609,673,1121],
  [0,5,18,94,158,225,353,607,673,1121],
  [1,7,6,94,158,227,286,353,607,673,1121]]

def k399 : List (List ℕ) := [[0,1,6,94,158,226,1185],
  [0,1,72,94,158,290,865],
  [0,2,9,94,158,228,286,865],
  [0,5,12,94,158,226],
  [1,1,3,94,158,228,286,1185],
  [1,1,9,94,158,226,865],
  [1,1,48,94,158,290,1185],
  [1,5,6,94,158,228,286],
  [1,5,96,94,158,290]]

def k400 : List (List ℕ) := [[0,1,6,94,158,226],
  [0,1,6,94,158,226,1185],
  [0,1,72,94,158,290,865],
  [0,2,9,94,158,228,286,865],
  [0,5,36,94,158,226,865],
  [1,1,3,94,158,228,286,1185],
  [1,1,48,94,158,290,1185],
  [1,5,6,94,158,228,286],
  [1,5,96,94,158,290]]

def k401 : List (List ℕ) := [[0,1,6,94,156,226,292,414,1185,1695,1759],
  [0,1,6,94,156,226,418,1313,1695,1759],
  [0,1,6,94,156,228,284,420,1313,1695,1759],
  [0,1,8,94,156,228,414],
  [0,1,9,94,156,228,284,354,673,1121],
  [0,1,18,94,158,226,286,546,671,865],
  [0,1,24,94,156,228,414,1249],
  [0,1,24,94,158,546,671,1249],
  [0,1,32,94,156,292,1185,1695,1759],
  [0,1,96,94,156,420,1313,1695,1759],
  [0,1,144,94,156,292,414],
  [0,1,144,94,156,354,673,1121],
  [0,1,480,94,350,548,671],
  [0,2,3,94,156,232,284,414,1249],
  [0,2,9,94,156,226,286,356,414,673],
  [0,2,9,94,156,226,286,356,414,673,1121],
  [0,2,9,94,156,232,284,414],
  [0,2,81,94,156,226,865],
  [0,5,54,94,156,228,1185,1695,1759],
  [0,7,9,94,156,228,286,1249],
  [0,7,36,94,156,228,284,418],
  [0,7,576,94,156,418],
  [0,10,243,94,156,226,673,1121],
  [0,11,27,94,156,228,286,418,1185,1695,1759],
  [0,11,54,94,158,228,284,546,671,1185],
  [0,11,864,94,158,546,671,1185],
  [0,16,27,94,156,230,284,865],
  [0,28,9,94,156,232,282,1249],
  [0,31,432,94,156,226,1249],
  [0,40,81,94,156,230,284,673,1121],
  [0,64,1215,94,156,230,286,350,673],
  [0,88,81,94,156,230,286,1185,1695,1759],
  [0,103,180,94,156,228,286],
  [0,121,324,94,158,228,284,546,671],
  [0,176,243,94,156,232,282,418,1185,1695,1759],
  [0,1400,729,94,156,232,282],
  [1,1,3,94,156,228,286,418,1313,1695,1759],
  [1,1,3,94,156,228,290,414,1185,1695,1759],
  [1,1,3,94,156,230,286,414,1249],
  [1,1,9,94,156,230,286,414],
  [1,1,9,94,158,228,284,546,671,865],
  [1,1,12,94,156,226,286,420,1313,1695,1759],
  [1,1,18,94,156,226,286,354,673,1121],
  [1,1,18,94,156,226,290,414],
  [1,1,36,94,156,356,414,673],
  [1,1,36,94,156,356,414,673,1121],
  [1,1,48,94,156,290,418,1313,1695,1759],
  [1,1,48,94,156,294,414,1185,1695,1759],
  [1,1,144,94,158,546,671,865],
  [1,2,9,94,156,228,286,865],
  [1,4,9,94,156,228,284,356,414,673],
  [1,4,9,94,156,228,284,356,414,673,1121],
  [1,7,72,94,156,226,286,418],
  [1,11,108,94,158,226,286,546,671,1185],
  [1,11,243,94,156,226,418,1185,1695,1759],
  [1,13,1728,94,156,290],
  [1,22,81,94,156,228,286,673,1121],
  [1,32,81,94,156,232,282,865],
  [1,32,1215,94,156,228,350,673],
  [1,32,1215,94,156,232,284,350,673],
  [1,64,243,94,156,232,282,673,1121],
  [1,88,81,94,156,230,284,418,1185,1695,1759],
  [1,112,27,94,156,230,284,1249],
  [1,121,648,94,158,226,286,546,671],
  [1,131,5184,94,158,546,671],
  [1,176,243,94,156,232,284,1185,1695,1759],
  [1,199,972,94,156,226,290,1185,1695,1759],
  [1,2762,1215,94,156,230,284],
  [1,15091,58320,94,156,226]]

def k402 : List (List ℕ) := [[0,1,6,94,226,286],
  [0,1,6,94,226,286,1313],
  [1,1,3,94,228,284],
  [1,1,3,94,228,284,1313],
  [1,1,48,94],
  [1,1,48,94,1313]]

def k403 : List (List ℕ) := [[0,1,3,94,158,226,420,1313,1694,1758],
  [0,1,6,94,158,226,418,1695,1759],
  [0,1,24,94,158,292,418,1185,1694,1758],
  [0,1,24,94,158,296,414,1185,1694,1758],
  [0,1,72,94,158,292,1695,1759],
  [0,2,3,94,158,230,284,418,1695,1759],
  [0,4,3,94,158,230,284,420,1313,1694,1758],
  [0,4,9,94,158,226,286,356,414,673,1121],
  [0,4,9,94,158,226,286,356,673,1695,1759],
  [0,5,3,94,158,228,418,1313,1694,1758],
  [0,5,9,94,158,228,284,420,1695,1759],
  [0,5,9,94,158,228,284,422,1313,1694,1758],
  [0,8,3,94,158,228,292,414,1185,1694,1758],
  [0,8,3,94,158,228,418,1185,1694,1758],
  [0,8,9,94,158,230,414,1695,1759],
  [0,8,9,94,158,234,284,414,1695,1759],
  [0,10,3,94,158,232,284,414,1249],
  [0,10,9,94,158,232,284,1695,1759],
  [0,16,9,94,158,230,282,356,414,673,1121],
  [0,16,9,94,158,230,282,356,673,1695,1759],
  [0,17,72,94,158,226,292,414,1695,1759],
  [0,20,9,94,158,228,286,356,414,673,1695,1759],
  [0,31,18,94,158,228,1695,1759],
  [0,40,9,94,158,230,1185,1694,1758],
  [0,55,36,94,158,226,292,1185,1694,1758],
  [1,1,3,94,158,226,290,418,1313,1694,1758],
  [1,1,9,94,158,226,286,420,1695,1759],
  [1,1,9,94,158,226,286,422,1313,1694,1758],
  [1,1,12,94,158,294,1185,1694,1758],
  [1,1,72,94,158,294,414,1695,1759],
  [1,2,1,94,158,230,286,418,1185,1694,1758],
  [1,2,1,94,158,230,290,414,1185,1694,1758],
  [1,2,3,94,158,230,286,414,1249],
  [1,4,3,94,158,230,286,418,1313,1694,1758],
  [1,4,9,94,158,226,356,414,673,1695,1759],
  [1,4,9,94,158,230,282,420,1695,1759],
  [1,4,9,94,158,230,282,422,1313,1694,1758],
  [1,5,3,94,158,228,286,420,1313,1694,1758],
  [1,5,6,94,158,228,286,418,1695,1759],
  [1,8,3,94,158,234,282,414,1249],
  [1,8,9,94,158,228,290,414,1695,1759],
  [1,8,9,94,158,234,282,1695,1759],
  [1,10,9,94,158,232,286,414,1695,1759],
  [1,14,9,94,158,230,286,1695,1759],
  [1,16,9,94,158,230,284,356,414,673,1695,1759],
  [1,17,24,94,158,226,290,418,1185,1694,1758],
  [1,17,24,94,158,226,294,414,1185,1694,1758],
  [1,20,9,94,158,228,284,356,414,673,1121],
  [1,20,9,94,158,228,284,356,673,1695,1759],
  [1,29,72,94,158,226,290,1695,1759],
  [1,53,9,94,158,228,290,1185,1694,1758]]

def k404 : List (List ℕ) := [[0,1,1,94,158,228,1185,1695,1759],
  [0,1,3,94,158,226,292,414,1185,1695,1759],
  [0,1,4,94,158,228,414],
  [0,1,12,94,158,228,414,1249],
  [0,1,16,94,158,292,1185,1695,1759],
  [0,1,72,94,158,292,414],
  [0,4,3,94,158,232,284,414,1249],
  [0,4,9,94,158,226,286,356,414,673],
  [0,4,9,94,158,226,286,356,414,673,1121],
  [0,4,9,94,158,226,418,1313,1695,1759],
  [0,4,9,94,158,232,284,414],
  [0,5,9,94,158,228,284,420,1313,1695,1759],
  [0,5,36,94,158,226],
  [0,5,144,94,158,420,1313,1695,1759],
  [0,11,18,94,158,228,284,418],
  [0,11,288,94,158,418],
  [1,1,2,94,158,226,290,1185,1695,1759],
  [1,1,9,94,158,226,290,414],
  [1,1,18,94,158,290,418,1313,1695,1759],
  [1,1,18,94,158,356,414,673],
  [1,1,18,94,158,356,414,673,1121],
  [1,1,24,94,158,294,414,1185,1695,1759],
  [1,2,3,94,158,228,290,414,1185,1695,1759],
  [1,2,3,94,158,230,286,414,1249],
  [1,2,9,94,158,230,286,414],
  [1,5,18,94,158,226,286,420,1313,1695,1759],
  [1,5,18,94,158,228,286],
  [1,5,288,94,158,290],
  [1,8,9,94,158,228,284,356,414,673],
  [1,8,9,94,158,228,284,356,414,673,1121],
  [1,8,9,94,158,228,286,418,1313,1695,1759],
  [1,11,36,94,158,226,286,418]]

def k405 : List (List ℕ) := [[0,1,2,94,158,228,1185,1695,1759],
  [0,1,3,94,158,232,284,414,1249],
  [0,1,9,94,158,232,284,414],
  [0,1,12,94,158,226,292,414,1185,1695,1759],
  [0,1,16,94,158,226,286,418],
  [0,1,36,94,158,226,286,354,673,1121],
  [0,1,72,94,158,290,418,1313,1695,1759],
  [0,1,72,94,158,356,414,673],
  [0,1,72,94,158,356,414,673,1121],
  [0,1,288,94,546,671,865],
  [0,5,48,94,158,228,414],
  [0,5,72,94,158,226,286,420,1313,1695,1759],
  [0,8,27,94,158,230,284,865],
  [0,11,108,94,228,284,546,671,1185],
  [0,11,486,94,158,226,418,1185,1695,1759],
  [0,20,81,94,158,230,284,673,1121],
  [0,28,9,94,158,232,282,1249],
  [0,32,1215,94,158,230,286,350,673],
  [0,44,81,94,158,230,286,1185,1695,1759],
  [0,121,648,94,228,284,546,671],
  [0,176,243,94,158,232,282,418,1185,1695,1759],
  [0,997,11664,94,158,226],
  [0,1400,729,94,158,232,282],
  [1,1,3,94,158,228,290,414,1185,1695,1759],
  [1,1,9,94,158,228,286,418,1313,1695,1759],
  [1,1,18,94,158,228,284,420,1313,1695,1759],
  [1,1,18,94,228,284,546,671,865],
  [1,1,36,94,158,226,290,414],
  [1,1,36,94,158,226,418,1313,1695,1759],
  [1,1,36,94,158,228,284,418],
  [1,1,48,94,158,228,414,1249],
  [1,1,72,94,158,418],
  [1,1,72,94,158,420,1313,1695,1759],
  [1,1,81,94,158,226,865],
  [1,1,144,94,158,354,673,1121],
  [1,1,864,94,158,290],
  [1,2,9,94,158,228,284,356,414,673],
  [1,2,9,94,158,228,284,356,414,673,1121],
  [1,5,243,94,158,226,673,1121],
  [1,11,1728,94,546,671,1185],
  [1,32,81,94,158,232,282,865],
  [1,32,1215,94,158,232,284,350,673],
  [1,44,81,94,158,230,284,418,1185,1695,1759],
  [1,64,243,94,158,232,282,673,1121],
  [1,101,405,94,158,228,286],
  [1,119,54,94,158,230,284,1249],
  [1,121,10368,94,546,671],
  [1,176,243,94,158,232,284,1185,1695,1759],
  [1,287,1944,94,158,226,290,1185,1695,1759],
  [1,1147,1215,94,158,230,284]]

def k406 : List (List ℕ) := [[0,1,3,94,158,226,290,418,1313,1694,1758],
  [0,1,9,94,158,226,286,420,1695,1759],
  [0,1,9,94,158,226,286,422,1313,1694,1758],
  [0,1,12,94,158,228,414,1249],
  [0,2,1,94,158,230,286,418,1185,1694,1758],
  [0,2,1,94,158,230,290,414,1185,1694,1758],
  [0,2,3,94,158,232,286,414,1695,1759],
  [0,3,8,94,158,226,290,418,1185,1694,1758],
  [0,3,8,94,158,226,294,414,1185,1694,1758],
  [0,4,3,94,158,230,286,418,1313,1694,1758],
  [0,4,3,94,158,230,286,1695,1759],
  [0,4,9,94,158,226,356,414,673,1695,1759],
  [0,4,9,94,158,230,282,420,1695,1759],
  [0,4,9,94,158,230,282,422,1313,1694,1758],
  [0,5,3,94,158,228,286,420,1313,1694,1758],
  [0,5,6,94,158,228,286,418,1695,1759],
  [0,7,24,94,158,226,290,1695,1759],
  [0,8,3,94,158,234,282,414,1249],
  [0,8,9,94,158,234,282,1695,1759],
  [0,16,9,94,158,230,284,356,414,673,1695,1759],
  [0,20,9,94,158,228,284,356,414,673,1121],
  [0,20,9,94,158,228,284,356,673,1695,1759],
  [0,23,36,94,158,228,290,414,1695,1759],
  [0,41,9,94,158,228,290,1185,1694,1758],
  [1,1,3,94,158,226,420,1313,1694,1758],
  [1,1,6,94,158,226,418,1695,1759],
  [1,1,8,94,158,226,292,414,1695,1759],
  [1,2,1,94,158,228,292,414,1185,1694,1758],
  [1,2,1,94,158,228,418,1185,1694,1758],
  [1,2,1,94,158,232,284,414,1249],
  [1,2,3,94,158,230,284,418,1695,1759],
  [1,2,3,94,158,230,414,1695,1759],
  [1,2,3,94,158,232,284,1695,1759],
  [1,4,3,94,158,230,284,420,1313,1694,1758],
  [1,4,9,94,158,226,286,356,414,673,1121],
  [1,4,9,94,158,226,286,356,673,1695,1759],
  [1,5,3,94,158,228,418,1313,1694,1758],
  [1,5,9,94,158,228,284,420,1695,1759],
  [1,5,9,94,158,228,284,422,1313,1694,1758],
  [1,8,9,94,158,234,284,414,1695,1759],
  [1,16,9,94,158,230,282,356,414,673,1121],
  [1,16,9,94,158,230,282,356,673,1695,1759],
  [1,20,9,94,158,228,286,356,414,673,1695,1759],
  [1,31,36,94,158,226,292,1185,1694,1758],
  [1,40,9,94,158,230,1185,1694,1758],
  [1,53,36,94,158,228,1695,1759]]

def k407 : List (List ℕ) := [[0,1,1,33,94,159,229,290,414,1185,1694,1758],
  [0,1,9,33,94,159,227,284,354,673,1121],
  [0,1,9,33,94,159,227,290,414,1695,1759],
  [0,1,9,33,94,159,231,286,414,1695,1759],
  [0,1,24,33,94,159,225,420,1313,1694,1758],
  [0,1,36,33,94,159,227,284,420,1695,1759],
  [0,1,36,33,94,161,225,286,546,671,865],
  [0,1,48,33,94,159,225,294,414,1185,1694,1758],
  [0,2,3,33,94,159,229,286,418,1313,1694,1758],
  [0,2,9,33,94,159,227,284,356,414,673,1121],
  [0,2,9,33,94,159,227,284,356,673,1695,1759],
  [0,2,9,33,94,159,229,282,420,1695,1759],
  [0,2,9,33,94,159,229,282,422,1313,1694,1758],
  [0,4,3,33,94,159,233,282,414,1249],
  [0,4,9,33,94,159,233,282,1695,1759],
  [0,5,216,33,94,159,225,290,1695,1759],
  [0,7,216,33,94,159,225,418,1695,1759],
  [0,8,9,33,94,159,229,284,356,414,673,1695,1759],
  [0,10,81,33,94,159,227,865,1695,1759],
  [0,11,54,33,94,161,227,284,546,671,1185],
  [0,25,108,33,94,159,227,286,1249],
  [0,44,9,33,94,159,231,282,1249],
  [0,55,243,33,94,159,227,286,420,1185,1694,1758],
  [0,56,81,33,94,159,229,284,418,865,1695,1759],
  [0,64,81,33,94,159,231,284,865,1695,1759],
  [0,64,1215,33,94,159,229,286,350,418,673,1695,1759],
  [0,64,1215,33,94,159,231,286,350,673,1695,1759],
  [0,121,324,33,94,161,227,284,546,671],
  [0,148,243,33,94,159,229,284,673,1121],
  [0,217,243,33,94,159,227,290,1185,1694,1758],
  [0,352,243,33,94,159,231,282,420,1185,1694,1758],
  [0,352,243,33,94,159,231,286,1185,1694,1758],
  [0,859,243,33,94,159,229,286,418,1185,1694,1758],
  [0,3124,729,33,94,159,231,282,418,1695,1759],
  [0,5933,14580,33,94,159,227,286,418,1695,1759],
  [0,13357,3645,33,94,159,229,286,1695,1759],
  [1,1,3,33,94,159,227,292,414,1185,1694,1758],
  [1,1,3,33,94,159,229,414,1695,1759],
  [1,1,3,33,94,159,231,284,414,1249],
  [1,1,6,33,94,159,227,418,1313,1694,1758],
  [1,1,9,33,94,161,227,284,546,671,865],
  [1,1,36,33,94,159,225,286,354,673,1121],
  [1,1,36,33,94,159,225,292,1185,1694,1758],
  [1,1,48,33,94,159,225,286,420,1695,1759],
  [1,1,48,33,94,159,225,290,418,1185,1694,1758],
  [1,1,72,33,94,159,225,286,422,1313,1694,1758],
  [1,1,144,33,94,159,225,292,414,1695,1759],
  [1,2,3,33,94,159,229,284,420,1313,1694,1758],
  [1,2,9,33,94,159,227,286,356,414,673,1695,1759],
  [1,4,9,33,94,159,233,284,414,1695,1759],
  [1,8,9,33,94,159,229,282,356,414,673,1121],
  [1,8,9,33,94,159,229,282,356,673,1695,1759],
  [1,10,81,33,94,159,227,286,418,865,1695,1759],
  [1,11,216,33,94,161,225,286,546,671,1185],
  [1,38,243,33,94,159,227,286,673,1121],
  [1,56,81,33,94,159,229,286,865,1695,1759],
  [1,64,81,33,94,159,231,282,418,865,1695,1759],
  [1,64,1215,33,94,159,229,350,673,1695,1759],
  [1,64,1215,33,94,159,231,284,350,418,673,1695,1759],
  [1,67,18,33,94,159,229,284,1249],
  [1,121,1296,33,94,161,225,286,546,671],
  [1,128,243,33,94,159,231,282,673,1121],
  [1,301,486,33,94,159,227,418,1185,1694,1758],
  [1,308,243,33,94,159,229,284,420,1185,1694,1758],
  [1,704,243,33,94,159,231,284,418,1185,1694,1758],
  [1,848,243,33,94,159,229,1185,1694,1758],
  [1,2597,3645,33,94,159,227,1695,1759],
  [1,3205,729,33,94,159,231,284,1695,1759],
  [1,12142,3645,33,94,159,229,284,418,1695,1759]]

def k408 : List (List ℕ) := [[0,1,3,94,157,227],
  [0,4,3,94,157,231,284],
  [0,16,1,94,157,233,282,1249],
  [0,17,3,94,157,229,286,1249],
  [1,1,3,94,157,227,1249],
  [1,5,3,94,157,229,286],
  [1,64,3,94,157,231,284,1249]]

def k409 : List (List ℕ) := [[0,1,12,94,226,286,546,671,865],
  [0,1,48,94,158,354,673,1121],
  [0,1,144,94,158,290],
  [0,2,27,94,158,226,865],
  [0,5,81,94,158,226,673,1121],
  [0,7,6,94,158,228,286,1249],
  [0,8,27,94,158,230,284,865],
  [0,8,81,94,158,230,284,673,1121],
  [0,11,288,94,546,671,1185],
  [0,55,81,94,158,228,286,1185],
  [0,121,1728,94,546,671],
  [0,821,486,94,158,228,286],
  [1,1,12,94,158,226,286,354,673,1121],
  [1,1,48,94,546,671,865],
  [1,7,6,94,158,230,284,1249],
  [1,10,27,94,158,228,286,865],
  [1,11,72,94,226,286,546,671,1185],
  [1,11,81,94,158,226,1185],
  [1,13,81,94,158,228,286,673,1121],
  [1,44,81,94,158,230,284,1185],
  [1,121,432,94,226,286,546,671],
  [1,323,972,94,158,226],
  [1,377,243,94,158,230,284]]

def k410 : List (List ℕ) := [[0,1,12,94,158,226,286,354,673,1121],
  [0,1,24,94,546,671,1249],
  [0,1,48,94,546,671,865],
  [0,7,6,94,158,230,284,1249],
  [0,10,27,94,158,228,286,865],
  [0,11,72,94,226,286,546,671,1185],
  [0,11,81,94,158,226,1185],
  [0,13,81,94,158,228,286,673,1121],
  [0,31,216,94,158,226,1249],
  [0,44,81,94,158,230,284,1185],
  [0,121,432,94,226,286,546,671],
  [0,377,243,94,158,230,284],
  [1,1,12,94,226,286,546,671,865],
  [1,1,48,94,158,354,673,1121],
  [1,1,144,94,158,290],
  [1,2,27,94,158,226,865],
  [1,5,81,94,158,226,673,1121],
  [1,8,27,94,158,230,284,865],
  [1,8,81,94,158,230,284,673,1121],
  [1,11,288,94,546,671,1185],
  [1,55,81,94,158,228,286,1185],
  [1,91,54,94,158,228,286,1249],
  [1,205,1728,94,546,671],
  [1,1087,3888,94,158,226],
  [1,1351,972,94,158,228,286]]

def k411 : List (List ℕ) := [[0,1,9,94,158,228,284,546,865],
  [0,1,144,94,158,546,865],
  [0,11,108,94,158,226,286,546,1185],
  [0,121,648,94,158,226,286,546],
  [0,131,5184,94,158,546],
  [1,1,18,94,158,226,286,546,865],
  [1,1,24,94,158,546,1249],
  [1,1,480,94,350,548],
  [1,11,54,94,158,228,284,546,1185],
  [1,11,864,94,158,546,1185],
  [1,121,324,94,158,228,284,546]]

def k412 : List (List ℕ) := [[0,1,18,94,228,284,546,865],
  [0,11,1728,94,546,1185],
  [0,121,10368,94,546],
  [1,1,288,94,546,865],
  [1,11,108,94,228,284,546,1185],
  [1,121,648,94,228,284,546]]

/-- factors occurring in lines 57-153: each is a sum of monomials
`[flag, numerator, denominator, factors]`, see `Verif.Loop.monoVal`; part 2 -/
def coefTab2 : List (List (List ℕ)) := [
  k274, k275, k276, k277, k278, k279, k280, k281, k282, k283, k284, k285, k286, k287, k288,
  k289, k290, k291, k292, k293, k294, k295, k296, k297, k298, k299, k300, k301, k302, k303,
  k304, k305, k306, k307, k308, k309, k310, k311, k312, k313, k314, k315, k316, k317, k318,
  k319, k320, k321, k322, k323, k324, k325, k326, k327, k328, k329, k330, k331, k332, k333,
  k334, k335, k336, k337, k338, k339, k340, k341, k342, k343, k344, k345, k346, k347, k348,
  k349, k350, k351, k352, k353, k354, k355, k356, k357, k358, k359, k360, k361, k362, k363,
  k364, k365, k366, k367, k368, k369, k370, k371, k372, k373, k374, k375, k376, k377, k378,
  k379, k380, k381, k382, k383, k384, k385, k386, k387, k388, k389, k390, k391, k392, k393,
  k394, k395, k396, k397, k398, k399, k400, k401, k402, k403, k404, k405, k406, k407, k408,
  k409, k410, k411, k412]

end Verif.Loop
