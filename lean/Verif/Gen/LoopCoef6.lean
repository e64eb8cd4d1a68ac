import Verif.Model.LoopDefs

/-! Generated by /verif/tools/gen_loop.py from /repo/wilson/match/smeft_loop.py. -/

set_option autoImplicit false
set_option maxRecDepth 20000

namespace Verif.Loop

def k703 : List (List ℕ) := [[0,1,4,94,158,226,286,354,1121],
  [0,1,4,94,158,354],
  [0,1,9,94,158,226,1121],
  [0,1,9,94,158,228,286],
  [1,1,4,94,158,226,286,354],
  [1,1,4,94,158,354,1121],
  [1,1,9,94,158,226],
  [1,1,9,94,158,228,286,1121]]

def k704 : List (List ℕ) := [[0,5,6,94,159,226,286,355,414,607,673],
  [0,5,6,94,159,226,286,355,414,607,673,1121],
  [1,1,3,94,159,228,284,355,414,609,673],
  [1,1,3,94,159,228,284,355,414,609,673,1121],
  [1,1,6,94,159,355,414,607,673],
  [1,1,6,94,159,355,414,607,673,1121]]

def k705 : List (List ℕ) := [[0,1,6,94,158,354,673,1121],
  [0,2,3,94,158,228,284,354,673,1121],
  [0,13,27,94,158,228,286,673,1121],
  [1,5,6,94,158,226,286,354,673,1121],
  [1,5,27,94,158,226,673,1121],
  [1,8,27,94,158,230,284,673,1121]]

def k706 : List (List ℕ) := [[0,5,6,94,158,226,286,354,673,1121],
  [0,5,27,94,158,226,673,1121],
  [0,8,27,94,158,230,284,673,1121],
  [1,1,6,94,158,354,673,1121],
  [1,2,3,94,158,228,284,354,673,1121],
  [1,13,27,94,158,228,286,673,1121]]

def k707 : List (List ℕ) := [[0,5,6,94,158,226,286,354,673,1121],
  [0,13,27,94,158,228,286,673,1121],
  [1,1,6,94,158,354,673,1121],
  [1,2,3,94,158,228,284,354,673,1121],
  [1,5,27,94,158,226,673,1121],
  [1,8,27,94,158,230,284,673,1121]]

def k708 : List (List ℕ) := [[0,2,27,33,94,159,230,284,351,609,673],
  [0,8,9,33,94,159,230,282,353,609,673,1121],
  [0,65,72,33,94,159,226,286,353,607,673,1121],
  [1,2,27,33,94,159,228,286,351,609,673],
  [1,23,9,33,94,159,228,284,353,607,673,1121]]

def k709 : List (List ℕ) := [[0,8,27,94,158,229,286,351,609,673],
  [0,25,36,94,158,225,353,607,673,1121],
  [0,31,9,94,158,229,284,353,609,673,1121],
  [1,4,27,94,158,227,351,609,673],
  [1,4,27,94,158,231,284,351,609,673],
  [1,16,9,94,158,231,282,353,609,673,1121],
  [1,145,36,94,158,227,286,353,607,673,1121]]

def k710 : List (List ℕ) := [[0,1,4,94,158,226,671,1249],
  [0,2,3,94,158,228,286,671],
  [0,4,9,94,158,228,286,671,1185],
  [0,5,48,94,158,290,671],
  [0,5,72,94,158,290,671,1185],
  [1,5,24,94,158,226,671],
  [1,7,18,94,158,226,671,1185]]

def k711 : List (List ℕ) := [[0,1,3,94,158,228,286],
  [0,1,8,94,158,226,1249],
  [0,2,9,94,158,228,286,1185],
  [0,5,48,94,158,226,670],
  [0,5,96,94,158,290],
  [0,5,144,94,158,290,1185],
  [0,7,36,94,158,226,670,1185],
  [1,1,3,94,158,228,286,670],
  [1,1,8,94,158,226,670,1249],
  [1,2,9,94,158,228,286,670,1185],
  [1,5,48,94,158,226],
  [1,5,96,94,158,290,670],
  [1,5,144,94,158,290,670,1185],
  [1,7,36,94,158,226,1185]]

def k712 : List (List ℕ) := [[0,13,36,94,158,228,286,1185],
  [1,1,8,94,158,226,1249],
  [1,1,18,94,158,228,286],
  [1,11,144,94,158,290,1185],
  [1,13,72,94,158,290],
  [1,25,72,94,158,226,1185],
  [1,47,144,94,158,226]]

def k713 : List (List ℕ) := [[0,1,4,94,158,228,354,1121,1374,1438],
  [0,1,8,94,158,226,356,1249,1374,1438],
  [0,1,32,94,158,358,1121,1374,1438],
  [0,3,64,94,158,226,354,1375,1439],
  [0,3,64,94,158,356,1375,1439],
  [1,3,16,94,158,226,356,1121,1374,1438],
  [1,7,32,94,158,228,354,1249,1374,1438]]

def k714 : List (List ℕ) := [[0,1,1,94,158,226,354,1121,3167],
  [1,1,1,94,158,226,354,1249,3167]]

def k715 : List (List ℕ) := [[0,1,8,94,158,226,354,670,1249,1375,1439],
  [0,1,8,94,158,226,354,1121,1375,1439],
  [1,1,8,94,158,226,354,670,1121,1375,1439],
  [1,1,8,94,158,226,354,1249,1375,1439]]

def k716 : List (List ℕ) := [[0,1,8,94,158,226,1249],
  [0,11,144,94,158,290,1185],
  [0,13,72,94,158,290],
  [0,23,36,94,158,228,286,1185],
  [0,49,72,94,158,228,286],
  [1,43,144,94,158,226],
  [1,47,72,94,158,226,1185]]

def k717 : List (List ℕ) := [[0,1,12,94,158,228,286,671],
  [0,1,18,94,158,228,286,671,1185],
  [1,1,4,94,158,226,671,1249],
  [1,1,9,94,158,226,671,1185],
  [1,5,48,94,158,290,671],
  [1,5,72,94,158,290,671,1185],
  [1,13,24,94,158,226,671]]

def k718 : List (List ℕ) := [[0,1,8,94,158,226,670,1249],
  [0,1,18,94,158,226,670,1185],
  [0,1,24,94,158,228,286],
  [0,1,36,94,158,228,286,1185],
  [0,5,96,94,158,290,670],
  [0,5,144,94,158,290,670,1185],
  [0,13,48,94,158,226,670],
  [1,1,8,94,158,226,1249],
  [1,1,18,94,158,226,1185],
  [1,1,24,94,158,228,286,670],
  [1,1,36,94,158,228,286,670,1185],
  [1,5,96,94,158,290],
  [1,5,144,94,158,290,1185],
  [1,13,48,94,158,226]]

def k719 : List (List ℕ) := [[0,1,1,94,158,226,354,1249,3167],
  [1,1,1,94,158,226,354,1121,3167]]

def k720 : List (List ℕ) := [[0,1,8,94,158,226,354,670,1121,1375,1439],
  [0,1,8,94,158,226,354,1249,1375,1439],
  [1,1,8,94,158,226,354,670,1249,1375,1439],
  [1,1,8,94,158,226,354,1121,1375,1439]]

def k721 : List (List ℕ) := [[0,1,2,94,158,226,1249],
  [0,4,3,94,158,228,286],
  [0,5,24,94,158,290],
  [0,5,36,94,158,290,1185],
  [0,8,9,94,158,228,286,1185],
  [1,5,12,94,158,226],
  [1,7,9,94,158,226,1185]]

def k722 : List (List ℕ) := [[0,5,24,94,158,226,671],
  [0,7,18,94,158,226,671,1185],
  [1,1,4,94,158,226,671,1249],
  [1,2,3,94,158,228,286,671],
  [1,4,9,94,158,228,286,671,1185],
  [1,5,48,94,158,290,671],
  [1,5,72,94,158,290,671,1185]]

def k723 : List (List ℕ) := [[0,1,6,94,158,228,286],
  [0,1,9,94,158,228,286,1185],
  [1,1,2,94,158,226,1249],
  [1,2,9,94,158,226,1185],
  [1,5,24,94,158,290],
  [1,5,36,94,158,290,1185],
  [1,13,12,94,158,226]]

def k724 : List (List ℕ) := [[0,1,4,94,158,226,671,1249],
  [0,1,9,94,158,226,671,1185],
  [0,5,48,94,158,290,671],
  [0,5,72,94,158,290,671,1185],
  [0,13,24,94,158,226,671],
  [1,1,12,94,158,228,286,671],
  [1,1,18,94,158,228,286,671,1185]]

def k725 : List (List ℕ) := [[0,1,1,94,158,226,354,1249,1567],
  [1,1,2,94,158,226,354,1121,1631]]

def k726 : List (List ℕ) := [[0,37,24,94,158,226,1185],
  [0,79,72,94,158,226],
  [1,11,24,94,158,290,1185],
  [1,13,12,94,158,228,286,1185],
  [1,65,72,94,158,228,286],
  [1,137,288,94,158,290]]

def k727 : List (List ℕ) := [[0,3,2,94,158,226,1249],
  [0,8,1,94,158,228,286,1185],
  [0,15,4,94,158,290,1185],
  [0,19,1,94,158,226,993],
  [0,44,3,94,158,228,286],
  [0,55,8,94,158,290],
  [1,11,1,94,158,226,1185],
  [1,15,2,94,158,290,993],
  [1,16,1,94,158,228,286,993],
  [1,209,12,94,158,226]]

def k728 : List (List ℕ) := [[0,11,24,94,158,290,1185],
  [0,17,72,94,158,228,286],
  [0,137,288,94,158,290],
  [1,1,6,94,158,228,286,1185],
  [1,7,24,94,158,226,1185],
  [1,31,72,94,158,226]]

def k729 : List (List ℕ) := [[0,2,1,94,158,228,286,993],
  [0,4,1,94,158,226,1185],
  [0,15,2,94,158,290,993],
  [0,55,12,94,158,226],
  [1,1,1,94,158,228,286,1185],
  [1,3,2,94,158,226,1249],
  [1,5,1,94,158,226,993],
  [1,11,6,94,158,228,286],
  [1,15,4,94,158,290,1185],
  [1,55,8,94,158,290]]

def k730 : List (List ℕ) := [[0,3,2,94,158,226,354,1249,1631],
  [1,3,2,94,158,226,354,1121,1631]]

def k731 : List (List ℕ) := [[0,1,4,94,158,228,286],
  [0,1,6,94,158,228,286,1185],
  [0,1,32,94,158,226,1249],
  [0,5,64,94,158,290,1185],
  [0,15,128,94,158,290],
  [1,11,48,94,158,226,1185],
  [1,19,64,94,158,226]]

def k732 : List (List ℕ) := [[0,1,36,94,158,290,1185],
  [0,4,3,94,158,228,286,1057],
  [0,5,8,94,158,290,1057],
  [0,13,36,94,158,228,286,1185],
  [0,167,72,94,158,226],
  [1,1,4,94,158,226,1249],
  [1,19,12,94,158,226,1057],
  [1,37,72,94,158,226,1185],
  [1,157,72,94,158,228,286],
  [1,337,288,94,158,290]]

def k733 : List (List ℕ) := [[0,1,12,94,158,226,1185],
  [0,5,64,94,158,226],
  [1,1,32,94,158,226,1249],
  [1,1,32,94,158,228,286],
  [1,1,48,94,158,228,286,1185],
  [1,5,64,94,158,290,1185],
  [1,15,128,94,158,290]]

def k734 : List (List ℕ) := [[0,1,4,94,158,226,1249],
  [0,5,9,94,158,228,286,1185],
  [0,5,12,94,158,226,1057],
  [0,61,72,94,158,228,286],
  [0,337,288,94,158,290],
  [1,1,6,94,158,228,286,1057],
  [1,1,36,94,158,290,1185],
  [1,5,8,94,158,290,1057],
  [1,29,72,94,158,226,1185],
  [1,71,72,94,158,226]]

def k735 : List (List ℕ) := [[0,5,16,94,158,226,356,1121,1374,1438],
  [0,11,32,94,158,228,354,1249,1374,1438],
  [1,1,4,94,158,226,356,1249,1374,1438],
  [1,1,32,94,158,358,1121,1374,1438],
  [1,3,8,94,158,228,354,1121,1374,1438],
  [1,3,64,94,158,226,354,1375,1439],
  [1,3,64,94,158,356,1375,1439]]

def k736 : List (List ℕ) := [[0,1,32,94,158,226,354,1249,1631],
  [1,1,32,94,158,226,354,1121,1631]]

def k737 : List (List ℕ) := [[0,1,3,94,158,290,1185],
  [0,5,6,94,158,228,286,1185],
  [0,5,24,94,158,226,801],
  [0,19,36,94,158,228,286],
  [0,49,144,94,158,290],
  [1,1,3,94,158,228,286,801],
  [1,1,16,94,158,290,801],
  [1,7,6,94,158,226,1185],
  [1,49,72,94,158,226]]

def k738 : List (List ℕ) := [[0,1,3,94,158,290,1185],
  [0,1,12,94,158,228,286,801],
  [0,5,18,94,158,228,286],
  [0,49,144,94,158,290],
  [1,1,6,94,158,226,1185],
  [1,1,6,94,158,228,286,1185],
  [1,1,16,94,158,290,801],
  [1,5,24,94,158,226,801],
  [1,31,72,94,158,226]]

def k739 : List (List ℕ) := [[0,1,3,94,158,228,286,1185],
  [0,1,3,94,158,290,1185],
  [0,4,9,94,158,226,865],
  [0,5,6,94,158,228,286],
  [0,5,6,94,158,290],
  [1,2,3,94,158,226,1185],
  [1,2,9,94,158,228,286,865],
  [1,2,9,94,158,290,865],
  [1,5,3,94,158,226]]

def k740 : List (List ℕ) := [[0,1,3,94,156,226,286,420,1313,1695,1759],
  [0,1,3,94,156,228,286,418,1313,1695,1759],
  [0,1,3,94,156,228,290,414,1185,1695,1759],
  [0,1,3,94,156,290,418,1313,1695,1759],
  [0,1,3,94,156,294,414,1185,1695,1759],
  [0,2,9,94,156,226,286,354,673,1121],
  [0,2,9,94,156,226,290,414],
  [0,4,3,94,156,230,286,414,1249],
  [0,4,9,94,156,228,284,356,414,673],
  [0,4,9,94,156,228,284,356,414,673,1121],
  [0,4,9,94,156,230,286,414],
  [0,4,9,94,156,356,414,673],
  [0,4,9,94,156,356,414,673,1121],
  [0,7,18,94,156,226,286,418],
  [0,7,27,94,156,226,1249],
  [0,16,27,94,156,228,286,673,1121],
  [0,16,27,94,156,230,284,865],
  [0,16,81,94,156,226,865],
  [0,31,108,94,156,290],
  [0,32,1215,94,156,228,350,673],
  [0,32,1215,94,156,232,284,350,673],
  [0,52,81,94,156,228,286,418,1185,1695,1759],
  [0,52,81,94,156,230,286,1185,1695,1759],
  [0,52,243,94,156,232,282,418,1185,1695,1759],
  [0,64,243,94,156,232,282,673,1121],
  [0,175,27,94,156,230,284,1249],
  [0,295,243,94,156,226,290,1185,1695,1759],
  [0,502,729,94,156,232,282],
  [0,19499,4860,94,156,228,286],
  [1,1,2,94,156,292,1185,1695,1759],
  [1,1,3,94,156,228,414],
  [1,1,6,94,156,228,284,420,1313,1695,1759],
  [1,1,6,94,156,420,1313,1695,1759],
  [1,1,9,94,156,228,284,354,673,1121],
  [1,1,9,94,156,292,414],
  [1,1,9,94,156,354,673,1121],
  [1,2,3,94,156,226,292,414,1185,1695,1759],
  [1,2,3,94,156,226,418,1313,1695,1759],
  [1,2,3,94,156,228,414,1249],
  [1,2,3,94,156,232,284,414,1249],
  [1,2,9,94,156,232,284,414],
  [1,7,36,94,156,228,284,418],
  [1,7,36,94,156,418],
  [1,8,9,94,156,226,286,356,414,673],
  [1,8,9,94,156,226,286,356,414,673,1121],
  [1,16,27,94,156,228,286,865],
  [1,16,81,94,156,232,282,865],
  [1,28,9,94,156,232,282,1249],
  [1,40,243,94,156,226,673,1121],
  [1,52,81,94,156,230,284,418,1185,1695,1759],
  [1,52,243,94,156,226,418,1185,1695,1759],
  [1,52,243,94,156,232,284,1185,1695,1759],
  [1,56,81,94,156,230,284,673,1121],
  [1,64,1215,94,156,230,286,350,673],
  [1,98,27,94,156,228,286,1249],
  [1,185,162,94,156,228,1185,1695,1759],
  [1,3518,1215,94,156,230,284],
  [1,15253,7290,94,156,226]]

def k741 : List (List ℕ) := [[0,1,3,94],
  [0,1,3,94,228,284],
  [0,1,3,94,228,284,1313],
  [0,1,3,94,1313],
  [1,2,3,94,226,286],
  [1,2,3,94,226,286,1313]]

def k742 : List (List ℕ) := [[0,2,1,94,158,230,286,418,1185,1694,1758],
  [0,2,1,94,158,230,290,414,1185,1694,1758],
  [0,2,9,94,158,294,414,1695,1759],
  [0,4,3,94,158,226,290,418,1313,1694,1758],
  [0,4,3,94,158,228,286,418,1695,1759],
  [0,4,3,94,158,230,286,418,1313,1694,1758],
  [0,4,3,94,158,294,1185,1694,1758],
  [0,4,9,94,158,226,286,420,1695,1759],
  [0,4,9,94,158,226,286,422,1313,1694,1758],
  [0,4,9,94,158,230,282,420,1695,1759],
  [0,4,9,94,158,230,282,422,1313,1694,1758],
  [0,8,3,94,158,228,286,420,1313,1694,1758],
  [0,8,3,94,158,230,286,414,1249],
  [0,8,3,94,158,234,282,414,1249],
  [0,8,9,94,158,234,282,1695,1759],
  [0,10,3,94,158,226,290,418,1185,1694,1758],
  [0,10,3,94,158,226,294,414,1185,1694,1758],
  [0,14,9,94,158,228,290,414,1695,1759],
  [0,16,9,94,158,226,290,1695,1759],
  [0,16,9,94,158,226,356,414,673,1695,1759],
  [0,16,9,94,158,230,284,356,414,673,1695,1759],
  [0,16,9,94,158,232,286,414,1695,1759],
  [0,20,9,94,158,230,286,1695,1759],
  [0,32,9,94,158,228,284,356,414,673,1121],
  [0,32,9,94,158,228,284,356,673,1695,1759],
  [0,92,9,94,158,228,290,1185,1694,1758],
  [1,2,3,94,158,226,418,1695,1759],
  [1,2,3,94,158,230,284,418,1695,1759],
  [1,2,3,94,158,292,418,1185,1694,1758],
  [1,2,3,94,158,296,414,1185,1694,1758],
  [1,2,9,94,158,292,1695,1759],
  [1,4,3,94,158,226,420,1313,1694,1758],
  [1,4,3,94,158,230,284,420,1313,1694,1758],
  [1,8,3,94,158,228,418,1313,1694,1758],
  [1,8,9,94,158,228,284,420,1695,1759],
  [1,8,9,94,158,228,284,422,1313,1694,1758],
  [1,8,9,94,158,234,284,414,1695,1759],
  [1,10,9,94,158,226,292,414,1695,1759],
  [1,14,3,94,158,228,292,414,1185,1694,1758],
  [1,14,3,94,158,228,418,1185,1694,1758],
  [1,14,9,94,158,230,414,1695,1759],
  [1,16,3,94,158,232,284,414,1249],
  [1,16,9,94,158,226,286,356,414,673,1121],
  [1,16,9,94,158,226,286,356,673,1695,1759],
  [1,16,9,94,158,230,282,356,414,673,1121],
  [1,16,9,94,158,230,282,356,673,1695,1759],
  [1,16,9,94,158,232,284,1695,1759],
  [1,26,9,94,158,228,1695,1759],
  [1,32,9,94,158,228,286,356,414,673,1695,1759],
  [1,40,9,94,158,230,1185,1694,1758],
  [1,64,9,94,158,226,292,1185,1694,1758]]

def k743 : List (List ℕ) := [[0,2,1,94,158,226,290,1185,1695,1759],
  [0,2,3,94,158,228,290,414,1185,1695,1759],
  [0,2,3,94,158,294,414,1185,1695,1759],
  [0,4,9,94,158,226,290,414],
  [0,5,18,94,158,228,286],
  [0,5,18,94,158,290],
  [0,8,3,94,158,230,286,414,1249],
  [0,8,9,94,158,228,284,356,414,673],
  [0,8,9,94,158,228,284,356,414,673,1121],
  [0,8,9,94,158,228,286,418,1313,1695,1759],
  [0,8,9,94,158,230,286,414],
  [0,8,9,94,158,290,418,1313,1695,1759],
  [0,8,9,94,158,356,414,673],
  [0,8,9,94,158,356,414,673,1121],
  [0,10,9,94,158,226,286,420,1313,1695,1759],
  [0,11,9,94,158,226,286,418],
  [1,1,1,94,158,228,1185,1695,1759],
  [1,1,1,94,158,292,1185,1695,1759],
  [1,2,3,94,158,228,414],
  [1,2,9,94,158,292,414],
  [1,4,3,94,158,226,292,414,1185,1695,1759],
  [1,4,3,94,158,228,414,1249],
  [1,4,3,94,158,232,284,414,1249],
  [1,4,9,94,158,232,284,414],
  [1,5,9,94,158,226],
  [1,5,9,94,158,228,284,420,1313,1695,1759],
  [1,5,9,94,158,420,1313,1695,1759],
  [1,11,18,94,158,228,284,418],
  [1,11,18,94,158,418],
  [1,16,9,94,158,226,286,356,414,673],
  [1,16,9,94,158,226,286,356,414,673,1121],
  [1,16,9,94,158,226,418,1313,1695,1759]]

def k744 : List (List ℕ) := [[0,1,3,94,158,228,290,414,1185,1695,1759],
  [0,1,3,94,158,228,414,1249],
  [0,1,9,94,158,226,290,414],
  [0,1,9,94,158,226,418,1313,1695,1759],
  [0,1,9,94,158,228,286,418,1313,1695,1759],
  [0,1,9,94,158,354,673,1121],
  [0,1,18,94,158,228,284,420,1313,1695,1759],
  [0,1,36,94,158,228,284,418],
  [0,2,9,94,158,228,284,356,414,673],
  [0,2,9,94,158,228,284,356,414,673,1121],
  [0,2,9,94,158,418],
  [0,2,9,94,158,420,1313,1695,1759],
  [0,8,27,94,158,230,284,865],
  [0,20,243,94,158,226,673,1121],
  [0,26,81,94,158,230,286,1185,1695,1759],
  [0,26,243,94,158,226,418,1185,1695,1759],
  [0,32,1215,94,158,232,284,350,673],
  [0,52,243,94,158,232,282,418,1185,1695,1759],
  [0,64,243,94,158,232,282,673,1121],
  [0,91,27,94,158,230,284,1249],
  [0,191,486,94,158,226,290,1185,1695,1759],
  [0,283,540,94,158,228,286],
  [0,502,729,94,158,232,282],
  [0,1679,2916,94,158,226],
  [1,1,2,94,158,228,1185,1695,1759],
  [1,1,3,94,158,226,292,414,1185,1695,1759],
  [1,1,3,94,158,232,284,414,1249],
  [1,1,4,94,158,226,286,418],
  [1,1,9,94,158,226,286,354,673,1121],
  [1,1,9,94,158,232,284,414],
  [1,2,9,94,158,290,418,1313,1695,1759],
  [1,2,9,94,158,356,414,673],
  [1,2,9,94,158,356,414,673,1121],
  [1,4,27,94,158,290],
  [1,5,18,94,158,226,286,420,1313,1695,1759],
  [1,7,27,94,158,228,286,1249],
  [1,8,81,94,158,226,865],
  [1,16,81,94,158,232,282,865],
  [1,26,81,94,158,230,284,418,1185,1695,1759],
  [1,28,9,94,158,232,282,1249],
  [1,28,81,94,158,230,284,673,1121],
  [1,32,1215,94,158,230,286,350,673],
  [1,52,243,94,158,232,284,1185,1695,1759],
  [1,1993,1215,94,158,230,284]]

def k745 : List (List ℕ) := [[0,2,3,94,158,226,292,414,1695,1759],
  [0,2,3,94,158,226,418,1695,1759],
  [0,2,3,94,158,230,284,418,1695,1759],
  [0,2,3,94,158,230,414,1695,1759],
  [0,4,1,94,158,228,292,414,1185,1694,1758],
  [0,4,1,94,158,228,418,1185,1694,1758],
  [0,4,1,94,158,232,284,414,1249],
  [0,4,3,94,158,226,420,1313,1694,1758],
  [0,4,3,94,158,230,284,420,1313,1694,1758],
  [0,4,3,94,158,232,284,1695,1759],
  [0,8,3,94,158,228,418,1313,1694,1758],
  [0,8,9,94,158,228,284,420,1695,1759],
  [0,8,9,94,158,228,284,422,1313,1694,1758],
  [0,8,9,94,158,234,284,414,1695,1759],
  [0,16,9,94,158,226,286,356,414,673,1121],
  [0,16,9,94,158,226,286,356,673,1695,1759],
  [0,16,9,94,158,230,282,356,414,673,1121],
  [0,16,9,94,158,230,282,356,673,1695,1759],
  [0,20,9,94,158,228,1695,1759],
  [0,32,9,94,158,228,286,356,414,673,1695,1759],
  [0,40,9,94,158,226,292,1185,1694,1758],
  [0,40,9,94,158,230,1185,1694,1758],
  [1,2,1,94,158,226,290,418,1185,1694,1758],
  [1,2,1,94,158,226,294,414,1185,1694,1758],
  [1,2,1,94,158,230,286,418,1185,1694,1758],
  [1,2,1,94,158,230,290,414,1185,1694,1758],
  [1,4,3,94,158,226,290,418,1313,1694,1758],
  [1,4,3,94,158,226,290,1695,1759],
  [1,4,3,94,158,228,286,418,1695,1759],
  [1,4,3,94,158,228,414,1249],
  [1,4,3,94,158,230,286,418,1313,1694,1758],
  [1,4,3,94,158,230,286,1695,1759],
  [1,4,3,94,158,232,286,414,1695,1759],
  [1,4,9,94,158,226,286,420,1695,1759],
  [1,4,9,94,158,226,286,422,1313,1694,1758],
  [1,4,9,94,158,230,282,420,1695,1759],
  [1,4,9,94,158,230,282,422,1313,1694,1758],
  [1,8,3,94,158,228,286,420,1313,1694,1758],
  [1,8,3,94,158,234,282,414,1249],
  [1,8,9,94,158,228,290,414,1695,1759],
  [1,8,9,94,158,234,282,1695,1759],
  [1,16,9,94,158,226,356,414,673,1695,1759],
  [1,16,9,94,158,230,284,356,414,673,1695,1759],
  [1,32,9,94,158,228,284,356,414,673,1121],
  [1,32,9,94,158,228,284,356,673,1695,1759],
  [1,80,9,94,158,228,290,1185,1694,1758]]

def k746 : List (List ℕ) := [[0,1,3,33,94,159,229,414,1695,1759],
  [0,1,6,33,94,159,227,284,422,1313,1694,1758],
  [0,1,9,33,94,159,225,286,354,673,1121],
  [0,1,9,33,94,159,225,292,414,1695,1759],
  [0,1,12,33,94,159,225,286,420,1695,1759],
  [0,1,18,33,94,159,225,286,422,1313,1694,1758],
  [0,2,3,33,94,159,227,418,1313,1694,1758],
  [0,2,3,33,94,159,229,284,420,1313,1694,1758],
  [0,4,3,33,94,159,227,292,414,1185,1694,1758],
  [0,4,3,33,94,159,231,284,414,1249],
  [0,4,9,33,94,159,233,284,414,1695,1759],
  [0,5,36,33,94,159,227,284,420,1695,1759],
  [0,8,9,33,94,159,227,286,356,414,673,1695,1759],
  [0,8,9,33,94,159,229,282,356,414,673,1121],
  [0,8,9,33,94,159,229,282,356,673,1695,1759],
  [0,11,18,33,94,159,225,292,1185,1694,1758],
  [0,17,108,33,94,159,225,290,1695,1759],
  [0,32,81,33,94,159,227,865,1695,1759],
  [0,32,81,33,94,159,231,284,865,1695,1759],
  [0,56,9,33,94,159,229,284,1249],
  [0,64,81,33,94,159,229,284,418,865,1695,1759],
  [0,64,1215,33,94,159,229,350,673,1695,1759],
  [0,64,1215,33,94,159,231,284,350,418,673,1695,1759],
  [0,92,243,33,94,159,227,286,673,1121],
  [0,104,243,33,94,159,227,286,420,1185,1694,1758],
  [0,104,243,33,94,159,231,282,420,1185,1694,1758],
  [0,104,243,33,94,159,231,286,1185,1694,1758],
  [0,128,243,33,94,159,231,282,673,1121],
  [0,151,486,33,94,159,227,418,1185,1694,1758],
  [0,173,243,33,94,159,229,286,418,1185,1694,1758],
  [0,332,243,33,94,159,229,1185,1694,1758],
  [0,680,729,33,94,159,231,282,418,1695,1759],
  [0,9743,3645,33,94,159,229,286,1695,1759],
  [0,18491,7290,33,94,159,227,286,418,1695,1759],
  [1,1,1,33,94,159,229,290,414,1185,1694,1758],
  [1,1,2,33,94,159,227,286,420,1313,1694,1758],
  [1,1,3,33,94,159,225,294,414,1185,1694,1758],
  [1,1,6,33,94,159,225,290,418,1185,1694,1758],
  [1,1,6,33,94,159,225,420,1313,1694,1758],
  [1,1,9,33,94,159,227,284,354,673,1121],
  [1,2,3,33,94,159,229,286,418,1313,1694,1758],
  [1,2,9,33,94,159,229,282,420,1695,1759],
  [1,2,9,33,94,159,229,282,422,1313,1694,1758],
  [1,4,3,33,94,159,227,286,1249],
  [1,4,3,33,94,159,233,282,414,1249],
  [1,4,9,33,94,159,227,290,414,1695,1759],
  [1,4,9,33,94,159,231,286,414,1695,1759],
  [1,4,9,33,94,159,233,282,1695,1759],
  [1,8,9,33,94,159,227,284,356,414,673,1121],
  [1,8,9,33,94,159,227,284,356,673,1695,1759],
  [1,8,9,33,94,159,229,284,356,414,673,1695,1759],
  [1,25,54,33,94,159,225,418,1695,1759],
  [1,32,81,33,94,159,227,286,418,865,1695,1759],
  [1,32,81,33,94,159,231,282,418,865,1695,1759],
  [1,44,9,33,94,159,231,282,1249],
  [1,64,81,33,94,159,229,286,865,1695,1759],
  [1,64,1215,33,94,159,229,286,350,418,673,1695,1759],
  [1,64,1215,33,94,159,231,286,350,673,1695,1759],
  [1,208,243,33,94,159,229,284,420,1185,1694,1758],
  [1,208,243,33,94,159,231,284,418,1185,1694,1758],
  [1,220,243,33,94,159,229,284,673,1121],
  [1,356,729,33,94,159,231,284,1695,1759],
  [1,1169,486,33,94,159,227,290,1185,1694,1758],
  [1,10958,3645,33,94,159,229,284,418,1695,1759],
  [1,27667,14580,33,94,159,227,1695,1759]]

def k747 : List (List ℕ) := [[0,4,3,94,157,227,1249],
  [0,8,3,94,157,229,286],
  [0,100,3,94,157,231,284,1249],
  [1,4,3,94,157,227],
  [1,4,3,94,157,231,284],
  [1,16,1,94,157,233,282,1249],
  [1,56,3,94,157,229,286,1249]]

def k748 : List (List ℕ) := [[0,1,12,94,158,226,286,354,673,1121],
  [0,2,9,94,158,290],
  [0,4,27,94,158,226,865],
  [0,4,27,94,158,230,284,865],
  [0,7,6,94,158,230,284,1249],
  [0,13,81,94,158,228,286,673,1121],
  [0,20,81,94,158,228,286,1185],
  [0,461,243,94,158,228,286],
  [1,1,12,94,158,354,673,1121],
  [1,5,81,94,158,226,673,1121],
  [1,7,6,94,158,228,286,1249],
  [1,8,27,94,158,228,286,865],
  [1,8,81,94,158,230,284,673,1121],
  [1,10,81,94,158,226,1185],
  [1,10,81,94,158,230,284,1185],
  [1,190,243,94,158,230,284],
  [1,325,243,94,158,226]]

def k749 : List (List ℕ) := [[0,1,6,94,158,354,673,1121],
  [0,7,3,94,158,228,286,1249],
  [0,10,81,94,158,226,673,1121],
  [0,16,27,94,158,228,286,865],
  [0,16,81,94,158,230,284,673,1121],
  [0,32,81,94,158,226,1185],
  [0,32,81,94,158,230,284,1185],
  [0,338,243,94,158,230,284],
  [0,608,243,94,158,226],
  [1,1,6,94,158,226,286,354,673,1121],
  [1,4,9,94,158,290],
  [1,7,3,94,158,230,284,1249],
  [1,8,27,94,158,226,865],
  [1,8,27,94,158,230,284,865],
  [1,26,81,94,158,228,286,673,1121],
  [1,64,81,94,158,228,286,1185],
  [1,838,243,94,158,228,286]]

def k750 : List (List ℕ) := [[0,1,12,94,158,226,286,354],
  [0,1,12,94,158,354,1121],
  [0,1,27,94,158,226,1121],
  [0,1,27,94,158,228,286],
  [1,1,12,94,158,226,286,354,1121],
  [1,1,12,94,158,354],
  [1,1,27,94,158,226],
  [1,1,27,94,158,228,286,1121]]

def k751 : List (List ℕ) := [[0,2,9,94,158,228,284,354,673,1121],
  [0,2,9,94,158,354,673,1121],
  [0,16,81,94,158,228,286,673,1121],
  [1,4,9,94,158,226,286,354,673,1121],
  [1,8,81,94,158,226,673,1121],
  [1,8,81,94,158,230,284,673,1121]]

def k752 : List (List ℕ) := [[0,4,9,94,158,226,286,354,673,1121],
  [0,8,81,94,158,226,673,1121],
  [0,8,81,94,158,230,284,673,1121],
  [1,2,9,94,158,228,284,354,673,1121],
  [1,2,9,94,158,354,673,1121],
  [1,16,81,94,158,228,286,673,1121]]

def k753 : List (List ℕ) := [[0,4,9,94,158,226,286,354,673,1121],
  [0,16,81,94,158,228,286,673,1121],
  [1,2,9,94,158,228,284,354,673,1121],
  [1,2,9,94,158,354,673,1121],
  [1,8,81,94,158,226,673,1121],
  [1,8,81,94,158,230,284,673,1121]]

def k754 : List (List ℕ) := [[0,2,81,33,94,159,230,284,351,609,673],
  [0,8,27,33,94,159,230,282,353,609,673,1121],
  [0,13,27,33,94,159,226,286,353,607,673,1121],
  [1,2,81,33,94,159,228,286,351,609,673],
  [1,29,27,33,94,159,228,284,353,607,673,1121]]

def k755 : List (List ℕ) := [[0,2,9,94,159,226,286,355,414,609,673],
  [0,2,9,94,159,226,286,355,414,609,673,1121],
  [1,1,9,94,159,228,284,355,414,609,673],
  [1,1,9,94,159,228,284,355,414,609,673,1121],
  [1,1,9,94,159,355,414,609,673],
  [1,1,9,94,159,355,414,609,673,1121]]

def k756 : List (List ℕ) := [[0,5,27,94,158,225,353,609,673,1121],
  [0,8,81,94,158,229,286,351,609,673],
  [0,37,27,94,158,229,284,353,609,673,1121],
  [1,4,81,94,158,227,351,609,673],
  [1,4,81,94,158,231,284,351,609,673],
  [1,16,27,94,158,231,282,353,609,673,1121],
  [1,26,27,94,158,227,286,353,609,673,1121]]

def k757 : List (List ℕ) := [[0,4,9,94,158,226,286,546,865],
  [0,13,54,94,158,228,284,546,1185],
  [0,13,54,94,158,546,1185],
  [0,305,324,94,158,228,284,546],
  [0,305,324,94,158,546],
  [1,1,120,94,350,548],
  [1,2,9,94,158,228,284,546,865],
  [1,2,9,94,158,546,865],
  [1,13,27,94,158,226,286,546,1185],
  [1,305,162,94,158,226,286,546]]

def k758 : List (List ℕ) := [[0,1,9,94,546,865],
  [0,13,108,94,228,284,546,1185],
  [0,305,648,94,228,284,546],
  [1,1,9,94,228,284,546,865],
  [1,13,108,94,546,1185],
  [1,305,648,94,546]]

def k759 : List (List ℕ) := [[0,2,9,33,94,161,225,286,546,865],
  [0,13,54,33,94,161,227,284,546,1185],
  [0,305,324,33,94,161,227,284,546],
  [1,2,9,33,94,161,227,284,546,865],
  [1,13,54,33,94,161,225,286,546,1185],
  [1,305,324,33,94,161,225,286,546]]

def k760 : List (List ℕ) := [[0,1,6,94,226,286,546,865],
  [0,5,36,94,546,1185],
  [0,163,216,94,546],
  [1,1,6,94,546,865],
  [1,5,36,94,226,286,546,1185],
  [1,163,216,94,226,286,546]]

def k761 : List (List ℕ) := [[0,1,3,94,546,865],
  [0,4,9,94,226,286,546,1185],
  [0,71,54,94,226,286,546],
  [1,1,3,94,226,286,546,865],
  [1,4,9,94,546,1185],
  [1,71,54,94,546]]

def k762 : List (List ℕ) := [[0,1,6,94,158,226,1185],
  [0,1,18,94,158,228,286,865],
  [0,1,18,94,158,290,865],
  [0,5,12,94,158,226],
  [1,1,9,94,158,226,865],
  [1,1,12,94,158,228,286,1185],
  [1,1,12,94,158,290,1185],
  [1,5,24,94,158,228,286],
  [1,5,24,94,158,290]]

def k763 : List (List ℕ) := [[0,1,6,94,156,226,292,414,1185,1695,1759],
  [0,1,6,94,156,226,418,1313,1695,1759],
  [0,1,6,94,156,228,414,1249],
  [0,1,6,94,156,232,284,414,1249],
  [0,1,8,94,156,292,1185,1695,1759],
  [0,1,12,94,156,228,414],
  [0,1,18,94,156,232,284,414],
  [0,1,18,94,158,226,286,546,671,865],
  [0,1,24,94,156,228,284,420,1313,1695,1759],
  [0,1,24,94,156,420,1313,1695,1759],
  [0,1,36,94,156,228,284,354,673,1121],
  [0,1,36,94,156,292,414],
  [0,1,36,94,156,354,673,1121],
  [0,1,480,94,350,548,671],
  [0,2,9,94,156,226,286,356,414,673],
  [0,2,9,94,156,226,286,356,414,673,1121],
  [0,2,27,94,156,230,284,865],
  [0,2,81,94,156,226,865],
  [0,7,9,94,156,232,282,1249],
  [0,7,144,94,156,228,284,418],
  [0,7,144,94,156,418],
  [0,10,243,94,156,226,673,1121],
  [0,11,81,94,156,228,286,418,1185,1695,1759],
  [0,11,81,94,156,230,286,1185,1695,1759],
  [0,11,216,94,158,228,284,546,671,1185],
  [0,11,216,94,158,546,671,1185],
  [0,11,243,94,156,232,282,418,1185,1695,1759],
  [0,14,81,94,156,230,284,673,1121],
  [0,16,1215,94,156,230,286,350,673],
  [0,49,54,94,156,228,286,1249],
  [0,121,1296,94,158,228,284,546,671],
  [0,121,1296,94,158,546,671],
  [0,128,729,94,156,232,282],
  [0,253,29160,94,156,226],
  [0,4021,19440,94,156,228,286],
  [1,1,3,94,156,230,286,414,1249],
  [1,1,9,94,156,228,284,356,414,673],
  [1,1,9,94,156,228,284,356,414,673,1121],
  [1,1,9,94,156,230,286,414],
  [1,1,9,94,156,356,414,673],
  [1,1,9,94,156,356,414,673,1121],
  [1,1,12,94,156,226,286,420,1313,1695,1759],
  [1,1,12,94,156,228,286,418,1313,1695,1759],
  [1,1,12,94,156,228,290,414,1185,1695,1759],
  [1,1,12,94,156,290,418,1313,1695,1759],
  [1,1,12,94,156,294,414,1185,1695,1759],
  [1,1,18,94,156,226,286,354,673,1121],
  [1,1,18,94,156,226,290,414],
  [1,1,36,94,158,228,284,546,671,865],
  [1,1,36,94,158,546,671,865],
  [1,2,27,94,156,228,286,865],
  [1,2,81,94,156,232,282,865],
  [1,4,27,94,156,228,286,673,1121],
  [1,7,72,94,156,226,286,418],
  [1,7,108,94,156,226,1249],
  [1,7,432,94,156,290],
  [1,7,648,94,156,228,1185,1695,1759],
  [1,8,1215,94,156,228,350,673],
  [1,8,1215,94,156,232,284,350,673],
  [1,11,81,94,156,230,284,418,1185,1695,1759],
  [1,11,108,94,158,226,286,546,671,1185],
  [1,11,243,94,156,226,418,1185,1695,1759],
  [1,11,243,94,156,232,284,1185,1695,1759],
  [1,16,243,94,156,232,282,673,1121],
  [1,121,648,94,158,226,286,546,671],
  [1,175,108,94,156,230,284,1249],
  [1,199,972,94,156,226,290,1185,1695,1759],
  [1,911,2430,94,156,230,284]]

def k764 : List (List ℕ) := [[0,1,6,94,226,286],
  [0,1,6,94,226,286,1313],
  [1,1,12,94],
  [1,1,12,94,228,284],
  [1,1,12,94,228,284,1313],
  [1,1,12,94,1313]]

def k765 : List (List ℕ) := [[0,1,3,94,158,226,420,1313,1694,1758],
  [0,1,3,94,158,230,284,420,1313,1694,1758],
  [0,1,6,94,158,226,418,1695,1759],
  [0,1,6,94,158,230,284,418,1695,1759],
  [0,1,6,94,158,292,418,1185,1694,1758],
  [0,1,6,94,158,296,414,1185,1694,1758],
  [0,1,18,94,158,292,1695,1759],
  [0,2,3,94,158,228,418,1313,1694,1758],
  [0,2,9,94,158,228,284,420,1695,1759],
  [0,2,9,94,158,228,284,422,1313,1694,1758],
  [0,2,9,94,158,234,284,414,1695,1759],
  [0,4,3,94,158,232,284,414,1249],
  [0,4,9,94,158,226,286,356,414,673,1121],
  [0,4,9,94,158,226,286,356,673,1695,1759],
  [0,4,9,94,158,230,282,356,414,673,1121],
  [0,4,9,94,158,230,282,356,673,1695,1759],
  [0,4,9,94,158,232,284,1695,1759],
  [0,5,18,94,158,226,292,414,1695,1759],
  [0,7,6,94,158,228,292,414,1185,1694,1758],
  [0,7,6,94,158,228,418,1185,1694,1758],
  [0,7,18,94,158,230,414,1695,1759],
  [0,8,9,94,158,228,286,356,414,673,1695,1759],
  [0,10,9,94,158,230,1185,1694,1758],
  [0,13,18,94,158,228,1695,1759],
  [0,16,9,94,158,226,292,1185,1694,1758],
  [1,1,2,94,158,230,286,418,1185,1694,1758],
  [1,1,2,94,158,230,290,414,1185,1694,1758],
  [1,1,3,94,158,226,290,418,1313,1694,1758],
  [1,1,3,94,158,228,286,418,1695,1759],
  [1,1,3,94,158,230,286,418,1313,1694,1758],
  [1,1,3,94,158,294,1185,1694,1758],
  [1,1,9,94,158,226,286,420,1695,1759],
  [1,1,9,94,158,226,286,422,1313,1694,1758],
  [1,1,9,94,158,230,282,420,1695,1759],
  [1,1,9,94,158,230,282,422,1313,1694,1758],
  [1,1,18,94,158,294,414,1695,1759],
  [1,2,3,94,158,228,286,420,1313,1694,1758],
  [1,2,3,94,158,230,286,414,1249],
  [1,2,3,94,158,234,282,414,1249],
  [1,2,9,94,158,234,282,1695,1759],
  [1,4,9,94,158,226,290,1695,1759],
  [1,4,9,94,158,226,356,414,673,1695,1759],
  [1,4,9,94,158,230,284,356,414,673,1695,1759],
  [1,4,9,94,158,232,286,414,1695,1759],
  [1,5,6,94,158,226,290,418,1185,1694,1758],
  [1,5,6,94,158,226,294,414,1185,1694,1758],
  [1,5,9,94,158,230,286,1695,1759],
  [1,7,18,94,158,228,290,414,1695,1759],
  [1,8,9,94,158,228,284,356,414,673,1121],
  [1,8,9,94,158,228,284,356,673,1695,1759],
  [1,23,9,94,158,228,290,1185,1694,1758]]

def k766 : List (List ℕ) := [[0,1,3,94,158,226,292,414,1185,1695,1759],
  [0,1,3,94,158,228,414,1249],
  [0,1,3,94,158,232,284,414,1249],
  [0,1,4,94,158,228,1185,1695,1759],
  [0,1,4,94,158,292,1185,1695,1759],
  [0,1,6,94,158,228,414],
  [0,1,9,94,158,232,284,414],
  [0,1,18,94,158,292,414],
  [0,4,9,94,158,226,286,356,414,673],
  [0,4,9,94,158,226,286,356,414,673,1121],
  [0,4,9,94,158,226,418,1313,1695,1759],
  [0,5,36,94,158,226],
  [0,5,36,94,158,228,284,420,1313,1695,1759],
  [0,5,36,94,158,420,1313,1695,1759],
  [0,11,72,94,158,228,284,418],
  [0,11,72,94,158,418],
  [1,1,2,94,158,226,290,1185,1695,1759],
  [1,1,6,94,158,228,290,414,1185,1695,1759],
  [1,1,6,94,158,294,414,1185,1695,1759],
  [1,1,9,94,158,226,290,414],
  [1,2,3,94,158,230,286,414,1249],
  [1,2,9,94,158,228,284,356,414,673],
  [1,2,9,94,158,228,284,356,414,673,1121],
  [1,2,9,94,158,228,286,418,1313,1695,1759],
  [1,2,9,94,158,230,286,414],
  [1,2,9,94,158,290,418,1313,1695,1759],
  [1,2,9,94,158,356,414,673],
  [1,2,9,94,158,356,414,673,1121],
  [1,5,18,94,158,226,286,420,1313,1695,1759],
  [1,5,72,94,158,228,286],
  [1,5,72,94,158,290],
  [1,11,36,94,158,226,286,418]]

def k767 : List (List ℕ) := [[0,1,8,94,158,228,1185,1695,1759],
  [0,1,12,94,158,226,292,414,1185,1695,1759],
  [0,1,12,94,158,232,284,414,1249],
  [0,1,16,94,158,226,286,418],
  [0,1,18,94,158,290,418,1313,1695,1759],
  [0,1,18,94,158,356,414,673],
  [0,1,18,94,158,356,414,673,1121],
  [0,1,27,94,158,230,284,865],
  [0,1,36,94,158,226,286,354,673,1121],
  [0,1,36,94,158,232,284,414],
  [0,1,72,94,546,671,865],
  [0,5,72,94,158,226,286,420,1313,1695,1759],
  [0,7,9,94,158,232,282,1249],
  [0,7,81,94,158,230,284,673,1121],
  [0,7,108,94,158,228,286,1249],
  [0,8,1215,94,158,230,286,350,673],
  [0,11,162,94,158,230,286,1185,1695,1759],
  [0,11,243,94,158,232,282,418,1185,1695,1759],
  [0,11,432,94,228,284,546,671,1185],
  [0,11,486,94,158,226,418,1185,1695,1759],
  [0,121,2592,94,228,284,546,671],
  [0,128,729,94,158,232,282],
  [0,1321,11664,94,158,226],
  [1,1,12,94,158,228,290,414,1185,1695,1759],
  [1,1,12,94,158,228,414,1249],
  [1,1,18,94,158,228,284,356,414,673],
  [1,1,18,94,158,228,284,356,414,673,1121],
  [1,1,18,94,158,418],
  [1,1,18,94,158,420,1313,1695,1759],
  [1,1,36,94,158,226,290,414],
  [1,1,36,94,158,226,418,1313,1695,1759],
  [1,1,36,94,158,228,286,418,1313,1695,1759],
  [1,1,36,94,158,354,673,1121],
  [1,1,54,94,158,290],
  [1,1,72,94,158,228,284,420,1313,1695,1759],
  [1,1,72,94,228,284,546,671,865],
  [1,1,81,94,158,226,865],
  [1,1,144,94,158,228,284,418],
  [1,2,81,94,158,232,282,865],
  [1,5,243,94,158,226,673,1121],
  [1,8,1215,94,158,232,284,350,673],
  [1,11,162,94,158,230,284,418,1185,1695,1759],
  [1,11,243,94,158,232,284,1185,1695,1759],
  [1,11,432,94,546,671,1185],
  [1,16,243,94,158,232,282,673,1121],
  [1,91,108,94,158,230,284,1249],
  [1,121,2592,94,546,671],
  [1,283,2160,94,158,228,286],
  [1,287,1944,94,158,226,290,1185,1695,1759],
  [1,677,4860,94,158,230,284]]

def k768 : List (List ℕ) := [[0,1,2,94,158,226,290,418,1185,1694,1758],
  [0,1,2,94,158,226,294,414,1185,1694,1758],
  [0,1,2,94,158,230,286,418,1185,1694,1758],
  [0,1,2,94,158,230,290,414,1185,1694,1758],
  [0,1,3,94,158,226,290,418,1313,1694,1758],
  [0,1,3,94,158,226,290,1695,1759],
  [0,1,3,94,158,228,286,418,1695,1759],
  [0,1,3,94,158,228,414,1249],
  [0,1,3,94,158,230,286,418,1313,1694,1758],
  [0,1,3,94,158,230,286,1695,1759],
  [0,1,3,94,158,232,286,414,1695,1759],
  [0,1,9,94,158,226,286,420,1695,1759],
  [0,1,9,94,158,226,286,422,1313,1694,1758],
  [0,1,9,94,158,230,282,420,1695,1759],
  [0,1,9,94,158,230,282,422,1313,1694,1758],
  [0,2,3,94,158,228,286,420,1313,1694,1758],
  [0,2,3,94,158,234,282,414,1249],
  [0,2,9,94,158,228,290,414,1695,1759],
  [0,2,9,94,158,234,282,1695,1759],
  [0,4,9,94,158,226,356,414,673,1695,1759],
  [0,4,9,94,158,230,284,356,414,673,1695,1759],
  [0,8,9,94,158,228,284,356,414,673,1121],
  [0,8,9,94,158,228,284,356,673,1695,1759],
  [0,20,9,94,158,228,290,1185,1694,1758],
  [1,1,1,94,158,228,292,414,1185,1694,1758],
  [1,1,1,94,158,228,418,1185,1694,1758],
  [1,1,1,94,158,232,284,414,1249],
  [1,1,3,94,158,226,420,1313,1694,1758],
  [1,1,3,94,158,230,284,420,1313,1694,1758],
  [1,1,3,94,158,232,284,1695,1759],
  [1,1,6,94,158,226,292,414,1695,1759],
  [1,1,6,94,158,226,418,1695,1759],
  [1,1,6,94,158,230,284,418,1695,1759],
  [1,1,6,94,158,230,414,1695,1759],
  [1,2,3,94,158,228,418,1313,1694,1758],
  [1,2,9,94,158,228,284,420,1695,1759],
  [1,2,9,94,158,228,284,422,1313,1694,1758],
  [1,2,9,94,158,234,284,414,1695,1759],
  [1,4,9,94,158,226,286,356,414,673,1121],
  [1,4,9,94,158,226,286,356,673,1695,1759],
  [1,4,9,94,158,230,282,356,414,673,1121],
  [1,4,9,94,158,230,282,356,673,1695,1759],
  [1,5,9,94,158,228,1695,1759],
  [1,8,9,94,158,228,286,356,414,673,1695,1759],
  [1,10,9,94,158,226,292,1185,1694,1758],
  [1,10,9,94,158,230,1185,1694,1758]]

def k769 : List (List ℕ) := [[0,1,3,33,94,159,227,286,1249],
  [0,1,3,33,94,159,233,282,414,1249],
  [0,1,4,33,94,159,229,290,414,1185,1694,1758],
  [0,1,6,33,94,159,229,286,418,1313,1694,1758],
  [0,1,8,33,94,159,227,286,420,1313,1694,1758],
  [0,1,9,33,94,159,227,290,414,1695,1759],
  [0,1,9,33,94,159,231,286,414,1695,1759],
  [0,1,9,33,94,159,233,282,1695,1759],
  [0,1,12,33,94,159,225,294,414,1185,1694,1758],
  [0,1,18,33,94,159,229,282,420,1695,1759],
  [0,1,18,33,94,159,229,282,422,1313,1694,1758],
  [0,1,24,33,94,159,225,290,418,1185,1694,1758],
  [0,1,24,33,94,159,225,420,1313,1694,1758],
  [0,1,36,33,94,159,227,284,354,673,1121],
  [0,1,36,33,94,161,225,286,546,671,865],
  [0,1,216,33,94,159,225,418,1695,1759],
  [0,2,9,33,94,159,227,284,356,414,673,1121],
  [0,2,9,33,94,159,227,284,356,673,1695,1759],
  [0,2,9,33,94,159,229,284,356,414,673,1695,1759],
  [0,4,81,33,94,159,227,865,1695,1759],
  [0,4,81,33,94,159,231,284,865,1695,1759],
  [0,8,81,33,94,159,229,284,418,865,1695,1759],
  [0,11,9,33,94,159,231,282,1249],
  [0,11,216,33,94,161,227,284,546,671,1185],
  [0,16,1215,33,94,159,229,286,350,418,673,1695,1759],
  [0,16,1215,33,94,159,231,286,350,673,1695,1759],
  [0,22,243,33,94,159,227,286,420,1185,1694,1758],
  [0,22,243,33,94,159,231,282,420,1185,1694,1758],
  [0,22,243,33,94,159,231,286,1185,1694,1758],
  [0,31,432,33,94,159,225,290,1695,1759],
  [0,55,243,33,94,159,229,284,673,1121],
  [0,121,1296,33,94,161,227,284,546,671],
  [0,337,729,33,94,159,231,282,418,1695,1759],
  [0,595,972,33,94,159,229,286,418,1185,1694,1758],
  [0,1553,1944,33,94,159,227,290,1185,1694,1758],
  [0,8269,29160,33,94,159,227,286,418,1695,1759],
  [0,12157,14580,33,94,159,229,286,1695,1759],
  [1,1,3,33,94,159,227,292,414,1185,1694,1758],
  [1,1,3,33,94,159,231,284,414,1249],
  [1,1,6,33,94,159,227,418,1313,1694,1758],
  [1,1,6,33,94,159,229,284,420,1313,1694,1758],
  [1,1,9,33,94,159,233,284,414,1695,1759],
  [1,1,12,33,94,159,229,414,1695,1759],
  [1,1,24,33,94,159,227,284,422,1313,1694,1758],
  [1,1,36,33,94,159,225,286,354,673,1121],
  [1,1,36,33,94,159,225,292,414,1695,1759],
  [1,1,36,33,94,161,227,284,546,671,865],
  [1,1,48,33,94,159,225,286,420,1695,1759],
  [1,1,72,33,94,159,225,286,422,1313,1694,1758],
  [1,2,9,33,94,159,227,286,356,414,673,1695,1759],
  [1,2,9,33,94,159,229,282,356,414,673,1121],
  [1,2,9,33,94,159,229,282,356,673,1695,1759],
  [1,4,81,33,94,159,227,286,418,865,1695,1759],
  [1,4,81,33,94,159,231,282,418,865,1695,1759],
  [1,5,144,33,94,159,227,284,420,1695,1759],
  [1,8,81,33,94,159,229,286,865,1695,1759],
  [1,11,72,33,94,159,225,292,1185,1694,1758],
  [1,11,216,33,94,161,225,286,546,671,1185],
  [1,14,9,33,94,159,229,284,1249],
  [1,16,1215,33,94,159,229,350,673,1695,1759],
  [1,16,1215,33,94,159,231,284,350,418,673,1695,1759],
  [1,23,243,33,94,159,227,286,673,1121],
  [1,32,243,33,94,159,231,282,673,1121],
  [1,44,243,33,94,159,229,284,420,1185,1694,1758],
  [1,44,243,33,94,159,231,284,418,1185,1694,1758],
  [1,121,1296,33,94,161,225,286,546,671],
  [1,179,243,33,94,159,229,1185,1694,1758],
  [1,418,729,33,94,159,231,284,1695,1759],
  [1,919,1944,33,94,159,227,418,1185,1694,1758],
  [1,5471,7290,33,94,159,229,284,418,1695,1759],
  [1,25853,58320,33,94,159,227,1695,1759]]

def k770 : List (List ℕ) := [[0,1,3,94,157,227],
  [0,1,3,94,157,231,284],
  [0,4,1,94,157,233,282,1249],
  [0,14,3,94,157,229,286,1249],
  [1,1,3,94,157,227,1249],
  [1,2,3,94,157,229,286],
  [1,25,3,94,157,231,284,1249]]

def k771 : List (List ℕ) := [[0,1,24,94,158,226,286,354,673,1121],
  [0,1,24,94,546,671,865],
  [0,2,27,94,158,228,286,865],
  [0,7,12,94,158,230,284,1249],
  [0,11,144,94,226,286,546,671,1185],
  [0,11,162,94,158,226,1185],
  [0,11,162,94,158,230,284,1185],
  [0,13,162,94,158,228,286,673,1121],
  [0,121,864,94,226,286,546,671],
  [0,229,972,94,158,230,284],
  [0,283,972,94,158,226],
  [1,1,18,94,158,290],
  [1,1,24,94,158,354,673,1121],
  [1,1,24,94,226,286,546,671,865],
  [1,1,27,94,158,226,865],
  [1,1,27,94,158,230,284,865],
  [1,4,81,94,158,230,284,673,1121],
  [1,5,162,94,158,226,673,1121],
  [1,7,12,94,158,228,286,1249],
  [1,11,81,94,158,228,286,1185],
  [1,11,144,94,546,671,1185],
  [1,121,864,94,546,671],
  [1,229,486,94,158,228,286]]

def k772 : List (List ℕ) := [[0,1,36,94,158,228,284,546,865],
  [0,1,36,94,158,546,865],
  [0,11,108,94,158,226,286,546,1185],
  [0,121,648,94,158,226,286,546],
  [1,1,18,94,158,226,286,546,865],
  [1,1,480,94,350,548],
  [1,11,216,94,158,228,284,546,1185],
  [1,11,216,94,158,546,1185],
  [1,121,1296,94,158,228,284,546],
  [1,121,1296,94,158,546]]

def k773 : List (List ℕ) := [[0,1,72,94,228,284,546,865],
  [0,11,432,94,546,1185],
  [0,121,2592,94,546],
  [1,1,72,94,546,865],
  [1,11,432,94,228,284,546,1185],
  [1,121,2592,94,228,284,546]]

def k774 : List (List ℕ) := [[0,1,36,33,94,161,227,284,546,865],
  [0,11,216,33,94,161,225,286,546,1185],
  [0,121,1296,33,94,161,225,286,546],
  [1,1,36,33,94,161,225,286,546,865],
  [1,11,216,33,94,161,227,284,546,1185],
  [1,121,1296,33,94,161,227,284,546]]

def k775 : List (List ℕ) := [[0,1,24,94,226,286,546,865],
  [0,11,144,94,546,1185],
  [0,121,864,94,546],
  [1,1,24,94,546,865],
  [1,11,144,94,226,286,546,1185],
  [1,121,864,94,226,286,546]]

def k776 : List (List ℕ) := [[0,1,81,33,94,159,228,286,351,607,673],
  [0,29,108,33,94,159,228,284,353,607,673,1121],
  [1,1,81,33,94,159,230,284,351,607,673],
  [1,2,27,33,94,159,230,282,353,609,673,1121],
  [1,13,108,33,94,159,226,286,353,607,673,1121]]

def k777 : List (List ℕ) := [[0,1,18,94,159,228,284,355,414,607,673],
  [0,1,18,94,159,228,284,355,414,607,673,1121],
  [0,1,18,94,159,355,414,607,673],
  [0,1,18,94,159,355,414,607,673,1121],
  [1,1,9,94,159,226,286,355,414,607,673],
  [1,1,9,94,159,226,286,355,414,607,673,1121]]

def k778 : List (List ℕ) := [[0,1,24,94,158,226,286,354,673,1121],
  [0,1,54,94,158,226,673,1121],
  [1,1,24,94,158,354,673,1121],
  [1,1,54,94,158,228,286,673,1121]]

def k779 : List (List ℕ) := [[0,1,24,94,158,354,673,1121],
  [0,1,54,94,158,226,673,1121],
  [1,1,24,94,158,226,286,354,673,1121],
  [1,1,54,94,158,228,286,673,1121]]

def k780 : List (List ℕ) := [[0,1,9,94,158,226,286,354,673,1121],
  [0,2,81,94,158,226,673,1121],
  [0,2,81,94,158,230,284,673,1121],
  [1,1,18,94,158,228,284,354,673,1121],
  [1,1,18,94,158,354,673,1121],
  [1,4,81,94,158,228,286,673,1121]]

def k781 : List (List ℕ) := [[0,1,18,94,158,228,284,354,673,1121],
  [0,1,18,94,158,354,673,1121],
  [0,4,81,94,158,228,286,673,1121],
  [1,1,9,94,158,226,286,354,673,1121],
  [1,2,81,94,158,226,673,1121],
  [1,2,81,94,158,230,284,673,1121]]

def k782 : List (List ℕ) := [[0,1,18,94,158,228,284,354,673,1121],
  [0,1,18,94,158,354,673,1121],
  [0,2,81,94,158,226,673,1121],
  [0,2,81,94,158,230,284,673,1121],
  [1,1,9,94,158,226,286,354,673,1121],
  [1,4,81,94,158,228,286,673,1121]]

def k783 : List (List ℕ) := [[0,1,81,94,158,227,351,609,673],
  [0,1,81,94,158,231,284,351,609,673],
  [0,4,27,94,158,231,282,353,609,673,1121],
  [0,13,27,94,158,227,286,353,607,673,1121],
  [1,2,81,94,158,229,286,351,609,673],
  [1,5,54,94,158,225,353,607,673,1121],
  [1,37,54,94,158,229,284,353,607,673,1121]]

def k784 : List (List ℕ) := [[0,1,1,94,158,226,1185],
  [0,1,3,94,158,228,286,865],
  [0,1,3,94,158,290,865],
  [0,5,2,94,158,226],
  [1,1,2,94,158,228,286,1185],
  [1,1,2,94,158,290,1185],
  [1,2,3,94,158,226,865],
  [1,5,4,94,158,228,286],
  [1,5,4,94,158,290]]

def k785 : List (List ℕ) := [[0,1,1,94,156,226,292,414,1185,1695,1759],
  [0,1,1,94,156,226,418,1313,1695,1759],
  [0,1,1,94,156,228,414,1249],
  [0,1,1,94,156,232,284,414,1249],
  [0,1,2,94,156,228,414],
  [0,1,3,94,156,232,284,414],
  [0,1,4,94,156,228,284,420,1313,1695,1759],
  [0,1,4,94,156,420,1313,1695,1759],
  [0,1,6,94,156,228,284,354,673,1121],
  [0,1,6,94,156,292,414],
  [0,1,6,94,156,354,673,1121],
  [0,1,8,94,156,290],
  [0,3,4,94,156,292,1185,1695,1759],
  [0,4,3,94,156,226,286,356,414,673],
  [0,4,3,94,156,226,286,356,414,673,1121],
  [0,4,3,94,156,230,284,865],
  [0,4,9,94,156,226,865],
  [0,7,24,94,156,228,284,418],
  [0,7,24,94,156,418],
  [0,14,3,94,156,232,282,1249],
  [0,20,81,94,156,226,673,1121],
  [0,28,27,94,156,230,284,673,1121],
  [0,32,405,94,156,230,286,350,673],
  [0,49,9,94,156,228,286,1249],
  [0,74,27,94,156,228,286,418,1185,1695,1759],
  [0,74,27,94,156,230,286,1185,1695,1759],
  [0,74,81,94,156,232,282,418,1185,1695,1759],
  [0,524,243,94,156,232,282],
  [0,16901,3240,94,156,228,286],
  [1,1,2,94,156,226,286,420,1313,1695,1759],
  [1,1,2,94,156,228,286,418,1313,1695,1759],
  [1,1,2,94,156,228,290,414,1185,1695,1759],
  [1,1,2,94,156,290,418,1313,1695,1759],
  [1,1,2,94,156,294,414,1185,1695,1759],
  [1,1,3,94,156,226,286,354,673,1121],
  [1,1,3,94,156,226,290,414],
  [1,2,1,94,156,230,286,414,1249],
  [1,2,3,94,156,228,284,356,414,673],
  [1,2,3,94,156,228,284,356,414,673,1121],
  [1,2,3,94,156,230,286,414],
  [1,2,3,94,156,356,414,673],
  [1,2,3,94,156,356,414,673,1121],
  [1,4,3,94,156,228,286,865],
  [1,4,9,94,156,232,282,865],
  [1,7,12,94,156,226,286,418],
  [1,7,18,94,156,226,1249],
  [1,8,9,94,156,228,286,673,1121],
  [1,16,405,94,156,228,350,673],
  [1,16,405,94,156,232,284,350,673],
  [1,32,81,94,156,232,282,673,1121],
  [1,74,27,94,156,230,284,418,1185,1695,1759],
  [1,74,81,94,156,226,418,1185,1695,1759],
  [1,74,81,94,156,232,284,1185,1695,1759],
  [1,95,162,94,156,226,290,1185,1695,1759],
  [1,175,18,94,156,230,284,1249],
  [1,215,108,94,156,228,1185,1695,1759],
  [1,2341,405,94,156,230,284],
  [1,8347,4860,94,156,226]]

def k786 : List (List ℕ) := [[0,1,1,94,226,286],
  [0,1,1,94,226,286,1313],
  [1,1,2,94],
  [1,1,2,94,228,284],
  [1,1,2,94,228,284,1313],
  [1,1,2,94,1313]]

def k787 : List (List ℕ) := [[0,1,1,94,158,226,418,1695,1759],
  [0,1,1,94,158,230,284,418,1695,1759],
  [0,1,1,94,158,292,418,1185,1694,1758],
  [0,1,1,94,158,296,414,1185,1694,1758],
  [0,1,3,94,158,292,1695,1759],
  [0,2,1,94,158,226,420,1313,1694,1758],
  [0,2,1,94,158,230,284,420,1313,1694,1758],
  [0,4,1,94,158,228,418,1313,1694,1758],
  [0,4,3,94,158,228,284,420,1695,1759],
  [0,4,3,94,158,228,284,422,1313,1694,1758],
  [0,4,3,94,158,234,284,414,1695,1759],
  [0,5,3,94,158,226,292,414,1695,1759],
  [0,7,1,94,158,228,292,414,1185,1694,1758],
  [0,7,1,94,158,228,418,1185,1694,1758],
  [0,7,3,94,158,230,414,1695,1759],
  [0,8,1,94,158,232,284,414,1249],
  [0,8,3,94,158,226,286,356,414,673,1121],
  [0,8,3,94,158,226,286,356,673,1695,1759],
  [0,8,3,94,158,230,282,356,414,673,1121],
  [0,8,3,94,158,230,282,356,673,1695,1759],
  [0,8,3,94,158,232,284,1695,1759],
  [0,13,3,94,158,228,1695,1759],
  [0,16,3,94,158,228,286,356,414,673,1695,1759],
  [0,20,3,94,158,230,1185,1694,1758],
  [0,32,3,94,158,226,292,1185,1694,1758],
  [1,1,3,94,158,294,414,1695,1759],
  [1,2,1,94,158,226,290,418,1313,1694,1758],
  [1,2,1,94,158,228,286,418,1695,1759],
  [1,2,1,94,158,230,286,418,1313,1694,1758],
  [1,2,1,94,158,294,1185,1694,1758],
  [1,2,3,94,158,226,286,420,1695,1759],
  [1,2,3,94,158,226,286,422,1313,1694,1758],
  [1,2,3,94,158,230,282,420,1695,1759],
  [1,2,3,94,158,230,282,422,1313,1694,1758],
  [1,3,1,94,158,230,286,418,1185,1694,1758],
  [1,3,1,94,158,230,290,414,1185,1694,1758],
  [1,4,1,94,158,228,286,420,1313,1694,1758],
  [1,4,1,94,158,230,286,414,1249],
  [1,4,1,94,158,234,282,414,1249],
  [1,4,3,94,158,234,282,1695,1759],
  [1,5,1,94,158,226,290,418,1185,1694,1758],
  [1,5,1,94,158,226,294,414,1185,1694,1758],
  [1,7,3,94,158,228,290,414,1695,1759],
  [1,8,3,94,158,226,290,1695,1759],
  [1,8,3,94,158,226,356,414,673,1695,1759],
  [1,8,3,94,158,230,284,356,414,673,1695,1759],
  [1,8,3,94,158,232,286,414,1695,1759],
  [1,10,3,94,158,230,286,1695,1759],
  [1,16,3,94,158,228,284,356,414,673,1121],
  [1,16,3,94,158,228,284,356,673,1695,1759],
  [1,46,3,94,158,228,290,1185,1694,1758]]

def k788 : List (List ℕ) := [[0,1,1,94,158,228,414],
  [0,1,3,94,158,292,414],
  [0,2,1,94,158,226,292,414,1185,1695,1759],
  [0,2,1,94,158,228,414,1249],
  [0,2,1,94,158,232,284,414,1249],
  [0,2,3,94,158,232,284,414],
  [0,3,2,94,158,228,1185,1695,1759],
  [0,3,2,94,158,292,1185,1695,1759],
  [0,5,6,94,158,226],
  [0,5,6,94,158,228,284,420,1313,1695,1759],
  [0,5,6,94,158,420,1313,1695,1759],
  [0,8,3,94,158,226,286,356,414,673],
  [0,8,3,94,158,226,286,356,414,673,1121],
  [0,8,3,94,158,226,418,1313,1695,1759],
  [0,11,12,94,158,228,284,418],
  [0,11,12,94,158,418],
  [1,1,1,94,158,228,290,414,1185,1695,1759],
  [1,1,1,94,158,294,414,1185,1695,1759],
  [1,2,3,94,158,226,290,414],
  [1,3,1,94,158,226,290,1185,1695,1759],
  [1,4,1,94,158,230,286,414,1249],
  [1,4,3,94,158,228,284,356,414,673],
  [1,4,3,94,158,228,284,356,414,673,1121],
  [1,4,3,94,158,228,286,418,1313,1695,1759],
  [1,4,3,94,158,230,286,414],
  [1,4,3,94,158,290,418,1313,1695,1759],
  [1,4,3,94,158,356,414,673],
  [1,4,3,94,158,356,414,673,1121],
  [1,5,3,94,158,226,286,420,1313,1695,1759],
  [1,5,12,94,158,228,286],
  [1,5,12,94,158,290],
  [1,11,6,94,158,226,286,418]]

def k789 : List (List ℕ) := [[0,1,2,94,158,226,292,414,1185,1695,1759],
  [0,1,2,94,158,232,284,414,1249],
  [0,1,3,94,158,290,418,1313,1695,1759],
  [0,1,3,94,158,356,414,673],
  [0,1,3,94,158,356,414,673,1121],
  [0,1,6,94,158,226,286,354,673,1121],
  [0,1,6,94,158,232,284,414],
  [0,2,3,94,158,230,284,865],
  [0,3,4,94,158,228,1185,1695,1759],
  [0,3,8,94,158,226,286,418],
  [0,5,12,94,158,226,286,420,1313,1695,1759],
  [0,7,18,94,158,228,286,1249],
  [0,14,3,94,158,232,282,1249],
  [0,14,27,94,158,230,284,673,1121],
  [0,16,405,94,158,230,286,350,673],
  [0,37,27,94,158,230,286,1185,1695,1759],
  [0,37,81,94,158,226,418,1185,1695,1759],
  [0,74,81,94,158,232,282,418,1185,1695,1759],
  [0,524,243,94,158,232,282],
  [0,3041,1944,94,158,226],
  [1,1,2,94,158,228,290,414,1185,1695,1759],
  [1,1,2,94,158,228,414,1249],
  [1,1,3,94,158,228,284,356,414,673],
  [1,1,3,94,158,228,284,356,414,673,1121],
  [1,1,3,94,158,290],
  [1,1,3,94,158,418],
  [1,1,3,94,158,420,1313,1695,1759],
  [1,1,6,94,158,226,290,414],
  [1,1,6,94,158,226,418,1313,1695,1759],
  [1,1,6,94,158,228,286,418,1313,1695,1759],
  [1,1,6,94,158,354,673,1121],
  [1,1,12,94,158,228,284,420,1313,1695,1759],
  [1,1,24,94,158,228,284,418],
  [1,2,9,94,158,226,865],
  [1,4,9,94,158,232,282,865],
  [1,10,81,94,158,226,673,1121],
  [1,16,405,94,158,232,284,350,673],
  [1,32,81,94,158,232,282,673,1121],
  [1,37,27,94,158,230,284,418,1185,1695,1759],
  [1,74,81,94,158,232,284,1185,1695,1759],
  [1,91,18,94,158,230,284,1249],
  [1,283,360,94,158,228,286],
  [1,391,324,94,158,226,290,1185,1695,1759],
  [1,2107,810,94,158,230,284]]

def k790 : List (List ℕ) := [[0,2,1,94,158,226,290,418,1313,1694,1758],
  [0,2,1,94,158,226,290,1695,1759],
  [0,2,1,94,158,228,286,418,1695,1759],
  [0,2,1,94,158,228,414,1249],
  [0,2,1,94,158,230,286,418,1313,1694,1758],
  [0,2,1,94,158,230,286,1695,1759],
  [0,2,1,94,158,232,286,414,1695,1759],
  [0,2,3,94,158,226,286,420,1695,1759],
  [0,2,3,94,158,226,286,422,1313,1694,1758],
  [0,2,3,94,158,230,282,420,1695,1759],
  [0,2,3,94,158,230,282,422,1313,1694,1758],
  [0,3,1,94,158,226,290,418,1185,1694,1758],
  [0,3,1,94,158,226,294,414,1185,1694,1758],
  [0,3,1,94,158,230,286,418,1185,1694,1758],
  [0,3,1,94,158,230,290,414,1185,1694,1758],
  [0,4,1,94,158,228,286,420,1313,1694,1758],
  [0,4,1,94,158,234,282,414,1249],
  [0,4,3,94,158,228,290,414,1695,1759],
  [0,4,3,94,158,234,282,1695,1759],
  [0,8,3,94,158,226,356,414,673,1695,1759],
  [0,8,3,94,158,230,284,356,414,673,1695,1759],
  [0,16,3,94,158,228,284,356,414,673,1121],
  [0,16,3,94,158,228,284,356,673,1695,1759],
  [0,40,3,94,158,228,290,1185,1694,1758],
  [1,1,1,94,158,226,292,414,1695,1759],
  [1,1,1,94,158,226,418,1695,1759],
  [1,1,1,94,158,230,284,418,1695,1759],
  [1,1,1,94,158,230,414,1695,1759],
  [1,2,1,94,158,226,420,1313,1694,1758],
  [1,2,1,94,158,230,284,420,1313,1694,1758],
  [1,2,1,94,158,232,284,1695,1759],
  [1,4,1,94,158,228,418,1313,1694,1758],
  [1,4,3,94,158,228,284,420,1695,1759],
  [1,4,3,94,158,228,284,422,1313,1694,1758],
  [1,4,3,94,158,234,284,414,1695,1759],
  [1,6,1,94,158,228,292,414,1185,1694,1758],
  [1,6,1,94,158,228,418,1185,1694,1758],
  [1,6,1,94,158,232,284,414,1249],
  [1,8,3,94,158,226,286,356,414,673,1121],
  [1,8,3,94,158,226,286,356,673,1695,1759],
  [1,8,3,94,158,230,282,356,414,673,1121],
  [1,8,3,94,158,230,282,356,673,1695,1759],
  [1,10,3,94,158,228,1695,1759],
  [1,16,3,94,158,228,286,356,414,673,1695,1759],
  [1,20,3,94,158,226,292,1185,1694,1758],
  [1,20,3,94,158,230,1185,1694,1758]]

def k791 : List (List ℕ) := [[0,1,1,33,94,159,229,286,418,1313,1694,1758],
  [0,1,2,33,94,159,225,294,414,1185,1694,1758],
  [0,1,3,33,94,159,229,282,420,1695,1759],
  [0,1,3,33,94,159,229,282,422,1313,1694,1758],
  [0,1,4,33,94,159,225,290,418,1185,1694,1758],
  [0,1,4,33,94,159,225,420,1313,1694,1758],
  [0,1,6,33,94,159,227,284,354,673,1121],
  [0,2,1,33,94,159,227,286,1249],
  [0,2,1,33,94,159,233,282,414,1249],
  [0,2,3,33,94,159,227,290,414,1695,1759],
  [0,2,3,33,94,159,231,286,414,1695,1759],
  [0,2,3,33,94,159,233,282,1695,1759],
  [0,3,2,33,94,159,229,290,414,1185,1694,1758],
  [0,3,4,33,94,159,227,286,420,1313,1694,1758],
  [0,4,3,33,94,159,227,284,356,414,673,1121],
  [0,4,3,33,94,159,227,284,356,673,1695,1759],
  [0,4,3,33,94,159,229,284,356,414,673,1695,1759],
  [0,7,8,33,94,159,225,290,1695,1759],
  [0,8,9,33,94,159,227,865,1695,1759],
  [0,8,9,33,94,159,231,284,865,1695,1759],
  [0,16,9,33,94,159,229,284,418,865,1695,1759],
  [0,22,3,33,94,159,231,282,1249],
  [0,32,405,33,94,159,229,286,350,418,673,1695,1759],
  [0,32,405,33,94,159,231,286,350,673,1695,1759],
  [0,110,81,33,94,159,229,284,673,1121],
  [0,148,81,33,94,159,227,286,420,1185,1694,1758],
  [0,148,81,33,94,159,231,282,420,1185,1694,1758],
  [0,148,81,33,94,159,231,286,1185,1694,1758],
  [0,1210,243,33,94,159,231,282,418,1695,1759],
  [0,1427,162,33,94,159,229,286,418,1185,1694,1758],
  [0,1969,324,33,94,159,227,290,1185,1694,1758],
  [0,23309,4860,33,94,159,227,286,418,1695,1759],
  [0,23957,2430,33,94,159,229,286,1695,1759],
  [1,1,1,33,94,159,227,418,1313,1694,1758],
  [1,1,1,33,94,159,229,284,420,1313,1694,1758],
  [1,1,2,33,94,159,229,414,1695,1759],
  [1,1,4,33,94,159,227,284,422,1313,1694,1758],
  [1,1,6,33,94,159,225,286,354,673,1121],
  [1,1,6,33,94,159,225,292,414,1695,1759],
  [1,1,8,33,94,159,225,286,420,1695,1759],
  [1,1,12,33,94,159,225,286,422,1313,1694,1758],
  [1,2,1,33,94,159,227,292,414,1185,1694,1758],
  [1,2,1,33,94,159,231,284,414,1249],
  [1,2,3,33,94,159,233,284,414,1695,1759],
  [1,4,3,33,94,159,227,286,356,414,673,1695,1759],
  [1,4,3,33,94,159,229,282,356,414,673,1121],
  [1,4,3,33,94,159,229,282,356,673,1695,1759],
  [1,5,12,33,94,159,225,418,1695,1759],
  [1,5,24,33,94,159,227,284,420,1695,1759],
  [1,8,9,33,94,159,227,286,418,865,1695,1759],
  [1,8,9,33,94,159,231,282,418,865,1695,1759],
  [1,11,12,33,94,159,225,292,1185,1694,1758],
  [1,16,9,33,94,159,229,286,865,1695,1759],
  [1,28,3,33,94,159,229,284,1249],
  [1,32,405,33,94,159,229,350,673,1695,1759],
  [1,32,405,33,94,159,231,284,350,418,673,1695,1759],
  [1,46,81,33,94,159,227,286,673,1121],
  [1,64,81,33,94,159,231,282,673,1121],
  [1,296,81,33,94,159,229,284,420,1185,1694,1758],
  [1,296,81,33,94,159,231,284,418,1185,1694,1758],
  [1,566,81,33,94,159,229,1185,1694,1758],
  [1,1372,243,33,94,159,231,284,1695,1759],
  [1,1751,324,33,94,159,227,418,1185,1694,1758],
  [1,11371,1215,33,94,159,229,284,418,1695,1759],
  [1,55933,9720,33,94,159,227,1695,1759]]

def k792 : List (List ℕ) := [[0,2,1,94,157,227],
  [0,2,1,94,157,231,284],
  [0,24,1,94,157,233,282,1249],
  [0,28,1,94,157,229,286,1249],
  [1,2,1,94,157,227,1249],
  [1,4,1,94,157,229,286],
  [1,50,1,94,157,231,284,1249]]

def k793 : List (List ℕ) := [[0,1,12,94,158,226,286,354,673,1121],
  [0,4,9,94,158,228,286,865],
  [0,5,9,94,158,226,1185],
  [0,5,9,94,158,230,284,1185],
  [0,7,6,94,158,230,284,1249],
  [0,13,81,94,158,228,286,673,1121],
  [0,55,54,94,158,230,284],
  [0,85,54,94,158,226],
  [1,1,3,94,158,290],
  [1,1,12,94,158,354,673,1121],
  [1,2,9,94,158,226,865],
  [1,2,9,94,158,230,284,865],
  [1,5,81,94,158,226,673,1121],
  [1,7,6,94,158,228,286,1249],
  [1,8,81,94,158,230,284,673,1121],
  [1,10,9,94,158,228,286,1185],
  [1,61,27,94,158,228,286]]

def k794 : List (List ℕ) := [[0,1,4,94,158,226,286,354,673,1121],
  [0,4,3,94,158,228,286,865],
  [0,7,2,94,158,230,284,1249],
  [0,13,27,94,158,228,286,673,1121],
  [0,29,27,94,158,226,1185],
  [0,29,27,94,158,230,284,1185],
  [0,607,162,94,158,230,284],
  [0,877,162,94,158,226],
  [1,1,1,94,158,290],
  [1,1,4,94,158,354,673,1121],
  [1,2,3,94,158,226,865],
  [1,2,3,94,158,230,284,865],
  [1,5,27,94,158,226,673,1121],
  [1,7,2,94,158,228,286,1249],
  [1,8,27,94,158,230,284,673,1121],
  [1,58,27,94,158,228,286,1185],
  [1,661,81,94,158,228,286]]

def k795 : List (List ℕ) := [[0,1,3,94,159,228,284,355,414,607,673],
  [0,1,3,94,159,228,284,355,414,607,673,1121],
  [0,1,3,94,159,355,414,607,673],
  [0,1,3,94,159,355,414,607,673,1121],
  [1,1,3,94,159,226,286,355,414,609,673],
  [1,1,3,94,159,226,286,355,414,609,673,1121]]

def k796 : List (List ℕ) := [[0,2,3,94,158,226,286,354,673,1121],
  [0,4,27,94,158,226,673,1121],
  [0,4,27,94,158,230,284,673,1121],
  [1,1,3,94,158,228,284,354,673,1121],
  [1,1,3,94,158,354,673,1121],
  [1,8,27,94,158,228,286,673,1121]]

def k797 : List (List ℕ) := [[0,1,3,94,158,228,284,354,673,1121],
  [0,1,3,94,158,354,673,1121],
  [0,8,27,94,158,228,286,673,1121],
  [1,2,3,94,158,226,286,354,673,1121],
  [1,4,27,94,158,226,673,1121],
  [1,4,27,94,158,230,284,673,1121]]

def k798 : List (List ℕ) := [[0,1,3,94,158,228,284,354,673,1121],
  [0,1,3,94,158,354,673,1121],
  [0,4,27,94,158,226,673,1121],
  [0,4,27,94,158,230,284,673,1121],
  [1,2,3,94,158,226,286,354,673,1121],
  [1,8,27,94,158,228,286,673,1121]]

def k799 : List (List ℕ) := [[0,1,27,33,94,159,228,286,351,609,673],
  [0,29,18,33,94,159,228,284,353,607,673,1121],
  [1,1,27,33,94,159,230,284,351,609,673],
  [1,4,9,33,94,159,230,282,353,609,673,1121],
  [1,13,18,33,94,159,226,286,353,607,673,1121]]

def k800 : List (List ℕ) := [[0,2,27,94,158,227,351,609,673],
  [0,2,27,94,158,231,284,351,609,673],
  [0,8,9,94,158,231,282,353,609,673,1121],
  [0,13,9,94,158,227,286,353,609,673,1121],
  [1,4,27,94,158,229,286,351,609,673],
  [1,5,9,94,158,225,353,607,673,1121],
  [1,37,9,94,158,229,284,353,607,673,1121]]

def k801 : List (List ℕ) := [[0,1,4,94,158,228,286,865],
  [0,1,4,94,158,290,865],
  [0,3,4,94,158,226,1185],
  [0,15,8,94,158,226],
  [1,1,2,94,158,226,865],
  [1,3,8,94,158,228,286,1185],
  [1,3,8,94,158,290,1185],
  [1,15,16,94,158,228,286],
  [1,15,16,94,158,290]]

def k802 : List (List ℕ) := [[0,1,1,94,156,226,286,356,414,673],
  [0,1,1,94,156,226,286,356,414,673,1121],
  [0,1,1,94,156,226,865],
  [0,1,4,94,156,232,284,414],
  [0,1,8,94,156,228,284,354,673,1121],
  [0,1,8,94,156,292,414],
  [0,1,8,94,156,354,673,1121],
  [0,3,1,94,156,230,284,865],
  [0,3,4,94,156,226,292,414,1185,1695,1759],
  [0,3,4,94,156,226,418,1313,1695,1759],
  [0,3,4,94,156,228,414,1249],
  [0,3,4,94,156,232,284,414,1249],
  [0,3,8,94,156,228,414],
  [0,3,16,94,156,228,284,420,1313,1695,1759],
  [0,3,16,94,156,420,1313,1695,1759],
  [0,5,27,94,156,226,673,1121],
  [0,7,2,94,156,232,282,1249],
  [0,7,9,94,156,230,284,673,1121],
  [0,7,32,94,156,228,284,418],
  [0,7,32,94,156,418],
  [0,8,135,94,156,230,286,350,673],
  [0,9,16,94,156,292,1185,1695,1759],
  [0,11,2,94,156,228,286,418,1185,1695,1759],
  [0,11,2,94,156,230,286,1185,1695,1759],
  [0,11,6,94,156,232,282,418,1185,1695,1759],
  [0,17,24,94,156,226,290,1185,1695,1759],
  [0,19,32,94,156,290],
  [0,40,9,94,156,232,282],
  [0,49,12,94,156,228,286,1249],
  [0,2223,160,94,156,228,286],
  [1,1,1,94,156,232,282,865],
  [1,1,2,94,156,228,284,356,414,673],
  [1,1,2,94,156,228,284,356,414,673,1121],
  [1,1,2,94,156,230,286,414],
  [1,1,2,94,156,356,414,673],
  [1,1,2,94,156,356,414,673,1121],
  [1,1,4,94,156,226,286,354,673,1121],
  [1,1,4,94,156,226,290,414],
  [1,2,3,94,156,228,286,673,1121],
  [1,3,1,94,156,228,286,865],
  [1,3,2,94,156,230,286,414,1249],
  [1,3,8,94,156,226,286,420,1313,1695,1759],
  [1,3,8,94,156,228,286,418,1313,1695,1759],
  [1,3,8,94,156,228,290,414,1185,1695,1759],
  [1,3,8,94,156,290,418,1313,1695,1759],
  [1,3,8,94,156,294,414,1185,1695,1759],
  [1,4,135,94,156,228,350,673],
  [1,4,135,94,156,232,284,350,673],
  [1,7,16,94,156,226,286,418],
  [1,7,24,94,156,226,1249],
  [1,8,27,94,156,232,282,673,1121],
  [1,11,2,94,156,230,284,418,1185,1695,1759],
  [1,11,6,94,156,226,418,1185,1695,1759],
  [1,11,6,94,156,232,284,1185,1695,1759],
  [1,79,16,94,156,228,1185,1695,1759],
  [1,175,24,94,156,230,284,1249],
  [1,799,60,94,156,230,284],
  [1,4043,720,94,156,226]]

def k803 : List (List ℕ) := [[0,3,4,94,226,286],
  [0,3,4,94,226,286,1313],
  [1,3,8,94],
  [1,3,8,94,228,284],
  [1,3,8,94,228,284,1313],
  [1,3,8,94,1313]]

def k804 : List (List ℕ) := [[0,1,1,94,158,228,284,420,1695,1759],
  [0,1,1,94,158,228,284,422,1313,1694,1758],
  [0,1,1,94,158,234,284,414,1695,1759],
  [0,1,4,94,158,292,1695,1759],
  [0,2,1,94,158,226,286,356,414,673,1121],
  [0,2,1,94,158,226,286,356,673,1695,1759],
  [0,2,1,94,158,230,282,356,414,673,1121],
  [0,2,1,94,158,230,282,356,673,1695,1759],
  [0,2,1,94,158,232,284,1695,1759],
  [0,3,1,94,158,228,418,1313,1694,1758],
  [0,3,2,94,158,226,420,1313,1694,1758],
  [0,3,2,94,158,230,284,420,1313,1694,1758],
  [0,3,4,94,158,226,418,1695,1759],
  [0,3,4,94,158,230,284,418,1695,1759],
  [0,3,4,94,158,292,418,1185,1694,1758],
  [0,3,4,94,158,296,414,1185,1694,1758],
  [0,4,1,94,158,228,286,356,414,673,1695,1759],
  [0,5,1,94,158,230,1185,1694,1758],
  [0,5,4,94,158,226,292,414,1695,1759],
  [0,6,1,94,158,232,284,414,1249],
  [0,7,4,94,158,230,414,1695,1759],
  [0,8,1,94,158,226,292,1185,1694,1758],
  [0,13,4,94,158,228,1695,1759],
  [0,21,4,94,158,228,292,414,1185,1694,1758],
  [0,21,4,94,158,228,418,1185,1694,1758],
  [1,1,1,94,158,234,282,1695,1759],
  [1,1,2,94,158,226,286,420,1695,1759],
  [1,1,2,94,158,226,286,422,1313,1694,1758],
  [1,1,2,94,158,230,282,420,1695,1759],
  [1,1,2,94,158,230,282,422,1313,1694,1758],
  [1,1,4,94,158,294,414,1695,1759],
  [1,2,1,94,158,226,290,1695,1759],
  [1,2,1,94,158,226,356,414,673,1695,1759],
  [1,2,1,94,158,230,284,356,414,673,1695,1759],
  [1,2,1,94,158,232,286,414,1695,1759],
  [1,3,1,94,158,228,286,420,1313,1694,1758],
  [1,3,1,94,158,230,286,414,1249],
  [1,3,1,94,158,234,282,414,1249],
  [1,3,2,94,158,226,290,418,1313,1694,1758],
  [1,3,2,94,158,228,286,418,1695,1759],
  [1,3,2,94,158,230,286,418,1313,1694,1758],
  [1,3,2,94,158,294,1185,1694,1758],
  [1,4,1,94,158,228,284,356,414,673,1121],
  [1,4,1,94,158,228,284,356,673,1695,1759],
  [1,5,2,94,158,230,286,1695,1759],
  [1,7,4,94,158,228,290,414,1695,1759],
  [1,9,4,94,158,230,286,418,1185,1694,1758],
  [1,9,4,94,158,230,290,414,1185,1694,1758],
  [1,15,4,94,158,226,290,418,1185,1694,1758],
  [1,15,4,94,158,226,294,414,1185,1694,1758],
  [1,23,2,94,158,228,290,1185,1694,1758]]

def k805 : List (List ℕ) := [[0,1,2,94,158,232,284,414],
  [0,1,4,94,158,292,414],
  [0,2,1,94,158,226,286,356,414,673],
  [0,2,1,94,158,226,286,356,414,673,1121],
  [0,2,1,94,158,226,418,1313,1695,1759],
  [0,3,2,94,158,226,292,414,1185,1695,1759],
  [0,3,2,94,158,228,414,1249],
  [0,3,2,94,158,232,284,414,1249],
  [0,3,4,94,158,228,414],
  [0,5,8,94,158,226],
  [0,5,8,94,158,228,284,420,1313,1695,1759],
  [0,5,8,94,158,420,1313,1695,1759],
  [0,9,8,94,158,228,1185,1695,1759],
  [0,9,8,94,158,292,1185,1695,1759],
  [0,11,16,94,158,228,284,418],
  [0,11,16,94,158,418],
  [1,1,1,94,158,228,284,356,414,673],
  [1,1,1,94,158,228,284,356,414,673,1121],
  [1,1,1,94,158,228,286,418,1313,1695,1759],
  [1,1,1,94,158,230,286,414],
  [1,1,1,94,158,290,418,1313,1695,1759],
  [1,1,1,94,158,356,414,673],
  [1,1,1,94,158,356,414,673,1121],
  [1,1,2,94,158,226,290,414],
  [1,3,1,94,158,230,286,414,1249],
  [1,3,4,94,158,228,290,414,1185,1695,1759],
  [1,3,4,94,158,294,414,1185,1695,1759],
  [1,5,4,94,158,226,286,420,1313,1695,1759],
  [1,5,16,94,158,228,286],
  [1,5,16,94,158,290],
  [1,9,4,94,158,226,290,1185,1695,1759],
  [1,11,8,94,158,226,286,418]]

def k806 : List (List ℕ) := [[0,1,4,94,158,290,418,1313,1695,1759],
  [0,1,4,94,158,356,414,673],
  [0,1,4,94,158,356,414,673,1121],
  [0,1,8,94,158,226,286,354,673,1121],
  [0,1,8,94,158,232,284,414],
  [0,3,2,94,158,230,284,865],
  [0,3,8,94,158,226,292,414,1185,1695,1759],
  [0,3,8,94,158,232,284,414,1249],
  [0,4,135,94,158,230,286,350,673],
  [0,5,16,94,158,226,286,420,1313,1695,1759],
  [0,7,2,94,158,232,282,1249],
  [0,7,18,94,158,230,284,673,1121],
  [0,7,24,94,158,228,286,1249],
  [0,9,16,94,158,228,1185,1695,1759],
  [0,9,32,94,158,226,286,418],
  [0,11,4,94,158,230,286,1185,1695,1759],
  [0,11,6,94,158,232,282,418,1185,1695,1759],
  [0,11,12,94,158,226,418,1185,1695,1759],
  [0,40,9,94,158,232,282],
  [0,961,288,94,158,226],
  [1,1,1,94,158,232,282,865],
  [1,1,2,94,158,226,865],
  [1,1,4,94,158,228,284,356,414,673],
  [1,1,4,94,158,228,284,356,414,673,1121],
  [1,1,4,94,158,418],
  [1,1,4,94,158,420,1313,1695,1759],
  [1,1,8,94,158,226,290,414],
  [1,1,8,94,158,226,418,1313,1695,1759],
  [1,1,8,94,158,228,286,418,1313,1695,1759],
  [1,1,8,94,158,354,673,1121],
  [1,1,16,94,158,228,284,420,1313,1695,1759],
  [1,1,32,94,158,228,284,418],
  [1,3,4,94,158,290],
  [1,3,8,94,158,228,290,414,1185,1695,1759],
  [1,3,8,94,158,228,414,1249],
  [1,4,135,94,158,232,284,350,673],
  [1,5,54,94,158,226,673,1121],
  [1,8,27,94,158,232,282,673,1121],
  [1,11,4,94,158,230,284,418,1185,1695,1759],
  [1,11,6,94,158,232,284,1185,1695,1759],
  [1,71,48,94,158,226,290,1185,1695,1759],
  [1,91,24,94,158,230,284,1249],
  [1,283,480,94,158,228,286],
  [1,773,120,94,158,230,284]]

/-- factors occurring in lines 57-153: each is a sum of monomials
`[flag, numerator, denominator, factors]`, see `Verif.Loop.monoVal`; part 6 -/
def coefTab6 : List (List (List ℕ)) := [
  k703, k704, k705, k706, k707, k708, k709, k710, k711, k712, k713, k714, k715, k716, k717,
  k718, k719, k720, k721, k722, k723, k724, k725, k726, k727, k728, k729, k730, k731, k732,
  k733, k734, k735, k736, k737, k738, k739, k740, k741, k742, k743, k744, k745, k746, k747,
  k748, k749, k750, k751, k752, k753, k754, k755, k756, k757, k758, k759, k760, k761, k762,
  k763, k764, k765, k766, k767, k768, k769, k770, k771, k772, k773, k774, k775, k776, k777,
  k778, k779, k780, k781, k782, k783, k784, k785, k786, k787, k788, k789, k790, k791, k792,
  k793, k794, k795, k796, k797, k798, k799, k800, k801, k802, k803, k804, k805, k806]

end Verif.Loop
