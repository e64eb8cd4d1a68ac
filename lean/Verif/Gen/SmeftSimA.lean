import Verif.Model.SmeftSimRow

/-! Generated by `tools/gen_smeftsim.py` from `/repo/wilson/wcxf/converters/smeftsim.py`; do not
edit. -/

set_option autoImplicit false

namespace Verif.Gen
open Verif.SmeftSim

/-- blocks created by `initialize_smeftsim_card`, `smeftsim.py:13-48` -/
def initBlocksA : List String := ["FRBlock", "FRBlock10", "FRBlock11", "FRBlock12", "FRBlock13", "FRBlock14", "FRBlock15", "FRBlock16", "FRBlock17", "FRBlock18", "FRBlock19", "FRBlock2", "FRBlock20", "FRBlock21", "FRBlock25", "FRBlock26", "FRBlock27", "FRBlock28", "FRBlock29", "FRBlock3", "FRBlock30", "FRBlock31", "FRBlock32", "FRBlock4", "FRBlock48", "FRBlock5", "FRBlock6", "FRBlock7", "FRBlock70", "FRBlock71", "FRBlock72", "FRBlock73", "FRBlock74", "FRBlock8", "FRBlock9"]

/-- blocks filled by `smeftsim_card_fill`, in the order of the source -/
def blocksA : List String := ["FRBlock", "FRBlock10", "FRBlock11", "FRBlock12", "FRBlock13", "FRBlock14", "FRBlock15", "FRBlock16", "FRBlock17", "FRBlock18", "FRBlock19", "FRBlock2", "FRBlock20", "FRBlock21", "FRBlock25", "FRBlock26", "FRBlock27", "FRBlock28", "FRBlock29", "FRBlock3", "FRBlock30", "FRBlock31", "FRBlock32", "FRBlock4", "FRBlock48", "FRBlock5", "FRBlock6", "FRBlock7", "FRBlock70", "FRBlock71", "FRBlock72", "FRBlock73", "FRBlock74", "FRBlock8", "FRBlock9"]

/-- the label stems, in the order of first use -/
def stemsA : List String := ["cHl1", "cHl3", "cHe", "cHq1", "cHq3", "cHu", "cHd", "cll", "cqq1", "cqq3", "cuu", "cdd", "cee", "clq1", "clq3", "ceu", "ced", "cud1", "cud8", "cle", "clu", "cld", "cqe", "cqu1", "cqd1", "cqu8", "cqd8", "cG", "cGtil", "cW", "cWtil", "cH", "cHbox", "cHDD", "cHG", "cHGtil", "cHW", "cHWtil", "cHB", "cHBtil", "cHWB", "cHWBtil", "cHud", "ceH", "cuH", "cdH", "cledq", "cquqd1", "cquqd8", "clequ1", "clequ3", "ceW", "ceB", "cuG", "cuW", "cuB", "cdG", "cdW", "cdB"]

/-- `smeftsim.py:105-229` -/
def rowsA0 : List Row := [
  .coef 0 [1] .angle .phil1 [0,1] 0 .ph [0,1],
  .coef 0 [2] .angle .phil1 [0,2] 0 .ph [0,2],
  .coef 0 [3] .angle .phil1 [1,2] 0 .ph [1,2],
  .coef 0 [4] .angle .phil3 [0,1] 1 .ph [0,1],
  .coef 0 [5] .angle .phil3 [0,2] 1 .ph [0,2],
  .coef 0 [6] .angle .phil3 [1,2] 1 .ph [1,2],
  .coef 0 [7] .angle .phie [0,1] 2 .ph [0,1],
  .coef 0 [8] .angle .phie [0,2] 2 .ph [0,2],
  .coef 0 [9] .angle .phie [1,2] 2 .ph [1,2],
  .coef 0 [10] .angle .phiq1 [0,1] 3 .ph [0,1],
  .coef 0 [11] .angle .phiq1 [0,2] 3 .ph [0,2],
  .coef 0 [12] .angle .phiq1 [1,2] 3 .ph [1,2],
  .coef 0 [13] .angle .phiq3 [0,1] 4 .ph [0,1],
  .coef 0 [14] .angle .phiq3 [0,2] 4 .ph [0,2],
  .coef 0 [15] .angle .phiq3 [1,2] 4 .ph [1,2],
  .coef 0 [16] .angle .phiu [0,1] 5 .ph [0,1],
  .coef 0 [17] .angle .phiu [0,2] 5 .ph [0,2],
  .coef 0 [18] .angle .phiu [1,2] 5 .ph [1,2],
  .coef 0 [19] .angle .phid [0,1] 6 .ph [0,1],
  .coef 0 [20] .angle .phid [0,2] 6 .ph [0,2],
  .coef 0 [21] .angle .phid [1,2] 6 .ph [1,2],
  .coef 0 [22] .angle .ll [0,0,0,1] 7 .ph [0,0,0,1],
  .coef 0 [23] .angle .ll [0,0,0,2] 7 .ph [0,0,0,2],
  .coef 0 [24] .angle .ll [0,0,1,2] 7 .ph [0,0,1,2],
  .coef 0 [25] .angle .ll [0,1,0,1] 7 .ph [0,1,0,1],
  .coef 0 [26] .angle .ll [0,1,0,2] 7 .ph [0,1,0,2],
  .coef 0 [27] .angle .ll [0,1,2,0] 7 .ph [0,1,2,0],
  .coef 0 [28] .angle .ll [0,1,1,1] 7 .ph [0,1,1,1],
  .coef 0 [29] .angle .ll [0,1,1,2] 7 .ph [0,1,1,2],
  .coef 0 [30] .angle .ll [0,1,2,1] 7 .ph [0,1,2,1],
  .coef 0 [31] .angle .ll [0,1,2,2] 7 .ph [0,1,2,2],
  .coef 0 [32] .angle .ll [0,2,0,2] 7 .ph [0,2,0,2],
  .coef 0 [33] .angle .ll [0,2,1,1] 7 .ph [0,2,1,1],
  .coef 0 [34] .angle .ll [0,2,2,1] 7 .ph [0,2,2,1],
  .coef 0 [35] .angle .ll [0,2,1,2] 7 .ph [0,2,1,2],
  .coef 0 [36] .angle .ll [0,2,2,2] 7 .ph [0,2,2,2],
  .coef 0 [37] .angle .ll [1,1,1,2] 7 .ph [1,1,1,2],
  .coef 0 [38] .angle .ll [1,2,1,2] 7 .ph [1,2,1,2],
  .coef 0 [39] .angle .ll [1,2,2,2] 7 .ph [2,2,1,2],
  .coef 0 [40] .angle .qq1 [0,0,0,1] 8 .ph [0,0,0,1],
  .coef 0 [41] .angle .qq1 [0,0,0,2] 8 .ph [0,0,0,2],
  .coef 0 [42] .angle .qq1 [0,0,1,2] 8 .ph [0,0,1,2],
  .coef 0 [43] .angle .qq1 [0,1,0,1] 8 .ph [0,1,0,1],
  .coef 0 [44] .angle .qq1 [0,1,0,2] 8 .ph [0,1,0,2],
  .coef 0 [45] .angle .qq1 [0,1,2,0] 8 .ph [0,1,2,0],
  .coef 0 [46] .angle .qq1 [0,1,1,1] 8 .ph [0,1,1,1],
  .coef 0 [47] .angle .qq1 [0,1,1,2] 8 .ph [0,1,1,2],
  .coef 0 [48] .angle .qq1 [0,1,2,1] 8 .ph [0,1,2,1],
  .coef 0 [49] .angle .qq1 [0,1,2,2] 8 .ph [0,1,2,2],
  .coef 0 [50] .angle .qq1 [0,2,0,2] 8 .ph [0,2,0,2],
  .coef 0 [51] .angle .qq1 [0,2,1,1] 8 .ph [0,2,1,1],
  .coef 0 [52] .angle .qq1 [0,2,2,1] 8 .ph [0,2,2,1],
  .coef 0 [53] .angle .qq1 [0,2,1,2] 8 .ph [0,2,1,2],
  .coef 0 [54] .angle .qq1 [0,2,2,2] 8 .ph [0,2,2,2],
  .coef 0 [55] .angle .qq1 [1,1,1,2] 8 .ph [1,1,1,2],
  .coef 0 [56] .angle .qq1 [1,2,1,2] 8 .ph [1,2,1,2],
  .coef 0 [57] .angle .qq1 [1,2,2,2] 8 .ph [2,2,1,2],
  .coef 0 [58] .angle .qq3 [0,0,0,1] 9 .ph [0,0,0,1],
  .coef 0 [59] .angle .qq3 [0,0,0,2] 9 .ph [0,0,0,2],
  .coef 0 [60] .angle .qq3 [0,0,1,2] 9 .ph [0,0,1,2],
  .coef 0 [61] .angle .qq3 [0,1,0,1] 9 .ph [0,1,0,1],
  .coef 0 [62] .angle .qq3 [0,1,0,2] 9 .ph [0,1,0,2],
  .coef 0 [63] .angle .qq3 [0,1,2,0] 9 .ph [0,1,2,0],
  .coef 0 [64] .angle .qq3 [0,1,1,1] 9 .ph [0,1,1,1],
  .coef 0 [65] .angle .qq3 [0,1,1,2] 9 .ph [0,1,1,2],
  .coef 0 [66] .angle .qq3 [0,1,2,1] 9 .ph [0,1,2,1],
  .coef 0 [67] .angle .qq3 [0,1,2,2] 9 .ph [0,1,2,2],
  .coef 0 [68] .angle .qq3 [0,2,0,2] 9 .ph [0,2,0,2],
  .coef 0 [69] .angle .qq3 [0,2,1,1] 9 .ph [0,2,1,1],
  .coef 0 [70] .angle .qq3 [0,2,2,1] 9 .ph [0,2,2,1],
  .coef 0 [71] .angle .qq3 [0,2,1,2] 9 .ph [0,2,1,2],
  .coef 0 [72] .angle .qq3 [0,2,2,2] 9 .ph [0,2,2,2],
  .coef 0 [73] .angle .qq3 [1,1,1,2] 9 .ph [1,1,1,2],
  .coef 0 [74] .angle .qq3 [1,2,1,2] 9 .ph [1,2,1,2],
  .coef 0 [75] .angle .qq3 [1,2,2,2] 9 .ph [2,2,1,2],
  .coef 0 [76] .angle .uu [0,0,0,1] 10 .ph [0,0,0,1],
  .coef 0 [77] .angle .uu [0,0,0,2] 10 .ph [0,0,0,2],
  .coef 0 [78] .angle .uu [0,0,1,2] 10 .ph [0,0,1,2],
  .coef 0 [79] .angle .uu [0,1,0,1] 10 .ph [0,1,0,1],
  .coef 0 [80] .angle .uu [0,1,0,2] 10 .ph [0,1,0,2],
  .coef 0 [81] .angle .uu [0,1,2,0] 10 .ph [0,1,2,0],
  .coef 0 [82] .angle .uu [0,1,1,1] 10 .ph [0,1,1,1],
  .coef 0 [83] .angle .uu [0,1,1,2] 10 .ph [0,1,1,2],
  .coef 0 [84] .angle .uu [0,1,2,1] 10 .ph [0,1,2,1],
  .coef 0 [85] .angle .uu [0,1,2,2] 10 .ph [0,1,2,2],
  .coef 0 [86] .angle .uu [0,2,0,2] 10 .ph [0,2,0,2],
  .coef 0 [87] .angle .uu [0,2,1,1] 10 .ph [0,2,1,1],
  .coef 0 [88] .angle .uu [0,2,2,1] 10 .ph [0,2,2,1],
  .coef 0 [89] .angle .uu [0,2,1,2] 10 .ph [0,2,1,2],
  .coef 0 [90] .angle .uu [0,2,2,2] 10 .ph [0,2,2,2],
  .coef 0 [91] .angle .uu [1,1,1,2] 10 .ph [1,1,1,2],
  .coef 0 [92] .angle .uu [1,2,1,2] 10 .ph [1,2,1,2],
  .coef 0 [93] .angle .uu [1,2,2,2] 10 .ph [2,2,1,2],
  .coef 0 [94] .angle .dd [0,0,0,1] 11 .ph [0,0,0,1],
  .coef 0 [95] .angle .dd [0,0,0,2] 11 .ph [0,0,0,2],
  .coef 0 [96] .angle .dd [0,0,1,2] 11 .ph [0,0,1,2],
  .coef 0 [97] .angle .dd [0,1,0,1] 11 .ph [0,1,0,1],
  .coef 0 [98] .angle .dd [0,1,0,2] 11 .ph [0,1,0,2],
  .coef 0 [99] .angle .dd [0,1,2,0] 11 .ph [0,1,2,0],
  .coef 0 [100] .angle .dd [0,1,1,1] 11 .ph [0,1,1,1],
  .coef 0 [101] .angle .dd [0,1,1,2] 11 .ph [0,1,1,2],
  .coef 0 [102] .angle .dd [0,1,2,1] 11 .ph [0,1,2,1],
  .coef 0 [103] .angle .dd [0,1,2,2] 11 .ph [0,1,2,2],
  .coef 0 [104] .angle .dd [0,2,0,2] 11 .ph [0,2,0,2],
  .coef 0 [105] .angle .dd [0,2,1,1] 11 .ph [0,2,1,1],
  .coef 0 [106] .angle .dd [0,2,2,1] 11 .ph [0,2,2,1],
  .coef 0 [107] .angle .dd [0,2,1,2] 11 .ph [0,2,1,2],
  .coef 0 [108] .angle .dd [0,2,2,2] 11 .ph [0,2,2,2],
  .coef 0 [109] .angle .dd [1,1,1,2] 11 .ph [1,1,1,2],
  .coef 0 [110] .angle .dd [1,2,1,2] 11 .ph [1,2,1,2],
  .coef 0 [111] .angle .dd [1,2,2,2] 11 .ph [2,2,1,2],
  .coef 0 [112] .angle .ee [0,0,0,1] 12 .ph [0,0,0,1],
  .coef 0 [113] .angle .ee [0,0,0,2] 12 .ph [0,0,0,2],
  .coef 0 [114] .angle .ee [0,0,1,2] 12 .ph [0,0,1,2],
  .coef 0 [115] .angle .ee [0,1,0,1] 12 .ph [0,1,0,1],
  .coef 0 [116] .angle .ee [0,1,0,2] 12 .ph [0,1,0,2],
  .coef 0 [117] .angle .ee [0,1,1,1] 12 .ph [0,1,1,1],
  .coef 0 [118] .angle .ee [0,1,2,1] 12 .ph [0,1,2,1],
  .coef 0 [119] .angle .ee [0,1,2,2] 12 .ph [0,1,2,2],
  .coef 0 [120] .angle .ee [0,2,0,2] 12 .ph [0,2,0,2],
  .coef 0 [121] .angle .ee [0,1,1,2] 12 .ph [0,2,1,1],
  .coef 0 [122] .angle .ee [0,2,1,2] 12 .ph [0,2,1,2],
  .coef 0 [123] .angle .ee [0,2,2,2] 12 .ph [0,2,2,2],
  .coef 0 [124] .angle .ee [1,1,1,2] 12 .ph [1,1,1,2],
  .coef 0 [125] .angle .ee [1,2,1,2] 12 .ph [1,2,1,2]]

/-- `smeftsim.py:230-354` -/
def rowsA1 : List Row := [
  .coef 0 [126] .angle .ee [1,2,2,2] 12 .ph [2,2,1,2],
  .coef 0 [127] .angle .lq1 [0,0,0,1] 13 .ph [0,0,0,1],
  .coef 0 [128] .angle .lq1 [0,0,0,2] 13 .ph [0,0,0,2],
  .coef 0 [129] .angle .lq1 [0,0,1,2] 13 .ph [0,0,1,2],
  .coef 0 [130] .angle .lq1 [0,1,0,0] 13 .ph [0,1,0,0],
  .coef 0 [131] .angle .lq1 [0,1,0,1] 13 .ph [0,1,0,1],
  .coef 0 [132] .angle .lq1 [0,1,1,0] 13 .ph [0,1,1,0],
  .coef 0 [133] .angle .lq1 [0,1,0,2] 13 .ph [0,1,0,2],
  .coef 0 [134] .angle .lq1 [0,1,2,0] 13 .ph [0,1,2,0],
  .coef 0 [135] .angle .lq1 [0,1,1,1] 13 .ph [0,1,1,1],
  .coef 0 [136] .angle .lq1 [0,1,1,2] 13 .ph [0,1,1,2],
  .coef 0 [137] .angle .lq1 [0,1,2,1] 13 .ph [0,1,2,1],
  .coef 0 [138] .angle .lq1 [0,1,2,2] 13 .ph [0,1,2,2],
  .coef 0 [139] .angle .lq1 [0,2,0,0] 13 .ph [0,2,0,0],
  .coef 0 [140] .angle .lq1 [0,2,0,1] 13 .ph [0,2,0,1],
  .coef 0 [141] .angle .lq1 [0,2,0,2] 13 .ph [0,2,0,2],
  .coef 0 [142] .angle .lq1 [0,2,2,0] 13 .ph [0,2,2,0],
  .coef 0 [143] .angle .lq1 [0,2,1,0] 13 .ph [0,2,1,0],
  .coef 0 [144] .angle .lq1 [0,2,1,1] 13 .ph [0,2,1,1],
  .coef 0 [145] .angle .lq1 [0,2,2,1] 13 .ph [0,2,2,1],
  .coef 0 [146] .angle .lq1 [0,2,1,2] 13 .ph [0,2,1,2],
  .coef 0 [147] .angle .lq1 [0,2,2,2] 13 .ph [0,2,2,2],
  .coef 0 [148] .angle .lq1 [1,1,0,1] 13 .ph [1,1,0,1],
  .coef 0 [149] .angle .lq1 [1,1,0,2] 13 .ph [1,1,0,2],
  .coef 0 [150] .angle .lq1 [1,1,1,2] 13 .ph [1,1,1,2],
  .coef 0 [151] .angle .lq1 [1,2,0,0] 13 .ph [1,2,0,0],
  .coef 0 [152] .angle .lq1 [1,2,0,1] 13 .ph [1,2,0,1],
  .coef 0 [153] .angle .lq1 [1,2,0,2] 13 .ph [1,2,0,2],
  .coef 0 [154] .angle .lq1 [1,2,1,0] 13 .ph [1,2,1,0],
  .coef 0 [155] .angle .lq1 [1,2,1,1] 13 .ph [1,2,1,1],
  .coef 0 [156] .angle .lq1 [1,2,1,2] 13 .ph [1,2,1,2],
  .coef 0 [157] .angle .lq1 [1,2,2,0] 13 .ph [1,2,2,0],
  .coef 0 [158] .angle .lq1 [1,2,2,1] 13 .ph [1,2,2,1],
  .coef 0 [159] .angle .lq1 [1,2,2,2] 13 .ph [1,2,2,2],
  .coef 0 [160] .angle .lq1 [2,2,0,1] 13 .ph [2,2,0,1],
  .coef 0 [161] .angle .lq1 [2,2,0,2] 13 .ph [2,2,0,2],
  .coef 0 [162] .angle .lq1 [2,2,1,2] 13 .ph [2,2,1,2],
  .coef 0 [163] .angle .lq3 [0,0,0,1] 14 .ph [0,0,0,1],
  .coef 0 [164] .angle .lq3 [0,0,0,2] 14 .ph [0,0,0,2],
  .coef 0 [165] .angle .lq3 [0,0,1,2] 14 .ph [0,0,1,2],
  .coef 0 [166] .angle .lq3 [0,1,0,0] 14 .ph [0,1,0,0],
  .coef 0 [167] .angle .lq3 [0,1,0,1] 14 .ph [0,1,0,1],
  .coef 0 [168] .angle .lq3 [0,1,1,0] 14 .ph [0,1,1,0],
  .coef 0 [169] .angle .lq3 [0,1,0,2] 14 .ph [0,1,0,2],
  .coef 0 [170] .angle .lq3 [0,1,2,0] 14 .ph [0,1,2,0],
  .coef 0 [171] .angle .lq3 [0,1,1,1] 14 .ph [0,1,1,1],
  .coef 0 [172] .angle .lq3 [0,1,1,2] 14 .ph [0,1,1,2],
  .coef 0 [173] .angle .lq3 [0,1,2,1] 14 .ph [0,1,2,1],
  .coef 0 [174] .angle .lq3 [0,1,2,2] 14 .ph [0,1,2,2],
  .coef 0 [175] .angle .lq3 [0,2,0,0] 14 .ph [0,2,0,0],
  .coef 0 [176] .angle .lq3 [0,2,0,1] 14 .ph [0,2,0,1],
  .coef 0 [177] .angle .lq3 [0,2,0,2] 14 .ph [0,2,0,2],
  .coef 0 [178] .angle .lq3 [0,2,2,0] 14 .ph [0,2,2,0],
  .coef 0 [179] .angle .lq3 [0,2,1,0] 14 .ph [0,2,1,0],
  .coef 0 [180] .angle .lq3 [0,2,1,1] 14 .ph [0,2,1,1],
  .coef 0 [181] .angle .lq3 [0,2,2,1] 14 .ph [0,2,2,1],
  .coef 0 [182] .angle .lq3 [0,2,1,2] 14 .ph [0,2,1,2],
  .coef 0 [183] .angle .lq3 [0,2,2,2] 14 .ph [0,2,2,2],
  .coef 0 [184] .angle .lq3 [1,1,0,1] 14 .ph [1,1,0,1],
  .coef 0 [185] .angle .lq3 [1,1,0,2] 14 .ph [1,1,0,2],
  .coef 0 [186] .angle .lq3 [1,1,1,2] 14 .ph [1,1,1,2],
  .coef 0 [187] .angle .lq3 [1,2,0,0] 14 .ph [1,2,0,0],
  .coef 0 [188] .angle .lq3 [1,2,0,1] 14 .ph [1,2,0,1],
  .coef 0 [189] .angle .lq3 [1,2,0,2] 14 .ph [1,2,0,2],
  .coef 0 [190] .angle .lq3 [1,2,1,0] 14 .ph [1,2,1,0],
  .coef 0 [191] .angle .lq3 [1,2,1,1] 14 .ph [1,2,1,1],
  .coef 0 [192] .angle .lq3 [1,2,1,2] 14 .ph [1,2,1,2],
  .coef 0 [193] .angle .lq3 [1,2,2,0] 14 .ph [1,2,2,0],
  .coef 0 [194] .angle .lq3 [1,2,2,1] 14 .ph [1,2,2,1],
  .coef 0 [195] .angle .lq3 [1,2,2,2] 14 .ph [1,2,2,2],
  .coef 0 [196] .angle .lq3 [2,2,0,1] 14 .ph [2,2,0,1],
  .coef 0 [197] .angle .lq3 [2,2,0,2] 14 .ph [2,2,0,2],
  .coef 0 [198] .angle .lq3 [2,2,1,2] 14 .ph [2,2,1,2],
  .coef 0 [199] .angle .eu [0,0,0,1] 15 .ph [0,0,0,1],
  .coef 0 [200] .angle .eu [0,0,0,2] 15 .ph [0,0,0,2],
  .coef 0 [201] .angle .eu [0,0,1,2] 15 .ph [0,0,1,2],
  .coef 0 [202] .angle .eu [0,1,0,0] 15 .ph [0,1,0,0],
  .coef 0 [203] .angle .eu [0,1,0,1] 15 .ph [0,1,0,1],
  .coef 0 [204] .angle .eu [0,1,1,0] 15 .ph [0,1,1,0],
  .coef 0 [205] .angle .eu [0,1,0,2] 15 .ph [0,1,0,2],
  .coef 0 [206] .angle .eu [0,1,2,0] 15 .ph [0,1,2,0],
  .coef 0 [207] .angle .eu [0,1,1,1] 15 .ph [0,1,1,1],
  .coef 0 [208] .angle .eu [0,1,1,2] 15 .ph [0,1,1,2],
  .coef 0 [209] .angle .eu [0,1,2,1] 15 .ph [0,1,2,1],
  .coef 0 [210] .angle .eu [0,1,2,2] 15 .ph [0,1,2,2],
  .coef 0 [211] .angle .eu [0,2,0,0] 15 .ph [0,2,0,0],
  .coef 0 [212] .angle .eu [0,2,0,1] 15 .ph [0,2,0,1],
  .coef 0 [213] .angle .eu [0,2,0,2] 15 .ph [0,2,0,2],
  .coef 0 [214] .angle .eu [0,2,2,0] 15 .ph [0,2,2,0],
  .coef 0 [215] .angle .eu [0,2,1,0] 15 .ph [0,2,1,0],
  .coef 0 [216] .angle .eu [0,2,1,1] 15 .ph [0,2,1,1],
  .coef 0 [217] .angle .eu [0,2,2,1] 15 .ph [0,2,2,1],
  .coef 0 [218] .angle .eu [0,2,1,2] 15 .ph [0,2,1,2],
  .coef 0 [219] .angle .eu [0,2,2,2] 15 .ph [0,2,2,2],
  .coef 0 [220] .angle .eu [1,1,0,1] 15 .ph [1,1,0,1],
  .coef 0 [221] .angle .eu [1,1,0,2] 15 .ph [1,1,0,2],
  .coef 0 [222] .angle .eu [1,1,1,2] 15 .ph [1,1,1,2],
  .coef 0 [223] .angle .eu [1,2,0,0] 15 .ph [1,2,0,0],
  .coef 0 [224] .angle .eu [1,2,0,1] 15 .ph [1,2,0,1],
  .coef 0 [225] .angle .eu [1,2,0,2] 15 .ph [1,2,0,2],
  .coef 0 [226] .angle .eu [1,2,1,0] 15 .ph [1,2,1,0],
  .coef 0 [227] .angle .eu [1,2,1,1] 15 .ph [1,2,1,1],
  .coef 0 [228] .angle .eu [1,2,1,2] 15 .ph [1,2,1,2],
  .coef 0 [229] .angle .eu [1,2,2,0] 15 .ph [1,2,2,0],
  .coef 0 [230] .angle .eu [1,2,2,1] 15 .ph [1,2,2,1],
  .coef 0 [231] .angle .eu [1,2,2,2] 15 .ph [1,2,2,2],
  .coef 0 [232] .angle .eu [2,2,0,1] 15 .ph [2,2,0,1],
  .coef 0 [233] .angle .eu [2,2,0,2] 15 .ph [2,2,0,2],
  .coef 0 [234] .angle .eu [2,2,1,2] 15 .ph [2,2,1,2],
  .coef 0 [235] .angle .ed [0,0,0,1] 16 .ph [0,0,0,1],
  .coef 0 [236] .angle .ed [0,0,0,2] 16 .ph [0,0,0,2],
  .coef 0 [237] .angle .ed [0,0,1,2] 16 .ph [0,0,1,2],
  .coef 0 [238] .angle .ed [0,1,0,0] 16 .ph [0,1,0,0],
  .coef 0 [239] .angle .ed [0,1,0,1] 16 .ph [0,1,0,1],
  .coef 0 [240] .angle .ed [0,1,1,0] 16 .ph [0,1,1,0],
  .coef 0 [241] .angle .ed [0,1,0,2] 16 .ph [0,1,0,2],
  .coef 0 [242] .angle .ed [0,1,2,0] 16 .ph [0,1,2,0],
  .coef 0 [243] .angle .ed [0,1,1,1] 16 .ph [0,1,1,1],
  .coef 0 [244] .angle .ed [0,1,1,2] 16 .ph [0,1,1,2],
  .coef 0 [245] .angle .ed [0,1,2,1] 16 .ph [0,1,2,1],
  .coef 0 [246] .angle .ed [0,1,2,2] 16 .ph [0,1,2,2],
  .coef 0 [247] .angle .ed [0,2,0,0] 16 .ph [0,2,0,0],
  .coef 0 [248] .angle .ed [0,2,0,1] 16 .ph [0,2,0,1],
  .coef 0 [249] .angle .ed [0,2,0,2] 16 .ph [0,2,0,2],
  .coef 0 [250] .angle .ed [0,2,2,0] 16 .ph [0,2,2,0]]

/-- `smeftsim.py:355-479` -/
def rowsA2 : List Row := [
  .coef 0 [251] .angle .ed [0,2,1,0] 16 .ph [0,2,1,0],
  .coef 0 [252] .angle .ed [0,2,1,1] 16 .ph [0,2,1,1],
  .coef 0 [253] .angle .ed [0,2,2,1] 16 .ph [0,2,2,1],
  .coef 0 [254] .angle .ed [0,2,1,2] 16 .ph [0,2,1,2],
  .coef 0 [255] .angle .ed [0,2,2,2] 16 .ph [0,2,2,2],
  .coef 0 [256] .angle .ed [1,1,0,1] 16 .ph [1,1,0,1],
  .coef 0 [257] .angle .ed [1,1,0,2] 16 .ph [1,1,0,2],
  .coef 0 [258] .angle .ed [1,1,1,2] 16 .ph [1,1,1,2],
  .coef 0 [259] .angle .ed [1,2,0,0] 16 .ph [1,2,0,0],
  .coef 0 [260] .angle .ed [1,2,0,1] 16 .ph [1,2,0,1],
  .coef 0 [261] .angle .ed [1,2,0,2] 16 .ph [1,2,0,2],
  .coef 0 [262] .angle .ed [1,2,1,0] 16 .ph [1,2,1,0],
  .coef 0 [263] .angle .ed [1,2,1,1] 16 .ph [1,2,1,1],
  .coef 0 [264] .angle .ed [1,2,1,2] 16 .ph [1,2,1,2],
  .coef 0 [265] .angle .ed [1,2,2,0] 16 .ph [1,2,2,0],
  .coef 0 [266] .angle .ed [1,2,2,1] 16 .ph [1,2,2,1],
  .coef 0 [267] .angle .ed [1,2,2,2] 16 .ph [1,2,2,2],
  .coef 0 [268] .angle .ed [2,2,0,1] 16 .ph [2,2,0,1],
  .coef 0 [269] .angle .ed [2,2,0,2] 16 .ph [2,2,0,2],
  .coef 0 [270] .angle .ed [2,2,1,2] 16 .ph [2,2,1,2],
  .coef 0 [271] .angle .ud1 [0,0,0,1] 17 .ph [0,0,0,1],
  .coef 0 [272] .angle .ud1 [0,0,0,2] 17 .ph [0,0,0,2],
  .coef 0 [273] .angle .ud1 [0,0,1,2] 17 .ph [0,0,1,2],
  .coef 0 [274] .angle .ud1 [0,1,0,0] 17 .ph [0,1,0,0],
  .coef 0 [275] .angle .ud1 [0,1,0,1] 17 .ph [0,1,0,1],
  .coef 0 [276] .angle .ud1 [0,1,1,0] 17 .ph [0,1,1,0],
  .coef 0 [277] .angle .ud1 [0,1,0,2] 17 .ph [0,1,0,2],
  .coef 0 [278] .angle .ud1 [0,1,2,0] 17 .ph [0,1,2,0],
  .coef 0 [279] .angle .ud1 [0,1,1,1] 17 .ph [0,1,1,1],
  .coef 0 [280] .angle .ud1 [0,1,1,2] 17 .ph [0,1,1,2],
  .coef 0 [281] .angle .ud1 [0,1,2,1] 17 .ph [0,1,2,1],
  .coef 0 [282] .angle .ud1 [0,1,2,2] 17 .ph [0,1,2,2],
  .coef 0 [283] .angle .ud1 [0,2,0,0] 17 .ph [0,2,0,0],
  .coef 0 [284] .angle .ud1 [0,2,0,1] 17 .ph [0,2,0,1],
  .coef 0 [285] .angle .ud1 [0,2,0,2] 17 .ph [0,2,0,2],
  .coef 0 [286] .angle .ud1 [0,2,2,0] 17 .ph [0,2,2,0],
  .coef 0 [287] .angle .ud1 [0,2,1,0] 17 .ph [0,2,1,0],
  .coef 0 [288] .angle .ud1 [0,2,1,1] 17 .ph [0,2,1,1],
  .coef 0 [289] .angle .ud1 [0,2,2,1] 17 .ph [0,2,2,1],
  .coef 0 [290] .angle .ud1 [0,2,1,2] 17 .ph [0,2,1,2],
  .coef 0 [291] .angle .ud1 [0,2,2,2] 17 .ph [0,2,2,2],
  .coef 0 [292] .angle .ud1 [1,1,0,1] 17 .ph [1,1,0,1],
  .coef 0 [293] .angle .ud1 [1,1,0,2] 17 .ph [1,1,0,2],
  .coef 0 [294] .angle .ud1 [1,1,1,2] 17 .ph [1,1,1,2],
  .coef 0 [295] .angle .ud1 [1,2,0,0] 17 .ph [1,2,0,0],
  .coef 0 [296] .angle .ud1 [1,2,0,1] 17 .ph [1,2,0,1],
  .coef 0 [297] .angle .ud1 [1,2,0,2] 17 .ph [1,2,0,2],
  .coef 0 [298] .angle .ud1 [1,2,1,0] 17 .ph [1,2,1,0],
  .coef 0 [299] .angle .ud1 [1,2,1,1] 17 .ph [1,2,1,1],
  .coef 0 [300] .angle .ud1 [1,2,1,2] 17 .ph [1,2,1,2],
  .coef 0 [301] .angle .ud1 [1,2,2,0] 17 .ph [1,2,2,0],
  .coef 0 [302] .angle .ud1 [1,2,2,1] 17 .ph [1,2,2,1],
  .coef 0 [303] .angle .ud1 [1,2,2,2] 17 .ph [1,2,2,2],
  .coef 0 [304] .angle .ud1 [2,2,0,1] 17 .ph [2,2,0,1],
  .coef 0 [305] .angle .ud1 [2,2,0,2] 17 .ph [2,2,0,2],
  .coef 0 [306] .angle .ud1 [2,2,1,2] 17 .ph [2,2,1,2],
  .coef 0 [307] .angle .ud8 [0,0,0,1] 18 .ph [0,0,0,1],
  .coef 0 [308] .angle .ud8 [0,0,0,2] 18 .ph [0,0,0,2],
  .coef 0 [309] .angle .ud8 [0,0,1,2] 18 .ph [0,0,1,2],
  .coef 0 [310] .angle .ud8 [0,1,0,0] 18 .ph [0,1,0,0],
  .coef 0 [311] .angle .ud8 [0,1,0,1] 18 .ph [0,1,0,1],
  .coef 0 [312] .angle .ud8 [0,1,1,0] 18 .ph [0,1,1,0],
  .coef 0 [313] .angle .ud8 [0,1,0,2] 18 .ph [0,1,0,2],
  .coef 0 [314] .angle .ud8 [0,1,2,0] 18 .ph [0,1,2,0],
  .coef 0 [315] .angle .ud8 [0,1,1,1] 18 .ph [0,1,1,1],
  .coef 0 [316] .angle .ud8 [0,1,1,2] 18 .ph [0,1,1,2],
  .coef 0 [317] .angle .ud8 [0,1,2,1] 18 .ph [0,1,2,1],
  .coef 0 [318] .angle .ud8 [0,1,2,2] 18 .ph [0,1,2,2],
  .coef 0 [319] .angle .ud8 [0,2,0,0] 18 .ph [0,2,0,0],
  .coef 0 [320] .angle .ud8 [0,2,0,1] 18 .ph [0,2,0,1],
  .coef 0 [321] .angle .ud8 [0,2,0,2] 18 .ph [0,2,0,2],
  .coef 0 [322] .angle .ud8 [0,2,2,0] 18 .ph [0,2,2,0],
  .coef 0 [323] .angle .ud8 [0,2,1,0] 18 .ph [0,2,1,0],
  .coef 0 [324] .angle .ud8 [0,2,1,1] 18 .ph [0,2,1,1],
  .coef 0 [325] .angle .ud8 [0,2,2,1] 18 .ph [0,2,2,1],
  .coef 0 [326] .angle .ud8 [0,2,1,2] 18 .ph [0,2,1,2],
  .coef 0 [327] .angle .ud8 [0,2,2,2] 18 .ph [0,2,2,2],
  .coef 0 [328] .angle .ud8 [1,1,0,1] 18 .ph [1,1,0,1],
  .coef 0 [329] .angle .ud8 [1,1,0,2] 18 .ph [1,1,0,2],
  .coef 0 [330] .angle .ud8 [1,1,1,2] 18 .ph [1,1,1,2],
  .coef 0 [331] .angle .ud8 [1,2,0,0] 18 .ph [1,2,0,0],
  .coef 0 [332] .angle .ud8 [1,2,0,1] 18 .ph [1,2,0,1],
  .coef 0 [333] .angle .ud8 [1,2,0,2] 18 .ph [1,2,0,2],
  .coef 0 [334] .angle .ud8 [1,2,1,0] 18 .ph [1,2,1,0],
  .coef 0 [335] .angle .ud8 [1,2,1,1] 18 .ph [1,2,1,1],
  .coef 0 [336] .angle .ud8 [1,2,1,2] 18 .ph [1,2,1,2],
  .coef 0 [337] .angle .ud8 [1,2,2,0] 18 .ph [1,2,2,0],
  .coef 0 [338] .angle .ud8 [1,2,2,1] 18 .ph [1,2,2,1],
  .coef 0 [339] .angle .ud8 [1,2,2,2] 18 .ph [1,2,2,2],
  .coef 0 [340] .angle .ud8 [2,2,0,1] 18 .ph [2,2,0,1],
  .coef 0 [341] .angle .ud8 [2,2,0,2] 18 .ph [2,2,0,2],
  .coef 0 [342] .angle .ud8 [2,2,1,2] 18 .ph [2,2,1,2],
  .coef 0 [343] .angle .le [0,0,0,1] 19 .ph [0,0,0,1],
  .coef 0 [344] .angle .le [0,0,0,2] 19 .ph [0,0,0,2],
  .coef 0 [345] .angle .le [0,0,1,2] 19 .ph [0,0,1,2],
  .coef 0 [346] .angle .le [0,1,0,0] 19 .ph [0,1,0,0],
  .coef 0 [347] .angle .le [0,1,0,1] 19 .ph [0,1,0,1],
  .coef 0 [348] .angle .le [0,1,1,0] 19 .ph [0,1,1,0],
  .coef 0 [349] .angle .le [0,1,0,2] 19 .ph [0,1,0,2],
  .coef 0 [350] .angle .le [0,1,2,0] 19 .ph [0,1,2,0],
  .coef 0 [351] .angle .le [0,1,1,1] 19 .ph [0,1,1,1],
  .coef 0 [352] .angle .le [0,1,1,2] 19 .ph [0,1,1,2],
  .coef 0 [353] .angle .le [0,1,2,1] 19 .ph [0,1,2,1],
  .coef 0 [354] .angle .le [0,1,2,2] 19 .ph [0,1,2,2],
  .coef 0 [355] .angle .le [0,2,0,0] 19 .ph [0,2,0,0],
  .coef 0 [356] .angle .le [0,2,0,1] 19 .ph [0,2,0,1],
  .coef 0 [357] .angle .le [0,2,0,2] 19 .ph [0,2,0,2],
  .coef 0 [358] .angle .le [0,2,2,0] 19 .ph [0,2,2,0],
  .coef 0 [359] .angle .le [0,2,1,0] 19 .ph [0,2,1,0],
  .coef 0 [360] .angle .le [0,2,1,1] 19 .ph [0,2,1,1],
  .coef 0 [361] .angle .le [0,2,2,1] 19 .ph [0,2,2,1],
  .coef 0 [362] .angle .le [0,2,1,2] 19 .ph [0,2,1,2],
  .coef 0 [363] .angle .le [0,2,2,2] 19 .ph [0,2,2,2],
  .coef 0 [364] .angle .le [1,1,0,1] 19 .ph [1,1,0,1],
  .coef 0 [365] .angle .le [1,1,0,2] 19 .ph [1,1,0,2],
  .coef 0 [366] .angle .le [1,1,1,2] 19 .ph [1,1,1,2],
  .coef 0 [367] .angle .le [1,2,0,0] 19 .ph [1,2,0,0],
  .coef 0 [368] .angle .le [1,2,0,1] 19 .ph [1,2,0,1],
  .coef 0 [369] .angle .le [1,2,0,2] 19 .ph [1,2,0,2],
  .coef 0 [370] .angle .le [1,2,1,0] 19 .ph [1,2,1,0],
  .coef 0 [371] .angle .le [1,2,1,1] 19 .ph [1,2,1,1],
  .coef 0 [372] .angle .le [1,2,1,2] 19 .ph [1,2,1,2],
  .coef 0 [373] .angle .le [1,2,2,0] 19 .ph [1,2,2,0],
  .coef 0 [374] .angle .le [1,2,2,1] 19 .ph [1,2,2,1],
  .coef 0 [375] .angle .le [1,2,2,2] 19 .ph [1,2,2,2]]

/-- `smeftsim.py:480-604` -/
def rowsA3 : List Row := [
  .coef 0 [376] .angle .le [2,2,0,1] 19 .ph [2,2,0,1],
  .coef 0 [377] .angle .le [2,2,0,2] 19 .ph [2,2,0,2],
  .coef 0 [378] .angle .le [2,2,1,2] 19 .ph [2,2,1,2],
  .coef 0 [379] .angle .lu [0,0,0,1] 20 .ph [0,0,0,1],
  .coef 0 [380] .angle .lu [0,0,0,2] 20 .ph [0,0,0,2],
  .coef 0 [381] .angle .lu [0,0,1,2] 20 .ph [0,0,1,2],
  .coef 0 [382] .angle .lu [0,1,0,0] 20 .ph [0,1,0,0],
  .coef 0 [383] .angle .lu [0,1,0,1] 20 .ph [0,1,0,1],
  .coef 0 [384] .angle .lu [0,1,1,0] 20 .ph [0,1,1,0],
  .coef 0 [385] .angle .lu [0,1,0,2] 20 .ph [0,1,0,2],
  .coef 0 [386] .angle .lu [0,1,2,0] 20 .ph [0,1,2,0],
  .coef 0 [387] .angle .lu [0,1,1,1] 20 .ph [0,1,1,1],
  .coef 0 [388] .angle .lu [0,1,1,2] 20 .ph [0,1,1,2],
  .coef 0 [389] .angle .lu [0,1,2,1] 20 .ph [0,1,2,1],
  .coef 0 [390] .angle .lu [0,1,2,2] 20 .ph [0,1,2,2],
  .coef 0 [391] .angle .lu [0,2,0,0] 20 .ph [0,2,0,0],
  .coef 0 [392] .angle .lu [0,2,0,1] 20 .ph [0,2,0,1],
  .coef 0 [393] .angle .lu [0,2,0,2] 20 .ph [0,2,0,2],
  .coef 0 [394] .angle .lu [0,2,2,0] 20 .ph [0,2,2,0],
  .coef 0 [395] .angle .lu [0,2,1,0] 20 .ph [0,2,1,0],
  .coef 0 [396] .angle .lu [0,2,1,1] 20 .ph [0,2,1,1],
  .coef 0 [397] .angle .lu [0,2,2,1] 20 .ph [0,2,2,1],
  .coef 0 [398] .angle .lu [0,2,1,2] 20 .ph [0,2,1,2],
  .coef 0 [399] .angle .lu [0,2,2,2] 20 .ph [0,2,2,2],
  .coef 0 [400] .angle .lu [1,1,0,1] 20 .ph [1,1,0,1],
  .coef 0 [401] .angle .lu [1,1,0,2] 20 .ph [1,1,0,2],
  .coef 0 [402] .angle .lu [1,1,1,2] 20 .ph [1,1,1,2],
  .coef 0 [403] .angle .lu [1,2,0,0] 20 .ph [1,2,0,0],
  .coef 0 [404] .angle .lu [1,2,0,1] 20 .ph [1,2,0,1],
  .coef 0 [405] .angle .lu [1,2,0,2] 20 .ph [1,2,0,2],
  .coef 0 [406] .angle .lu [1,2,1,0] 20 .ph [1,2,1,0],
  .coef 0 [407] .angle .lu [1,2,1,1] 20 .ph [1,2,1,1],
  .coef 0 [408] .angle .lu [1,2,1,2] 20 .ph [1,2,1,2],
  .coef 0 [409] .angle .lu [1,2,2,0] 20 .ph [1,2,2,0],
  .coef 0 [410] .angle .lu [1,2,2,1] 20 .ph [1,2,2,1],
  .coef 0 [411] .angle .lu [1,2,2,2] 20 .ph [1,2,2,2],
  .coef 0 [412] .angle .lu [2,2,0,1] 20 .ph [2,2,0,1],
  .coef 0 [413] .angle .lu [2,2,0,2] 20 .ph [2,2,0,2],
  .coef 0 [414] .angle .lu [2,2,1,2] 20 .ph [2,2,1,2],
  .coef 0 [415] .angle .ld [0,0,0,1] 21 .ph [0,0,0,1],
  .coef 0 [416] .angle .ld [0,0,0,2] 21 .ph [0,0,0,2],
  .coef 0 [417] .angle .ld [0,0,1,2] 21 .ph [0,0,1,2],
  .coef 0 [418] .angle .ld [0,1,0,0] 21 .ph [0,1,0,0],
  .coef 0 [419] .angle .ld [0,1,0,1] 21 .ph [0,1,0,1],
  .coef 0 [420] .angle .ld [0,1,1,0] 21 .ph [0,1,1,0],
  .coef 0 [421] .angle .ld [0,1,0,2] 21 .ph [0,1,0,2],
  .coef 0 [422] .angle .ld [0,1,2,0] 21 .ph [0,1,2,0],
  .coef 0 [423] .angle .ld [0,1,1,1] 21 .ph [0,1,1,1],
  .coef 0 [424] .angle .ld [0,1,1,2] 21 .ph [0,1,1,2],
  .coef 0 [425] .angle .ld [0,1,2,1] 21 .ph [0,1,2,1],
  .coef 0 [426] .angle .ld [0,1,2,2] 21 .ph [0,1,2,2],
  .coef 0 [427] .angle .ld [0,2,0,0] 21 .ph [0,2,0,0],
  .coef 0 [428] .angle .ld [0,2,0,1] 21 .ph [0,2,0,1],
  .coef 0 [429] .angle .ld [0,2,0,2] 21 .ph [0,2,0,2],
  .coef 0 [430] .angle .ld [0,2,2,0] 21 .ph [0,2,2,0],
  .coef 0 [431] .angle .ld [0,2,1,0] 21 .ph [0,2,1,0],
  .coef 0 [432] .angle .ld [0,2,1,1] 21 .ph [0,2,1,1],
  .coef 0 [433] .angle .ld [0,2,2,1] 21 .ph [0,2,2,1],
  .coef 0 [434] .angle .ld [0,2,1,2] 21 .ph [0,2,1,2],
  .coef 0 [435] .angle .ld [0,2,2,2] 21 .ph [0,2,2,2],
  .coef 0 [436] .angle .ld [1,1,0,1] 21 .ph [1,1,0,1],
  .coef 0 [437] .angle .ld [1,1,0,2] 21 .ph [1,1,0,2],
  .coef 0 [438] .angle .ld [1,1,1,2] 21 .ph [1,1,1,2],
  .coef 0 [439] .angle .ld [1,2,0,0] 21 .ph [1,2,0,0],
  .coef 0 [440] .angle .ld [1,2,0,1] 21 .ph [1,2,0,1],
  .coef 0 [441] .angle .ld [1,2,0,2] 21 .ph [1,2,0,2],
  .coef 0 [442] .angle .ld [1,2,1,0] 21 .ph [1,2,1,0],
  .coef 0 [443] .angle .ld [1,2,1,1] 21 .ph [1,2,1,1],
  .coef 0 [444] .angle .ld [1,2,1,2] 21 .ph [1,2,1,2],
  .coef 0 [445] .angle .ld [1,2,2,0] 21 .ph [1,2,2,0],
  .coef 0 [446] .angle .ld [1,2,2,1] 21 .ph [1,2,2,1],
  .coef 0 [447] .angle .ld [1,2,2,2] 21 .ph [1,2,2,2],
  .coef 0 [448] .angle .ld [2,2,0,1] 21 .ph [2,2,0,1],
  .coef 0 [449] .angle .ld [2,2,0,2] 21 .ph [2,2,0,2],
  .coef 0 [450] .angle .ld [2,2,1,2] 21 .ph [2,2,1,2],
  .coef 0 [451] .angle .qe [0,0,0,1] 22 .ph [0,0,0,1],
  .coef 0 [452] .angle .qe [0,0,0,2] 22 .ph [0,0,0,2],
  .coef 0 [453] .angle .qe [0,0,1,2] 22 .ph [0,0,1,2],
  .coef 0 [454] .angle .qe [0,1,0,0] 22 .ph [0,1,0,0],
  .coef 0 [455] .angle .qe [0,1,0,1] 22 .ph [0,1,0,1],
  .coef 0 [456] .angle .qe [0,1,1,0] 22 .ph [0,1,1,0],
  .coef 0 [457] .angle .qe [0,1,0,2] 22 .ph [0,1,0,2],
  .coef 0 [458] .angle .qe [0,1,2,0] 22 .ph [0,1,2,0],
  .coef 0 [459] .angle .qe [0,1,1,1] 22 .ph [0,1,1,1],
  .coef 0 [460] .angle .qe [0,1,1,2] 22 .ph [0,1,1,2],
  .coef 0 [461] .angle .qe [0,1,2,1] 22 .ph [0,1,2,1],
  .coef 0 [462] .angle .qe [0,1,2,2] 22 .ph [0,1,2,2],
  .coef 0 [463] .angle .qe [0,2,0,0] 22 .ph [0,2,0,0],
  .coef 0 [464] .angle .qe [0,2,0,1] 22 .ph [0,2,0,1],
  .coef 0 [465] .angle .qe [0,2,0,2] 22 .ph [0,2,0,2],
  .coef 0 [466] .angle .qe [0,2,2,0] 22 .ph [0,2,2,0],
  .coef 0 [467] .angle .qe [0,2,1,0] 22 .ph [0,2,1,0],
  .coef 0 [468] .angle .qe [0,2,1,1] 22 .ph [0,2,1,1],
  .coef 0 [469] .angle .qe [0,2,2,1] 22 .ph [0,2,2,1],
  .coef 0 [470] .angle .qe [0,2,1,2] 22 .ph [0,2,1,2],
  .coef 0 [471] .angle .qe [0,2,2,2] 22 .ph [0,2,2,2],
  .coef 0 [472] .angle .qe [1,1,0,1] 22 .ph [1,1,0,1],
  .coef 0 [473] .angle .qe [1,1,0,2] 22 .ph [1,1,0,2],
  .coef 0 [474] .angle .qe [1,1,1,2] 22 .ph [1,1,1,2],
  .coef 0 [475] .angle .qe [1,2,0,0] 22 .ph [1,2,0,0],
  .coef 0 [476] .angle .qe [1,2,0,1] 22 .ph [1,2,0,1],
  .coef 0 [477] .angle .qe [1,2,0,2] 22 .ph [1,2,0,2],
  .coef 0 [478] .angle .qe [1,2,1,0] 22 .ph [1,2,1,0],
  .coef 0 [479] .angle .qe [1,2,1,1] 22 .ph [1,2,1,1],
  .coef 0 [480] .angle .qe [1,2,1,2] 22 .ph [1,2,1,2],
  .coef 0 [481] .angle .qe [1,2,2,0] 22 .ph [1,2,2,0],
  .coef 0 [482] .angle .qe [1,2,2,1] 22 .ph [1,2,2,1],
  .coef 0 [483] .angle .qe [1,2,2,2] 22 .ph [1,2,2,2],
  .coef 0 [484] .angle .qe [2,2,0,1] 22 .ph [2,2,0,1],
  .coef 0 [485] .angle .qe [2,2,0,2] 22 .ph [2,2,0,2],
  .coef 0 [486] .angle .qe [2,2,1,2] 22 .ph [2,2,1,2],
  .coef 0 [487] .angle .qu1 [0,0,0,1] 23 .ph [0,0,0,1],
  .coef 0 [488] .angle .qu1 [0,0,0,2] 23 .ph [0,0,0,2],
  .coef 0 [489] .angle .qu1 [0,0,1,2] 23 .ph [0,0,1,2],
  .coef 0 [490] .angle .qu1 [0,1,0,0] 23 .ph [0,1,0,0],
  .coef 0 [491] .angle .qu1 [0,1,0,1] 23 .ph [0,1,0,1],
  .coef 0 [492] .angle .qu1 [0,1,1,0] 23 .ph [0,1,1,0],
  .coef 0 [493] .angle .qu1 [0,1,0,2] 23 .ph [0,1,0,2],
  .coef 0 [494] .angle .qu1 [0,1,2,0] 23 .ph [0,1,2,0],
  .coef 0 [495] .angle .qu1 [0,1,1,1] 23 .ph [0,1,1,1],
  .coef 0 [496] .angle .qu1 [0,1,1,2] 23 .ph [0,1,1,2],
  .coef 0 [497] .angle .qu1 [0,1,2,1] 23 .ph [0,1,2,1],
  .coef 0 [498] .angle .qu1 [0,1,2,2] 23 .ph [0,1,2,2],
  .coef 0 [499] .angle .qu1 [0,2,0,0] 23 .ph [0,2,0,0],
  .coef 0 [500] .angle .qu1 [0,2,0,1] 23 .ph [0,2,0,1]]

/-- `smeftsim.py:605-729` -/
def rowsA4 : List Row := [
  .coef 0 [501] .angle .qu1 [0,2,0,2] 23 .ph [0,2,0,2],
  .coef 0 [502] .angle .qu1 [0,2,2,0] 23 .ph [0,2,2,0],
  .coef 0 [503] .angle .qu1 [0,2,1,0] 23 .ph [0,2,1,0],
  .coef 0 [504] .angle .qu1 [0,2,1,1] 23 .ph [0,2,1,1],
  .coef 0 [505] .angle .qu1 [0,2,2,1] 23 .ph [0,2,2,1],
  .coef 0 [506] .angle .qu1 [0,2,1,2] 23 .ph [0,2,1,2],
  .coef 0 [507] .angle .qu1 [0,2,2,2] 23 .ph [0,2,2,2],
  .coef 0 [508] .angle .qu1 [1,1,0,1] 23 .ph [1,1,0,1],
  .coef 0 [509] .angle .qu1 [1,1,0,2] 23 .ph [1,1,0,2],
  .coef 0 [510] .angle .qu1 [1,1,1,2] 23 .ph [1,1,1,2],
  .coef 0 [511] .angle .qu1 [1,2,0,0] 23 .ph [1,2,0,0],
  .coef 0 [512] .angle .qu1 [1,2,0,1] 23 .ph [1,2,0,1],
  .coef 0 [513] .angle .qu1 [1,2,0,2] 23 .ph [1,2,0,2],
  .coef 0 [514] .angle .qu1 [1,2,1,0] 23 .ph [1,2,1,0],
  .coef 0 [515] .angle .qu1 [1,2,1,1] 23 .ph [1,2,1,1],
  .coef 0 [516] .angle .qu1 [1,2,1,2] 23 .ph [1,2,1,2],
  .coef 0 [517] .angle .qu1 [1,2,2,0] 23 .ph [1,2,2,0],
  .coef 0 [518] .angle .qu1 [1,2,2,1] 23 .ph [1,2,2,1],
  .coef 0 [519] .angle .qu1 [1,2,2,2] 23 .ph [1,2,2,2],
  .coef 0 [520] .angle .qu1 [2,2,0,1] 23 .ph [2,2,0,1],
  .coef 0 [521] .angle .qu1 [2,2,0,2] 23 .ph [2,2,0,2],
  .coef 0 [522] .angle .qu1 [2,2,1,2] 23 .ph [2,2,1,2],
  .coef 0 [523] .angle .qd1 [0,0,0,1] 24 .ph [0,0,0,1],
  .coef 0 [524] .angle .qd1 [0,0,0,2] 24 .ph [0,0,0,2],
  .coef 0 [525] .angle .qd1 [0,0,1,2] 24 .ph [0,0,1,2],
  .coef 0 [526] .angle .qd1 [0,1,0,0] 24 .ph [0,1,0,0],
  .coef 0 [527] .angle .qd1 [0,1,0,1] 24 .ph [0,1,0,1],
  .coef 0 [528] .angle .qd1 [0,1,1,0] 24 .ph [0,1,1,0],
  .coef 0 [529] .angle .qd1 [0,1,0,2] 24 .ph [0,1,0,2],
  .coef 0 [530] .angle .qd1 [0,1,2,0] 24 .ph [0,1,2,0],
  .coef 0 [531] .angle .qd1 [0,1,1,1] 24 .ph [0,1,1,1],
  .coef 0 [532] .angle .qd1 [0,1,1,2] 24 .ph [0,1,1,2],
  .coef 0 [533] .angle .qd1 [0,1,2,1] 24 .ph [0,1,2,1],
  .coef 0 [534] .angle .qd1 [0,1,2,2] 24 .ph [0,1,2,2],
  .coef 0 [535] .angle .qd1 [0,2,0,0] 24 .ph [0,2,0,0],
  .coef 0 [536] .angle .qd1 [0,2,0,1] 24 .ph [0,2,0,1],
  .coef 0 [537] .angle .qd1 [0,2,0,2] 24 .ph [0,2,0,2],
  .coef 0 [538] .angle .qd1 [0,2,2,0] 24 .ph [0,2,2,0],
  .coef 0 [539] .angle .qd1 [0,2,1,0] 24 .ph [0,2,1,0],
  .coef 0 [540] .angle .qd1 [0,2,1,1] 24 .ph [0,2,1,1],
  .coef 0 [541] .angle .qd1 [0,2,2,1] 24 .ph [0,2,2,1],
  .coef 0 [542] .angle .qd1 [0,2,1,2] 24 .ph [0,2,1,2],
  .coef 0 [543] .angle .qd1 [0,2,2,2] 24 .ph [0,2,2,2],
  .coef 0 [544] .angle .qd1 [1,1,0,1] 24 .ph [1,1,0,1],
  .coef 0 [545] .angle .qd1 [1,1,0,2] 24 .ph [1,1,0,2],
  .coef 0 [546] .angle .qd1 [1,1,1,2] 24 .ph [1,1,1,2],
  .coef 0 [547] .angle .qd1 [1,2,0,0] 24 .ph [1,2,0,0],
  .coef 0 [548] .angle .qd1 [1,2,0,1] 24 .ph [1,2,0,1],
  .coef 0 [549] .angle .qd1 [1,2,0,2] 24 .ph [1,2,0,2],
  .coef 0 [550] .angle .qd1 [1,2,1,0] 24 .ph [1,2,1,0],
  .coef 0 [551] .angle .qd1 [1,2,1,1] 24 .ph [1,2,1,1],
  .coef 0 [552] .angle .qd1 [1,2,1,2] 24 .ph [1,2,1,2],
  .coef 0 [553] .angle .qd1 [1,2,2,0] 24 .ph [1,2,2,0],
  .coef 0 [554] .angle .qd1 [1,2,2,1] 24 .ph [1,2,2,1],
  .coef 0 [555] .angle .qd1 [1,2,2,2] 24 .ph [1,2,2,2],
  .coef 0 [556] .angle .qd1 [2,2,0,1] 24 .ph [2,2,0,1],
  .coef 0 [557] .angle .qd1 [2,2,0,2] 24 .ph [2,2,0,2],
  .coef 0 [558] .angle .qd1 [2,2,1,2] 24 .ph [2,2,1,2],
  .coef 0 [559] .angle .qu8 [0,0,0,1] 25 .ph [0,0,0,1],
  .coef 0 [560] .angle .qu8 [0,0,0,2] 25 .ph [0,0,0,2],
  .coef 0 [561] .angle .qu8 [0,0,1,2] 25 .ph [0,0,1,2],
  .coef 0 [562] .angle .qu8 [0,1,0,0] 25 .ph [0,1,0,0],
  .coef 0 [563] .angle .qu8 [0,1,0,1] 25 .ph [0,1,0,1],
  .coef 0 [564] .angle .qu8 [0,1,1,0] 25 .ph [0,1,1,0],
  .coef 0 [565] .angle .qu8 [0,1,0,2] 25 .ph [0,1,0,2],
  .coef 0 [566] .angle .qu8 [0,1,2,0] 25 .ph [0,1,2,0],
  .coef 0 [567] .angle .qu8 [0,1,1,1] 25 .ph [0,1,1,1],
  .coef 0 [568] .angle .qu8 [0,1,1,2] 25 .ph [0,1,1,2],
  .coef 0 [569] .angle .qu8 [0,1,2,1] 25 .ph [0,1,2,1],
  .coef 0 [570] .angle .qu8 [0,1,2,2] 25 .ph [0,1,2,2],
  .coef 0 [571] .angle .qu8 [0,2,0,0] 25 .ph [0,2,0,0],
  .coef 0 [572] .angle .qu8 [0,2,0,1] 25 .ph [0,2,0,1],
  .coef 0 [573] .angle .qu8 [0,2,0,2] 25 .ph [0,2,0,2],
  .coef 0 [574] .angle .qu8 [0,2,2,0] 25 .ph [0,2,2,0],
  .coef 0 [575] .angle .qu8 [0,2,1,0] 25 .ph [0,2,1,0],
  .coef 0 [576] .angle .qu8 [0,2,1,1] 25 .ph [0,2,1,1],
  .coef 0 [577] .angle .qu8 [0,2,2,1] 25 .ph [0,2,2,1],
  .coef 0 [578] .angle .qu8 [0,2,1,2] 25 .ph [0,2,1,2],
  .coef 0 [579] .angle .qu8 [0,2,2,2] 25 .ph [0,2,2,2],
  .coef 0 [580] .angle .qu8 [1,1,0,1] 25 .ph [1,1,0,1],
  .coef 0 [581] .angle .qu8 [1,1,0,2] 25 .ph [1,1,0,2],
  .coef 0 [582] .angle .qu8 [1,1,1,2] 25 .ph [1,1,1,2],
  .coef 0 [583] .angle .qu8 [1,2,0,0] 25 .ph [1,2,0,0],
  .coef 0 [584] .angle .qu8 [1,2,0,1] 25 .ph [1,2,0,1],
  .coef 0 [585] .angle .qu8 [1,2,0,2] 25 .ph [1,2,0,2],
  .coef 0 [586] .angle .qu8 [1,2,1,0] 25 .ph [1,2,1,0],
  .coef 0 [587] .angle .qu8 [1,2,1,1] 25 .ph [1,2,1,1],
  .coef 0 [588] .angle .qu8 [1,2,1,2] 25 .ph [1,2,1,2],
  .coef 0 [589] .angle .qu8 [1,2,2,0] 25 .ph [1,2,2,0],
  .coef 0 [590] .angle .qu8 [1,2,2,1] 25 .ph [1,2,2,1],
  .coef 0 [591] .angle .qu8 [1,2,2,2] 25 .ph [1,2,2,2],
  .coef 0 [592] .angle .qu8 [2,2,0,1] 25 .ph [2,2,0,1],
  .coef 0 [593] .angle .qu8 [2,2,0,2] 25 .ph [2,2,0,2],
  .coef 0 [594] .angle .qu8 [2,2,1,2] 25 .ph [2,2,1,2],
  .coef 0 [595] .angle .qd8 [0,0,0,1] 26 .ph [0,0,0,1],
  .coef 0 [596] .angle .qd8 [0,0,0,2] 26 .ph [0,0,0,2],
  .coef 0 [597] .angle .qd8 [0,0,1,2] 26 .ph [0,0,1,2],
  .coef 0 [598] .angle .qd8 [0,1,0,0] 26 .ph [0,1,0,0],
  .coef 0 [599] .angle .qd8 [0,1,0,1] 26 .ph [0,1,0,1],
  .coef 0 [600] .angle .qd8 [0,1,1,0] 26 .ph [0,1,1,0],
  .coef 0 [601] .angle .qd8 [0,1,0,2] 26 .ph [0,1,0,2],
  .coef 0 [602] .angle .qd8 [0,1,2,0] 26 .ph [0,1,2,0],
  .coef 0 [603] .angle .qd8 [0,1,1,1] 26 .ph [0,1,1,1],
  .coef 0 [604] .angle .qd8 [0,1,1,2] 26 .ph [0,1,1,2],
  .coef 0 [605] .angle .qd8 [0,1,2,1] 26 .ph [0,1,2,1],
  .coef 0 [606] .angle .qd8 [0,1,2,2] 26 .ph [0,1,2,2],
  .coef 0 [607] .angle .qd8 [0,2,0,0] 26 .ph [0,2,0,0],
  .coef 0 [608] .angle .qd8 [0,2,0,1] 26 .ph [0,2,0,1],
  .coef 0 [609] .angle .qd8 [0,2,0,2] 26 .ph [0,2,0,2],
  .coef 0 [610] .angle .qd8 [0,2,2,0] 26 .ph [0,2,2,0],
  .coef 0 [611] .angle .qd8 [0,2,1,0] 26 .ph [0,2,1,0],
  .coef 0 [612] .angle .qd8 [0,2,1,1] 26 .ph [0,2,1,1],
  .coef 0 [613] .angle .qd8 [0,2,2,1] 26 .ph [0,2,2,1],
  .coef 0 [614] .angle .qd8 [0,2,1,2] 26 .ph [0,2,1,2],
  .coef 0 [615] .angle .qd8 [0,2,2,2] 26 .ph [0,2,2,2],
  .coef 0 [616] .angle .qd8 [1,1,0,1] 26 .ph [1,1,0,1],
  .coef 0 [617] .angle .qd8 [1,1,0,2] 26 .ph [1,1,0,2],
  .coef 0 [618] .angle .qd8 [1,1,1,2] 26 .ph [1,1,1,2],
  .coef 0 [619] .angle .qd8 [1,2,0,0] 26 .ph [1,2,0,0],
  .coef 0 [620] .angle .qd8 [1,2,0,1] 26 .ph [1,2,0,1],
  .coef 0 [621] .angle .qd8 [1,2,0,2] 26 .ph [1,2,0,2],
  .coef 0 [622] .angle .qd8 [1,2,1,0] 26 .ph [1,2,1,0],
  .coef 0 [623] .angle .qd8 [1,2,1,1] 26 .ph [1,2,1,1],
  .coef 0 [624] .angle .qd8 [1,2,1,2] 26 .ph [1,2,1,2],
  .coef 0 [625] .angle .qd8 [1,2,2,0] 26 .ph [1,2,2,0]]

/-- `smeftsim.py:730-854` -/
def rowsA5 : List Row := [
  .coef 0 [626] .angle .qd8 [1,2,2,1] 26 .ph [1,2,2,1],
  .coef 0 [627] .angle .qd8 [1,2,2,2] 26 .ph [1,2,2,2],
  .coef 0 [628] .angle .qd8 [2,2,0,1] 26 .ph [2,2,0,1],
  .coef 0 [629] .angle .qd8 [2,2,0,2] 26 .ph [2,2,0,2],
  .coef 0 [630] .angle .qd8 [2,2,1,2] 26 .ph [2,2,1,2],
  .cutoff 0 [631],
  .coef 0 [632] .plain .G [] 27 .none [],
  .coef 0 [633] .plain .Gtilde [] 28 .none [],
  .coef 0 [634] .plain .W [] 29 .none [],
  .coef 0 [635] .plain .Wtilde [] 30 .none [],
  .coef 0 [636] .plain .phi [] 31 .none [],
  .coef 0 [637] .plain .phiBox [] 32 .none [],
  .coef 0 [638] .plain .phiD [] 33 .none [],
  .coef 0 [639] .plain .phiG [] 34 .none [],
  .coef 0 [640] .plain .phiGtilde [] 35 .none [],
  .coef 0 [641] .plain .phiW [] 36 .none [],
  .coef 0 [642] .plain .phiWtilde [] 37 .none [],
  .coef 0 [643] .plain .phiB [] 38 .none [],
  .coef 0 [644] .plain .phiBtilde [] 39 .none [],
  .coef 0 [645] .plain .phiWB [] 40 .none [],
  .coef 0 [646] .plain .phiWtildeB [] 41 .none [],
  .coef 0 [647] .abs .phil1 [0,0] 0 .abs [0,0],
  .coef 0 [648] .abs .phil1 [0,1] 0 .abs [0,1],
  .coef 0 [649] .abs .phil1 [0,2] 0 .abs [0,2],
  .coef 0 [650] .abs .phil1 [1,1] 0 .abs [1,1],
  .coef 0 [651] .abs .phil1 [1,2] 0 .abs [1,2],
  .coef 0 [652] .abs .phil1 [2,2] 0 .abs [2,2],
  .coef 0 [653] .abs .phil3 [0,0] 1 .abs [0,0],
  .coef 0 [654] .abs .phil3 [0,1] 1 .abs [0,1],
  .coef 0 [655] .abs .phil3 [0,2] 1 .abs [0,2],
  .coef 0 [656] .abs .phil3 [1,1] 1 .abs [1,1],
  .coef 0 [657] .abs .phil3 [1,2] 1 .abs [1,2],
  .coef 0 [658] .abs .phil3 [2,2] 1 .abs [2,2],
  .coef 0 [659] .abs .phiq1 [0,0] 3 .abs [0,0],
  .coef 0 [660] .abs .phiq1 [0,1] 3 .abs [0,1],
  .coef 0 [661] .abs .phiq1 [0,2] 3 .abs [0,2],
  .coef 0 [662] .abs .phiq1 [1,1] 3 .abs [1,1],
  .coef 0 [663] .abs .phiq1 [1,2] 3 .abs [1,2],
  .coef 0 [664] .abs .phiq1 [2,2] 3 .abs [2,2],
  .coef 0 [665] .abs .phiq3 [0,0] 4 .abs [0,0],
  .coef 0 [666] .abs .phiq3 [0,1] 4 .abs [0,1],
  .coef 0 [667] .abs .phiq3 [0,2] 4 .abs [0,2],
  .coef 0 [668] .abs .phiq3 [1,1] 4 .abs [1,1],
  .coef 0 [669] .abs .phiq3 [1,2] 4 .abs [1,2],
  .coef 0 [670] .abs .phiq3 [2,2] 4 .abs [2,2],
  .coef 0 [671] .abs .phie [0,0] 2 .abs [0,0],
  .coef 0 [672] .abs .phie [0,1] 2 .abs [0,1],
  .coef 0 [673] .abs .phie [0,2] 2 .abs [0,2],
  .coef 0 [674] .abs .phie [1,1] 2 .abs [1,1],
  .coef 0 [675] .abs .phie [1,2] 2 .abs [1,2],
  .coef 0 [676] .abs .phie [2,2] 2 .abs [2,2],
  .coef 0 [677] .abs .phiu [0,0] 5 .abs [0,0],
  .coef 0 [678] .abs .phiu [0,1] 5 .abs [0,1],
  .coef 0 [679] .abs .phiu [0,2] 5 .abs [0,2],
  .coef 0 [680] .abs .phiu [1,1] 5 .abs [1,1],
  .coef 0 [681] .abs .phiu [1,2] 5 .abs [1,2],
  .coef 0 [682] .abs .phiu [2,2] 5 .abs [2,2],
  .coef 0 [683] .abs .phid [0,0] 6 .abs [0,0],
  .coef 0 [684] .abs .phid [0,1] 6 .abs [0,1],
  .coef 0 [685] .abs .phid [0,2] 6 .abs [0,2],
  .coef 0 [686] .abs .phid [1,1] 6 .abs [1,1],
  .coef 0 [687] .abs .phid [1,2] 6 .abs [1,2],
  .coef 0 [688] .abs .phid [2,2] 6 .abs [2,2],
  .coef 0 [689] .plain .ll [0,0,0,0] 7 .abs [0,0,0,0],
  .coef 0 [690] .plain .ll [0,0,1,1] 7 .abs [0,0,1,1],
  .coef 0 [691] .plain .ll [0,1,1,0] 7 .abs [0,1,1,0],
  .coef 0 [692] .plain .ll [0,0,2,2] 7 .abs [0,0,2,2],
  .coef 0 [693] .plain .ll [0,2,2,0] 7 .abs [0,2,2,0],
  .coef 0 [694] .plain .ll [1,1,1,1] 7 .abs [1,1,1,1],
  .coef 0 [695] .plain .ll [1,1,2,2] 7 .abs [1,1,2,2],
  .coef 0 [696] .plain .ll [1,2,2,1] 7 .abs [1,2,2,1],
  .coef 0 [697] .plain .ll [2,2,2,2] 7 .abs [2,2,2,2],
  .coef 0 [698] .abs .ll [0,0,0,1] 7 .abs [0,0,0,1],
  .coef 0 [699] .abs .ll [0,0,0,2] 7 .abs [0,0,0,2],
  .coef 0 [700] .abs .ll [0,0,1,2] 7 .abs [0,0,1,2],
  .coef 0 [701] .abs .ll [0,1,0,1] 7 .abs [0,1,0,1],
  .coef 0 [702] .abs .ll [0,1,0,2] 7 .abs [0,1,0,2],
  .coef 0 [703] .abs .ll [0,1,2,0] 7 .abs [0,1,2,0],
  .coef 0 [704] .abs .ll [0,1,1,1] 7 .abs [0,1,1,1],
  .coef 0 [705] .abs .ll [0,1,1,2] 7 .abs [0,1,1,2],
  .coef 0 [706] .abs .ll [0,1,2,1] 7 .abs [0,1,2,1],
  .coef 0 [707] .abs .ll [0,1,2,2] 7 .abs [0,1,2,2],
  .coef 0 [708] .abs .ll [0,2,0,2] 7 .abs [0,2,0,2],
  .coef 0 [709] .abs .ll [0,2,1,1] 7 .abs [0,2,1,1],
  .coef 0 [710] .abs .ll [0,2,2,1] 7 .abs [0,2,2,1],
  .coef 0 [711] .abs .ll [0,2,1,2] 7 .abs [0,2,1,2],
  .coef 0 [712] .abs .ll [0,2,2,2] 7 .abs [0,2,2,2],
  .coef 0 [713] .abs .ll [1,1,1,2] 7 .abs [1,1,1,2],
  .coef 0 [714] .abs .ll [1,2,1,2] 7 .abs [1,2,1,2],
  .coef 0 [715] .abs .ll [1,2,2,2] 7 .abs [2,2,1,2],
  .coef 0 [716] .plain .qq1 [0,0,0,0] 8 .abs [0,0,0,0],
  .coef 0 [717] .plain .qq1 [0,0,1,1] 8 .abs [0,0,1,1],
  .coef 0 [718] .plain .qq1 [0,1,1,0] 8 .abs [0,1,1,0],
  .coef 0 [719] .plain .qq1 [0,0,2,2] 8 .abs [0,0,2,2],
  .coef 0 [720] .plain .qq1 [0,2,2,0] 8 .abs [0,2,2,0],
  .coef 0 [721] .plain .qq1 [1,1,1,1] 8 .abs [1,1,1,1],
  .coef 0 [722] .plain .qq1 [1,1,2,2] 8 .abs [1,1,2,2],
  .coef 0 [723] .plain .qq1 [1,2,2,1] 8 .abs [1,2,2,1],
  .coef 0 [724] .plain .qq1 [2,2,2,2] 8 .abs [2,2,2,2],
  .coef 0 [725] .abs .qq1 [0,0,0,1] 8 .abs [0,0,0,1],
  .coef 0 [726] .abs .qq1 [0,0,0,2] 8 .abs [0,0,0,2],
  .coef 0 [727] .abs .qq1 [0,0,1,2] 8 .abs [0,0,1,2],
  .coef 0 [728] .abs .qq1 [0,1,0,1] 8 .abs [0,1,0,1],
  .coef 0 [729] .abs .qq1 [0,1,0,2] 8 .abs [0,1,0,2],
  .coef 0 [730] .abs .qq1 [0,1,2,0] 8 .abs [0,1,2,0],
  .coef 0 [731] .abs .qq1 [0,1,1,1] 8 .abs [0,1,1,1],
  .coef 0 [732] .abs .qq1 [0,1,1,2] 8 .abs [0,1,1,2],
  .coef 0 [733] .abs .qq1 [0,1,2,1] 8 .abs [0,1,2,1],
  .coef 0 [734] .abs .qq1 [0,1,2,2] 8 .abs [0,1,2,2],
  .coef 0 [735] .abs .qq1 [0,2,0,2] 8 .abs [0,2,0,2],
  .coef 0 [736] .abs .qq1 [0,2,1,1] 8 .abs [0,2,1,1],
  .coef 0 [737] .abs .qq1 [0,2,2,1] 8 .abs [0,2,2,1],
  .coef 0 [738] .abs .qq1 [0,2,1,2] 8 .abs [0,2,1,2],
  .coef 0 [739] .abs .qq1 [0,2,2,2] 8 .abs [0,2,2,2],
  .coef 0 [740] .abs .qq1 [1,1,1,2] 8 .abs [1,1,1,2],
  .coef 0 [741] .abs .qq1 [1,2,1,2] 8 .abs [1,2,1,2],
  .coef 0 [742] .abs .qq1 [1,2,2,2] 8 .abs [2,2,1,2],
  .coef 0 [743] .plain .qq3 [0,0,0,0] 9 .abs [0,0,0,0],
  .coef 0 [744] .plain .qq3 [0,0,1,1] 9 .abs [0,0,1,1],
  .coef 0 [745] .plain .qq3 [0,1,1,0] 9 .abs [0,1,1,0],
  .coef 0 [746] .plain .qq3 [0,0,2,2] 9 .abs [0,0,2,2],
  .coef 0 [747] .plain .qq3 [0,2,2,0] 9 .abs [0,2,2,0],
  .coef 0 [748] .plain .qq3 [1,1,1,1] 9 .abs [1,1,1,1],
  .coef 0 [749] .plain .qq3 [1,1,2,2] 9 .abs [1,1,2,2],
  .coef 0 [750] .plain .qq3 [1,2,2,1] 9 .abs [1,2,2,1]]

/-- `smeftsim.py:855-979` -/
def rowsA6 : List Row := [
  .coef 0 [751] .plain .qq3 [2,2,2,2] 9 .abs [2,2,2,2],
  .coef 0 [752] .abs .qq3 [0,0,0,1] 9 .abs [0,0,0,1],
  .coef 0 [753] .abs .qq3 [0,0,0,2] 9 .abs [0,0,0,2],
  .coef 0 [754] .abs .qq3 [0,0,1,2] 9 .abs [0,0,1,2],
  .coef 0 [755] .abs .qq3 [0,1,0,1] 9 .abs [0,1,0,1],
  .coef 0 [756] .abs .qq3 [0,1,0,2] 9 .abs [0,1,0,2],
  .coef 0 [757] .abs .qq3 [0,1,2,0] 9 .abs [0,1,2,0],
  .coef 0 [758] .abs .qq3 [0,1,1,1] 9 .abs [0,1,1,1],
  .coef 0 [759] .abs .qq3 [0,1,1,2] 9 .abs [0,1,1,2],
  .coef 0 [760] .abs .qq3 [0,1,2,1] 9 .abs [0,1,2,1],
  .coef 0 [761] .abs .qq3 [0,1,2,2] 9 .abs [0,1,2,2],
  .coef 0 [762] .abs .qq3 [0,2,0,2] 9 .abs [0,2,0,2],
  .coef 0 [763] .abs .qq3 [0,2,1,1] 9 .abs [0,2,1,1],
  .coef 0 [764] .abs .qq3 [0,2,2,1] 9 .abs [0,2,2,1],
  .coef 0 [765] .abs .qq3 [0,2,1,2] 9 .abs [0,2,1,2],
  .coef 0 [766] .abs .qq3 [0,2,2,2] 9 .abs [0,2,2,2],
  .coef 0 [767] .abs .qq3 [1,1,1,2] 9 .abs [1,1,1,2],
  .coef 0 [768] .abs .qq3 [1,2,1,2] 9 .abs [1,2,1,2],
  .coef 0 [769] .abs .qq3 [1,2,2,2] 9 .abs [2,2,1,2],
  .coef 0 [770] .plain .lq1 [0,0,0,0] 13 .abs [0,0,0,0],
  .coef 0 [771] .abs .lq1 [0,0,0,1] 13 .abs [0,0,0,1],
  .coef 0 [772] .abs .lq1 [0,0,0,2] 13 .abs [0,0,0,2],
  .coef 0 [773] .abs .lq1 [0,0,1,2] 13 .abs [0,0,1,2],
  .coef 0 [774] .plain .lq1 [0,0,1,1] 13 .abs [0,0,1,1],
  .coef 0 [775] .plain .lq1 [0,0,2,2] 13 .abs [0,0,2,2],
  .coef 0 [776] .abs .lq1 [0,1,0,0] 13 .abs [0,1,0,0],
  .coef 0 [777] .abs .lq1 [0,1,0,1] 13 .abs [0,1,0,1],
  .coef 0 [778] .abs .lq1 [0,1,1,0] 13 .abs [0,1,1,0],
  .coef 0 [779] .abs .lq1 [0,1,0,2] 13 .abs [0,1,0,2],
  .coef 0 [780] .abs .lq1 [0,1,2,0] 13 .abs [0,1,2,0],
  .coef 0 [781] .abs .lq1 [0,1,1,1] 13 .abs [0,1,1,1],
  .coef 0 [782] .abs .lq1 [0,1,1,2] 13 .abs [0,1,1,2],
  .coef 0 [783] .abs .lq1 [0,1,2,1] 13 .abs [0,1,2,1],
  .coef 0 [784] .abs .lq1 [0,1,2,2] 13 .abs [0,1,2,2],
  .coef 0 [785] .abs .lq1 [0,2,0,0] 13 .abs [0,2,0,0],
  .coef 0 [786] .abs .lq1 [0,2,0,1] 13 .abs [0,2,0,1],
  .coef 0 [787] .abs .lq1 [0,2,0,2] 13 .abs [0,2,0,2],
  .coef 0 [788] .abs .lq1 [0,2,2,0] 13 .abs [0,2,2,0],
  .coef 0 [789] .abs .lq1 [0,2,1,0] 13 .abs [0,2,1,0],
  .coef 0 [790] .abs .lq1 [0,2,1,1] 13 .abs [0,2,1,1],
  .coef 0 [791] .abs .lq1 [0,2,2,1] 13 .abs [0,2,2,1],
  .coef 0 [792] .abs .lq1 [0,2,1,2] 13 .abs [0,2,1,2],
  .coef 0 [793] .abs .lq1 [0,2,2,2] 13 .abs [0,2,2,2],
  .coef 0 [794] .plain .lq1 [1,1,0,0] 13 .abs [1,1,0,0],
  .coef 0 [795] .abs .lq1 [1,1,0,1] 13 .abs [1,1,0,1],
  .coef 0 [796] .abs .lq1 [1,1,0,2] 13 .abs [1,1,0,2],
  .coef 0 [797] .plain .lq1 [1,1,1,1] 13 .abs [1,1,1,1],
  .coef 0 [798] .abs .lq1 [1,1,1,2] 13 .abs [1,1,1,2],
  .coef 0 [799] .plain .lq1 [1,1,2,2] 13 .abs [1,1,2,2],
  .coef 0 [800] .abs .lq1 [1,2,0,0] 13 .abs [1,2,0,0],
  .coef 0 [801] .abs .lq1 [1,2,0,1] 13 .abs [1,2,0,1],
  .coef 0 [802] .abs .lq1 [1,2,0,2] 13 .abs [1,2,0,2],
  .coef 0 [803] .abs .lq1 [1,2,1,0] 13 .abs [1,2,1,0],
  .coef 0 [804] .abs .lq1 [1,2,1,1] 13 .abs [1,2,1,1],
  .coef 0 [805] .abs .lq1 [1,2,1,2] 13 .abs [1,2,1,2],
  .coef 0 [806] .abs .lq1 [1,2,2,0] 13 .abs [1,2,2,0],
  .coef 0 [807] .abs .lq1 [1,2,2,1] 13 .abs [1,2,2,1],
  .coef 0 [808] .abs .lq1 [1,2,2,2] 13 .abs [1,2,2,2],
  .coef 0 [809] .plain .lq1 [2,2,0,0] 13 .abs [2,2,0,0],
  .coef 0 [810] .abs .lq1 [2,2,0,1] 13 .abs [2,2,0,1],
  .coef 0 [811] .abs .lq1 [2,2,0,2] 13 .abs [2,2,0,2],
  .coef 0 [812] .plain .lq1 [2,2,1,1] 13 .abs [2,2,1,1],
  .coef 0 [813] .plain .lq1 [2,2,2,2] 13 .abs [2,2,2,2],
  .coef 0 [814] .abs .lq1 [2,2,1,2] 13 .abs [2,2,1,2],
  .coef 0 [815] .plain .lq3 [0,0,0,0] 14 .abs [0,0,0,0],
  .coef 0 [816] .abs .lq3 [0,0,0,1] 14 .abs [0,0,0,1],
  .coef 0 [817] .abs .lq3 [0,0,0,2] 14 .abs [0,0,0,2],
  .coef 0 [818] .abs .lq3 [0,0,1,2] 14 .abs [0,0,1,2],
  .coef 0 [819] .plain .lq3 [0,0,1,1] 14 .abs [0,0,1,1],
  .coef 0 [820] .plain .lq3 [0,0,2,2] 14 .abs [0,0,2,2],
  .coef 0 [821] .abs .lq3 [0,1,0,0] 14 .abs [0,1,0,0],
  .coef 0 [822] .abs .lq3 [0,1,0,1] 14 .abs [0,1,0,1],
  .coef 0 [823] .abs .lq3 [0,1,1,0] 14 .abs [0,1,1,0],
  .coef 0 [824] .abs .lq3 [0,1,0,2] 14 .abs [0,1,0,2],
  .coef 0 [825] .abs .lq3 [0,1,2,0] 14 .abs [0,1,2,0],
  .coef 0 [826] .abs .lq3 [0,1,1,1] 14 .abs [0,1,1,1],
  .coef 0 [827] .abs .lq3 [0,1,1,2] 14 .abs [0,1,1,2],
  .coef 0 [828] .abs .lq3 [0,1,2,1] 14 .abs [0,1,2,1],
  .coef 0 [829] .abs .lq3 [0,1,2,2] 14 .abs [0,1,2,2],
  .coef 0 [830] .abs .lq3 [0,2,0,0] 14 .abs [0,2,0,0],
  .coef 0 [831] .abs .lq3 [0,2,0,1] 14 .abs [0,2,0,1],
  .coef 0 [832] .abs .lq3 [0,2,0,2] 14 .abs [0,2,0,2],
  .coef 0 [833] .abs .lq3 [0,2,2,0] 14 .abs [0,2,2,0],
  .coef 0 [834] .abs .lq3 [0,2,1,0] 14 .abs [0,2,1,0],
  .coef 0 [835] .abs .lq3 [0,2,1,1] 14 .abs [0,2,1,1],
  .coef 0 [836] .abs .lq3 [0,2,2,1] 14 .abs [0,2,2,1],
  .coef 0 [837] .abs .lq3 [0,2,1,2] 14 .abs [0,2,1,2],
  .coef 0 [838] .abs .lq3 [0,2,2,2] 14 .abs [0,2,2,2],
  .coef 0 [839] .plain .lq3 [1,1,0,0] 14 .abs [1,1,0,0],
  .coef 0 [840] .abs .lq3 [1,1,0,1] 14 .abs [1,1,0,1],
  .coef 0 [841] .abs .lq3 [1,1,0,2] 14 .abs [1,1,0,2],
  .coef 0 [842] .plain .lq3 [1,1,1,1] 14 .abs [1,1,1,1],
  .coef 0 [843] .abs .lq3 [1,1,1,2] 14 .abs [1,1,1,2],
  .coef 0 [844] .plain .lq3 [1,1,2,2] 14 .abs [1,1,2,2],
  .coef 0 [845] .abs .lq3 [1,2,0,0] 14 .abs [1,2,0,0],
  .coef 0 [846] .abs .lq3 [1,2,0,1] 14 .abs [1,2,0,1],
  .coef 0 [847] .abs .lq3 [1,2,0,2] 14 .abs [1,2,0,2],
  .coef 0 [848] .abs .lq3 [1,2,1,0] 14 .abs [1,2,1,0],
  .coef 0 [849] .abs .lq3 [1,2,1,1] 14 .abs [1,2,1,1],
  .coef 0 [850] .abs .lq3 [1,2,1,2] 14 .abs [1,2,1,2],
  .coef 0 [851] .abs .lq3 [1,2,2,0] 14 .abs [1,2,2,0],
  .coef 0 [852] .abs .lq3 [1,2,2,1] 14 .abs [1,2,2,1],
  .coef 0 [853] .abs .lq3 [1,2,2,2] 14 .abs [1,2,2,2],
  .coef 0 [854] .plain .lq3 [2,2,0,0] 14 .abs [2,2,0,0],
  .coef 0 [855] .abs .lq3 [2,2,0,1] 14 .abs [2,2,0,1],
  .coef 0 [856] .abs .lq3 [2,2,0,2] 14 .abs [2,2,0,2],
  .coef 0 [857] .plain .lq3 [2,2,1,1] 14 .abs [2,2,1,1],
  .coef 0 [858] .plain .lq3 [2,2,2,2] 14 .abs [2,2,2,2],
  .coef 0 [859] .abs .lq3 [2,2,1,2] 14 .abs [2,2,1,2],
  .coef 0 [860] .plain .ee [0,0,0,0] 12 .abs [0,0,0,0],
  .coef 0 [861] .plain .ee [0,0,1,1] 12 .abs [0,0,1,1],
  .coef 0 [862] .plain .ee [0,0,2,2] 12 .abs [0,0,2,2],
  .coef 0 [863] .plain .ee [1,1,1,1] 12 .abs [1,1,1,1],
  .coef 0 [864] .plain .ee [1,1,2,2] 12 .abs [1,1,2,2],
  .coef 0 [865] .abs .ee [0,0,0,1] 12 .abs [0,0,0,1],
  .coef 0 [866] .abs .ee [2,2,2,2] 12 .abs [2,2,2,2],
  .coef 0 [867] .abs .ee [0,0,1,2] 12 .abs [0,0,1,2],
  .coef 0 [868] .abs .ee [0,0,0,2] 12 .abs [0,0,0,2],
  .coef 0 [869] .abs .ee [0,1,0,2] 12 .abs [0,1,0,2],
  .coef 0 [870] .abs .ee [0,1,0,1] 12 .abs [0,1,0,1],
  .coef 0 [871] .abs .ee [0,1,2,1] 12 .abs [0,1,2,1],
  .coef 0 [872] .abs .ee [0,1,1,1] 12 .abs [0,1,1,1],
  .coef 0 [873] .abs .ee [0,2,0,2] 12 .abs [0,2,0,2],
  .coef 0 [874] .abs .ee [0,1,2,2] 12 .abs [0,1,2,2],
  .coef 0 [875] .abs .ee [0,2,1,2] 12 .abs [0,2,1,2]]

/-- `smeftsim.py:980-1104` -/
def rowsA7 : List Row := [
  .coef 0 [876] .abs .ee [0,1,1,2] 12 .abs [0,2,1,1],
  .coef 0 [877] .abs .ee [1,1,1,2] 12 .abs [1,1,1,2],
  .coef 0 [878] .abs .ee [0,2,2,2] 12 .abs [0,2,2,2],
  .coef 0 [879] .abs .ee [1,2,2,2] 12 .abs [2,2,1,2],
  .coef 0 [880] .abs .ee [1,2,1,2] 12 .abs [1,2,1,2],
  .coef 0 [881] .plain .uu [0,0,0,0] 10 .abs [0,0,0,0],
  .coef 0 [882] .plain .uu [0,0,1,1] 10 .abs [0,0,1,1],
  .coef 0 [883] .plain .uu [0,1,1,0] 10 .abs [0,1,1,0],
  .coef 0 [884] .plain .uu [0,0,2,2] 10 .abs [0,0,2,2],
  .coef 0 [885] .plain .uu [0,2,2,0] 10 .abs [0,2,2,0],
  .coef 0 [886] .plain .uu [1,1,1,1] 10 .abs [1,1,1,1],
  .coef 0 [887] .plain .uu [1,1,2,2] 10 .abs [1,1,2,2],
  .coef 0 [888] .plain .uu [1,2,2,1] 10 .abs [1,2,2,1],
  .coef 0 [889] .plain .uu [2,2,2,2] 10 .abs [2,2,2,2],
  .coef 0 [890] .abs .uu [0,0,0,1] 10 .abs [0,0,0,1],
  .coef 0 [891] .abs .uu [0,0,0,2] 10 .abs [0,0,0,2],
  .coef 0 [892] .abs .uu [0,0,1,2] 10 .abs [0,0,1,2],
  .coef 0 [893] .abs .uu [0,1,0,1] 10 .abs [0,1,0,1],
  .coef 0 [894] .abs .uu [0,1,0,2] 10 .abs [0,1,0,2],
  .coef 0 [895] .abs .uu [0,1,2,0] 10 .abs [0,1,2,0],
  .coef 0 [896] .abs .uu [0,1,1,1] 10 .abs [0,1,1,1],
  .coef 0 [897] .abs .uu [0,1,1,2] 10 .abs [0,1,1,2],
  .coef 0 [898] .abs .uu [0,1,2,1] 10 .abs [0,1,2,1],
  .coef 0 [899] .abs .uu [0,1,2,2] 10 .abs [0,1,2,2],
  .coef 0 [900] .abs .uu [0,2,0,2] 10 .abs [0,2,0,2],
  .coef 0 [901] .abs .uu [0,2,1,1] 10 .abs [0,2,1,1],
  .coef 0 [902] .abs .uu [0,2,2,1] 10 .abs [0,2,2,1],
  .coef 0 [903] .abs .uu [0,2,1,2] 10 .abs [0,2,1,2],
  .coef 0 [904] .abs .uu [0,2,2,2] 10 .abs [0,2,2,2],
  .coef 0 [905] .abs .uu [1,1,1,2] 10 .abs [1,1,1,2],
  .coef 0 [906] .abs .uu [1,2,1,2] 10 .abs [1,2,1,2],
  .coef 0 [907] .abs .uu [1,2,2,2] 10 .abs [2,2,1,2],
  .coef 0 [908] .plain .dd [0,0,0,0] 11 .abs [0,0,0,0],
  .coef 0 [909] .plain .dd [0,0,1,1] 11 .abs [0,0,1,1],
  .coef 0 [910] .plain .dd [0,1,1,0] 11 .abs [0,1,1,0],
  .coef 0 [911] .plain .dd [0,0,2,2] 11 .abs [0,0,2,2],
  .coef 0 [912] .plain .dd [0,2,2,0] 11 .abs [0,2,2,0],
  .coef 0 [913] .plain .dd [1,1,1,1] 11 .abs [1,1,1,1],
  .coef 0 [914] .plain .dd [1,1,2,2] 11 .abs [1,1,2,2],
  .coef 0 [915] .plain .dd [1,2,2,1] 11 .abs [1,2,2,1],
  .coef 0 [916] .plain .dd [2,2,2,2] 11 .abs [2,2,2,2],
  .coef 0 [917] .abs .dd [0,0,0,1] 11 .abs [0,0,0,1],
  .coef 0 [918] .abs .dd [0,0,0,2] 11 .abs [0,0,0,2],
  .coef 0 [919] .abs .dd [0,0,1,2] 11 .abs [0,0,1,2],
  .coef 0 [920] .abs .dd [0,1,0,1] 11 .abs [0,1,0,1],
  .coef 0 [921] .abs .dd [0,1,0,2] 11 .abs [0,1,0,2],
  .coef 0 [922] .abs .dd [0,1,2,0] 11 .abs [0,1,2,0],
  .coef 0 [923] .abs .dd [0,1,1,1] 11 .abs [0,1,1,1],
  .coef 0 [924] .abs .dd [0,1,1,2] 11 .abs [0,1,1,2],
  .coef 0 [925] .abs .dd [0,1,2,1] 11 .abs [0,1,2,1],
  .coef 0 [926] .abs .dd [0,1,2,2] 11 .abs [0,1,2,2],
  .coef 0 [927] .abs .dd [0,2,0,2] 11 .abs [0,2,0,2],
  .coef 0 [928] .abs .dd [0,2,1,1] 11 .abs [0,2,1,1],
  .coef 0 [929] .abs .dd [0,2,2,1] 11 .abs [0,2,2,1],
  .coef 0 [930] .abs .dd [0,2,1,2] 11 .abs [0,2,1,2],
  .coef 0 [931] .abs .dd [0,2,2,2] 11 .abs [0,2,2,2],
  .coef 0 [932] .abs .dd [1,1,1,2] 11 .abs [1,1,1,2],
  .coef 0 [933] .abs .dd [1,2,1,2] 11 .abs [1,2,1,2],
  .coef 0 [934] .abs .dd [1,2,2,2] 11 .abs [2,2,1,2],
  .coef 0 [935] .plain .eu [0,0,0,0] 15 .abs [0,0,0,0],
  .coef 0 [936] .abs .eu [0,0,0,1] 15 .abs [0,0,0,1],
  .coef 0 [937] .abs .eu [0,0,0,2] 15 .abs [0,0,0,2],
  .coef 0 [938] .abs .eu [0,0,1,2] 15 .abs [0,0,1,2],
  .coef 0 [939] .plain .eu [0,0,1,1] 15 .abs [0,0,1,1],
  .coef 0 [940] .plain .eu [0,0,2,2] 15 .abs [0,0,2,2],
  .coef 0 [941] .abs .eu [0,1,0,0] 15 .abs [0,1,0,0],
  .coef 0 [942] .abs .eu [0,1,0,1] 15 .abs [0,1,0,1],
  .coef 0 [943] .abs .eu [0,1,1,0] 15 .abs [0,1,1,0],
  .coef 0 [944] .abs .eu [0,1,0,2] 15 .abs [0,1,0,2],
  .coef 0 [945] .abs .eu [0,1,2,0] 15 .abs [0,1,2,0],
  .coef 0 [946] .abs .eu [0,1,1,1] 15 .abs [0,1,1,1],
  .coef 0 [947] .abs .eu [0,1,1,2] 15 .abs [0,1,1,2],
  .coef 0 [948] .abs .eu [0,1,2,1] 15 .abs [0,1,2,1],
  .coef 0 [949] .abs .eu [0,1,2,2] 15 .abs [0,1,2,2],
  .coef 0 [950] .abs .eu [0,2,0,0] 15 .abs [0,2,0,0],
  .coef 0 [951] .abs .eu [0,2,0,1] 15 .abs [0,2,0,1],
  .coef 0 [952] .abs .eu [0,2,0,2] 15 .abs [0,2,0,2],
  .coef 0 [953] .abs .eu [0,2,2,0] 15 .abs [0,2,2,0],
  .coef 0 [954] .abs .eu [0,2,1,0] 15 .abs [0,2,1,0],
  .coef 0 [955] .abs .eu [0,2,1,1] 15 .abs [0,2,1,1],
  .coef 0 [956] .abs .eu [0,2,2,1] 15 .abs [0,2,2,1],
  .coef 0 [957] .abs .eu [0,2,1,2] 15 .abs [0,2,1,2],
  .coef 0 [958] .abs .eu [0,2,2,2] 15 .abs [0,2,2,2],
  .coef 0 [959] .plain .eu [1,1,0,0] 15 .abs [1,1,0,0],
  .coef 0 [960] .abs .eu [1,1,0,1] 15 .abs [1,1,0,1],
  .coef 0 [961] .abs .eu [1,1,0,2] 15 .abs [1,1,0,2],
  .coef 0 [962] .plain .eu [1,1,1,1] 15 .abs [1,1,1,1],
  .coef 0 [963] .abs .eu [1,1,1,2] 15 .abs [1,1,1,2],
  .coef 0 [964] .plain .eu [1,1,2,2] 15 .abs [1,1,2,2],
  .coef 0 [965] .abs .eu [1,2,0,0] 15 .abs [1,2,0,0],
  .coef 0 [966] .abs .eu [1,2,0,1] 15 .abs [1,2,0,1],
  .coef 0 [967] .abs .eu [1,2,0,2] 15 .abs [1,2,0,2],
  .coef 0 [968] .abs .eu [1,2,1,0] 15 .abs [1,2,1,0],
  .coef 0 [969] .abs .eu [1,2,1,1] 15 .abs [1,2,1,1],
  .coef 0 [970] .abs .eu [1,2,1,2] 15 .abs [1,2,1,2],
  .coef 0 [971] .abs .eu [1,2,2,0] 15 .abs [1,2,2,0],
  .coef 0 [972] .abs .eu [1,2,2,1] 15 .abs [1,2,2,1],
  .coef 0 [973] .abs .eu [1,2,2,2] 15 .abs [1,2,2,2],
  .coef 0 [974] .plain .eu [2,2,0,0] 15 .abs [2,2,0,0],
  .coef 0 [975] .abs .eu [2,2,0,1] 15 .abs [2,2,0,1],
  .coef 0 [976] .abs .eu [2,2,0,2] 15 .abs [2,2,0,2],
  .coef 0 [977] .plain .eu [2,2,1,1] 15 .abs [2,2,1,1],
  .coef 0 [978] .plain .eu [2,2,2,2] 15 .abs [2,2,2,2],
  .coef 0 [979] .abs .eu [2,2,1,2] 15 .abs [2,2,1,2],
  .coef 0 [980] .plain .ed [0,0,0,0] 16 .abs [0,0,0,0],
  .coef 0 [981] .abs .ed [0,0,0,1] 16 .abs [0,0,0,1],
  .coef 0 [982] .abs .ed [0,0,0,2] 16 .abs [0,0,0,2],
  .coef 0 [983] .abs .ed [0,0,1,2] 16 .abs [0,0,1,2],
  .coef 0 [984] .plain .ed [0,0,1,1] 16 .abs [0,0,1,1],
  .coef 0 [985] .plain .ed [0,0,2,2] 16 .abs [0,0,2,2],
  .coef 0 [986] .abs .ed [0,1,0,0] 16 .abs [0,1,0,0],
  .coef 0 [987] .abs .ed [0,1,0,1] 16 .abs [0,1,0,1],
  .coef 0 [988] .abs .ed [0,1,1,0] 16 .abs [0,1,1,0],
  .coef 0 [989] .abs .ed [0,1,0,2] 16 .abs [0,1,0,2],
  .coef 0 [990] .abs .ed [0,1,2,0] 16 .abs [0,1,2,0],
  .coef 0 [991] .abs .ed [0,1,1,1] 16 .abs [0,1,1,1],
  .coef 0 [992] .abs .ed [0,1,1,2] 16 .abs [0,1,1,2],
  .coef 0 [993] .abs .ed [0,1,2,1] 16 .abs [0,1,2,1],
  .coef 0 [994] .abs .ed [0,1,2,2] 16 .abs [0,1,2,2],
  .coef 0 [995] .abs .ed [0,2,0,0] 16 .abs [0,2,0,0],
  .coef 0 [996] .abs .ed [0,2,0,1] 16 .abs [0,2,0,1],
  .coef 0 [997] .abs .ed [0,2,0,2] 16 .abs [0,2,0,2],
  .coef 0 [998] .abs .ed [0,2,2,0] 16 .abs [0,2,2,0],
  .coef 0 [999] .abs .ed [0,2,1,0] 16 .abs [0,2,1,0],
  .coef 0 [1000] .abs .ed [0,2,1,1] 16 .abs [0,2,1,1]]

/-- `smeftsim.py:1105-1229` -/
def rowsA8 : List Row := [
  .coef 0 [1001] .abs .ed [0,2,2,1] 16 .abs [0,2,2,1],
  .coef 0 [1002] .abs .ed [0,2,1,2] 16 .abs [0,2,1,2],
  .coef 0 [1003] .abs .ed [0,2,2,2] 16 .abs [0,2,2,2],
  .coef 0 [1004] .plain .ed [1,1,0,0] 16 .abs [1,1,0,0],
  .coef 0 [1005] .abs .ed [1,1,0,1] 16 .abs [1,1,0,1],
  .coef 0 [1006] .abs .ed [1,1,0,2] 16 .abs [1,1,0,2],
  .coef 0 [1007] .plain .ed [1,1,1,1] 16 .abs [1,1,1,1],
  .coef 0 [1008] .abs .ed [1,1,1,2] 16 .abs [1,1,1,2],
  .coef 0 [1009] .plain .ed [1,1,2,2] 16 .abs [1,1,2,2],
  .coef 0 [1010] .abs .ed [1,2,0,0] 16 .abs [1,2,0,0],
  .coef 0 [1011] .abs .ed [1,2,0,1] 16 .abs [1,2,0,1],
  .coef 0 [1012] .abs .ed [1,2,0,2] 16 .abs [1,2,0,2],
  .coef 0 [1013] .abs .ed [1,2,1,0] 16 .abs [1,2,1,0],
  .coef 0 [1014] .abs .ed [1,2,1,1] 16 .abs [1,2,1,1],
  .coef 0 [1015] .abs .ed [1,2,1,2] 16 .abs [1,2,1,2],
  .coef 0 [1016] .abs .ed [1,2,2,0] 16 .abs [1,2,2,0],
  .coef 0 [1017] .abs .ed [1,2,2,1] 16 .abs [1,2,2,1],
  .coef 0 [1018] .abs .ed [1,2,2,2] 16 .abs [1,2,2,2],
  .coef 0 [1019] .plain .ed [2,2,0,0] 16 .abs [2,2,0,0],
  .coef 0 [1020] .abs .ed [2,2,0,1] 16 .abs [2,2,0,1],
  .coef 0 [1021] .abs .ed [2,2,0,2] 16 .abs [2,2,0,2],
  .coef 0 [1022] .plain .ed [2,2,1,1] 16 .abs [2,2,1,1],
  .coef 0 [1023] .plain .ed [2,2,2,2] 16 .abs [2,2,2,2],
  .coef 0 [1024] .abs .ed [2,2,1,2] 16 .abs [2,2,1,2],
  .coef 0 [1025] .plain .ud1 [0,0,0,0] 17 .abs [0,0,0,0],
  .coef 0 [1026] .abs .ud1 [0,0,0,1] 17 .abs [0,0,0,1],
  .coef 0 [1027] .abs .ud1 [0,0,0,2] 17 .abs [0,0,0,2],
  .coef 0 [1028] .abs .ud1 [0,0,1,2] 17 .abs [0,0,1,2],
  .coef 0 [1029] .plain .ud1 [0,0,1,1] 17 .abs [0,0,1,1],
  .coef 0 [1030] .plain .ud1 [0,0,2,2] 17 .abs [0,0,2,2],
  .coef 0 [1031] .abs .ud1 [0,1,0,0] 17 .abs [0,1,0,0],
  .coef 0 [1032] .abs .ud1 [0,1,0,1] 17 .abs [0,1,0,1],
  .coef 0 [1033] .abs .ud1 [0,1,1,0] 17 .abs [0,1,1,0],
  .coef 0 [1034] .abs .ud1 [0,1,0,2] 17 .abs [0,1,0,2],
  .coef 0 [1035] .abs .ud1 [0,1,2,0] 17 .abs [0,1,2,0],
  .coef 0 [1036] .abs .ud1 [0,1,1,1] 17 .abs [0,1,1,1],
  .coef 0 [1037] .abs .ud1 [0,1,1,2] 17 .abs [0,1,1,2],
  .coef 0 [1038] .abs .ud1 [0,1,2,1] 17 .abs [0,1,2,1],
  .coef 0 [1039] .abs .ud1 [0,1,2,2] 17 .abs [0,1,2,2],
  .coef 0 [1040] .abs .ud1 [0,2,0,0] 17 .abs [0,2,0,0],
  .coef 0 [1041] .abs .ud1 [0,2,0,1] 17 .abs [0,2,0,1],
  .coef 0 [1042] .abs .ud1 [0,2,0,2] 17 .abs [0,2,0,2],
  .coef 0 [1043] .abs .ud1 [0,2,2,0] 17 .abs [0,2,2,0],
  .coef 0 [1044] .abs .ud1 [0,2,1,0] 17 .abs [0,2,1,0],
  .coef 0 [1045] .abs .ud1 [0,2,1,1] 17 .abs [0,2,1,1],
  .coef 0 [1046] .abs .ud1 [0,2,2,1] 17 .abs [0,2,2,1],
  .coef 0 [1047] .abs .ud1 [0,2,1,2] 17 .abs [0,2,1,2],
  .coef 0 [1048] .abs .ud1 [0,2,2,2] 17 .abs [0,2,2,2],
  .coef 0 [1049] .plain .ud1 [1,1,0,0] 17 .abs [1,1,0,0],
  .coef 0 [1050] .abs .ud1 [1,1,0,1] 17 .abs [1,1,0,1],
  .coef 0 [1051] .abs .ud1 [1,1,0,2] 17 .abs [1,1,0,2],
  .coef 0 [1052] .plain .ud1 [1,1,1,1] 17 .abs [1,1,1,1],
  .coef 0 [1053] .abs .ud1 [1,1,1,2] 17 .abs [1,1,1,2],
  .coef 0 [1054] .plain .ud1 [1,1,2,2] 17 .abs [1,1,2,2],
  .coef 0 [1055] .abs .ud1 [1,2,0,0] 17 .abs [1,2,0,0],
  .coef 0 [1056] .abs .ud1 [1,2,0,1] 17 .abs [1,2,0,1],
  .coef 0 [1057] .abs .ud1 [1,2,0,2] 17 .abs [1,2,0,2],
  .coef 0 [1058] .abs .ud1 [1,2,1,0] 17 .abs [1,2,1,0],
  .coef 0 [1059] .abs .ud1 [1,2,1,1] 17 .abs [1,2,1,1],
  .coef 0 [1060] .abs .ud1 [1,2,1,2] 17 .abs [1,2,1,2],
  .coef 0 [1061] .abs .ud1 [1,2,2,0] 17 .abs [1,2,2,0],
  .coef 0 [1062] .abs .ud1 [1,2,2,1] 17 .abs [1,2,2,1],
  .coef 0 [1063] .abs .ud1 [1,2,2,2] 17 .abs [1,2,2,2],
  .coef 0 [1064] .plain .ud1 [2,2,0,0] 17 .abs [2,2,0,0],
  .coef 0 [1065] .abs .ud1 [2,2,0,1] 17 .abs [2,2,0,1],
  .coef 0 [1066] .abs .ud1 [2,2,0,2] 17 .abs [2,2,0,2],
  .coef 0 [1067] .plain .ud1 [2,2,1,1] 17 .abs [2,2,1,1],
  .coef 0 [1068] .plain .ud1 [2,2,2,2] 17 .abs [2,2,2,2],
  .coef 0 [1069] .abs .ud1 [2,2,1,2] 17 .abs [2,2,1,2],
  .coef 0 [1070] .plain .ud8 [0,0,0,0] 18 .abs [0,0,0,0],
  .coef 0 [1071] .abs .ud8 [0,0,0,1] 18 .abs [0,0,0,1],
  .coef 0 [1072] .abs .ud8 [0,0,0,2] 18 .abs [0,0,0,2],
  .coef 0 [1073] .abs .ud8 [0,0,1,2] 18 .abs [0,0,1,2],
  .coef 0 [1074] .plain .ud8 [0,0,1,1] 18 .abs [0,0,1,1],
  .coef 0 [1075] .plain .ud8 [0,0,2,2] 18 .abs [0,0,2,2],
  .coef 0 [1076] .abs .ud8 [0,1,0,0] 18 .abs [0,1,0,0],
  .coef 0 [1077] .abs .ud8 [0,1,0,1] 18 .abs [0,1,0,1],
  .coef 0 [1078] .abs .ud8 [0,1,1,0] 18 .abs [0,1,1,0],
  .coef 0 [1079] .abs .ud8 [0,1,0,2] 18 .abs [0,1,0,2],
  .coef 0 [1080] .abs .ud8 [0,1,2,0] 18 .abs [0,1,2,0],
  .coef 0 [1081] .abs .ud8 [0,1,1,1] 18 .abs [0,1,1,1],
  .coef 0 [1082] .abs .ud8 [0,1,1,2] 18 .abs [0,1,1,2],
  .coef 0 [1083] .abs .ud8 [0,1,2,1] 18 .abs [0,1,2,1],
  .coef 0 [1084] .abs .ud8 [0,1,2,2] 18 .abs [0,1,2,2],
  .coef 0 [1085] .abs .ud8 [0,2,0,0] 18 .abs [0,2,0,0],
  .coef 0 [1086] .abs .ud8 [0,2,0,1] 18 .abs [0,2,0,1],
  .coef 0 [1087] .abs .ud8 [0,2,0,2] 18 .abs [0,2,0,2],
  .coef 0 [1088] .abs .ud8 [0,2,2,0] 18 .abs [0,2,2,0],
  .coef 0 [1089] .abs .ud8 [0,2,1,0] 18 .abs [0,2,1,0],
  .coef 0 [1090] .abs .ud8 [0,2,1,1] 18 .abs [0,2,1,1],
  .coef 0 [1091] .abs .ud8 [0,2,2,1] 18 .abs [0,2,2,1],
  .coef 0 [1092] .abs .ud8 [0,2,1,2] 18 .abs [0,2,1,2],
  .coef 0 [1093] .abs .ud8 [0,2,2,2] 18 .abs [0,2,2,2],
  .coef 0 [1094] .plain .ud8 [1,1,0,0] 18 .abs [1,1,0,0],
  .coef 0 [1095] .abs .ud8 [1,1,0,1] 18 .abs [1,1,0,1],
  .coef 0 [1096] .abs .ud8 [1,1,0,2] 18 .abs [1,1,0,2],
  .coef 0 [1097] .plain .ud8 [1,1,1,1] 18 .abs [1,1,1,1],
  .coef 0 [1098] .abs .ud8 [1,1,1,2] 18 .abs [1,1,1,2],
  .coef 0 [1099] .plain .ud8 [1,1,2,2] 18 .abs [1,1,2,2],
  .coef 0 [1100] .abs .ud8 [1,2,0,0] 18 .abs [1,2,0,0],
  .coef 0 [1101] .abs .ud8 [1,2,0,1] 18 .abs [1,2,0,1],
  .coef 0 [1102] .abs .ud8 [1,2,0,2] 18 .abs [1,2,0,2],
  .coef 0 [1103] .abs .ud8 [1,2,1,0] 18 .abs [1,2,1,0],
  .coef 0 [1104] .abs .ud8 [1,2,1,1] 18 .abs [1,2,1,1],
  .coef 0 [1105] .abs .ud8 [1,2,1,2] 18 .abs [1,2,1,2],
  .coef 0 [1106] .abs .ud8 [1,2,2,0] 18 .abs [1,2,2,0],
  .coef 0 [1107] .abs .ud8 [1,2,2,1] 18 .abs [1,2,2,1],
  .coef 0 [1108] .abs .ud8 [1,2,2,2] 18 .abs [1,2,2,2],
  .coef 0 [1109] .plain .ud8 [2,2,0,0] 18 .abs [2,2,0,0],
  .coef 0 [1110] .abs .ud8 [2,2,0,1] 18 .abs [2,2,0,1],
  .coef 0 [1111] .abs .ud8 [2,2,0,2] 18 .abs [2,2,0,2],
  .coef 0 [1112] .plain .ud8 [2,2,1,1] 18 .abs [2,2,1,1],
  .coef 0 [1113] .plain .ud8 [2,2,2,2] 18 .abs [2,2,2,2],
  .coef 0 [1114] .abs .ud8 [2,2,1,2] 18 .abs [2,2,1,2],
  .coef 0 [1115] .plain .le [0,0,0,0] 19 .abs [0,0,0,0],
  .coef 0 [1116] .abs .le [0,0,0,1] 19 .abs [0,0,0,1],
  .coef 0 [1117] .abs .le [0,0,0,2] 19 .abs [0,0,0,2],
  .coef 0 [1118] .abs .le [0,0,1,2] 19 .abs [0,0,1,2],
  .coef 0 [1119] .plain .le [0,0,1,1] 19 .abs [0,0,1,1],
  .coef 0 [1120] .plain .le [0,0,2,2] 19 .abs [0,0,2,2],
  .coef 0 [1121] .abs .le [0,1,0,0] 19 .abs [0,1,0,0],
  .coef 0 [1122] .abs .le [0,1,0,1] 19 .abs [0,1,0,1],
  .coef 0 [1123] .abs .le [0,1,1,0] 19 .abs [0,1,1,0],
  .coef 0 [1124] .abs .le [0,1,0,2] 19 .abs [0,1,0,2],
  .coef 0 [1125] .abs .le [0,1,2,0] 19 .abs [0,1,2,0]]

/-- `smeftsim.py:1230-1354` -/
def rowsA9 : List Row := [
  .coef 0 [1126] .abs .le [0,1,1,1] 19 .abs [0,1,1,1],
  .coef 0 [1127] .abs .le [0,1,1,2] 19 .abs [0,1,1,2],
  .coef 0 [1128] .abs .le [0,1,2,1] 19 .abs [0,1,2,1],
  .coef 0 [1129] .abs .le [0,1,2,2] 19 .abs [0,1,2,2],
  .coef 0 [1130] .abs .le [0,2,0,0] 19 .abs [0,2,0,0],
  .coef 0 [1131] .abs .le [0,2,0,1] 19 .abs [0,2,0,1],
  .coef 0 [1132] .abs .le [0,2,0,2] 19 .abs [0,2,0,2],
  .coef 0 [1133] .abs .le [0,2,2,0] 19 .abs [0,2,2,0],
  .coef 0 [1134] .abs .le [0,2,1,0] 19 .abs [0,2,1,0],
  .coef 0 [1135] .abs .le [0,2,1,1] 19 .abs [0,2,1,1],
  .coef 0 [1136] .abs .le [0,2,2,1] 19 .abs [0,2,2,1],
  .coef 0 [1137] .abs .le [0,2,1,2] 19 .abs [0,2,1,2],
  .coef 0 [1138] .abs .le [0,2,2,2] 19 .abs [0,2,2,2],
  .coef 0 [1139] .plain .le [1,1,0,0] 19 .abs [1,1,0,0],
  .coef 0 [1140] .abs .le [1,1,0,1] 19 .abs [1,1,0,1],
  .coef 0 [1141] .abs .le [1,1,0,2] 19 .abs [1,1,0,2],
  .coef 0 [1142] .plain .le [1,1,1,1] 19 .abs [1,1,1,1],
  .coef 0 [1143] .abs .le [1,1,1,2] 19 .abs [1,1,1,2],
  .coef 0 [1144] .plain .le [1,1,2,2] 19 .abs [1,1,2,2],
  .coef 0 [1145] .abs .le [1,2,0,0] 19 .abs [1,2,0,0],
  .coef 0 [1146] .abs .le [1,2,0,1] 19 .abs [1,2,0,1],
  .coef 0 [1147] .abs .le [1,2,0,2] 19 .abs [1,2,0,2],
  .coef 0 [1148] .abs .le [1,2,1,0] 19 .abs [1,2,1,0],
  .coef 0 [1149] .abs .le [1,2,1,1] 19 .abs [1,2,1,1],
  .coef 0 [1150] .abs .le [1,2,1,2] 19 .abs [1,2,1,2],
  .coef 0 [1151] .abs .le [1,2,2,0] 19 .abs [1,2,2,0],
  .coef 0 [1152] .abs .le [1,2,2,1] 19 .abs [1,2,2,1],
  .coef 0 [1153] .abs .le [1,2,2,2] 19 .abs [1,2,2,2],
  .coef 0 [1154] .plain .le [2,2,0,0] 19 .abs [2,2,0,0],
  .coef 0 [1155] .abs .le [2,2,0,1] 19 .abs [2,2,0,1],
  .coef 0 [1156] .abs .le [2,2,0,2] 19 .abs [2,2,0,2],
  .coef 0 [1157] .plain .le [2,2,1,1] 19 .abs [2,2,1,1],
  .coef 0 [1158] .plain .le [2,2,2,2] 19 .abs [2,2,2,2],
  .coef 0 [1159] .abs .le [2,2,1,2] 19 .abs [2,2,1,2],
  .coef 0 [1160] .plain .lu [0,0,0,0] 20 .abs [0,0,0,0],
  .coef 0 [1161] .abs .lu [0,0,0,1] 20 .abs [0,0,0,1],
  .coef 0 [1162] .abs .lu [0,0,0,2] 20 .abs [0,0,0,2],
  .coef 0 [1163] .abs .lu [0,0,1,2] 20 .abs [0,0,1,2],
  .coef 0 [1164] .plain .lu [0,0,1,1] 20 .abs [0,0,1,1],
  .coef 0 [1165] .plain .lu [0,0,2,2] 20 .abs [0,0,2,2],
  .coef 0 [1166] .abs .lu [0,1,0,0] 20 .abs [0,1,0,0],
  .coef 0 [1167] .abs .lu [0,1,0,1] 20 .abs [0,1,0,1],
  .coef 0 [1168] .abs .lu [0,1,1,0] 20 .abs [0,1,1,0],
  .coef 0 [1169] .abs .lu [0,1,0,2] 20 .abs [0,1,0,2],
  .coef 0 [1170] .abs .lu [0,1,2,0] 20 .abs [0,1,2,0],
  .coef 0 [1171] .abs .lu [0,1,1,1] 20 .abs [0,1,1,1],
  .coef 0 [1172] .abs .lu [0,1,1,2] 20 .abs [0,1,1,2],
  .coef 0 [1173] .abs .lu [0,1,2,1] 20 .abs [0,1,2,1],
  .coef 0 [1174] .abs .lu [0,1,2,2] 20 .abs [0,1,2,2],
  .coef 0 [1175] .abs .lu [0,2,0,0] 20 .abs [0,2,0,0],
  .coef 0 [1176] .abs .lu [0,2,0,1] 20 .abs [0,2,0,1],
  .coef 0 [1177] .abs .lu [0,2,0,2] 20 .abs [0,2,0,2],
  .coef 0 [1178] .abs .lu [0,2,2,0] 20 .abs [0,2,2,0],
  .coef 0 [1179] .abs .lu [0,2,1,0] 20 .abs [0,2,1,0],
  .coef 0 [1180] .abs .lu [0,2,1,1] 20 .abs [0,2,1,1],
  .coef 0 [1181] .abs .lu [0,2,2,1] 20 .abs [0,2,2,1],
  .coef 0 [1182] .abs .lu [0,2,1,2] 20 .abs [0,2,1,2],
  .coef 0 [1183] .abs .lu [0,2,2,2] 20 .abs [0,2,2,2],
  .coef 0 [1184] .plain .lu [1,1,0,0] 20 .abs [1,1,0,0],
  .coef 0 [1185] .abs .lu [1,1,0,1] 20 .abs [1,1,0,1],
  .coef 0 [1186] .abs .lu [1,1,0,2] 20 .abs [1,1,0,2],
  .coef 0 [1187] .plain .lu [1,1,1,1] 20 .abs [1,1,1,1],
  .coef 0 [1188] .abs .lu [1,1,1,2] 20 .abs [1,1,1,2],
  .coef 0 [1189] .plain .lu [1,1,2,2] 20 .abs [1,1,2,2],
  .coef 0 [1190] .abs .lu [1,2,0,0] 20 .abs [1,2,0,0],
  .coef 0 [1191] .abs .lu [1,2,0,1] 20 .abs [1,2,0,1],
  .coef 0 [1192] .abs .lu [1,2,0,2] 20 .abs [1,2,0,2],
  .coef 0 [1193] .abs .lu [1,2,1,0] 20 .abs [1,2,1,0],
  .coef 0 [1194] .abs .lu [1,2,1,1] 20 .abs [1,2,1,1],
  .coef 0 [1195] .abs .lu [1,2,1,2] 20 .abs [1,2,1,2],
  .coef 0 [1196] .abs .lu [1,2,2,0] 20 .abs [1,2,2,0],
  .coef 0 [1197] .abs .lu [1,2,2,1] 20 .abs [1,2,2,1],
  .coef 0 [1198] .abs .lu [1,2,2,2] 20 .abs [1,2,2,2],
  .coef 0 [1199] .plain .lu [2,2,0,0] 20 .abs [2,2,0,0],
  .coef 0 [1200] .abs .lu [2,2,0,1] 20 .abs [2,2,0,1],
  .coef 0 [1201] .abs .lu [2,2,0,2] 20 .abs [2,2,0,2],
  .coef 0 [1202] .plain .lu [2,2,1,1] 20 .abs [2,2,1,1],
  .coef 0 [1203] .plain .lu [2,2,2,2] 20 .abs [2,2,2,2],
  .coef 0 [1204] .abs .lu [2,2,1,2] 20 .abs [2,2,1,2],
  .coef 0 [1205] .plain .ld [0,0,0,0] 21 .abs [0,0,0,0],
  .coef 0 [1206] .abs .ld [0,0,0,1] 21 .abs [0,0,0,1],
  .coef 0 [1207] .abs .ld [0,0,0,2] 21 .abs [0,0,0,2],
  .coef 0 [1208] .abs .ld [0,0,1,2] 21 .abs [0,0,1,2],
  .coef 0 [1209] .plain .ld [0,0,1,1] 21 .abs [0,0,1,1],
  .coef 0 [1210] .plain .ld [0,0,2,2] 21 .abs [0,0,2,2],
  .coef 0 [1211] .abs .ld [0,1,0,0] 21 .abs [0,1,0,0],
  .coef 0 [1212] .abs .ld [0,1,0,1] 21 .abs [0,1,0,1],
  .coef 0 [1213] .abs .ld [0,1,1,0] 21 .abs [0,1,1,0],
  .coef 0 [1214] .abs .ld [0,1,0,2] 21 .abs [0,1,0,2],
  .coef 0 [1215] .abs .ld [0,1,2,0] 21 .abs [0,1,2,0],
  .coef 0 [1216] .abs .ld [0,1,1,1] 21 .abs [0,1,1,1],
  .coef 0 [1217] .abs .ld [0,1,1,2] 21 .abs [0,1,1,2],
  .coef 0 [1218] .abs .ld [0,1,2,1] 21 .abs [0,1,2,1],
  .coef 0 [1219] .abs .ld [0,1,2,2] 21 .abs [0,1,2,2],
  .coef 0 [1220] .abs .ld [0,2,0,0] 21 .abs [0,2,0,0],
  .coef 0 [1221] .abs .ld [0,2,0,1] 21 .abs [0,2,0,1],
  .coef 0 [1222] .abs .ld [0,2,0,2] 21 .abs [0,2,0,2],
  .coef 0 [1223] .abs .ld [0,2,2,0] 21 .abs [0,2,2,0],
  .coef 0 [1224] .abs .ld [0,2,1,0] 21 .abs [0,2,1,0],
  .coef 0 [1225] .abs .ld [0,2,1,1] 21 .abs [0,2,1,1],
  .coef 0 [1226] .abs .ld [0,2,2,1] 21 .abs [0,2,2,1],
  .coef 0 [1227] .abs .ld [0,2,1,2] 21 .abs [0,2,1,2],
  .coef 0 [1228] .abs .ld [0,2,2,2] 21 .abs [0,2,2,2],
  .coef 0 [1229] .plain .ld [1,1,0,0] 21 .abs [1,1,0,0],
  .coef 0 [1230] .abs .ld [1,1,0,1] 21 .abs [1,1,0,1],
  .coef 0 [1231] .abs .ld [1,1,0,2] 21 .abs [1,1,0,2],
  .coef 0 [1232] .plain .ld [1,1,1,1] 21 .abs [1,1,1,1],
  .coef 0 [1233] .abs .ld [1,1,1,2] 21 .abs [1,1,1,2],
  .coef 0 [1234] .plain .ld [1,1,2,2] 21 .abs [1,1,2,2],
  .coef 0 [1235] .abs .ld [1,2,0,0] 21 .abs [1,2,0,0],
  .coef 0 [1236] .abs .ld [1,2,0,1] 21 .abs [1,2,0,1],
  .coef 0 [1237] .abs .ld [1,2,0,2] 21 .abs [1,2,0,2],
  .coef 0 [1238] .abs .ld [1,2,1,0] 21 .abs [1,2,1,0],
  .coef 0 [1239] .abs .ld [1,2,1,1] 21 .abs [1,2,1,1],
  .coef 0 [1240] .abs .ld [1,2,1,2] 21 .abs [1,2,1,2],
  .coef 0 [1241] .abs .ld [1,2,2,0] 21 .abs [1,2,2,0],
  .coef 0 [1242] .abs .ld [1,2,2,1] 21 .abs [1,2,2,1],
  .coef 0 [1243] .abs .ld [1,2,2,2] 21 .abs [1,2,2,2],
  .coef 0 [1244] .plain .ld [2,2,0,0] 21 .abs [2,2,0,0],
  .coef 0 [1245] .abs .ld [2,2,0,1] 21 .abs [2,2,0,1],
  .coef 0 [1246] .abs .ld [2,2,0,2] 21 .abs [2,2,0,2],
  .coef 0 [1247] .plain .ld [2,2,1,1] 21 .abs [2,2,1,1],
  .coef 0 [1248] .plain .ld [2,2,2,2] 21 .abs [2,2,2,2],
  .coef 0 [1249] .abs .ld [2,2,1,2] 21 .abs [2,2,1,2],
  .coef 0 [1250] .plain .qe [0,0,0,0] 22 .abs [0,0,0,0]]

/-- `smeftsim.py:1355-1479` -/
def rowsA10 : List Row := [
  .coef 0 [1251] .abs .qe [0,0,0,1] 22 .abs [0,0,0,1],
  .coef 0 [1252] .abs .qe [0,0,0,2] 22 .abs [0,0,0,2],
  .coef 0 [1253] .abs .qe [0,0,1,2] 22 .abs [0,0,1,2],
  .coef 0 [1254] .plain .qe [0,0,1,1] 22 .abs [0,0,1,1],
  .coef 0 [1255] .plain .qe [0,0,2,2] 22 .abs [0,0,2,2],
  .coef 0 [1256] .abs .qe [0,1,0,0] 22 .abs [0,1,0,0],
  .coef 0 [1257] .abs .qe [0,1,0,1] 22 .abs [0,1,0,1],
  .coef 0 [1258] .abs .qe [0,1,1,0] 22 .abs [0,1,1,0],
  .coef 0 [1259] .abs .qe [0,1,0,2] 22 .abs [0,1,0,2],
  .coef 0 [1260] .abs .qe [0,1,2,0] 22 .abs [0,1,2,0],
  .coef 0 [1261] .abs .qe [0,1,1,1] 22 .abs [0,1,1,1],
  .coef 0 [1262] .abs .qe [0,1,1,2] 22 .abs [0,1,1,2],
  .coef 0 [1263] .abs .qe [0,1,2,1] 22 .abs [0,1,2,1],
  .coef 0 [1264] .abs .qe [0,1,2,2] 22 .abs [0,1,2,2],
  .coef 0 [1265] .abs .qe [0,2,0,0] 22 .abs [0,2,0,0],
  .coef 0 [1266] .abs .qe [0,2,0,1] 22 .abs [0,2,0,1],
  .coef 0 [1267] .abs .qe [0,2,0,2] 22 .abs [0,2,0,2],
  .coef 0 [1268] .abs .qe [0,2,2,0] 22 .abs [0,2,2,0],
  .coef 0 [1269] .abs .qe [0,2,1,0] 22 .abs [0,2,1,0],
  .coef 0 [1270] .abs .qe [0,2,1,1] 22 .abs [0,2,1,1],
  .coef 0 [1271] .abs .qe [0,2,2,1] 22 .abs [0,2,2,1],
  .coef 0 [1272] .abs .qe [0,2,1,2] 22 .abs [0,2,1,2],
  .coef 0 [1273] .abs .qe [0,2,2,2] 22 .abs [0,2,2,2],
  .coef 0 [1274] .plain .qe [1,1,0,0] 22 .abs [1,1,0,0],
  .coef 0 [1275] .abs .qe [1,1,0,1] 22 .abs [1,1,0,1],
  .coef 0 [1276] .abs .qe [1,1,0,2] 22 .abs [1,1,0,2],
  .coef 0 [1277] .plain .qe [1,1,1,1] 22 .abs [1,1,1,1],
  .coef 0 [1278] .abs .qe [1,1,1,2] 22 .abs [1,1,1,2],
  .coef 0 [1279] .plain .qe [1,1,2,2] 22 .abs [1,1,2,2],
  .coef 0 [1280] .abs .qe [1,2,0,0] 22 .abs [1,2,0,0],
  .coef 0 [1281] .abs .qe [1,2,0,1] 22 .abs [1,2,0,1],
  .coef 0 [1282] .abs .qe [1,2,0,2] 22 .abs [1,2,0,2],
  .coef 0 [1283] .abs .qe [1,2,1,0] 22 .abs [1,2,1,0],
  .coef 0 [1284] .abs .qe [1,2,1,1] 22 .abs [1,2,1,1],
  .coef 0 [1285] .abs .qe [1,2,1,2] 22 .abs [1,2,1,2],
  .coef 0 [1286] .abs .qe [1,2,2,0] 22 .abs [1,2,2,0],
  .coef 0 [1287] .abs .qe [1,2,2,1] 22 .abs [1,2,2,1],
  .coef 0 [1288] .abs .qe [1,2,2,2] 22 .abs [1,2,2,2],
  .coef 0 [1289] .plain .qe [2,2,0,0] 22 .abs [2,2,0,0],
  .coef 0 [1290] .abs .qe [2,2,0,1] 22 .abs [2,2,0,1],
  .coef 0 [1291] .abs .qe [2,2,0,2] 22 .abs [2,2,0,2],
  .coef 0 [1292] .plain .qe [2,2,1,1] 22 .abs [2,2,1,1],
  .coef 0 [1293] .plain .qe [2,2,2,2] 22 .abs [2,2,2,2],
  .coef 0 [1294] .abs .qe [2,2,1,2] 22 .abs [2,2,1,2],
  .coef 0 [1295] .plain .qu1 [0,0,0,0] 23 .abs [0,0,0,0],
  .coef 0 [1296] .abs .qu1 [0,0,0,1] 23 .abs [0,0,0,1],
  .coef 0 [1297] .abs .qu1 [0,0,0,2] 23 .abs [0,0,0,2],
  .coef 0 [1298] .abs .qu1 [0,0,1,2] 23 .abs [0,0,1,2],
  .coef 0 [1299] .plain .qu1 [0,0,1,1] 23 .abs [0,0,1,1],
  .coef 0 [1300] .plain .qu1 [0,0,2,2] 23 .abs [0,0,2,2],
  .coef 0 [1301] .abs .qu1 [0,1,0,0] 23 .abs [0,1,0,0],
  .coef 0 [1302] .abs .qu1 [0,1,0,1] 23 .abs [0,1,0,1],
  .coef 0 [1303] .abs .qu1 [0,1,1,0] 23 .abs [0,1,1,0],
  .coef 0 [1304] .abs .qu1 [0,1,0,2] 23 .abs [0,1,0,2],
  .coef 0 [1305] .abs .qu1 [0,1,2,0] 23 .abs [0,1,2,0],
  .coef 0 [1306] .abs .qu1 [0,1,1,1] 23 .abs [0,1,1,1],
  .coef 0 [1307] .abs .qu1 [0,1,1,2] 23 .abs [0,1,1,2],
  .coef 0 [1308] .abs .qu1 [0,1,2,1] 23 .abs [0,1,2,1],
  .coef 0 [1309] .abs .qu1 [0,1,2,2] 23 .abs [0,1,2,2],
  .coef 0 [1310] .abs .qu1 [0,2,0,0] 23 .abs [0,2,0,0],
  .coef 0 [1311] .abs .qu1 [0,2,0,1] 23 .abs [0,2,0,1],
  .coef 0 [1312] .abs .qu1 [0,2,0,2] 23 .abs [0,2,0,2],
  .coef 0 [1313] .abs .qu1 [0,2,2,0] 23 .abs [0,2,2,0],
  .coef 0 [1314] .abs .qu1 [0,2,1,0] 23 .abs [0,2,1,0],
  .coef 0 [1315] .abs .qu1 [0,2,1,1] 23 .abs [0,2,1,1],
  .coef 0 [1316] .abs .qu1 [0,2,2,1] 23 .abs [0,2,2,1],
  .coef 0 [1317] .abs .qu1 [0,2,1,2] 23 .abs [0,2,1,2],
  .coef 0 [1318] .abs .qu1 [0,2,2,2] 23 .abs [0,2,2,2],
  .coef 0 [1319] .plain .qu1 [1,1,0,0] 23 .abs [1,1,0,0],
  .coef 0 [1320] .abs .qu1 [1,1,0,1] 23 .abs [1,1,0,1],
  .coef 0 [1321] .abs .qu1 [1,1,0,2] 23 .abs [1,1,0,2],
  .coef 0 [1322] .plain .qu1 [1,1,1,1] 23 .abs [1,1,1,1],
  .coef 0 [1323] .abs .qu1 [1,1,1,2] 23 .abs [1,1,1,2],
  .coef 0 [1324] .plain .qu1 [1,1,2,2] 23 .abs [1,1,2,2],
  .coef 0 [1325] .abs .qu1 [1,2,0,0] 23 .abs [1,2,0,0],
  .coef 0 [1326] .abs .qu1 [1,2,0,1] 23 .abs [1,2,0,1],
  .coef 0 [1327] .abs .qu1 [1,2,0,2] 23 .abs [1,2,0,2],
  .coef 0 [1328] .abs .qu1 [1,2,1,0] 23 .abs [1,2,1,0],
  .coef 0 [1329] .abs .qu1 [1,2,1,1] 23 .abs [1,2,1,1],
  .coef 0 [1330] .abs .qu1 [1,2,1,2] 23 .abs [1,2,1,2],
  .coef 0 [1331] .abs .qu1 [1,2,2,0] 23 .abs [1,2,2,0],
  .coef 0 [1332] .abs .qu1 [1,2,2,1] 23 .abs [1,2,2,1],
  .coef 0 [1333] .abs .qu1 [1,2,2,2] 23 .abs [1,2,2,2],
  .coef 0 [1334] .plain .qu1 [2,2,0,0] 23 .abs [2,2,0,0],
  .coef 0 [1335] .abs .qu1 [2,2,0,1] 23 .abs [2,2,0,1],
  .coef 0 [1336] .abs .qu1 [2,2,0,2] 23 .abs [2,2,0,2],
  .coef 0 [1337] .plain .qu1 [2,2,1,1] 23 .abs [2,2,1,1],
  .coef 0 [1338] .plain .qu1 [2,2,2,2] 23 .abs [2,2,2,2],
  .coef 0 [1339] .abs .qu1 [2,2,1,2] 23 .abs [2,2,1,2],
  .coef 0 [1340] .plain .qu8 [0,0,0,0] 25 .abs [0,0,0,0],
  .coef 0 [1341] .abs .qu8 [0,0,0,1] 25 .abs [0,0,0,1],
  .coef 0 [1342] .abs .qu8 [0,0,0,2] 25 .abs [0,0,0,2],
  .coef 0 [1343] .abs .qu8 [0,0,1,2] 25 .abs [0,0,1,2],
  .coef 0 [1344] .plain .qu8 [0,0,1,1] 25 .abs [0,0,1,1],
  .coef 0 [1345] .plain .qu8 [0,0,2,2] 25 .abs [0,0,2,2],
  .coef 0 [1346] .abs .qu8 [0,1,0,0] 25 .abs [0,1,0,0],
  .coef 0 [1347] .abs .qu8 [0,1,0,1] 25 .abs [0,1,0,1],
  .coef 0 [1348] .abs .qu8 [0,1,1,0] 25 .abs [0,1,1,0],
  .coef 0 [1349] .abs .qu8 [0,1,0,2] 25 .abs [0,1,0,2],
  .coef 0 [1350] .abs .qu8 [0,1,2,0] 25 .abs [0,1,2,0],
  .coef 0 [1351] .abs .qu8 [0,1,1,1] 25 .abs [0,1,1,1],
  .coef 0 [1352] .abs .qu8 [0,1,1,2] 25 .abs [0,1,1,2],
  .coef 0 [1353] .abs .qu8 [0,1,2,1] 25 .abs [0,1,2,1],
  .coef 0 [1354] .abs .qu8 [0,1,2,2] 25 .abs [0,1,2,2],
  .coef 0 [1355] .abs .qu8 [0,2,0,0] 25 .abs [0,2,0,0],
  .coef 0 [1356] .abs .qu8 [0,2,0,1] 25 .abs [0,2,0,1],
  .coef 0 [1357] .abs .qu8 [0,2,0,2] 25 .abs [0,2,0,2],
  .coef 0 [1358] .abs .qu8 [0,2,2,0] 25 .abs [0,2,2,0],
  .coef 0 [1359] .abs .qu8 [0,2,1,0] 25 .abs [0,2,1,0],
  .coef 0 [1360] .abs .qu8 [0,2,1,1] 25 .abs [0,2,1,1],
  .coef 0 [1361] .abs .qu8 [0,2,2,1] 25 .abs [0,2,2,1],
  .coef 0 [1362] .abs .qu8 [0,2,1,2] 25 .abs [0,2,1,2],
  .coef 0 [1363] .abs .qu8 [0,2,2,2] 25 .abs [0,2,2,2],
  .coef 0 [1364] .plain .qu8 [1,1,0,0] 25 .abs [1,1,0,0],
  .coef 0 [1365] .abs .qu8 [1,1,0,1] 25 .abs [1,1,0,1],
  .coef 0 [1366] .abs .qu8 [1,1,0,2] 25 .abs [1,1,0,2],
  .coef 0 [1367] .plain .qu8 [1,1,1,1] 25 .abs [1,1,1,1],
  .coef 0 [1368] .abs .qu8 [1,1,1,2] 25 .abs [1,1,1,2],
  .coef 0 [1369] .plain .qu8 [1,1,2,2] 25 .abs [1,1,2,2],
  .coef 0 [1370] .abs .qu8 [1,2,0,0] 25 .abs [1,2,0,0],
  .coef 0 [1371] .abs .qu8 [1,2,0,1] 25 .abs [1,2,0,1],
  .coef 0 [1372] .abs .qu8 [1,2,0,2] 25 .abs [1,2,0,2],
  .coef 0 [1373] .abs .qu8 [1,2,1,0] 25 .abs [1,2,1,0],
  .coef 0 [1374] .abs .qu8 [1,2,1,1] 25 .abs [1,2,1,1],
  .coef 0 [1375] .abs .qu8 [1,2,1,2] 25 .abs [1,2,1,2]]

/-- `smeftsim.py:1480-1613` -/
def rowsA11 : List Row := [
  .coef 0 [1376] .abs .qu8 [1,2,2,0] 25 .abs [1,2,2,0],
  .coef 0 [1377] .abs .qu8 [1,2,2,1] 25 .abs [1,2,2,1],
  .coef 0 [1378] .abs .qu8 [1,2,2,2] 25 .abs [1,2,2,2],
  .coef 0 [1379] .plain .qu8 [2,2,0,0] 25 .abs [2,2,0,0],
  .coef 0 [1380] .abs .qu8 [2,2,0,1] 25 .abs [2,2,0,1],
  .coef 0 [1381] .abs .qu8 [2,2,0,2] 25 .abs [2,2,0,2],
  .coef 0 [1382] .plain .qu8 [2,2,1,1] 25 .abs [2,2,1,1],
  .coef 0 [1383] .plain .qu8 [2,2,2,2] 25 .abs [2,2,2,2],
  .coef 0 [1384] .abs .qu8 [2,2,1,2] 25 .abs [2,2,1,2],
  .coef 0 [1385] .plain .qd1 [0,0,0,0] 24 .abs [0,0,0,0],
  .coef 0 [1386] .abs .qd1 [0,0,0,1] 24 .abs [0,0,0,1],
  .coef 0 [1387] .abs .qd1 [0,0,0,2] 24 .abs [0,0,0,2],
  .coef 0 [1388] .abs .qd1 [0,0,1,2] 24 .abs [0,0,1,2],
  .coef 0 [1389] .plain .qd1 [0,0,1,1] 24 .abs [0,0,1,1],
  .coef 0 [1390] .plain .qd1 [0,0,2,2] 24 .abs [0,0,2,2],
  .coef 0 [1391] .abs .qd1 [0,1,0,0] 24 .abs [0,1,0,0],
  .coef 0 [1392] .abs .qd1 [0,1,0,1] 24 .abs [0,1,0,1],
  .coef 0 [1393] .abs .qd1 [0,1,1,0] 24 .abs [0,1,1,0],
  .coef 0 [1394] .abs .qd1 [0,1,0,2] 24 .abs [0,1,0,2],
  .coef 0 [1395] .abs .qd1 [0,1,2,0] 24 .abs [0,1,2,0],
  .coef 0 [1396] .abs .qd1 [0,1,1,1] 24 .abs [0,1,1,1],
  .coef 0 [1397] .abs .qd1 [0,1,1,2] 24 .abs [0,1,1,2],
  .coef 0 [1398] .abs .qd1 [0,1,2,1] 24 .abs [0,1,2,1],
  .coef 0 [1399] .abs .qd1 [0,1,2,2] 24 .abs [0,1,2,2],
  .coef 0 [1400] .abs .qd1 [0,2,0,0] 24 .abs [0,2,0,0],
  .coef 0 [1401] .abs .qd1 [0,2,0,1] 24 .abs [0,2,0,1],
  .coef 0 [1402] .abs .qd1 [0,2,0,2] 24 .abs [0,2,0,2],
  .coef 0 [1403] .abs .qd1 [0,2,2,0] 24 .abs [0,2,2,0],
  .coef 0 [1404] .abs .qd1 [0,2,1,0] 24 .abs [0,2,1,0],
  .coef 0 [1405] .abs .qd1 [0,2,1,1] 24 .abs [0,2,1,1],
  .coef 0 [1406] .abs .qd1 [0,2,2,1] 24 .abs [0,2,2,1],
  .coef 0 [1407] .abs .qd1 [0,2,1,2] 24 .abs [0,2,1,2],
  .coef 0 [1408] .abs .qd1 [0,2,2,2] 24 .abs [0,2,2,2],
  .coef 0 [1409] .plain .qd1 [1,1,0,0] 24 .abs [1,1,0,0],
  .coef 0 [1410] .abs .qd1 [1,1,0,1] 24 .abs [1,1,0,1],
  .coef 0 [1411] .abs .qd1 [1,1,0,2] 24 .abs [1,1,0,2],
  .coef 0 [1412] .plain .qd1 [1,1,1,1] 24 .abs [1,1,1,1],
  .coef 0 [1413] .abs .qd1 [1,1,1,2] 24 .abs [1,1,1,2],
  .coef 0 [1414] .plain .qd1 [1,1,2,2] 24 .abs [1,1,2,2],
  .coef 0 [1415] .abs .qd1 [1,2,0,0] 24 .abs [1,2,0,0],
  .coef 0 [1416] .abs .qd1 [1,2,0,1] 24 .abs [1,2,0,1],
  .coef 0 [1417] .abs .qd1 [1,2,0,2] 24 .abs [1,2,0,2],
  .coef 0 [1418] .abs .qd1 [1,2,1,0] 24 .abs [1,2,1,0],
  .coef 0 [1419] .abs .qd1 [1,2,1,1] 24 .abs [1,2,1,1],
  .coef 0 [1420] .abs .qd1 [1,2,1,2] 24 .abs [1,2,1,2],
  .coef 0 [1421] .abs .qd1 [1,2,2,0] 24 .abs [1,2,2,0],
  .coef 0 [1422] .abs .qd1 [1,2,2,1] 24 .abs [1,2,2,1],
  .coef 0 [1423] .abs .qd1 [1,2,2,2] 24 .abs [1,2,2,2],
  .coef 0 [1424] .plain .qd1 [2,2,0,0] 24 .abs [2,2,0,0],
  .coef 0 [1425] .abs .qd1 [2,2,0,1] 24 .abs [2,2,0,1],
  .coef 0 [1426] .abs .qd1 [2,2,0,2] 24 .abs [2,2,0,2],
  .coef 0 [1427] .plain .qd1 [2,2,1,1] 24 .abs [2,2,1,1],
  .coef 0 [1428] .plain .qd1 [2,2,2,2] 24 .abs [2,2,2,2],
  .coef 0 [1429] .abs .qd1 [2,2,1,2] 24 .abs [2,2,1,2],
  .coef 0 [1430] .plain .qd8 [0,0,0,0] 26 .abs [0,0,0,0],
  .coef 0 [1431] .abs .qd8 [0,0,0,1] 26 .abs [0,0,0,1],
  .coef 0 [1432] .abs .qd8 [0,0,0,2] 26 .abs [0,0,0,2],
  .coef 0 [1433] .abs .qd8 [0,0,1,2] 26 .abs [0,0,1,2],
  .coef 0 [1434] .plain .qd8 [0,0,1,1] 26 .abs [0,0,1,1],
  .coef 0 [1435] .plain .qd8 [0,0,2,2] 26 .abs [0,0,2,2],
  .coef 0 [1436] .abs .qd8 [0,1,0,0] 26 .abs [0,1,0,0],
  .coef 0 [1437] .abs .qd8 [0,1,0,1] 26 .abs [0,1,0,1],
  .coef 0 [1438] .abs .qd8 [0,1,1,0] 26 .abs [0,1,1,0],
  .coef 0 [1439] .abs .qd8 [0,1,0,2] 26 .abs [0,1,0,2],
  .coef 0 [1440] .abs .qd8 [0,1,2,0] 26 .abs [0,1,2,0],
  .coef 0 [1441] .abs .qd8 [0,1,1,1] 26 .abs [0,1,1,1],
  .coef 0 [1442] .abs .qd8 [0,1,1,2] 26 .abs [0,1,1,2],
  .coef 0 [1443] .abs .qd8 [0,1,2,1] 26 .abs [0,1,2,1],
  .coef 0 [1444] .abs .qd8 [0,1,2,2] 26 .abs [0,1,2,2],
  .coef 0 [1445] .abs .qd8 [0,2,0,0] 26 .abs [0,2,0,0],
  .coef 0 [1446] .abs .qd8 [0,2,0,1] 26 .abs [0,2,0,1],
  .coef 0 [1447] .abs .qd8 [0,2,0,2] 26 .abs [0,2,0,2],
  .coef 0 [1448] .abs .qd8 [0,2,2,0] 26 .abs [0,2,2,0],
  .coef 0 [1449] .abs .qd8 [0,2,1,0] 26 .abs [0,2,1,0],
  .coef 0 [1450] .abs .qd8 [0,2,1,1] 26 .abs [0,2,1,1],
  .coef 0 [1451] .abs .qd8 [0,2,2,1] 26 .abs [0,2,2,1],
  .coef 0 [1452] .abs .qd8 [0,2,1,2] 26 .abs [0,2,1,2],
  .coef 0 [1453] .abs .qd8 [0,2,2,2] 26 .abs [0,2,2,2],
  .coef 0 [1454] .plain .qd8 [1,1,0,0] 26 .abs [1,1,0,0],
  .coef 0 [1455] .abs .qd8 [1,1,0,1] 26 .abs [1,1,0,1],
  .coef 0 [1456] .abs .qd8 [1,1,0,2] 26 .abs [1,1,0,2],
  .coef 0 [1457] .plain .qd8 [1,1,1,1] 26 .abs [1,1,1,1],
  .coef 0 [1458] .abs .qd8 [1,1,1,2] 26 .abs [1,1,1,2],
  .coef 0 [1459] .plain .qd8 [1,1,2,2] 26 .abs [1,1,2,2],
  .coef 0 [1460] .abs .qd8 [1,2,0,0] 26 .abs [1,2,0,0],
  .coef 0 [1461] .abs .qd8 [1,2,0,1] 26 .abs [1,2,0,1],
  .coef 0 [1462] .abs .qd8 [1,2,0,2] 26 .abs [1,2,0,2],
  .coef 0 [1463] .abs .qd8 [1,2,1,0] 26 .abs [1,2,1,0],
  .coef 0 [1464] .abs .qd8 [1,2,1,1] 26 .abs [1,2,1,1],
  .coef 0 [1465] .abs .qd8 [1,2,1,2] 26 .abs [1,2,1,2],
  .coef 0 [1466] .abs .qd8 [1,2,2,0] 26 .abs [1,2,2,0],
  .coef 0 [1467] .abs .qd8 [1,2,2,1] 26 .abs [1,2,2,1],
  .coef 0 [1468] .abs .qd8 [1,2,2,2] 26 .abs [1,2,2,2],
  .coef 0 [1469] .plain .qd8 [2,2,0,0] 26 .abs [2,2,0,0],
  .coef 0 [1470] .abs .qd8 [2,2,0,1] 26 .abs [2,2,0,1],
  .coef 0 [1471] .abs .qd8 [2,2,0,2] 26 .abs [2,2,0,2],
  .coef 0 [1472] .plain .qd8 [2,2,1,1] 26 .abs [2,2,1,1],
  .coef 0 [1473] .plain .qd8 [2,2,2,2] 26 .abs [2,2,2,2],
  .coef 0 [1474] .abs .qd8 [2,2,1,2] 26 .abs [2,2,1,2],
  .coef 1 [1,1] .angle .phiud [0,0] 42 .ph [0,0],
  .coef 1 [1,2] .angle .phiud [0,1] 42 .ph [0,1],
  .coef 1 [1,3] .angle .phiud [0,2] 42 .ph [0,2],
  .coef 1 [2,1] .angle .phiud [1,0] 42 .ph [1,0],
  .coef 1 [2,2] .angle .phiud [1,1] 42 .ph [1,1],
  .coef 1 [2,3] .angle .phiud [1,2] 42 .ph [1,2],
  .coef 1 [3,1] .angle .phiud [2,0] 42 .ph [2,0],
  .coef 1 [3,2] .angle .phiud [2,1] 42 .ph [2,1],
  .coef 1 [3,3] .angle .phiud [2,2] 42 .ph [2,2],
  .coef 2 [1,1] .angle .ephi [0,0] 43 .ph [0,0],
  .coef 2 [1,2] .angle .ephi [0,1] 43 .ph [0,1],
  .coef 2 [1,3] .angle .ephi [0,2] 43 .ph [0,2],
  .coef 2 [2,1] .angle .ephi [1,0] 43 .ph [1,0],
  .coef 2 [2,2] .angle .ephi [1,1] 43 .ph [1,1],
  .coef 2 [2,3] .angle .ephi [1,2] 43 .ph [1,2],
  .coef 2 [3,1] .angle .ephi [2,0] 43 .ph [2,0],
  .coef 2 [3,2] .angle .ephi [2,1] 43 .ph [2,1],
  .coef 2 [3,3] .angle .ephi [2,2] 43 .ph [2,2],
  .coef 3 [1,1] .angle .uphi [0,0] 44 .ph [0,0],
  .coef 3 [1,2] .angle .uphi [0,1] 44 .ph [0,1],
  .coef 3 [1,3] .angle .uphi [0,2] 44 .ph [0,2],
  .coef 3 [2,1] .angle .uphi [1,0] 44 .ph [1,0],
  .coef 3 [2,2] .angle .uphi [1,1] 44 .ph [1,1],
  .coef 3 [2,3] .angle .uphi [1,2] 44 .ph [1,2],
  .coef 3 [3,1] .angle .uphi [2,0] 44 .ph [2,0],
  .coef 3 [3,2] .angle .uphi [2,1] 44 .ph [2,1]]

/-- `smeftsim.py:1614-1747` -/
def rowsA12 : List Row := [
  .coef 3 [3,3] .angle .uphi [2,2] 44 .ph [2,2],
  .coef 4 [1,1] .angle .dphi [0,0] 45 .ph [0,0],
  .coef 4 [1,2] .angle .dphi [0,1] 45 .ph [0,1],
  .coef 4 [1,3] .angle .dphi [0,2] 45 .ph [0,2],
  .coef 4 [2,1] .angle .dphi [1,0] 45 .ph [1,0],
  .coef 4 [2,2] .angle .dphi [1,1] 45 .ph [1,1],
  .coef 4 [2,3] .angle .dphi [1,2] 45 .ph [1,2],
  .coef 4 [3,1] .angle .dphi [2,0] 45 .ph [2,0],
  .coef 4 [3,2] .angle .dphi [2,1] 45 .ph [2,1],
  .coef 4 [3,3] .angle .dphi [2,2] 45 .ph [2,2],
  .coef 5 [1,1,1,1] .angle .ledq [0,0,0,0] 46 .ph [0,0,0,0],
  .coef 5 [1,1,1,2] .angle .ledq [0,0,0,1] 46 .ph [0,0,0,1],
  .coef 5 [1,1,1,3] .angle .ledq [0,0,0,2] 46 .ph [0,0,0,2],
  .coef 5 [1,1,2,1] .angle .ledq [0,0,1,0] 46 .ph [0,0,1,0],
  .coef 5 [1,1,2,2] .angle .ledq [0,0,1,1] 46 .ph [0,0,1,1],
  .coef 5 [1,1,2,3] .angle .ledq [0,0,1,2] 46 .ph [0,0,1,2],
  .coef 5 [1,1,3,1] .angle .ledq [0,0,2,0] 46 .ph [0,0,2,0],
  .coef 5 [1,1,3,2] .angle .ledq [0,0,2,1] 46 .ph [0,0,2,1],
  .coef 5 [1,1,3,3] .angle .ledq [0,0,2,2] 46 .ph [0,0,2,2],
  .coef 5 [1,2,1,1] .angle .ledq [0,1,0,0] 46 .ph [0,1,0,0],
  .coef 5 [1,2,1,2] .angle .ledq [0,1,0,1] 46 .ph [0,1,0,1],
  .coef 5 [1,2,1,3] .angle .ledq [0,1,0,2] 46 .ph [0,1,0,2],
  .coef 5 [1,2,2,1] .angle .ledq [0,1,1,0] 46 .ph [0,1,1,0],
  .coef 5 [1,2,2,2] .angle .ledq [0,1,1,1] 46 .ph [0,1,1,1],
  .coef 5 [1,2,2,3] .angle .ledq [0,1,1,2] 46 .ph [0,1,1,2],
  .coef 5 [1,2,3,1] .angle .ledq [0,1,2,0] 46 .ph [0,1,2,0],
  .coef 5 [1,2,3,2] .angle .ledq [0,1,2,1] 46 .ph [0,1,2,1],
  .coef 5 [1,2,3,3] .angle .ledq [0,1,2,2] 46 .ph [0,1,2,2],
  .coef 5 [1,3,1,1] .angle .ledq [0,2,0,0] 46 .ph [0,2,0,0],
  .coef 5 [1,3,1,2] .angle .ledq [0,2,0,1] 46 .ph [0,2,0,1],
  .coef 5 [1,3,1,3] .angle .ledq [0,2,0,2] 46 .ph [0,2,0,2],
  .coef 5 [1,3,2,1] .angle .ledq [0,2,1,0] 46 .ph [0,2,1,0],
  .coef 5 [1,3,2,2] .angle .ledq [0,2,1,1] 46 .ph [0,2,1,1],
  .coef 5 [1,3,2,3] .angle .ledq [0,2,1,2] 46 .ph [0,2,1,2],
  .coef 5 [1,3,3,1] .angle .ledq [0,2,2,0] 46 .ph [0,2,2,0],
  .coef 5 [1,3,3,2] .angle .ledq [0,2,2,1] 46 .ph [0,2,2,1],
  .coef 5 [1,3,3,3] .angle .ledq [0,2,2,2] 46 .ph [0,2,2,2],
  .coef 5 [2,1,1,1] .angle .ledq [1,0,0,0] 46 .ph [1,0,0,0],
  .coef 5 [2,1,1,2] .angle .ledq [1,0,0,1] 46 .ph [1,0,0,1],
  .coef 5 [2,1,1,3] .angle .ledq [1,0,0,2] 46 .ph [1,0,0,2],
  .coef 5 [2,1,2,1] .angle .ledq [1,0,1,0] 46 .ph [1,0,1,0],
  .coef 5 [2,1,2,2] .angle .ledq [1,0,1,1] 46 .ph [1,0,1,1],
  .coef 5 [2,1,2,3] .angle .ledq [1,0,1,2] 46 .ph [1,0,1,2],
  .coef 5 [2,1,3,1] .angle .ledq [1,0,2,0] 46 .ph [1,0,2,0],
  .coef 5 [2,1,3,2] .angle .ledq [1,0,2,1] 46 .ph [1,0,2,1],
  .coef 5 [2,1,3,3] .angle .ledq [1,0,2,2] 46 .ph [1,0,2,2],
  .coef 5 [2,2,1,1] .angle .ledq [1,1,0,0] 46 .ph [1,1,0,0],
  .coef 5 [2,2,1,2] .angle .ledq [1,1,0,1] 46 .ph [1,1,0,1],
  .coef 5 [2,2,1,3] .angle .ledq [1,1,0,2] 46 .ph [1,1,0,2],
  .coef 5 [2,2,2,1] .angle .ledq [1,1,1,0] 46 .ph [1,1,1,0],
  .coef 5 [2,2,2,2] .angle .ledq [1,1,1,1] 46 .ph [1,1,1,1],
  .coef 5 [2,2,2,3] .angle .ledq [1,1,1,2] 46 .ph [1,1,1,2],
  .coef 5 [2,2,3,1] .angle .ledq [1,1,2,0] 46 .ph [1,1,2,0],
  .coef 5 [2,2,3,2] .angle .ledq [1,1,2,1] 46 .ph [1,1,2,1],
  .coef 5 [2,2,3,3] .angle .ledq [1,1,2,2] 46 .ph [1,1,2,2],
  .coef 5 [2,3,1,1] .angle .ledq [1,2,0,0] 46 .ph [1,2,0,0],
  .coef 5 [2,3,1,2] .angle .ledq [1,2,0,1] 46 .ph [1,2,0,1],
  .coef 5 [2,3,1,3] .angle .ledq [1,2,0,2] 46 .ph [1,2,0,2],
  .coef 5 [2,3,2,1] .angle .ledq [1,2,1,0] 46 .ph [1,2,1,0],
  .coef 5 [2,3,2,2] .angle .ledq [1,2,1,1] 46 .ph [1,2,1,1],
  .coef 5 [2,3,2,3] .angle .ledq [1,2,1,2] 46 .ph [1,2,1,2],
  .coef 5 [2,3,3,1] .angle .ledq [1,2,2,0] 46 .ph [1,2,2,0],
  .coef 5 [2,3,3,2] .angle .ledq [1,2,2,1] 46 .ph [1,2,2,1],
  .coef 5 [2,3,3,3] .angle .ledq [1,2,2,2] 46 .ph [1,2,2,2],
  .coef 5 [3,1,1,1] .angle .ledq [2,0,0,0] 46 .ph [2,0,0,0],
  .coef 5 [3,1,1,2] .angle .ledq [2,0,0,1] 46 .ph [2,0,0,1],
  .coef 5 [3,1,1,3] .angle .ledq [2,0,0,2] 46 .ph [2,0,0,2],
  .coef 5 [3,1,2,1] .angle .ledq [2,0,1,0] 46 .ph [2,0,1,0],
  .coef 5 [3,1,2,2] .angle .ledq [2,0,1,1] 46 .ph [2,0,1,1],
  .coef 5 [3,1,2,3] .angle .ledq [2,0,1,2] 46 .ph [2,0,1,2],
  .coef 5 [3,1,3,1] .angle .ledq [2,0,2,0] 46 .ph [2,0,2,0],
  .coef 5 [3,1,3,2] .angle .ledq [2,0,2,1] 46 .ph [2,0,2,1],
  .coef 5 [3,1,3,3] .angle .ledq [2,0,2,2] 46 .ph [2,0,2,2],
  .coef 5 [3,2,1,1] .angle .ledq [2,1,0,0] 46 .ph [2,1,0,0],
  .coef 5 [3,2,1,2] .angle .ledq [2,1,0,1] 46 .ph [2,1,0,1],
  .coef 5 [3,2,1,3] .angle .ledq [2,1,0,2] 46 .ph [2,1,0,2],
  .coef 5 [3,2,2,1] .angle .ledq [2,1,1,0] 46 .ph [2,1,1,0],
  .coef 5 [3,2,2,2] .angle .ledq [2,1,1,1] 46 .ph [2,1,1,1],
  .coef 5 [3,2,2,3] .angle .ledq [2,1,1,2] 46 .ph [2,1,1,2],
  .coef 5 [3,2,3,1] .angle .ledq [2,1,2,0] 46 .ph [2,1,2,0],
  .coef 5 [3,2,3,2] .angle .ledq [2,1,2,1] 46 .ph [2,1,2,1],
  .coef 5 [3,2,3,3] .angle .ledq [2,1,2,2] 46 .ph [2,1,2,2],
  .coef 5 [3,3,1,1] .angle .ledq [2,2,0,0] 46 .ph [2,2,0,0],
  .coef 5 [3,3,1,2] .angle .ledq [2,2,0,1] 46 .ph [2,2,0,1],
  .coef 5 [3,3,1,3] .angle .ledq [2,2,0,2] 46 .ph [2,2,0,2],
  .coef 5 [3,3,2,1] .angle .ledq [2,2,1,0] 46 .ph [2,2,1,0],
  .coef 5 [3,3,2,2] .angle .ledq [2,2,1,1] 46 .ph [2,2,1,1],
  .coef 5 [3,3,2,3] .angle .ledq [2,2,1,2] 46 .ph [2,2,1,2],
  .coef 5 [3,3,3,1] .angle .ledq [2,2,2,0] 46 .ph [2,2,2,0],
  .coef 5 [3,3,3,2] .angle .ledq [2,2,2,1] 46 .ph [2,2,2,1],
  .coef 5 [3,3,3,3] .angle .ledq [2,2,2,2] 46 .ph [2,2,2,2],
  .coef 6 [1,1,1,1] .angle .quqd1 [0,0,0,0] 47 .ph [0,0,0,0],
  .coef 6 [1,1,1,2] .angle .quqd1 [0,0,0,1] 47 .ph [0,0,0,1],
  .coef 6 [1,1,1,3] .angle .quqd1 [0,0,0,2] 47 .ph [0,0,0,2],
  .coef 6 [1,1,2,1] .angle .quqd1 [0,0,1,0] 47 .ph [0,0,1,0],
  .coef 6 [1,1,2,2] .angle .quqd1 [0,0,1,1] 47 .ph [0,0,1,1],
  .coef 6 [1,1,2,3] .angle .quqd1 [0,0,1,2] 47 .ph [0,0,1,2],
  .coef 6 [1,1,3,1] .angle .quqd1 [0,0,2,0] 47 .ph [0,0,2,0],
  .coef 6 [1,1,3,2] .angle .quqd1 [0,0,2,1] 47 .ph [0,0,2,1],
  .coef 6 [1,1,3,3] .angle .quqd1 [0,0,2,2] 47 .ph [0,0,2,2],
  .coef 6 [1,2,1,1] .angle .quqd1 [0,1,0,0] 47 .ph [0,1,0,0],
  .coef 6 [1,2,1,2] .angle .quqd1 [0,1,0,1] 47 .ph [0,1,0,1],
  .coef 6 [1,2,1,3] .angle .quqd1 [0,1,0,2] 47 .ph [0,1,0,2],
  .coef 6 [1,2,2,1] .angle .quqd1 [0,1,1,0] 47 .ph [0,1,1,0],
  .coef 6 [1,2,2,2] .angle .quqd1 [0,1,1,1] 47 .ph [0,1,1,1],
  .coef 6 [1,2,2,3] .angle .quqd1 [0,1,1,2] 47 .ph [0,1,1,2],
  .coef 6 [1,2,3,1] .angle .quqd1 [0,1,2,0] 47 .ph [0,1,2,0],
  .coef 6 [1,2,3,2] .angle .quqd1 [0,1,2,1] 47 .ph [0,1,2,1],
  .coef 6 [1,2,3,3] .angle .quqd1 [0,1,2,2] 47 .ph [0,1,2,2],
  .coef 6 [1,3,1,1] .angle .quqd1 [0,2,0,0] 47 .ph [0,2,0,0],
  .coef 6 [1,3,1,2] .angle .quqd1 [0,2,0,1] 47 .ph [0,2,0,1],
  .coef 6 [1,3,1,3] .angle .quqd1 [0,2,0,2] 47 .ph [0,2,0,2],
  .coef 6 [1,3,2,1] .angle .quqd1 [0,2,1,0] 47 .ph [0,2,1,0],
  .coef 6 [1,3,2,2] .angle .quqd1 [0,2,1,1] 47 .ph [0,2,1,1],
  .coef 6 [1,3,2,3] .angle .quqd1 [0,2,1,2] 47 .ph [0,2,1,2],
  .coef 6 [1,3,3,1] .angle .quqd1 [0,2,2,0] 47 .ph [0,2,2,0],
  .coef 6 [1,3,3,2] .angle .quqd1 [0,2,2,1] 47 .ph [0,2,2,1],
  .coef 6 [1,3,3,3] .angle .quqd1 [0,2,2,2] 47 .ph [0,2,2,2],
  .coef 6 [2,1,1,1] .angle .quqd1 [1,0,0,0] 47 .ph [1,0,0,0],
  .coef 6 [2,1,1,2] .angle .quqd1 [1,0,0,1] 47 .ph [1,0,0,1],
  .coef 6 [2,1,1,3] .angle .quqd1 [1,0,0,2] 47 .ph [1,0,0,2],
  .coef 6 [2,1,2,1] .angle .quqd1 [1,0,1,0] 47 .ph [1,0,1,0],
  .coef 6 [2,1,2,2] .angle .quqd1 [1,0,1,1] 47 .ph [1,0,1,1],
  .coef 6 [2,1,2,3] .angle .quqd1 [1,0,1,2] 47 .ph [1,0,1,2],
  .coef 6 [2,1,3,1] .angle .quqd1 [1,0,2,0] 47 .ph [1,0,2,0]]

/-- `smeftsim.py:1748-1875` -/
def rowsA13 : List Row := [
  .coef 6 [2,1,3,2] .angle .quqd1 [1,0,2,1] 47 .ph [1,0,2,1],
  .coef 6 [2,1,3,3] .angle .quqd1 [1,0,2,2] 47 .ph [1,0,2,2],
  .coef 6 [2,2,1,1] .angle .quqd1 [1,1,0,0] 47 .ph [1,1,0,0],
  .coef 6 [2,2,1,2] .angle .quqd1 [1,1,0,1] 47 .ph [1,1,0,1],
  .coef 6 [2,2,1,3] .angle .quqd1 [1,1,0,2] 47 .ph [1,1,0,2],
  .coef 6 [2,2,2,1] .angle .quqd1 [1,1,1,0] 47 .ph [1,1,1,0],
  .coef 6 [2,2,2,2] .angle .quqd1 [1,1,1,1] 47 .ph [1,1,1,1],
  .coef 6 [2,2,2,3] .angle .quqd1 [1,1,1,2] 47 .ph [1,1,1,2],
  .coef 6 [2,2,3,1] .angle .quqd1 [1,1,2,0] 47 .ph [1,1,2,0],
  .coef 6 [2,2,3,2] .angle .quqd1 [1,1,2,1] 47 .ph [1,1,2,1],
  .coef 6 [2,2,3,3] .angle .quqd1 [1,1,2,2] 47 .ph [1,1,2,2],
  .coef 6 [2,3,1,1] .angle .quqd1 [1,2,0,0] 47 .ph [1,2,0,0],
  .coef 6 [2,3,1,2] .angle .quqd1 [1,2,0,1] 47 .ph [1,2,0,1],
  .coef 6 [2,3,1,3] .angle .quqd1 [1,2,0,2] 47 .ph [1,2,0,2],
  .coef 6 [2,3,2,1] .angle .quqd1 [1,2,1,0] 47 .ph [1,2,1,0],
  .coef 6 [2,3,2,2] .angle .quqd1 [1,2,1,1] 47 .ph [1,2,1,1],
  .coef 6 [2,3,2,3] .angle .quqd1 [1,2,1,2] 47 .ph [1,2,1,2],
  .coef 6 [2,3,3,1] .angle .quqd1 [1,2,2,0] 47 .ph [1,2,2,0],
  .coef 6 [2,3,3,2] .angle .quqd1 [1,2,2,1] 47 .ph [1,2,2,1],
  .coef 6 [2,3,3,3] .angle .quqd1 [1,2,2,2] 47 .ph [1,2,2,2],
  .coef 6 [3,1,1,1] .angle .quqd1 [2,0,0,0] 47 .ph [2,0,0,0],
  .coef 6 [3,1,1,2] .angle .quqd1 [2,0,0,1] 47 .ph [2,0,0,1],
  .coef 6 [3,1,1,3] .angle .quqd1 [2,0,0,2] 47 .ph [2,0,0,2],
  .coef 6 [3,1,2,1] .angle .quqd1 [2,0,1,0] 47 .ph [2,0,1,0],
  .coef 6 [3,1,2,2] .angle .quqd1 [2,0,1,1] 47 .ph [2,0,1,1],
  .coef 6 [3,1,2,3] .angle .quqd1 [2,0,1,2] 47 .ph [2,0,1,2],
  .coef 6 [3,1,3,1] .angle .quqd1 [2,0,2,0] 47 .ph [2,0,2,0],
  .coef 6 [3,1,3,2] .angle .quqd1 [2,0,2,1] 47 .ph [2,0,2,1],
  .coef 6 [3,1,3,3] .angle .quqd1 [2,0,2,2] 47 .ph [2,0,2,2],
  .coef 6 [3,2,1,1] .angle .quqd1 [2,1,0,0] 47 .ph [2,1,0,0],
  .coef 6 [3,2,1,2] .angle .quqd1 [2,1,0,1] 47 .ph [2,1,0,1],
  .coef 6 [3,2,1,3] .angle .quqd1 [2,1,0,2] 47 .ph [2,1,0,2],
  .coef 6 [3,2,2,1] .angle .quqd1 [2,1,1,0] 47 .ph [2,1,1,0],
  .coef 6 [3,2,2,2] .angle .quqd1 [2,1,1,1] 47 .ph [2,1,1,1],
  .coef 6 [3,2,2,3] .angle .quqd1 [2,1,1,2] 47 .ph [2,1,1,2],
  .coef 6 [3,2,3,1] .angle .quqd1 [2,1,2,0] 47 .ph [2,1,2,0],
  .coef 6 [3,2,3,2] .angle .quqd1 [2,1,2,1] 47 .ph [2,1,2,1],
  .coef 6 [3,2,3,3] .angle .quqd1 [2,1,2,2] 47 .ph [2,1,2,2],
  .coef 6 [3,3,1,1] .angle .quqd1 [2,2,0,0] 47 .ph [2,2,0,0],
  .coef 6 [3,3,1,2] .angle .quqd1 [2,2,0,1] 47 .ph [2,2,0,1],
  .coef 6 [3,3,1,3] .angle .quqd1 [2,2,0,2] 47 .ph [2,2,0,2],
  .coef 6 [3,3,2,1] .angle .quqd1 [2,2,1,0] 47 .ph [2,2,1,0],
  .coef 6 [3,3,2,2] .angle .quqd1 [2,2,1,1] 47 .ph [2,2,1,1],
  .coef 6 [3,3,2,3] .angle .quqd1 [2,2,1,2] 47 .ph [2,2,1,2],
  .coef 6 [3,3,3,1] .angle .quqd1 [2,2,2,0] 47 .ph [2,2,2,0],
  .coef 6 [3,3,3,2] .angle .quqd1 [2,2,2,1] 47 .ph [2,2,2,1],
  .coef 6 [3,3,3,3] .angle .quqd1 [2,2,2,2] 47 .ph [2,2,2,2],
  .coef 7 [1,1,1,1] .angle .quqd8 [0,0,0,0] 48 .ph [0,0,0,0],
  .coef 7 [1,1,1,2] .angle .quqd8 [0,0,0,1] 48 .ph [0,0,0,1],
  .coef 7 [1,1,1,3] .angle .quqd8 [0,0,0,2] 48 .ph [0,0,0,2],
  .coef 7 [1,1,2,1] .angle .quqd8 [0,0,1,0] 48 .ph [0,0,1,0],
  .coef 7 [1,1,2,2] .angle .quqd8 [0,0,1,1] 48 .ph [0,0,1,1],
  .coef 7 [1,1,2,3] .angle .quqd8 [0,0,1,2] 48 .ph [0,0,1,2],
  .coef 7 [1,1,3,1] .angle .quqd8 [0,0,2,0] 48 .ph [0,0,2,0],
  .coef 7 [1,1,3,2] .angle .quqd8 [0,0,2,1] 48 .ph [0,0,2,1],
  .coef 7 [1,1,3,3] .angle .quqd8 [0,0,2,2] 48 .ph [0,0,2,2],
  .coef 7 [1,2,1,1] .angle .quqd8 [0,1,0,0] 48 .ph [0,1,0,0],
  .coef 7 [1,2,1,2] .angle .quqd8 [0,1,0,1] 48 .ph [0,1,0,1],
  .coef 7 [1,2,1,3] .angle .quqd8 [0,1,0,2] 48 .ph [0,1,0,2],
  .coef 7 [1,2,2,1] .angle .quqd8 [0,1,1,0] 48 .ph [0,1,1,0],
  .coef 7 [1,2,2,2] .angle .quqd8 [0,1,1,1] 48 .ph [0,1,1,1],
  .coef 7 [1,2,2,3] .angle .quqd8 [0,1,1,2] 48 .ph [0,1,1,2],
  .coef 7 [1,2,3,1] .angle .quqd8 [0,1,2,0] 48 .ph [0,1,2,0],
  .coef 7 [1,2,3,2] .angle .quqd8 [0,1,2,1] 48 .ph [0,1,2,1],
  .coef 7 [1,2,3,3] .angle .quqd8 [0,1,2,2] 48 .ph [0,1,2,2],
  .coef 7 [1,3,1,1] .angle .quqd8 [0,2,0,0] 48 .ph [0,2,0,0],
  .coef 7 [1,3,1,2] .angle .quqd8 [0,2,0,1] 48 .ph [0,2,0,1],
  .coef 7 [1,3,1,3] .angle .quqd8 [0,2,0,2] 48 .ph [0,2,0,2],
  .coef 7 [1,3,2,1] .angle .quqd8 [0,2,1,0] 48 .ph [0,2,1,0],
  .coef 7 [1,3,2,2] .angle .quqd8 [0,2,1,1] 48 .ph [0,2,1,1],
  .coef 7 [1,3,2,3] .angle .quqd8 [0,2,1,2] 48 .ph [0,2,1,2],
  .coef 7 [1,3,3,1] .angle .quqd8 [0,2,2,0] 48 .ph [0,2,2,0],
  .coef 7 [1,3,3,2] .angle .quqd8 [0,2,2,1] 48 .ph [0,2,2,1],
  .coef 7 [1,3,3,3] .angle .quqd8 [0,2,2,2] 48 .ph [0,2,2,2],
  .coef 7 [2,1,1,1] .angle .quqd8 [1,0,0,0] 48 .ph [1,0,0,0],
  .coef 7 [2,1,1,2] .angle .quqd8 [1,0,0,1] 48 .ph [1,0,0,1],
  .coef 7 [2,1,1,3] .angle .quqd8 [1,0,0,2] 48 .ph [1,0,0,2],
  .coef 7 [2,1,2,1] .angle .quqd8 [1,0,1,0] 48 .ph [1,0,1,0],
  .coef 7 [2,1,2,2] .angle .quqd8 [1,0,1,1] 48 .ph [1,0,1,1],
  .coef 7 [2,1,2,3] .angle .quqd8 [1,0,1,2] 48 .ph [1,0,1,2],
  .coef 7 [2,1,3,1] .angle .quqd8 [1,0,2,0] 48 .ph [1,0,2,0],
  .coef 7 [2,1,3,2] .angle .quqd8 [1,0,2,1] 48 .ph [1,0,2,1],
  .coef 7 [2,1,3,3] .angle .quqd8 [1,0,2,2] 48 .ph [1,0,2,2],
  .coef 7 [2,2,1,1] .angle .quqd8 [1,1,0,0] 48 .ph [1,1,0,0],
  .coef 7 [2,2,1,2] .angle .quqd8 [1,1,0,1] 48 .ph [1,1,0,1],
  .coef 7 [2,2,1,3] .angle .quqd8 [1,1,0,2] 48 .ph [1,1,0,2],
  .coef 7 [2,2,2,1] .angle .quqd8 [1,1,1,0] 48 .ph [1,1,1,0],
  .coef 7 [2,2,2,2] .angle .quqd8 [1,1,1,1] 48 .ph [1,1,1,1],
  .coef 7 [2,2,2,3] .angle .quqd8 [1,1,1,2] 48 .ph [1,1,1,2],
  .coef 7 [2,2,3,1] .angle .quqd8 [1,1,2,0] 48 .ph [1,1,2,0],
  .coef 7 [2,2,3,2] .angle .quqd8 [1,1,2,1] 48 .ph [1,1,2,1],
  .coef 7 [2,2,3,3] .angle .quqd8 [1,1,2,2] 48 .ph [1,1,2,2],
  .coef 7 [2,3,1,1] .angle .quqd8 [1,2,0,0] 48 .ph [1,2,0,0],
  .coef 7 [2,3,1,2] .angle .quqd8 [1,2,0,1] 48 .ph [1,2,0,1],
  .coef 7 [2,3,1,3] .angle .quqd8 [1,2,0,2] 48 .ph [1,2,0,2],
  .coef 7 [2,3,2,1] .angle .quqd8 [1,2,1,0] 48 .ph [1,2,1,0],
  .coef 7 [2,3,2,2] .angle .quqd8 [1,2,1,1] 48 .ph [1,2,1,1],
  .coef 7 [2,3,2,3] .angle .quqd8 [1,2,1,2] 48 .ph [1,2,1,2],
  .coef 7 [2,3,3,1] .angle .quqd8 [1,2,2,0] 48 .ph [1,2,2,0],
  .coef 7 [2,3,3,2] .angle .quqd8 [1,2,2,1] 48 .ph [1,2,2,1],
  .coef 7 [2,3,3,3] .angle .quqd8 [1,2,2,2] 48 .ph [1,2,2,2],
  .coef 7 [3,1,1,1] .angle .quqd8 [2,0,0,0] 48 .ph [2,0,0,0],
  .coef 7 [3,1,1,2] .angle .quqd8 [2,0,0,1] 48 .ph [2,0,0,1],
  .coef 7 [3,1,1,3] .angle .quqd8 [2,0,0,2] 48 .ph [2,0,0,2],
  .coef 7 [3,1,2,1] .angle .quqd8 [2,0,1,0] 48 .ph [2,0,1,0],
  .coef 7 [3,1,2,2] .angle .quqd8 [2,0,1,1] 48 .ph [2,0,1,1],
  .coef 7 [3,1,2,3] .angle .quqd8 [2,0,1,2] 48 .ph [2,0,1,2],
  .coef 7 [3,1,3,1] .angle .quqd8 [2,0,2,0] 48 .ph [2,0,2,0],
  .coef 7 [3,1,3,2] .angle .quqd8 [2,0,2,1] 48 .ph [2,0,2,1],
  .coef 7 [3,1,3,3] .angle .quqd8 [2,0,2,2] 48 .ph [2,0,2,2],
  .coef 7 [3,2,1,1] .angle .quqd8 [2,1,0,0] 48 .ph [2,1,0,0],
  .coef 7 [3,2,1,2] .angle .quqd8 [2,1,0,1] 48 .ph [2,1,0,1],
  .coef 7 [3,2,1,3] .angle .quqd8 [2,1,0,2] 48 .ph [2,1,0,2],
  .coef 7 [3,2,2,1] .angle .quqd8 [2,1,1,0] 48 .ph [2,1,1,0],
  .coef 7 [3,2,2,2] .angle .quqd8 [2,1,1,1] 48 .ph [2,1,1,1],
  .coef 7 [3,2,2,3] .angle .quqd8 [2,1,1,2] 48 .ph [2,1,1,2],
  .coef 7 [3,2,3,1] .angle .quqd8 [2,1,2,0] 48 .ph [2,1,2,0],
  .coef 7 [3,2,3,2] .angle .quqd8 [2,1,2,1] 48 .ph [2,1,2,1],
  .coef 7 [3,2,3,3] .angle .quqd8 [2,1,2,2] 48 .ph [2,1,2,2],
  .coef 7 [3,3,1,1] .angle .quqd8 [2,2,0,0] 48 .ph [2,2,0,0],
  .coef 7 [3,3,1,2] .angle .quqd8 [2,2,0,1] 48 .ph [2,2,0,1],
  .coef 7 [3,3,1,3] .angle .quqd8 [2,2,0,2] 48 .ph [2,2,0,2],
  .coef 7 [3,3,2,1] .angle .quqd8 [2,2,1,0] 48 .ph [2,2,1,0],
  .coef 7 [3,3,2,2] .angle .quqd8 [2,2,1,1] 48 .ph [2,2,1,1],
  .coef 7 [3,3,2,3] .angle .quqd8 [2,2,1,2] 48 .ph [2,2,1,2]]

/-- `smeftsim.py:1876-2006` -/
def rowsA14 : List Row := [
  .coef 7 [3,3,3,1] .angle .quqd8 [2,2,2,0] 48 .ph [2,2,2,0],
  .coef 7 [3,3,3,2] .angle .quqd8 [2,2,2,1] 48 .ph [2,2,2,1],
  .coef 7 [3,3,3,3] .angle .quqd8 [2,2,2,2] 48 .ph [2,2,2,2],
  .coef 8 [1,1,1,1] .angle .lequ1 [0,0,0,0] 49 .ph [0,0,0,0],
  .coef 8 [1,1,1,2] .angle .lequ1 [0,0,0,1] 49 .ph [0,0,0,1],
  .coef 8 [1,1,1,3] .angle .lequ1 [0,0,0,2] 49 .ph [0,0,0,2],
  .coef 8 [1,1,2,1] .angle .lequ1 [0,0,1,0] 49 .ph [0,0,1,0],
  .coef 8 [1,1,2,2] .angle .lequ1 [0,0,1,1] 49 .ph [0,0,1,1],
  .coef 8 [1,1,2,3] .angle .lequ1 [0,0,1,2] 49 .ph [0,0,1,2],
  .coef 8 [1,1,3,1] .angle .lequ1 [0,0,2,0] 49 .ph [0,0,2,0],
  .coef 8 [1,1,3,2] .angle .lequ1 [0,0,2,1] 49 .ph [0,0,2,1],
  .coef 8 [1,1,3,3] .angle .lequ1 [0,0,2,2] 49 .ph [0,0,2,2],
  .coef 8 [1,2,1,1] .angle .lequ1 [0,1,0,0] 49 .ph [0,1,0,0],
  .coef 8 [1,2,1,2] .angle .lequ1 [0,1,0,1] 49 .ph [0,1,0,1],
  .coef 8 [1,2,1,3] .angle .lequ1 [0,1,0,2] 49 .ph [0,1,0,2],
  .coef 8 [1,2,2,1] .angle .lequ1 [0,1,1,0] 49 .ph [0,1,1,0],
  .coef 8 [1,2,2,2] .angle .lequ1 [0,1,1,1] 49 .ph [0,1,1,1],
  .coef 8 [1,2,2,3] .angle .lequ1 [0,1,1,2] 49 .ph [0,1,1,2],
  .coef 8 [1,2,3,1] .angle .lequ1 [0,1,2,0] 49 .ph [0,1,2,0],
  .coef 8 [1,2,3,2] .angle .lequ1 [0,1,2,1] 49 .ph [0,1,2,1],
  .coef 8 [1,2,3,3] .angle .lequ1 [0,1,2,2] 49 .ph [0,1,2,2],
  .coef 8 [1,3,1,1] .angle .lequ1 [0,2,0,0] 49 .ph [0,2,0,0],
  .coef 8 [1,3,1,2] .angle .lequ1 [0,2,0,1] 49 .ph [0,2,0,1],
  .coef 8 [1,3,1,3] .angle .lequ1 [0,2,0,2] 49 .ph [0,2,0,2],
  .coef 8 [1,3,2,1] .angle .lequ1 [0,2,1,0] 49 .ph [0,2,1,0],
  .coef 8 [1,3,2,2] .angle .lequ1 [0,2,1,1] 49 .ph [0,2,1,1],
  .coef 8 [1,3,2,3] .angle .lequ1 [0,2,1,2] 49 .ph [0,2,1,2],
  .coef 8 [1,3,3,1] .angle .lequ1 [0,2,2,0] 49 .ph [0,2,2,0],
  .coef 8 [1,3,3,2] .angle .lequ1 [0,2,2,1] 49 .ph [0,2,2,1],
  .coef 8 [1,3,3,3] .angle .lequ1 [0,2,2,2] 49 .ph [0,2,2,2],
  .coef 8 [2,1,1,1] .angle .lequ1 [1,0,0,0] 49 .ph [1,0,0,0],
  .coef 8 [2,1,1,2] .angle .lequ1 [1,0,0,1] 49 .ph [1,0,0,1],
  .coef 8 [2,1,1,3] .angle .lequ1 [1,0,0,2] 49 .ph [1,0,0,2],
  .coef 8 [2,1,2,1] .angle .lequ1 [1,0,1,0] 49 .ph [1,0,1,0],
  .coef 8 [2,1,2,2] .angle .lequ1 [1,0,1,1] 49 .ph [1,0,1,1],
  .coef 8 [2,1,2,3] .angle .lequ1 [1,0,1,2] 49 .ph [1,0,1,2],
  .coef 8 [2,1,3,1] .angle .lequ1 [1,0,2,0] 49 .ph [1,0,2,0],
  .coef 8 [2,1,3,2] .angle .lequ1 [1,0,2,1] 49 .ph [1,0,2,1],
  .coef 8 [2,1,3,3] .angle .lequ1 [1,0,2,2] 49 .ph [1,0,2,2],
  .coef 8 [2,2,1,1] .angle .lequ1 [1,1,0,0] 49 .ph [1,1,0,0],
  .coef 8 [2,2,1,2] .angle .lequ1 [1,1,0,1] 49 .ph [1,1,0,1],
  .coef 8 [2,2,1,3] .angle .lequ1 [1,1,0,2] 49 .ph [1,1,0,2],
  .coef 8 [2,2,2,1] .angle .lequ1 [1,1,1,0] 49 .ph [1,1,1,0],
  .coef 8 [2,2,2,2] .angle .lequ1 [1,1,1,1] 49 .ph [1,1,1,1],
  .coef 8 [2,2,2,3] .angle .lequ1 [1,1,1,2] 49 .ph [1,1,1,2],
  .coef 8 [2,2,3,1] .angle .lequ1 [1,1,2,0] 49 .ph [1,1,2,0],
  .coef 8 [2,2,3,2] .angle .lequ1 [1,1,2,1] 49 .ph [1,1,2,1],
  .coef 8 [2,2,3,3] .angle .lequ1 [1,1,2,2] 49 .ph [1,1,2,2],
  .coef 8 [2,3,1,1] .angle .lequ1 [1,2,0,0] 49 .ph [1,2,0,0],
  .coef 8 [2,3,1,2] .angle .lequ1 [1,2,0,1] 49 .ph [1,2,0,1],
  .coef 8 [2,3,1,3] .angle .lequ1 [1,2,0,2] 49 .ph [1,2,0,2],
  .coef 8 [2,3,2,1] .angle .lequ1 [1,2,1,0] 49 .ph [1,2,1,0],
  .coef 8 [2,3,2,2] .angle .lequ1 [1,2,1,1] 49 .ph [1,2,1,1],
  .coef 8 [2,3,2,3] .angle .lequ1 [1,2,1,2] 49 .ph [1,2,1,2],
  .coef 8 [2,3,3,1] .angle .lequ1 [1,2,2,0] 49 .ph [1,2,2,0],
  .coef 8 [2,3,3,2] .angle .lequ1 [1,2,2,1] 49 .ph [1,2,2,1],
  .coef 8 [2,3,3,3] .angle .lequ1 [1,2,2,2] 49 .ph [1,2,2,2],
  .coef 8 [3,1,1,1] .angle .lequ1 [2,0,0,0] 49 .ph [2,0,0,0],
  .coef 8 [3,1,1,2] .angle .lequ1 [2,0,0,1] 49 .ph [2,0,0,1],
  .coef 8 [3,1,1,3] .angle .lequ1 [2,0,0,2] 49 .ph [2,0,0,2],
  .coef 8 [3,1,2,1] .angle .lequ1 [2,0,1,0] 49 .ph [2,0,1,0],
  .coef 8 [3,1,2,2] .angle .lequ1 [2,0,1,1] 49 .ph [2,0,1,1],
  .coef 8 [3,1,2,3] .angle .lequ1 [2,0,1,2] 49 .ph [2,0,1,2],
  .coef 8 [3,1,3,1] .angle .lequ1 [2,0,2,0] 49 .ph [2,0,2,0],
  .coef 8 [3,1,3,2] .angle .lequ1 [2,0,2,1] 49 .ph [2,0,2,1],
  .coef 8 [3,1,3,3] .angle .lequ1 [2,0,2,2] 49 .ph [2,0,2,2],
  .coef 8 [3,2,1,1] .angle .lequ1 [2,1,0,0] 49 .ph [2,1,0,0],
  .coef 8 [3,2,1,2] .angle .lequ1 [2,1,0,1] 49 .ph [2,1,0,1],
  .coef 8 [3,2,1,3] .angle .lequ1 [2,1,0,2] 49 .ph [2,1,0,2],
  .coef 8 [3,2,2,1] .angle .lequ1 [2,1,1,0] 49 .ph [2,1,1,0],
  .coef 8 [3,2,2,2] .angle .lequ1 [2,1,1,1] 49 .ph [2,1,1,1],
  .coef 8 [3,2,2,3] .angle .lequ1 [2,1,1,2] 49 .ph [2,1,1,2],
  .coef 8 [3,2,3,1] .angle .lequ1 [2,1,2,0] 49 .ph [2,1,2,0],
  .coef 8 [3,2,3,2] .angle .lequ1 [2,1,2,1] 49 .ph [2,1,2,1],
  .coef 8 [3,2,3,3] .angle .lequ1 [2,1,2,2] 49 .ph [2,1,2,2],
  .coef 8 [3,3,1,1] .angle .lequ1 [2,2,0,0] 49 .ph [2,2,0,0],
  .coef 8 [3,3,1,2] .angle .lequ1 [2,2,0,1] 49 .ph [2,2,0,1],
  .coef 8 [3,3,1,3] .angle .lequ1 [2,2,0,2] 49 .ph [2,2,0,2],
  .coef 8 [3,3,2,1] .angle .lequ1 [2,2,1,0] 49 .ph [2,2,1,0],
  .coef 8 [3,3,2,2] .angle .lequ1 [2,2,1,1] 49 .ph [2,2,1,1],
  .coef 8 [3,3,2,3] .angle .lequ1 [2,2,1,2] 49 .ph [2,2,1,2],
  .coef 8 [3,3,3,1] .angle .lequ1 [2,2,2,0] 49 .ph [2,2,2,0],
  .coef 8 [3,3,3,2] .angle .lequ1 [2,2,2,1] 49 .ph [2,2,2,1],
  .coef 8 [3,3,3,3] .angle .lequ1 [2,2,2,2] 49 .ph [2,2,2,2],
  .coef 9 [1,1,1,1] .angle .lequ3 [0,0,0,0] 50 .ph [0,0,0,0],
  .coef 9 [1,1,1,2] .angle .lequ3 [0,0,0,1] 50 .ph [0,0,0,1],
  .coef 9 [1,1,1,3] .angle .lequ3 [0,0,0,2] 50 .ph [0,0,0,2],
  .coef 9 [1,1,2,1] .angle .lequ3 [0,0,1,0] 50 .ph [0,0,1,0],
  .coef 9 [1,1,2,2] .angle .lequ3 [0,0,1,1] 50 .ph [0,0,1,1],
  .coef 9 [1,1,2,3] .angle .lequ3 [0,0,1,2] 50 .ph [0,0,1,2],
  .coef 9 [1,1,3,1] .angle .lequ3 [0,0,2,0] 50 .ph [0,0,2,0],
  .coef 9 [1,1,3,2] .angle .lequ3 [0,0,2,1] 50 .ph [0,0,2,1],
  .coef 9 [1,1,3,3] .angle .lequ3 [0,0,2,2] 50 .ph [0,0,2,2],
  .coef 9 [1,2,1,1] .angle .lequ3 [0,1,0,0] 50 .ph [0,1,0,0],
  .coef 9 [1,2,1,2] .angle .lequ3 [0,1,0,1] 50 .ph [0,1,0,1],
  .coef 9 [1,2,1,3] .angle .lequ3 [0,1,0,2] 50 .ph [0,1,0,2],
  .coef 9 [1,2,2,1] .angle .lequ3 [0,1,1,0] 50 .ph [0,1,1,0],
  .coef 9 [1,2,2,2] .angle .lequ3 [0,1,1,1] 50 .ph [0,1,1,1],
  .coef 9 [1,2,2,3] .angle .lequ3 [0,1,1,2] 50 .ph [0,1,1,2],
  .coef 9 [1,2,3,1] .angle .lequ3 [0,1,2,0] 50 .ph [0,1,2,0],
  .coef 9 [1,2,3,2] .angle .lequ3 [0,1,2,1] 50 .ph [0,1,2,1],
  .coef 9 [1,2,3,3] .angle .lequ3 [0,1,2,2] 50 .ph [0,1,2,2],
  .coef 9 [1,3,1,1] .angle .lequ3 [0,2,0,0] 50 .ph [0,2,0,0],
  .coef 9 [1,3,1,2] .angle .lequ3 [0,2,0,1] 50 .ph [0,2,0,1],
  .coef 9 [1,3,1,3] .angle .lequ3 [0,2,0,2] 50 .ph [0,2,0,2],
  .coef 9 [1,3,2,1] .angle .lequ3 [0,2,1,0] 50 .ph [0,2,1,0],
  .coef 9 [1,3,2,2] .angle .lequ3 [0,2,1,1] 50 .ph [0,2,1,1],
  .coef 9 [1,3,2,3] .angle .lequ3 [0,2,1,2] 50 .ph [0,2,1,2],
  .coef 9 [1,3,3,1] .angle .lequ3 [0,2,2,0] 50 .ph [0,2,2,0],
  .coef 9 [1,3,3,2] .angle .lequ3 [0,2,2,1] 50 .ph [0,2,2,1],
  .coef 9 [1,3,3,3] .angle .lequ3 [0,2,2,2] 50 .ph [0,2,2,2],
  .coef 9 [2,1,1,1] .angle .lequ3 [1,0,0,0] 50 .ph [1,0,0,0],
  .coef 9 [2,1,1,2] .angle .lequ3 [1,0,0,1] 50 .ph [1,0,0,1],
  .coef 9 [2,1,1,3] .angle .lequ3 [1,0,0,2] 50 .ph [1,0,0,2],
  .coef 9 [2,1,2,1] .angle .lequ3 [1,0,1,0] 50 .ph [1,0,1,0],
  .coef 9 [2,1,2,2] .angle .lequ3 [1,0,1,1] 50 .ph [1,0,1,1],
  .coef 9 [2,1,2,3] .angle .lequ3 [1,0,1,2] 50 .ph [1,0,1,2],
  .coef 9 [2,1,3,1] .angle .lequ3 [1,0,2,0] 50 .ph [1,0,2,0],
  .coef 9 [2,1,3,2] .angle .lequ3 [1,0,2,1] 50 .ph [1,0,2,1],
  .coef 9 [2,1,3,3] .angle .lequ3 [1,0,2,2] 50 .ph [1,0,2,2],
  .coef 9 [2,2,1,1] .angle .lequ3 [1,1,0,0] 50 .ph [1,1,0,0],
  .coef 9 [2,2,1,2] .angle .lequ3 [1,1,0,1] 50 .ph [1,1,0,1],
  .coef 9 [2,2,1,3] .angle .lequ3 [1,1,0,2] 50 .ph [1,1,0,2],
  .coef 9 [2,2,2,1] .angle .lequ3 [1,1,1,0] 50 .ph [1,1,1,0],
  .coef 9 [2,2,2,2] .angle .lequ3 [1,1,1,1] 50 .ph [1,1,1,1]]

/-- `smeftsim.py:2007-2161` -/
def rowsA15 : List Row := [
  .coef 9 [2,2,2,3] .angle .lequ3 [1,1,1,2] 50 .ph [1,1,1,2],
  .coef 9 [2,2,3,1] .angle .lequ3 [1,1,2,0] 50 .ph [1,1,2,0],
  .coef 9 [2,2,3,2] .angle .lequ3 [1,1,2,1] 50 .ph [1,1,2,1],
  .coef 9 [2,2,3,3] .angle .lequ3 [1,1,2,2] 50 .ph [1,1,2,2],
  .coef 9 [2,3,1,1] .angle .lequ3 [1,2,0,0] 50 .ph [1,2,0,0],
  .coef 9 [2,3,1,2] .angle .lequ3 [1,2,0,1] 50 .ph [1,2,0,1],
  .coef 9 [2,3,1,3] .angle .lequ3 [1,2,0,2] 50 .ph [1,2,0,2],
  .coef 9 [2,3,2,1] .angle .lequ3 [1,2,1,0] 50 .ph [1,2,1,0],
  .coef 9 [2,3,2,2] .angle .lequ3 [1,2,1,1] 50 .ph [1,2,1,1],
  .coef 9 [2,3,2,3] .angle .lequ3 [1,2,1,2] 50 .ph [1,2,1,2],
  .coef 9 [2,3,3,1] .angle .lequ3 [1,2,2,0] 50 .ph [1,2,2,0],
  .coef 9 [2,3,3,2] .angle .lequ3 [1,2,2,1] 50 .ph [1,2,2,1],
  .coef 9 [2,3,3,3] .angle .lequ3 [1,2,2,2] 50 .ph [1,2,2,2],
  .coef 9 [3,1,1,1] .angle .lequ3 [2,0,0,0] 50 .ph [2,0,0,0],
  .coef 9 [3,1,1,2] .angle .lequ3 [2,0,0,1] 50 .ph [2,0,0,1],
  .coef 9 [3,1,1,3] .angle .lequ3 [2,0,0,2] 50 .ph [2,0,0,2],
  .coef 9 [3,1,2,1] .angle .lequ3 [2,0,1,0] 50 .ph [2,0,1,0],
  .coef 9 [3,1,2,2] .angle .lequ3 [2,0,1,1] 50 .ph [2,0,1,1],
  .coef 9 [3,1,2,3] .angle .lequ3 [2,0,1,2] 50 .ph [2,0,1,2],
  .coef 9 [3,1,3,1] .angle .lequ3 [2,0,2,0] 50 .ph [2,0,2,0],
  .coef 9 [3,1,3,2] .angle .lequ3 [2,0,2,1] 50 .ph [2,0,2,1],
  .coef 9 [3,1,3,3] .angle .lequ3 [2,0,2,2] 50 .ph [2,0,2,2],
  .coef 9 [3,2,1,1] .angle .lequ3 [2,1,0,0] 50 .ph [2,1,0,0],
  .coef 9 [3,2,1,2] .angle .lequ3 [2,1,0,1] 50 .ph [2,1,0,1],
  .coef 9 [3,2,1,3] .angle .lequ3 [2,1,0,2] 50 .ph [2,1,0,2],
  .coef 9 [3,2,2,1] .angle .lequ3 [2,1,1,0] 50 .ph [2,1,1,0],
  .coef 9 [3,2,2,2] .angle .lequ3 [2,1,1,1] 50 .ph [2,1,1,1],
  .coef 9 [3,2,2,3] .angle .lequ3 [2,1,1,2] 50 .ph [2,1,1,2],
  .coef 9 [3,2,3,1] .angle .lequ3 [2,1,2,0] 50 .ph [2,1,2,0],
  .coef 9 [3,2,3,2] .angle .lequ3 [2,1,2,1] 50 .ph [2,1,2,1],
  .coef 9 [3,2,3,3] .angle .lequ3 [2,1,2,2] 50 .ph [2,1,2,2],
  .coef 9 [3,3,1,1] .angle .lequ3 [2,2,0,0] 50 .ph [2,2,0,0],
  .coef 9 [3,3,1,2] .angle .lequ3 [2,2,0,1] 50 .ph [2,2,0,1],
  .coef 9 [3,3,1,3] .angle .lequ3 [2,2,0,2] 50 .ph [2,2,0,2],
  .coef 9 [3,3,2,1] .angle .lequ3 [2,2,1,0] 50 .ph [2,2,1,0],
  .coef 9 [3,3,2,2] .angle .lequ3 [2,2,1,1] 50 .ph [2,2,1,1],
  .coef 9 [3,3,2,3] .angle .lequ3 [2,2,1,2] 50 .ph [2,2,1,2],
  .coef 9 [3,3,3,1] .angle .lequ3 [2,2,2,0] 50 .ph [2,2,2,0],
  .coef 9 [3,3,3,2] .angle .lequ3 [2,2,2,1] 50 .ph [2,2,2,1],
  .coef 9 [3,3,3,3] .angle .lequ3 [2,2,2,2] 50 .ph [2,2,2,2],
  .coef 10 [1,1] .abs .ephi [0,0] 43 .abs [0,0],
  .coef 10 [1,2] .abs .ephi [0,1] 43 .abs [0,1],
  .coef 10 [1,3] .abs .ephi [0,2] 43 .abs [0,2],
  .coef 10 [2,1] .abs .ephi [1,0] 43 .abs [1,0],
  .coef 10 [2,2] .abs .ephi [1,1] 43 .abs [1,1],
  .coef 10 [2,3] .abs .ephi [1,2] 43 .abs [1,2],
  .coef 10 [3,1] .abs .ephi [2,0] 43 .abs [2,0],
  .coef 10 [3,2] .abs .ephi [2,1] 43 .abs [2,1],
  .coef 10 [3,3] .abs .ephi [2,2] 43 .abs [2,2],
  .coef 11 [1,1] .angle .eW [0,0] 51 .ph [0,0],
  .coef 11 [1,2] .angle .eW [0,1] 51 .ph [0,1],
  .coef 11 [1,3] .angle .eW [0,2] 51 .ph [0,2],
  .coef 11 [2,1] .angle .eW [1,0] 51 .ph [1,0],
  .coef 11 [2,2] .angle .eW [1,1] 51 .ph [1,1],
  .coef 11 [2,3] .angle .eW [1,2] 51 .ph [1,2],
  .coef 11 [3,1] .angle .eW [2,0] 51 .ph [2,0],
  .coef 11 [3,2] .angle .eW [2,1] 51 .ph [2,1],
  .coef 11 [3,3] .angle .eW [2,2] 51 .ph [2,2],
  .coef 12 [1,1] .abs .uphi [0,0] 44 .abs [0,0],
  .coef 12 [1,2] .abs .uphi [0,1] 44 .abs [0,1],
  .coef 12 [1,3] .abs .uphi [0,2] 44 .abs [0,2],
  .coef 12 [2,1] .abs .uphi [1,0] 44 .abs [1,0],
  .coef 12 [2,2] .abs .uphi [1,1] 44 .abs [1,1],
  .coef 12 [2,3] .abs .uphi [1,2] 44 .abs [1,2],
  .coef 12 [3,1] .abs .uphi [2,0] 44 .abs [2,0],
  .coef 12 [3,2] .abs .uphi [2,1] 44 .abs [2,1],
  .coef 12 [3,3] .abs .uphi [2,2] 44 .abs [2,2],
  .coef 13 [1,1] .abs .dphi [0,0] 45 .abs [0,0],
  .coef 13 [1,2] .abs .dphi [0,1] 45 .abs [0,1],
  .coef 13 [1,3] .abs .dphi [0,2] 45 .abs [0,2],
  .coef 13 [2,1] .abs .dphi [1,0] 45 .abs [1,0],
  .coef 13 [2,2] .abs .dphi [1,1] 45 .abs [1,1],
  .coef 13 [2,3] .abs .dphi [1,2] 45 .abs [1,2],
  .coef 13 [3,1] .abs .dphi [2,0] 45 .abs [2,0],
  .coef 13 [3,2] .abs .dphi [2,1] 45 .abs [2,1],
  .coef 13 [3,3] .abs .dphi [2,2] 45 .abs [2,2],
  .coef 14 [1,1] .abs .eW [0,0] 51 .abs [0,0],
  .coef 14 [1,2] .abs .eW [0,1] 51 .abs [0,1],
  .coef 14 [1,3] .abs .eW [0,2] 51 .abs [0,2],
  .coef 14 [2,1] .abs .eW [1,0] 51 .abs [1,0],
  .coef 14 [2,2] .abs .eW [1,1] 51 .abs [1,1],
  .coef 14 [2,3] .abs .eW [1,2] 51 .abs [1,2],
  .coef 14 [3,1] .abs .eW [2,0] 51 .abs [2,0],
  .coef 14 [3,2] .abs .eW [2,1] 51 .abs [2,1],
  .coef 14 [3,3] .abs .eW [2,2] 51 .abs [2,2],
  .coef 15 [1,1] .abs .eB [0,0] 52 .abs [0,0],
  .coef 15 [1,2] .abs .eB [0,1] 52 .abs [0,1],
  .coef 15 [1,3] .abs .eB [0,2] 52 .abs [0,2],
  .coef 15 [2,1] .abs .eB [1,0] 52 .abs [1,0],
  .coef 15 [2,2] .abs .eB [1,1] 52 .abs [1,1],
  .coef 15 [2,3] .abs .eB [1,2] 52 .abs [1,2],
  .coef 15 [3,1] .abs .eB [2,0] 52 .abs [2,0],
  .coef 15 [3,2] .abs .eB [2,1] 52 .abs [2,1],
  .coef 15 [3,3] .abs .eB [2,2] 52 .abs [2,2],
  .coef 16 [1,1] .abs .uG [0,0] 53 .abs [0,0],
  .coef 16 [1,2] .abs .uG [0,1] 53 .abs [0,1],
  .coef 16 [1,3] .abs .uG [0,2] 53 .abs [0,2],
  .coef 16 [2,1] .abs .uG [1,0] 53 .abs [1,0],
  .coef 16 [2,2] .abs .uG [1,1] 53 .abs [1,1],
  .coef 16 [2,3] .abs .uG [1,2] 53 .abs [1,2],
  .coef 16 [3,1] .abs .uG [2,0] 53 .abs [2,0],
  .coef 16 [3,2] .abs .uG [2,1] 53 .abs [2,1],
  .coef 16 [3,3] .abs .uG [2,2] 53 .abs [2,2],
  .coef 17 [1,1] .abs .uW [0,0] 54 .abs [0,0],
  .coef 17 [1,2] .abs .uW [0,1] 54 .abs [0,1],
  .coef 17 [1,3] .abs .uW [0,2] 54 .abs [0,2],
  .coef 17 [2,1] .abs .uW [1,0] 54 .abs [1,0],
  .coef 17 [2,2] .abs .uW [1,1] 54 .abs [1,1],
  .coef 17 [2,3] .abs .uW [1,2] 54 .abs [1,2],
  .coef 17 [3,1] .abs .uW [2,0] 54 .abs [2,0],
  .coef 17 [3,2] .abs .uW [2,1] 54 .abs [2,1],
  .coef 17 [3,3] .abs .uW [2,2] 54 .abs [2,2],
  .coef 18 [1,1] .abs .uB [0,0] 55 .abs [0,0],
  .coef 18 [1,2] .abs .uB [0,1] 55 .abs [0,1],
  .coef 18 [1,3] .abs .uB [0,2] 55 .abs [0,2],
  .coef 18 [2,1] .abs .uB [1,0] 55 .abs [1,0],
  .coef 18 [2,2] .abs .uB [1,1] 55 .abs [1,1],
  .coef 18 [2,3] .abs .uB [1,2] 55 .abs [1,2],
  .coef 18 [3,1] .abs .uB [2,0] 55 .abs [2,0],
  .coef 18 [3,2] .abs .uB [2,1] 55 .abs [2,1],
  .coef 18 [3,3] .abs .uB [2,2] 55 .abs [2,2],
  .coef 19 [1,1] .angle .eB [0,0] 52 .ph [0,0],
  .coef 19 [1,2] .angle .eB [0,1] 52 .ph [0,1],
  .coef 19 [1,3] .angle .eB [0,2] 52 .ph [0,2],
  .coef 19 [2,1] .angle .eB [1,0] 52 .ph [1,0]]

/-- `smeftsim.py:2162-2313` -/
def rowsA16 : List Row := [
  .coef 19 [2,2] .angle .eB [1,1] 52 .ph [1,1],
  .coef 19 [2,3] .angle .eB [1,2] 52 .ph [1,2],
  .coef 19 [3,1] .angle .eB [2,0] 52 .ph [2,0],
  .coef 19 [3,2] .angle .eB [2,1] 52 .ph [2,1],
  .coef 19 [3,3] .angle .eB [2,2] 52 .ph [2,2],
  .coef 20 [1,1] .abs .dG [0,0] 56 .abs [0,0],
  .coef 20 [1,2] .abs .dG [0,1] 56 .abs [0,1],
  .coef 20 [1,3] .abs .dG [0,2] 56 .abs [0,2],
  .coef 20 [2,1] .abs .dG [1,0] 56 .abs [1,0],
  .coef 20 [2,2] .abs .dG [1,1] 56 .abs [1,1],
  .coef 20 [2,3] .abs .dG [1,2] 56 .abs [1,2],
  .coef 20 [3,1] .abs .dG [2,0] 56 .abs [2,0],
  .coef 20 [3,2] .abs .dG [2,1] 56 .abs [2,1],
  .coef 20 [3,3] .abs .dG [2,2] 56 .abs [2,2],
  .coef 21 [1,1] .abs .dW [0,0] 57 .abs [0,0],
  .coef 21 [1,2] .abs .dW [0,1] 57 .abs [0,1],
  .coef 21 [1,3] .abs .dW [0,2] 57 .abs [0,2],
  .coef 21 [2,1] .abs .dW [1,0] 57 .abs [1,0],
  .coef 21 [2,2] .abs .dW [1,1] 57 .abs [1,1],
  .coef 21 [2,3] .abs .dW [1,2] 57 .abs [1,2],
  .coef 21 [3,1] .abs .dW [2,0] 57 .abs [2,0],
  .coef 21 [3,2] .abs .dW [2,1] 57 .abs [2,1],
  .coef 21 [3,3] .abs .dW [2,2] 57 .abs [2,2],
  .coef 22 [1,1] .abs .dB [0,0] 58 .abs [0,0],
  .coef 22 [1,2] .abs .dB [0,1] 58 .abs [0,1],
  .coef 22 [1,3] .abs .dB [0,2] 58 .abs [0,2],
  .coef 22 [2,1] .abs .dB [1,0] 58 .abs [1,0],
  .coef 22 [2,2] .abs .dB [1,1] 58 .abs [1,1],
  .coef 22 [2,3] .abs .dB [1,2] 58 .abs [1,2],
  .coef 22 [3,1] .abs .dB [2,0] 58 .abs [2,0],
  .coef 22 [3,2] .abs .dB [2,1] 58 .abs [2,1],
  .coef 22 [3,3] .abs .dB [2,2] 58 .abs [2,2],
  .coef 23 [1,1] .angle .uG [0,0] 53 .ph [0,0],
  .coef 23 [1,2] .angle .uG [0,1] 53 .ph [0,1],
  .coef 23 [1,3] .angle .uG [0,2] 53 .ph [0,2],
  .coef 23 [2,1] .angle .uG [1,0] 53 .ph [1,0],
  .coef 23 [2,2] .angle .uG [1,1] 53 .ph [1,1],
  .coef 23 [2,3] .angle .uG [1,2] 53 .ph [1,2],
  .coef 23 [3,1] .angle .uG [2,0] 53 .ph [2,0],
  .coef 23 [3,2] .angle .uG [2,1] 53 .ph [2,1],
  .coef 23 [3,3] .angle .uG [2,2] 53 .ph [2,2],
  .coef 24 [1,1] .abs .phiud [0,0] 42 .abs [0,0],
  .coef 24 [1,2] .abs .phiud [0,1] 42 .abs [0,1],
  .coef 24 [1,3] .abs .phiud [0,2] 42 .abs [0,2],
  .coef 24 [2,1] .abs .phiud [1,0] 42 .abs [1,0],
  .coef 24 [2,2] .abs .phiud [1,1] 42 .abs [1,1],
  .coef 24 [2,3] .abs .phiud [1,2] 42 .abs [1,2],
  .coef 24 [3,1] .abs .phiud [2,0] 42 .abs [2,0],
  .coef 24 [3,2] .abs .phiud [2,1] 42 .abs [2,1],
  .coef 24 [3,3] .abs .phiud [2,2] 42 .abs [2,2],
  .coef 25 [1,1] .angle .uW [0,0] 54 .ph [0,0],
  .coef 25 [1,2] .angle .uW [0,1] 54 .ph [0,1],
  .coef 25 [1,3] .angle .uW [0,2] 54 .ph [0,2],
  .coef 25 [2,1] .angle .uW [1,0] 54 .ph [1,0],
  .coef 25 [2,2] .angle .uW [1,1] 54 .ph [1,1],
  .coef 25 [2,3] .angle .uW [1,2] 54 .ph [1,2],
  .coef 25 [3,1] .angle .uW [2,0] 54 .ph [2,0],
  .coef 25 [3,2] .angle .uW [2,1] 54 .ph [2,1],
  .coef 25 [3,3] .angle .uW [2,2] 54 .ph [2,2],
  .coef 26 [1,1] .angle .uB [0,0] 55 .ph [0,0],
  .coef 26 [1,2] .angle .uB [0,1] 55 .ph [0,1],
  .coef 26 [1,3] .angle .uB [0,2] 55 .ph [0,2],
  .coef 26 [2,1] .angle .uB [1,0] 55 .ph [1,0],
  .coef 26 [2,2] .angle .uB [1,1] 55 .ph [1,1],
  .coef 26 [2,3] .angle .uB [1,2] 55 .ph [1,2],
  .coef 26 [3,1] .angle .uB [2,0] 55 .ph [2,0],
  .coef 26 [3,2] .angle .uB [2,1] 55 .ph [2,1],
  .coef 26 [3,3] .angle .uB [2,2] 55 .ph [2,2],
  .coef 27 [1,1] .angle .dG [0,0] 56 .ph [0,0],
  .coef 27 [1,2] .angle .dG [0,1] 56 .ph [0,1],
  .coef 27 [1,3] .angle .dG [0,2] 56 .ph [0,2],
  .coef 27 [2,1] .angle .dG [1,0] 56 .ph [1,0],
  .coef 27 [2,2] .angle .dG [1,1] 56 .ph [1,1],
  .coef 27 [2,3] .angle .dG [1,2] 56 .ph [1,2],
  .coef 27 [3,1] .angle .dG [2,0] 56 .ph [2,0],
  .coef 27 [3,2] .angle .dG [2,1] 56 .ph [2,1],
  .coef 27 [3,3] .angle .dG [2,2] 56 .ph [2,2],
  .coef 28 [1,1,1,1] .abs .ledq [0,0,0,0] 46 .abs [0,0,0,0],
  .coef 28 [1,1,1,2] .abs .ledq [0,0,0,1] 46 .abs [0,0,0,1],
  .coef 28 [1,1,1,3] .abs .ledq [0,0,0,2] 46 .abs [0,0,0,2],
  .coef 28 [1,1,2,1] .abs .ledq [0,0,1,0] 46 .abs [0,0,1,0],
  .coef 28 [1,1,2,2] .abs .ledq [0,0,1,1] 46 .abs [0,0,1,1],
  .coef 28 [1,1,2,3] .abs .ledq [0,0,1,2] 46 .abs [0,0,1,2],
  .coef 28 [1,1,3,1] .abs .ledq [0,0,2,0] 46 .abs [0,0,2,0],
  .coef 28 [1,1,3,2] .abs .ledq [0,0,2,1] 46 .abs [0,0,2,1],
  .coef 28 [1,1,3,3] .abs .ledq [0,0,2,2] 46 .abs [0,0,2,2],
  .coef 28 [1,2,1,1] .abs .ledq [0,1,0,0] 46 .abs [0,1,0,0],
  .coef 28 [1,2,1,2] .abs .ledq [0,1,0,1] 46 .abs [0,1,0,1],
  .coef 28 [1,2,1,3] .abs .ledq [0,1,0,2] 46 .abs [0,1,0,2],
  .coef 28 [1,2,2,1] .abs .ledq [0,1,1,0] 46 .abs [0,1,1,0],
  .coef 28 [1,2,2,2] .abs .ledq [0,1,1,1] 46 .abs [0,1,1,1],
  .coef 28 [1,2,2,3] .abs .ledq [0,1,1,2] 46 .abs [0,1,1,2],
  .coef 28 [1,2,3,1] .abs .ledq [0,1,2,0] 46 .abs [0,1,2,0],
  .coef 28 [1,2,3,2] .abs .ledq [0,1,2,1] 46 .abs [0,1,2,1],
  .coef 28 [1,2,3,3] .abs .ledq [0,1,2,2] 46 .abs [0,1,2,2],
  .coef 28 [1,3,1,1] .abs .ledq [0,2,0,0] 46 .abs [0,2,0,0],
  .coef 28 [1,3,1,2] .abs .ledq [0,2,0,1] 46 .abs [0,2,0,1],
  .coef 28 [1,3,1,3] .abs .ledq [0,2,0,2] 46 .abs [0,2,0,2],
  .coef 28 [1,3,2,1] .abs .ledq [0,2,1,0] 46 .abs [0,2,1,0],
  .coef 28 [1,3,2,2] .abs .ledq [0,2,1,1] 46 .abs [0,2,1,1],
  .coef 28 [1,3,2,3] .abs .ledq [0,2,1,2] 46 .abs [0,2,1,2],
  .coef 28 [1,3,3,1] .abs .ledq [0,2,2,0] 46 .abs [0,2,2,0],
  .coef 28 [1,3,3,2] .abs .ledq [0,2,2,1] 46 .abs [0,2,2,1],
  .coef 28 [1,3,3,3] .abs .ledq [0,2,2,2] 46 .abs [0,2,2,2],
  .coef 28 [2,1,1,1] .abs .ledq [1,0,0,0] 46 .abs [1,0,0,0],
  .coef 28 [2,1,1,2] .abs .ledq [1,0,0,1] 46 .abs [1,0,0,1],
  .coef 28 [2,1,1,3] .abs .ledq [1,0,0,2] 46 .abs [1,0,0,2],
  .coef 28 [2,1,2,1] .abs .ledq [1,0,1,0] 46 .abs [1,0,1,0],
  .coef 28 [2,1,2,2] .abs .ledq [1,0,1,1] 46 .abs [1,0,1,1],
  .coef 28 [2,1,2,3] .abs .ledq [1,0,1,2] 46 .abs [1,0,1,2],
  .coef 28 [2,1,3,1] .abs .ledq [1,0,2,0] 46 .abs [1,0,2,0],
  .coef 28 [2,1,3,2] .abs .ledq [1,0,2,1] 46 .abs [1,0,2,1],
  .coef 28 [2,1,3,3] .abs .ledq [1,0,2,2] 46 .abs [1,0,2,2],
  .coef 28 [2,2,1,1] .abs .ledq [1,1,0,0] 46 .abs [1,1,0,0],
  .coef 28 [2,2,1,2] .abs .ledq [1,1,0,1] 46 .abs [1,1,0,1],
  .coef 28 [2,2,1,3] .abs .ledq [1,1,0,2] 46 .abs [1,1,0,2],
  .coef 28 [2,2,2,1] .abs .ledq [1,1,1,0] 46 .abs [1,1,1,0],
  .coef 28 [2,2,2,2] .abs .ledq [1,1,1,1] 46 .abs [1,1,1,1],
  .coef 28 [2,2,2,3] .abs .ledq [1,1,1,2] 46 .abs [1,1,1,2],
  .coef 28 [2,2,3,1] .abs .ledq [1,1,2,0] 46 .abs [1,1,2,0],
  .coef 28 [2,2,3,2] .abs .ledq [1,1,2,1] 46 .abs [1,1,2,1],
  .coef 28 [2,2,3,3] .abs .ledq [1,1,2,2] 46 .abs [1,1,2,2],
  .coef 28 [2,3,1,1] .abs .ledq [1,2,0,0] 46 .abs [1,2,0,0],
  .coef 28 [2,3,1,2] .abs .ledq [1,2,0,1] 46 .abs [1,2,0,1],
  .coef 28 [2,3,1,3] .abs .ledq [1,2,0,2] 46 .abs [1,2,0,2]]

/-- `smeftsim.py:2314-2444` -/
def rowsA17 : List Row := [
  .coef 28 [2,3,2,1] .abs .ledq [1,2,1,0] 46 .abs [1,2,1,0],
  .coef 28 [2,3,2,2] .abs .ledq [1,2,1,1] 46 .abs [1,2,1,1],
  .coef 28 [2,3,2,3] .abs .ledq [1,2,1,2] 46 .abs [1,2,1,2],
  .coef 28 [2,3,3,1] .abs .ledq [1,2,2,0] 46 .abs [1,2,2,0],
  .coef 28 [2,3,3,2] .abs .ledq [1,2,2,1] 46 .abs [1,2,2,1],
  .coef 28 [2,3,3,3] .abs .ledq [1,2,2,2] 46 .abs [1,2,2,2],
  .coef 28 [3,1,1,1] .abs .ledq [2,0,0,0] 46 .abs [2,0,0,0],
  .coef 28 [3,1,1,2] .abs .ledq [2,0,0,1] 46 .abs [2,0,0,1],
  .coef 28 [3,1,1,3] .abs .ledq [2,0,0,2] 46 .abs [2,0,0,2],
  .coef 28 [3,1,2,1] .abs .ledq [2,0,1,0] 46 .abs [2,0,1,0],
  .coef 28 [3,1,2,2] .abs .ledq [2,0,1,1] 46 .abs [2,0,1,1],
  .coef 28 [3,1,2,3] .abs .ledq [2,0,1,2] 46 .abs [2,0,1,2],
  .coef 28 [3,1,3,1] .abs .ledq [2,0,2,0] 46 .abs [2,0,2,0],
  .coef 28 [3,1,3,2] .abs .ledq [2,0,2,1] 46 .abs [2,0,2,1],
  .coef 28 [3,1,3,3] .abs .ledq [2,0,2,2] 46 .abs [2,0,2,2],
  .coef 28 [3,2,1,1] .abs .ledq [2,1,0,0] 46 .abs [2,1,0,0],
  .coef 28 [3,2,1,2] .abs .ledq [2,1,0,1] 46 .abs [2,1,0,1],
  .coef 28 [3,2,1,3] .abs .ledq [2,1,0,2] 46 .abs [2,1,0,2],
  .coef 28 [3,2,2,1] .abs .ledq [2,1,1,0] 46 .abs [2,1,1,0],
  .coef 28 [3,2,2,2] .abs .ledq [2,1,1,1] 46 .abs [2,1,1,1],
  .coef 28 [3,2,2,3] .abs .ledq [2,1,1,2] 46 .abs [2,1,1,2],
  .coef 28 [3,2,3,1] .abs .ledq [2,1,2,0] 46 .abs [2,1,2,0],
  .coef 28 [3,2,3,2] .abs .ledq [2,1,2,1] 46 .abs [2,1,2,1],
  .coef 28 [3,2,3,3] .abs .ledq [2,1,2,2] 46 .abs [2,1,2,2],
  .coef 28 [3,3,1,1] .abs .ledq [2,2,0,0] 46 .abs [2,2,0,0],
  .coef 28 [3,3,1,2] .abs .ledq [2,2,0,1] 46 .abs [2,2,0,1],
  .coef 28 [3,3,1,3] .abs .ledq [2,2,0,2] 46 .abs [2,2,0,2],
  .coef 28 [3,3,2,1] .abs .ledq [2,2,1,0] 46 .abs [2,2,1,0],
  .coef 28 [3,3,2,2] .abs .ledq [2,2,1,1] 46 .abs [2,2,1,1],
  .coef 28 [3,3,2,3] .abs .ledq [2,2,1,2] 46 .abs [2,2,1,2],
  .coef 28 [3,3,3,1] .abs .ledq [2,2,2,0] 46 .abs [2,2,2,0],
  .coef 28 [3,3,3,2] .abs .ledq [2,2,2,1] 46 .abs [2,2,2,1],
  .coef 28 [3,3,3,3] .abs .ledq [2,2,2,2] 46 .abs [2,2,2,2],
  .coef 29 [1,1,1,1] .abs .quqd1 [0,0,0,0] 47 .abs [0,0,0,0],
  .coef 29 [1,1,1,2] .abs .quqd1 [0,0,0,1] 47 .abs [0,0,0,1],
  .coef 29 [1,1,1,3] .abs .quqd1 [0,0,0,2] 47 .abs [0,0,0,2],
  .coef 29 [1,1,2,1] .abs .quqd1 [0,0,1,0] 47 .abs [0,0,1,0],
  .coef 29 [1,1,2,2] .abs .quqd1 [0,0,1,1] 47 .abs [0,0,1,1],
  .coef 29 [1,1,2,3] .abs .quqd1 [0,0,1,2] 47 .abs [0,0,1,2],
  .coef 29 [1,1,3,1] .abs .quqd1 [0,0,2,0] 47 .abs [0,0,2,0],
  .coef 29 [1,1,3,2] .abs .quqd1 [0,0,2,1] 47 .abs [0,0,2,1],
  .coef 29 [1,1,3,3] .abs .quqd1 [0,0,2,2] 47 .abs [0,0,2,2],
  .coef 29 [1,2,1,1] .abs .quqd1 [0,1,0,0] 47 .abs [0,1,0,0],
  .coef 29 [1,2,1,2] .abs .quqd1 [0,1,0,1] 47 .abs [0,1,0,1],
  .coef 29 [1,2,1,3] .abs .quqd1 [0,1,0,2] 47 .abs [0,1,0,2],
  .coef 29 [1,2,2,1] .abs .quqd1 [0,1,1,0] 47 .abs [0,1,1,0],
  .coef 29 [1,2,2,2] .abs .quqd1 [0,1,1,1] 47 .abs [0,1,1,1],
  .coef 29 [1,2,2,3] .abs .quqd1 [0,1,1,2] 47 .abs [0,1,1,2],
  .coef 29 [1,2,3,1] .abs .quqd1 [0,1,2,0] 47 .abs [0,1,2,0],
  .coef 29 [1,2,3,2] .abs .quqd1 [0,1,2,1] 47 .abs [0,1,2,1],
  .coef 29 [1,2,3,3] .abs .quqd1 [0,1,2,2] 47 .abs [0,1,2,2],
  .coef 29 [1,3,1,1] .abs .quqd1 [0,2,0,0] 47 .abs [0,2,0,0],
  .coef 29 [1,3,1,2] .abs .quqd1 [0,2,0,1] 47 .abs [0,2,0,1],
  .coef 29 [1,3,1,3] .abs .quqd1 [0,2,0,2] 47 .abs [0,2,0,2],
  .coef 29 [1,3,2,1] .abs .quqd1 [0,2,1,0] 47 .abs [0,2,1,0],
  .coef 29 [1,3,2,2] .abs .quqd1 [0,2,1,1] 47 .abs [0,2,1,1],
  .coef 29 [1,3,2,3] .abs .quqd1 [0,2,1,2] 47 .abs [0,2,1,2],
  .coef 29 [1,3,3,1] .abs .quqd1 [0,2,2,0] 47 .abs [0,2,2,0],
  .coef 29 [1,3,3,2] .abs .quqd1 [0,2,2,1] 47 .abs [0,2,2,1],
  .coef 29 [1,3,3,3] .abs .quqd1 [0,2,2,2] 47 .abs [0,2,2,2],
  .coef 29 [2,1,1,1] .abs .quqd1 [1,0,0,0] 47 .abs [1,0,0,0],
  .coef 29 [2,1,1,2] .abs .quqd1 [1,0,0,1] 47 .abs [1,0,0,1],
  .coef 29 [2,1,1,3] .abs .quqd1 [1,0,0,2] 47 .abs [1,0,0,2],
  .coef 29 [2,1,2,1] .abs .quqd1 [1,0,1,0] 47 .abs [1,0,1,0],
  .coef 29 [2,1,2,2] .abs .quqd1 [1,0,1,1] 47 .abs [1,0,1,1],
  .coef 29 [2,1,2,3] .abs .quqd1 [1,0,1,2] 47 .abs [1,0,1,2],
  .coef 29 [2,1,3,1] .abs .quqd1 [1,0,2,0] 47 .abs [1,0,2,0],
  .coef 29 [2,1,3,2] .abs .quqd1 [1,0,2,1] 47 .abs [1,0,2,1],
  .coef 29 [2,1,3,3] .abs .quqd1 [1,0,2,2] 47 .abs [1,0,2,2],
  .coef 29 [2,2,1,1] .abs .quqd1 [1,1,0,0] 47 .abs [1,1,0,0],
  .coef 29 [2,2,1,2] .abs .quqd1 [1,1,0,1] 47 .abs [1,1,0,1],
  .coef 29 [2,2,1,3] .abs .quqd1 [1,1,0,2] 47 .abs [1,1,0,2],
  .coef 29 [2,2,2,1] .abs .quqd1 [1,1,1,0] 47 .abs [1,1,1,0],
  .coef 29 [2,2,2,2] .abs .quqd1 [1,1,1,1] 47 .abs [1,1,1,1],
  .coef 29 [2,2,2,3] .abs .quqd1 [1,1,1,2] 47 .abs [1,1,1,2],
  .coef 29 [2,2,3,1] .abs .quqd1 [1,1,2,0] 47 .abs [1,1,2,0],
  .coef 29 [2,2,3,2] .abs .quqd1 [1,1,2,1] 47 .abs [1,1,2,1],
  .coef 29 [2,2,3,3] .abs .quqd1 [1,1,2,2] 47 .abs [1,1,2,2],
  .coef 29 [2,3,1,1] .abs .quqd1 [1,2,0,0] 47 .abs [1,2,0,0],
  .coef 29 [2,3,1,2] .abs .quqd1 [1,2,0,1] 47 .abs [1,2,0,1],
  .coef 29 [2,3,1,3] .abs .quqd1 [1,2,0,2] 47 .abs [1,2,0,2],
  .coef 29 [2,3,2,1] .abs .quqd1 [1,2,1,0] 47 .abs [1,2,1,0],
  .coef 29 [2,3,2,2] .abs .quqd1 [1,2,1,1] 47 .abs [1,2,1,1],
  .coef 29 [2,3,2,3] .abs .quqd1 [1,2,1,2] 47 .abs [1,2,1,2],
  .coef 29 [2,3,3,1] .abs .quqd1 [1,2,2,0] 47 .abs [1,2,2,0],
  .coef 29 [2,3,3,2] .abs .quqd1 [1,2,2,1] 47 .abs [1,2,2,1],
  .coef 29 [2,3,3,3] .abs .quqd1 [1,2,2,2] 47 .abs [1,2,2,2],
  .coef 29 [3,1,1,1] .abs .quqd1 [2,0,0,0] 47 .abs [2,0,0,0],
  .coef 29 [3,1,1,2] .abs .quqd1 [2,0,0,1] 47 .abs [2,0,0,1],
  .coef 29 [3,1,1,3] .abs .quqd1 [2,0,0,2] 47 .abs [2,0,0,2],
  .coef 29 [3,1,2,1] .abs .quqd1 [2,0,1,0] 47 .abs [2,0,1,0],
  .coef 29 [3,1,2,2] .abs .quqd1 [2,0,1,1] 47 .abs [2,0,1,1],
  .coef 29 [3,1,2,3] .abs .quqd1 [2,0,1,2] 47 .abs [2,0,1,2],
  .coef 29 [3,1,3,1] .abs .quqd1 [2,0,2,0] 47 .abs [2,0,2,0],
  .coef 29 [3,1,3,2] .abs .quqd1 [2,0,2,1] 47 .abs [2,0,2,1],
  .coef 29 [3,1,3,3] .abs .quqd1 [2,0,2,2] 47 .abs [2,0,2,2],
  .coef 29 [3,2,1,1] .abs .quqd1 [2,1,0,0] 47 .abs [2,1,0,0],
  .coef 29 [3,2,1,2] .abs .quqd1 [2,1,0,1] 47 .abs [2,1,0,1],
  .coef 29 [3,2,1,3] .abs .quqd1 [2,1,0,2] 47 .abs [2,1,0,2],
  .coef 29 [3,2,2,1] .abs .quqd1 [2,1,1,0] 47 .abs [2,1,1,0],
  .coef 29 [3,2,2,2] .abs .quqd1 [2,1,1,1] 47 .abs [2,1,1,1],
  .coef 29 [3,2,2,3] .abs .quqd1 [2,1,1,2] 47 .abs [2,1,1,2],
  .coef 29 [3,2,3,1] .abs .quqd1 [2,1,2,0] 47 .abs [2,1,2,0],
  .coef 29 [3,2,3,2] .abs .quqd1 [2,1,2,1] 47 .abs [2,1,2,1],
  .coef 29 [3,2,3,3] .abs .quqd1 [2,1,2,2] 47 .abs [2,1,2,2],
  .coef 29 [3,3,1,1] .abs .quqd1 [2,2,0,0] 47 .abs [2,2,0,0],
  .coef 29 [3,3,1,2] .abs .quqd1 [2,2,0,1] 47 .abs [2,2,0,1],
  .coef 29 [3,3,1,3] .abs .quqd1 [2,2,0,2] 47 .abs [2,2,0,2],
  .coef 29 [3,3,2,1] .abs .quqd1 [2,2,1,0] 47 .abs [2,2,1,0],
  .coef 29 [3,3,2,2] .abs .quqd1 [2,2,1,1] 47 .abs [2,2,1,1],
  .coef 29 [3,3,2,3] .abs .quqd1 [2,2,1,2] 47 .abs [2,2,1,2],
  .coef 29 [3,3,3,1] .abs .quqd1 [2,2,2,0] 47 .abs [2,2,2,0],
  .coef 29 [3,3,3,2] .abs .quqd1 [2,2,2,1] 47 .abs [2,2,2,1],
  .coef 29 [3,3,3,3] .abs .quqd1 [2,2,2,2] 47 .abs [2,2,2,2],
  .coef 30 [1,1,1,1] .abs .quqd8 [0,0,0,0] 48 .abs [0,0,0,0],
  .coef 30 [1,1,1,2] .abs .quqd8 [0,0,0,1] 48 .abs [0,0,0,1],
  .coef 30 [1,1,1,3] .abs .quqd8 [0,0,0,2] 48 .abs [0,0,0,2],
  .coef 30 [1,1,2,1] .abs .quqd8 [0,0,1,0] 48 .abs [0,0,1,0],
  .coef 30 [1,1,2,2] .abs .quqd8 [0,0,1,1] 48 .abs [0,0,1,1],
  .coef 30 [1,1,2,3] .abs .quqd8 [0,0,1,2] 48 .abs [0,0,1,2],
  .coef 30 [1,1,3,1] .abs .quqd8 [0,0,2,0] 48 .abs [0,0,2,0],
  .coef 30 [1,1,3,2] .abs .quqd8 [0,0,2,1] 48 .abs [0,0,2,1],
  .coef 30 [1,1,3,3] .abs .quqd8 [0,0,2,2] 48 .abs [0,0,2,2],
  .coef 30 [1,2,1,1] .abs .quqd8 [0,1,0,0] 48 .abs [0,1,0,0],
  .coef 30 [1,2,1,2] .abs .quqd8 [0,1,0,1] 48 .abs [0,1,0,1]]

/-- `smeftsim.py:2445-2572` -/
def rowsA18 : List Row := [
  .coef 30 [1,2,1,3] .abs .quqd8 [0,1,0,2] 48 .abs [0,1,0,2],
  .coef 30 [1,2,2,1] .abs .quqd8 [0,1,1,0] 48 .abs [0,1,1,0],
  .coef 30 [1,2,2,2] .abs .quqd8 [0,1,1,1] 48 .abs [0,1,1,1],
  .coef 30 [1,2,2,3] .abs .quqd8 [0,1,1,2] 48 .abs [0,1,1,2],
  .coef 30 [1,2,3,1] .abs .quqd8 [0,1,2,0] 48 .abs [0,1,2,0],
  .coef 30 [1,2,3,2] .abs .quqd8 [0,1,2,1] 48 .abs [0,1,2,1],
  .coef 30 [1,2,3,3] .abs .quqd8 [0,1,2,2] 48 .abs [0,1,2,2],
  .coef 30 [1,3,1,1] .abs .quqd8 [0,2,0,0] 48 .abs [0,2,0,0],
  .coef 30 [1,3,1,2] .abs .quqd8 [0,2,0,1] 48 .abs [0,2,0,1],
  .coef 30 [1,3,1,3] .abs .quqd8 [0,2,0,2] 48 .abs [0,2,0,2],
  .coef 30 [1,3,2,1] .abs .quqd8 [0,2,1,0] 48 .abs [0,2,1,0],
  .coef 30 [1,3,2,2] .abs .quqd8 [0,2,1,1] 48 .abs [0,2,1,1],
  .coef 30 [1,3,2,3] .abs .quqd8 [0,2,1,2] 48 .abs [0,2,1,2],
  .coef 30 [1,3,3,1] .abs .quqd8 [0,2,2,0] 48 .abs [0,2,2,0],
  .coef 30 [1,3,3,2] .abs .quqd8 [0,2,2,1] 48 .abs [0,2,2,1],
  .coef 30 [1,3,3,3] .abs .quqd8 [0,2,2,2] 48 .abs [0,2,2,2],
  .coef 30 [2,1,1,1] .abs .quqd8 [1,0,0,0] 48 .abs [1,0,0,0],
  .coef 30 [2,1,1,2] .abs .quqd8 [1,0,0,1] 48 .abs [1,0,0,1],
  .coef 30 [2,1,1,3] .abs .quqd8 [1,0,0,2] 48 .abs [1,0,0,2],
  .coef 30 [2,1,2,1] .abs .quqd8 [1,0,1,0] 48 .abs [1,0,1,0],
  .coef 30 [2,1,2,2] .abs .quqd8 [1,0,1,1] 48 .abs [1,0,1,1],
  .coef 30 [2,1,2,3] .abs .quqd8 [1,0,1,2] 48 .abs [1,0,1,2],
  .coef 30 [2,1,3,1] .abs .quqd8 [1,0,2,0] 48 .abs [1,0,2,0],
  .coef 30 [2,1,3,2] .abs .quqd8 [1,0,2,1] 48 .abs [1,0,2,1],
  .coef 30 [2,1,3,3] .abs .quqd8 [1,0,2,2] 48 .abs [1,0,2,2],
  .coef 30 [2,2,1,1] .abs .quqd8 [1,1,0,0] 48 .abs [1,1,0,0],
  .coef 30 [2,2,1,2] .abs .quqd8 [1,1,0,1] 48 .abs [1,1,0,1],
  .coef 30 [2,2,1,3] .abs .quqd8 [1,1,0,2] 48 .abs [1,1,0,2],
  .coef 30 [2,2,2,1] .abs .quqd8 [1,1,1,0] 48 .abs [1,1,1,0],
  .coef 30 [2,2,2,2] .abs .quqd8 [1,1,1,1] 48 .abs [1,1,1,1],
  .coef 30 [2,2,2,3] .abs .quqd8 [1,1,1,2] 48 .abs [1,1,1,2],
  .coef 30 [2,2,3,1] .abs .quqd8 [1,1,2,0] 48 .abs [1,1,2,0],
  .coef 30 [2,2,3,2] .abs .quqd8 [1,1,2,1] 48 .abs [1,1,2,1],
  .coef 30 [2,2,3,3] .abs .quqd8 [1,1,2,2] 48 .abs [1,1,2,2],
  .coef 30 [2,3,1,1] .abs .quqd8 [1,2,0,0] 48 .abs [1,2,0,0],
  .coef 30 [2,3,1,2] .abs .quqd8 [1,2,0,1] 48 .abs [1,2,0,1],
  .coef 30 [2,3,1,3] .abs .quqd8 [1,2,0,2] 48 .abs [1,2,0,2],
  .coef 30 [2,3,2,1] .abs .quqd8 [1,2,1,0] 48 .abs [1,2,1,0],
  .coef 30 [2,3,2,2] .abs .quqd8 [1,2,1,1] 48 .abs [1,2,1,1],
  .coef 30 [2,3,2,3] .abs .quqd8 [1,2,1,2] 48 .abs [1,2,1,2],
  .coef 30 [2,3,3,1] .abs .quqd8 [1,2,2,0] 48 .abs [1,2,2,0],
  .coef 30 [2,3,3,2] .abs .quqd8 [1,2,2,1] 48 .abs [1,2,2,1],
  .coef 30 [2,3,3,3] .abs .quqd8 [1,2,2,2] 48 .abs [1,2,2,2],
  .coef 30 [3,1,1,1] .abs .quqd8 [2,0,0,0] 48 .abs [2,0,0,0],
  .coef 30 [3,1,1,2] .abs .quqd8 [2,0,0,1] 48 .abs [2,0,0,1],
  .coef 30 [3,1,1,3] .abs .quqd8 [2,0,0,2] 48 .abs [2,0,0,2],
  .coef 30 [3,1,2,1] .abs .quqd8 [2,0,1,0] 48 .abs [2,0,1,0],
  .coef 30 [3,1,2,2] .abs .quqd8 [2,0,1,1] 48 .abs [2,0,1,1],
  .coef 30 [3,1,2,3] .abs .quqd8 [2,0,1,2] 48 .abs [2,0,1,2],
  .coef 30 [3,1,3,1] .abs .quqd8 [2,0,2,0] 48 .abs [2,0,2,0],
  .coef 30 [3,1,3,2] .abs .quqd8 [2,0,2,1] 48 .abs [2,0,2,1],
  .coef 30 [3,1,3,3] .abs .quqd8 [2,0,2,2] 48 .abs [2,0,2,2],
  .coef 30 [3,2,1,1] .abs .quqd8 [2,1,0,0] 48 .abs [2,1,0,0],
  .coef 30 [3,2,1,2] .abs .quqd8 [2,1,0,1] 48 .abs [2,1,0,1],
  .coef 30 [3,2,1,3] .abs .quqd8 [2,1,0,2] 48 .abs [2,1,0,2],
  .coef 30 [3,2,2,1] .abs .quqd8 [2,1,1,0] 48 .abs [2,1,1,0],
  .coef 30 [3,2,2,2] .abs .quqd8 [2,1,1,1] 48 .abs [2,1,1,1],
  .coef 30 [3,2,2,3] .abs .quqd8 [2,1,1,2] 48 .abs [2,1,1,2],
  .coef 30 [3,2,3,1] .abs .quqd8 [2,1,2,0] 48 .abs [2,1,2,0],
  .coef 30 [3,2,3,2] .abs .quqd8 [2,1,2,1] 48 .abs [2,1,2,1],
  .coef 30 [3,2,3,3] .abs .quqd8 [2,1,2,2] 48 .abs [2,1,2,2],
  .coef 30 [3,3,1,1] .abs .quqd8 [2,2,0,0] 48 .abs [2,2,0,0],
  .coef 30 [3,3,1,2] .abs .quqd8 [2,2,0,1] 48 .abs [2,2,0,1],
  .coef 30 [3,3,1,3] .abs .quqd8 [2,2,0,2] 48 .abs [2,2,0,2],
  .coef 30 [3,3,2,1] .abs .quqd8 [2,2,1,0] 48 .abs [2,2,1,0],
  .coef 30 [3,3,2,2] .abs .quqd8 [2,2,1,1] 48 .abs [2,2,1,1],
  .coef 30 [3,3,2,3] .abs .quqd8 [2,2,1,2] 48 .abs [2,2,1,2],
  .coef 30 [3,3,3,1] .abs .quqd8 [2,2,2,0] 48 .abs [2,2,2,0],
  .coef 30 [3,3,3,2] .abs .quqd8 [2,2,2,1] 48 .abs [2,2,2,1],
  .coef 30 [3,3,3,3] .abs .quqd8 [2,2,2,2] 48 .abs [2,2,2,2],
  .coef 31 [1,1,1,1] .abs .lequ1 [0,0,0,0] 49 .abs [0,0,0,0],
  .coef 31 [1,1,1,2] .abs .lequ1 [0,0,0,1] 49 .abs [0,0,0,1],
  .coef 31 [1,1,1,3] .abs .lequ1 [0,0,0,2] 49 .abs [0,0,0,2],
  .coef 31 [1,1,2,1] .abs .lequ1 [0,0,1,0] 49 .abs [0,0,1,0],
  .coef 31 [1,1,2,2] .abs .lequ1 [0,0,1,1] 49 .abs [0,0,1,1],
  .coef 31 [1,1,2,3] .abs .lequ1 [0,0,1,2] 49 .abs [0,0,1,2],
  .coef 31 [1,1,3,1] .abs .lequ1 [0,0,2,0] 49 .abs [0,0,2,0],
  .coef 31 [1,1,3,2] .abs .lequ1 [0,0,2,1] 49 .abs [0,0,2,1],
  .coef 31 [1,1,3,3] .abs .lequ1 [0,0,2,2] 49 .abs [0,0,2,2],
  .coef 31 [1,2,1,1] .abs .lequ1 [0,1,0,0] 49 .abs [0,1,0,0],
  .coef 31 [1,2,1,2] .abs .lequ1 [0,1,0,1] 49 .abs [0,1,0,1],
  .coef 31 [1,2,1,3] .abs .lequ1 [0,1,0,2] 49 .abs [0,1,0,2],
  .coef 31 [1,2,2,1] .abs .lequ1 [0,1,1,0] 49 .abs [0,1,1,0],
  .coef 31 [1,2,2,2] .abs .lequ1 [0,1,1,1] 49 .abs [0,1,1,1],
  .coef 31 [1,2,2,3] .abs .lequ1 [0,1,1,2] 49 .abs [0,1,1,2],
  .coef 31 [1,2,3,1] .abs .lequ1 [0,1,2,0] 49 .abs [0,1,2,0],
  .coef 31 [1,2,3,2] .abs .lequ1 [0,1,2,1] 49 .abs [0,1,2,1],
  .coef 31 [1,2,3,3] .abs .lequ1 [0,1,2,2] 49 .abs [0,1,2,2],
  .coef 31 [1,3,1,1] .abs .lequ1 [0,2,0,0] 49 .abs [0,2,0,0],
  .coef 31 [1,3,1,2] .abs .lequ1 [0,2,0,1] 49 .abs [0,2,0,1],
  .coef 31 [1,3,1,3] .abs .lequ1 [0,2,0,2] 49 .abs [0,2,0,2],
  .coef 31 [1,3,2,1] .abs .lequ1 [0,2,1,0] 49 .abs [0,2,1,0],
  .coef 31 [1,3,2,2] .abs .lequ1 [0,2,1,1] 49 .abs [0,2,1,1],
  .coef 31 [1,3,2,3] .abs .lequ1 [0,2,1,2] 49 .abs [0,2,1,2],
  .coef 31 [1,3,3,1] .abs .lequ1 [0,2,2,0] 49 .abs [0,2,2,0],
  .coef 31 [1,3,3,2] .abs .lequ1 [0,2,2,1] 49 .abs [0,2,2,1],
  .coef 31 [1,3,3,3] .abs .lequ1 [0,2,2,2] 49 .abs [0,2,2,2],
  .coef 31 [2,1,1,1] .abs .lequ1 [1,0,0,0] 49 .abs [1,0,0,0],
  .coef 31 [2,1,1,2] .abs .lequ1 [1,0,0,1] 49 .abs [1,0,0,1],
  .coef 31 [2,1,1,3] .abs .lequ1 [1,0,0,2] 49 .abs [1,0,0,2],
  .coef 31 [2,1,2,1] .abs .lequ1 [1,0,1,0] 49 .abs [1,0,1,0],
  .coef 31 [2,1,2,2] .abs .lequ1 [1,0,1,1] 49 .abs [1,0,1,1],
  .coef 31 [2,1,2,3] .abs .lequ1 [1,0,1,2] 49 .abs [1,0,1,2],
  .coef 31 [2,1,3,1] .abs .lequ1 [1,0,2,0] 49 .abs [1,0,2,0],
  .coef 31 [2,1,3,2] .abs .lequ1 [1,0,2,1] 49 .abs [1,0,2,1],
  .coef 31 [2,1,3,3] .abs .lequ1 [1,0,2,2] 49 .abs [1,0,2,2],
  .coef 31 [2,2,1,1] .abs .lequ1 [1,1,0,0] 49 .abs [1,1,0,0],
  .coef 31 [2,2,1,2] .abs .lequ1 [1,1,0,1] 49 .abs [1,1,0,1],
  .coef 31 [2,2,1,3] .abs .lequ1 [1,1,0,2] 49 .abs [1,1,0,2],
  .coef 31 [2,2,2,1] .abs .lequ1 [1,1,1,0] 49 .abs [1,1,1,0],
  .coef 31 [2,2,2,2] .abs .lequ1 [1,1,1,1] 49 .abs [1,1,1,1],
  .coef 31 [2,2,2,3] .abs .lequ1 [1,1,1,2] 49 .abs [1,1,1,2],
  .coef 31 [2,2,3,1] .abs .lequ1 [1,1,2,0] 49 .abs [1,1,2,0],
  .coef 31 [2,2,3,2] .abs .lequ1 [1,1,2,1] 49 .abs [1,1,2,1],
  .coef 31 [2,2,3,3] .abs .lequ1 [1,1,2,2] 49 .abs [1,1,2,2],
  .coef 31 [2,3,1,1] .abs .lequ1 [1,2,0,0] 49 .abs [1,2,0,0],
  .coef 31 [2,3,1,2] .abs .lequ1 [1,2,0,1] 49 .abs [1,2,0,1],
  .coef 31 [2,3,1,3] .abs .lequ1 [1,2,0,2] 49 .abs [1,2,0,2],
  .coef 31 [2,3,2,1] .abs .lequ1 [1,2,1,0] 49 .abs [1,2,1,0],
  .coef 31 [2,3,2,2] .abs .lequ1 [1,2,1,1] 49 .abs [1,2,1,1],
  .coef 31 [2,3,2,3] .abs .lequ1 [1,2,1,2] 49 .abs [1,2,1,2],
  .coef 31 [2,3,3,1] .abs .lequ1 [1,2,2,0] 49 .abs [1,2,2,0],
  .coef 31 [2,3,3,2] .abs .lequ1 [1,2,2,1] 49 .abs [1,2,2,1],
  .coef 31 [2,3,3,3] .abs .lequ1 [1,2,2,2] 49 .abs [1,2,2,2],
  .coef 31 [3,1,1,1] .abs .lequ1 [2,0,0,0] 49 .abs [2,0,0,0]]

/-- `smeftsim.py:2573-2706` -/
def rowsA19 : List Row := [
  .coef 31 [3,1,1,2] .abs .lequ1 [2,0,0,1] 49 .abs [2,0,0,1],
  .coef 31 [3,1,1,3] .abs .lequ1 [2,0,0,2] 49 .abs [2,0,0,2],
  .coef 31 [3,1,2,1] .abs .lequ1 [2,0,1,0] 49 .abs [2,0,1,0],
  .coef 31 [3,1,2,2] .abs .lequ1 [2,0,1,1] 49 .abs [2,0,1,1],
  .coef 31 [3,1,2,3] .abs .lequ1 [2,0,1,2] 49 .abs [2,0,1,2],
  .coef 31 [3,1,3,1] .abs .lequ1 [2,0,2,0] 49 .abs [2,0,2,0],
  .coef 31 [3,1,3,2] .abs .lequ1 [2,0,2,1] 49 .abs [2,0,2,1],
  .coef 31 [3,1,3,3] .abs .lequ1 [2,0,2,2] 49 .abs [2,0,2,2],
  .coef 31 [3,2,1,1] .abs .lequ1 [2,1,0,0] 49 .abs [2,1,0,0],
  .coef 31 [3,2,1,2] .abs .lequ1 [2,1,0,1] 49 .abs [2,1,0,1],
  .coef 31 [3,2,1,3] .abs .lequ1 [2,1,0,2] 49 .abs [2,1,0,2],
  .coef 31 [3,2,2,1] .abs .lequ1 [2,1,1,0] 49 .abs [2,1,1,0],
  .coef 31 [3,2,2,2] .abs .lequ1 [2,1,1,1] 49 .abs [2,1,1,1],
  .coef 31 [3,2,2,3] .abs .lequ1 [2,1,1,2] 49 .abs [2,1,1,2],
  .coef 31 [3,2,3,1] .abs .lequ1 [2,1,2,0] 49 .abs [2,1,2,0],
  .coef 31 [3,2,3,2] .abs .lequ1 [2,1,2,1] 49 .abs [2,1,2,1],
  .coef 31 [3,2,3,3] .abs .lequ1 [2,1,2,2] 49 .abs [2,1,2,2],
  .coef 31 [3,3,1,1] .abs .lequ1 [2,2,0,0] 49 .abs [2,2,0,0],
  .coef 31 [3,3,1,2] .abs .lequ1 [2,2,0,1] 49 .abs [2,2,0,1],
  .coef 31 [3,3,1,3] .abs .lequ1 [2,2,0,2] 49 .abs [2,2,0,2],
  .coef 31 [3,3,2,1] .abs .lequ1 [2,2,1,0] 49 .abs [2,2,1,0],
  .coef 31 [3,3,2,2] .abs .lequ1 [2,2,1,1] 49 .abs [2,2,1,1],
  .coef 31 [3,3,2,3] .abs .lequ1 [2,2,1,2] 49 .abs [2,2,1,2],
  .coef 31 [3,3,3,1] .abs .lequ1 [2,2,2,0] 49 .abs [2,2,2,0],
  .coef 31 [3,3,3,2] .abs .lequ1 [2,2,2,1] 49 .abs [2,2,2,1],
  .coef 31 [3,3,3,3] .abs .lequ1 [2,2,2,2] 49 .abs [2,2,2,2],
  .coef 32 [1,1,1,1] .abs .lequ3 [0,0,0,0] 50 .abs [0,0,0,0],
  .coef 32 [1,1,1,2] .abs .lequ3 [0,0,0,1] 50 .abs [0,0,0,1],
  .coef 32 [1,1,1,3] .abs .lequ3 [0,0,0,2] 50 .abs [0,0,0,2],
  .coef 32 [1,1,2,1] .abs .lequ3 [0,0,1,0] 50 .abs [0,0,1,0],
  .coef 32 [1,1,2,2] .abs .lequ3 [0,0,1,1] 50 .abs [0,0,1,1],
  .coef 32 [1,1,2,3] .abs .lequ3 [0,0,1,2] 50 .abs [0,0,1,2],
  .coef 32 [1,1,3,1] .abs .lequ3 [0,0,2,0] 50 .abs [0,0,2,0],
  .coef 32 [1,1,3,2] .abs .lequ3 [0,0,2,1] 50 .abs [0,0,2,1],
  .coef 32 [1,1,3,3] .abs .lequ3 [0,0,2,2] 50 .abs [0,0,2,2],
  .coef 32 [1,2,1,1] .abs .lequ3 [0,1,0,0] 50 .abs [0,1,0,0],
  .coef 32 [1,2,1,2] .abs .lequ3 [0,1,0,1] 50 .abs [0,1,0,1],
  .coef 32 [1,2,1,3] .abs .lequ3 [0,1,0,2] 50 .abs [0,1,0,2],
  .coef 32 [1,2,2,1] .abs .lequ3 [0,1,1,0] 50 .abs [0,1,1,0],
  .coef 32 [1,2,2,2] .abs .lequ3 [0,1,1,1] 50 .abs [0,1,1,1],
  .coef 32 [1,2,2,3] .abs .lequ3 [0,1,1,2] 50 .abs [0,1,1,2],
  .coef 32 [1,2,3,1] .abs .lequ3 [0,1,2,0] 50 .abs [0,1,2,0],
  .coef 32 [1,2,3,2] .abs .lequ3 [0,1,2,1] 50 .abs [0,1,2,1],
  .coef 32 [1,2,3,3] .abs .lequ3 [0,1,2,2] 50 .abs [0,1,2,2],
  .coef 32 [1,3,1,1] .abs .lequ3 [0,2,0,0] 50 .abs [0,2,0,0],
  .coef 32 [1,3,1,2] .abs .lequ3 [0,2,0,1] 50 .abs [0,2,0,1],
  .coef 32 [1,3,1,3] .abs .lequ3 [0,2,0,2] 50 .abs [0,2,0,2],
  .coef 32 [1,3,2,1] .abs .lequ3 [0,2,1,0] 50 .abs [0,2,1,0],
  .coef 32 [1,3,2,2] .abs .lequ3 [0,2,1,1] 50 .abs [0,2,1,1],
  .coef 32 [1,3,2,3] .abs .lequ3 [0,2,1,2] 50 .abs [0,2,1,2],
  .coef 32 [1,3,3,1] .abs .lequ3 [0,2,2,0] 50 .abs [0,2,2,0],
  .coef 32 [1,3,3,2] .abs .lequ3 [0,2,2,1] 50 .abs [0,2,2,1],
  .coef 32 [1,3,3,3] .abs .lequ3 [0,2,2,2] 50 .abs [0,2,2,2],
  .coef 32 [2,1,1,1] .abs .lequ3 [1,0,0,0] 50 .abs [1,0,0,0],
  .coef 32 [2,1,1,2] .abs .lequ3 [1,0,0,1] 50 .abs [1,0,0,1],
  .coef 32 [2,1,1,3] .abs .lequ3 [1,0,0,2] 50 .abs [1,0,0,2],
  .coef 32 [2,1,2,1] .abs .lequ3 [1,0,1,0] 50 .abs [1,0,1,0],
  .coef 32 [2,1,2,2] .abs .lequ3 [1,0,1,1] 50 .abs [1,0,1,1],
  .coef 32 [2,1,2,3] .abs .lequ3 [1,0,1,2] 50 .abs [1,0,1,2],
  .coef 32 [2,1,3,1] .abs .lequ3 [1,0,2,0] 50 .abs [1,0,2,0],
  .coef 32 [2,1,3,2] .abs .lequ3 [1,0,2,1] 50 .abs [1,0,2,1],
  .coef 32 [2,1,3,3] .abs .lequ3 [1,0,2,2] 50 .abs [1,0,2,2],
  .coef 32 [2,2,1,1] .abs .lequ3 [1,1,0,0] 50 .abs [1,1,0,0],
  .coef 32 [2,2,1,2] .abs .lequ3 [1,1,0,1] 50 .abs [1,1,0,1],
  .coef 32 [2,2,1,3] .abs .lequ3 [1,1,0,2] 50 .abs [1,1,0,2],
  .coef 32 [2,2,2,1] .abs .lequ3 [1,1,1,0] 50 .abs [1,1,1,0],
  .coef 32 [2,2,2,2] .abs .lequ3 [1,1,1,1] 50 .abs [1,1,1,1],
  .coef 32 [2,2,2,3] .abs .lequ3 [1,1,1,2] 50 .abs [1,1,1,2],
  .coef 32 [2,2,3,1] .abs .lequ3 [1,1,2,0] 50 .abs [1,1,2,0],
  .coef 32 [2,2,3,2] .abs .lequ3 [1,1,2,1] 50 .abs [1,1,2,1],
  .coef 32 [2,2,3,3] .abs .lequ3 [1,1,2,2] 50 .abs [1,1,2,2],
  .coef 32 [2,3,1,1] .abs .lequ3 [1,2,0,0] 50 .abs [1,2,0,0],
  .coef 32 [2,3,1,2] .abs .lequ3 [1,2,0,1] 50 .abs [1,2,0,1],
  .coef 32 [2,3,1,3] .abs .lequ3 [1,2,0,2] 50 .abs [1,2,0,2],
  .coef 32 [2,3,2,1] .abs .lequ3 [1,2,1,0] 50 .abs [1,2,1,0],
  .coef 32 [2,3,2,2] .abs .lequ3 [1,2,1,1] 50 .abs [1,2,1,1],
  .coef 32 [2,3,2,3] .abs .lequ3 [1,2,1,2] 50 .abs [1,2,1,2],
  .coef 32 [2,3,3,1] .abs .lequ3 [1,2,2,0] 50 .abs [1,2,2,0],
  .coef 32 [2,3,3,2] .abs .lequ3 [1,2,2,1] 50 .abs [1,2,2,1],
  .coef 32 [2,3,3,3] .abs .lequ3 [1,2,2,2] 50 .abs [1,2,2,2],
  .coef 32 [3,1,1,1] .abs .lequ3 [2,0,0,0] 50 .abs [2,0,0,0],
  .coef 32 [3,1,1,2] .abs .lequ3 [2,0,0,1] 50 .abs [2,0,0,1],
  .coef 32 [3,1,1,3] .abs .lequ3 [2,0,0,2] 50 .abs [2,0,0,2],
  .coef 32 [3,1,2,1] .abs .lequ3 [2,0,1,0] 50 .abs [2,0,1,0],
  .coef 32 [3,1,2,2] .abs .lequ3 [2,0,1,1] 50 .abs [2,0,1,1],
  .coef 32 [3,1,2,3] .abs .lequ3 [2,0,1,2] 50 .abs [2,0,1,2],
  .coef 32 [3,1,3,1] .abs .lequ3 [2,0,2,0] 50 .abs [2,0,2,0],
  .coef 32 [3,1,3,2] .abs .lequ3 [2,0,2,1] 50 .abs [2,0,2,1],
  .coef 32 [3,1,3,3] .abs .lequ3 [2,0,2,2] 50 .abs [2,0,2,2],
  .coef 32 [3,2,1,1] .abs .lequ3 [2,1,0,0] 50 .abs [2,1,0,0],
  .coef 32 [3,2,1,2] .abs .lequ3 [2,1,0,1] 50 .abs [2,1,0,1],
  .coef 32 [3,2,1,3] .abs .lequ3 [2,1,0,2] 50 .abs [2,1,0,2],
  .coef 32 [3,2,2,1] .abs .lequ3 [2,1,1,0] 50 .abs [2,1,1,0],
  .coef 32 [3,2,2,2] .abs .lequ3 [2,1,1,1] 50 .abs [2,1,1,1],
  .coef 32 [3,2,2,3] .abs .lequ3 [2,1,1,2] 50 .abs [2,1,1,2],
  .coef 32 [3,2,3,1] .abs .lequ3 [2,1,2,0] 50 .abs [2,1,2,0],
  .coef 32 [3,2,3,2] .abs .lequ3 [2,1,2,1] 50 .abs [2,1,2,1],
  .coef 32 [3,2,3,3] .abs .lequ3 [2,1,2,2] 50 .abs [2,1,2,2],
  .coef 32 [3,3,1,1] .abs .lequ3 [2,2,0,0] 50 .abs [2,2,0,0],
  .coef 32 [3,3,1,2] .abs .lequ3 [2,2,0,1] 50 .abs [2,2,0,1],
  .coef 32 [3,3,1,3] .abs .lequ3 [2,2,0,2] 50 .abs [2,2,0,2],
  .coef 32 [3,3,2,1] .abs .lequ3 [2,2,1,0] 50 .abs [2,2,1,0],
  .coef 32 [3,3,2,2] .abs .lequ3 [2,2,1,1] 50 .abs [2,2,1,1],
  .coef 32 [3,3,2,3] .abs .lequ3 [2,2,1,2] 50 .abs [2,2,1,2],
  .coef 32 [3,3,3,1] .abs .lequ3 [2,2,2,0] 50 .abs [2,2,2,0],
  .coef 32 [3,3,3,2] .abs .lequ3 [2,2,2,1] 50 .abs [2,2,2,1],
  .coef 32 [3,3,3,3] .abs .lequ3 [2,2,2,2] 50 .abs [2,2,2,2],
  .coef 33 [1,1] .angle .dW [0,0] 57 .ph [0,0],
  .coef 33 [1,2] .angle .dW [0,1] 57 .ph [0,1],
  .coef 33 [1,3] .angle .dW [0,2] 57 .ph [0,2],
  .coef 33 [2,1] .angle .dW [1,0] 57 .ph [1,0],
  .coef 33 [2,2] .angle .dW [1,1] 57 .ph [1,1],
  .coef 33 [2,3] .angle .dW [1,2] 57 .ph [1,2],
  .coef 33 [3,1] .angle .dW [2,0] 57 .ph [2,0],
  .coef 33 [3,2] .angle .dW [2,1] 57 .ph [2,1],
  .coef 33 [3,3] .angle .dW [2,2] 57 .ph [2,2],
  .coef 34 [1,1] .angle .dB [0,0] 58 .ph [0,0],
  .coef 34 [1,2] .angle .dB [0,1] 58 .ph [0,1],
  .coef 34 [1,3] .angle .dB [0,2] 58 .ph [0,2],
  .coef 34 [2,1] .angle .dB [1,0] 58 .ph [1,0],
  .coef 34 [2,2] .angle .dB [1,1] 58 .ph [1,1],
  .coef 34 [2,3] .angle .dB [1,2] 58 .ph [1,2],
  .coef 34 [3,1] .angle .dB [2,0] 58 .ph [2,0],
  .coef 34 [3,2] .angle .dB [2,1] 58 .ph [2,1],
  .coef 34 [3,3] .angle .dB [2,2] 58 .ph [2,2]]

/-- all rows of model set A -/
def rowsA : List Row := [rowsA0, rowsA1, rowsA2, rowsA3, rowsA4, rowsA5, rowsA6, rowsA7, rowsA8, rowsA9, rowsA10, rowsA11, rowsA12, rowsA13, rowsA14, rowsA15, rowsA16, rowsA17, rowsA18, rowsA19].flatten

end Verif.Gen
