import Verif.Model.SmeftSimRow

/-! Generated by `tools/gen_smeftsim.py` from `/repo/wilson/wcxf/converters/smeftsim.py`; do not
edit. -/

set_option autoImplicit false

namespace Verif.Gen
open Verif.SmeftSim

/-- blocks created by `initialize_smeftsim_card`, `smeftsim.py:51-87` -/
def initBlocksB : List String := ["FRBlock", "FRBlock10", "FRBlock11", "FRBlock15", "FRBlock16", "FRBlock18", "FRBlock19", "FRBlock21", "FRBlock22", "FRBlock24", "FRBlock25", "FRBlock27", "FRBlock28", "FRBlock30", "FRBlock31", "FRBlock33", "FRBlock34", "FRBlock36", "FRBlock37", "FRBlock45", "FRBlock46", "FRBlock6", "FRBlock69", "FRBlock7", "FRBlock70", "FRBlock72", "FRBlock73", "FRBlock75", "FRBlock76", "FRBlock78", "FRBlock79", "FRBlock8", "FRBlock81", "FRBlock82", "FRBlock9", "NEWCOUP"]

/-- blocks filled by `smeftsim_card_fill`, in the order of the source -/
def blocksB : List String := ["FRBlock", "FRBlock10", "FRBlock11", "FRBlock15", "FRBlock16", "FRBlock18", "FRBlock19", "FRBlock21", "FRBlock22", "FRBlock24", "FRBlock25", "FRBlock27", "FRBlock28", "FRBlock30", "FRBlock31", "FRBlock33", "FRBlock34", "FRBlock36", "FRBlock37", "FRBlock45", "FRBlock46", "FRBlock6", "FRBlock69", "FRBlock7", "FRBlock70", "FRBlock72", "FRBlock73", "FRBlock75", "FRBlock76", "FRBlock78", "FRBlock79", "FRBlock8", "FRBlock81", "FRBlock82", "FRBlock9", "NEWCOUP"]

/-- the label stems, in the order of first use -/
def stemsB : List String := ["cHl1", "cHL3", "cHq1", "cHQ3", "cHu", "cHd", "cHe", "cll", "cqq1", "cQQ3", "clq1", "cLQ3", "cuu", "cdd", "cee", "cud1", "cUD8", "ceu", "ced", "cqu1", "cQU8", "cqd1", "cQD8", "cle", "clu", "cld", "cqe", "cuH", "cdH", "ceW", "ceB", "cuG", "cuW", "cuB", "cdG", "cdW", "cdB", "cHud", "ceH", "cledq", "cquqd1", "cQUQD8", "clequ1", "cLeQu3", "cHBox", "cHDD", "cH", "cHB", "cHW", "cHWB", "cHG", "cW", "cG", "cWtil", "cGtil", "cHBtil", "cHWtil", "cHWBtil", "cHGtil"]

/-- `smeftsim.py:2715-2839` -/
def rowsB0 : List Row := [
  .coef 0 [1] .absAll .phil1 [0,0] 0 .abs [0,0],
  .coef 0 [2] .absAll .phil1 [0,1] 0 .abs [0,1],
  .coef 0 [3] .absAll .phil1 [0,2] 0 .abs [0,2],
  .coef 0 [4] .absAll .phil1 [1,1] 0 .abs [1,1],
  .coef 0 [5] .absAll .phil1 [1,2] 0 .abs [1,2],
  .coef 0 [6] .absAll .phil1 [2,2] 0 .abs [2,2],
  .coef 0 [7] .angle .phil1 [0,1] 0 .ph [0,1],
  .coef 0 [8] .angle .phil1 [0,2] 0 .ph [0,2],
  .coef 0 [9] .angle .phil1 [1,2] 0 .ph [1,2],
  .coef 0 [10] .absAll .phil3 [0,0] 1 .abs [0,0],
  .coef 0 [11] .absAll .phil3 [0,1] 1 .abs [0,1],
  .coef 0 [12] .absAll .phil3 [0,2] 1 .abs [0,2],
  .coef 0 [13] .absAll .phil3 [1,1] 1 .abs [1,1],
  .coef 0 [14] .absAll .phil3 [1,2] 1 .abs [1,2],
  .coef 0 [15] .absAll .phil3 [2,2] 1 .abs [2,2],
  .coef 0 [16] .angle .phil3 [0,1] 1 .ph [0,1],
  .coef 0 [17] .angle .phil3 [0,2] 1 .ph [0,2],
  .coef 0 [18] .angle .phil3 [1,2] 1 .ph [1,2],
  .coef 0 [19] .absAll .phiq1 [0,0] 2 .abs [0,0],
  .coef 0 [20] .absAll .phiq1 [0,1] 2 .abs [0,1],
  .coef 0 [21] .absAll .phiq1 [0,2] 2 .abs [0,2],
  .coef 0 [22] .absAll .phiq1 [1,1] 2 .abs [1,1],
  .coef 0 [23] .absAll .phiq1 [1,2] 2 .abs [1,2],
  .coef 0 [24] .absAll .phiq1 [2,2] 2 .abs [2,2],
  .coef 0 [25] .angle .phiq1 [0,1] 2 .ph [0,1],
  .coef 0 [26] .angle .phiq1 [0,2] 2 .ph [0,2],
  .coef 0 [27] .angle .phiq1 [1,2] 2 .ph [1,2],
  .coef 0 [28] .absAll .phiq3 [0,0] 3 .abs [0,0],
  .coef 0 [29] .absAll .phiq3 [0,1] 3 .abs [0,1],
  .coef 0 [30] .absAll .phiq3 [0,2] 3 .abs [0,2],
  .coef 0 [31] .absAll .phiq3 [1,1] 3 .abs [1,1],
  .coef 0 [32] .absAll .phiq3 [1,2] 3 .abs [1,2],
  .coef 0 [33] .absAll .phiq3 [2,2] 3 .abs [2,2],
  .coef 0 [34] .angle .phiq3 [0,1] 3 .ph [0,1],
  .coef 0 [35] .angle .phiq3 [0,2] 3 .ph [0,2],
  .coef 0 [36] .angle .phiq3 [1,2] 3 .ph [1,2],
  .coef 0 [37] .absAll .phiu [0,0] 4 .abs [0,0],
  .coef 0 [38] .absAll .phiu [0,1] 4 .abs [0,1],
  .coef 0 [39] .absAll .phiu [0,2] 4 .abs [0,2],
  .coef 0 [40] .absAll .phiu [1,1] 4 .abs [1,1],
  .coef 0 [41] .absAll .phiu [1,2] 4 .abs [1,2],
  .coef 0 [42] .absAll .phiu [2,2] 4 .abs [2,2],
  .coef 0 [43] .angle .phiu [0,1] 4 .ph [0,1],
  .coef 0 [44] .angle .phiu [0,2] 4 .ph [0,2],
  .coef 0 [45] .angle .phiu [1,2] 4 .ph [1,2],
  .coef 0 [46] .absAll .phid [0,0] 5 .abs [0,0],
  .coef 0 [47] .absAll .phid [0,1] 5 .abs [0,1],
  .coef 0 [48] .absAll .phid [0,2] 5 .abs [0,2],
  .coef 0 [49] .absAll .phid [1,1] 5 .abs [1,1],
  .coef 0 [50] .absAll .phid [1,2] 5 .abs [1,2],
  .coef 0 [51] .absAll .phid [2,2] 5 .abs [2,2],
  .coef 0 [52] .angle .phid [0,1] 5 .ph [0,1],
  .coef 0 [53] .angle .phid [0,2] 5 .ph [0,2],
  .coef 0 [54] .angle .phid [1,2] 5 .ph [1,2],
  .coef 0 [55] .absAll .phie [0,0] 6 .abs [0,0],
  .coef 0 [56] .absAll .phie [0,1] 6 .abs [0,1],
  .coef 0 [57] .absAll .phie [0,2] 6 .abs [0,2],
  .coef 0 [58] .absAll .phie [1,1] 6 .abs [1,1],
  .coef 0 [59] .absAll .phie [1,2] 6 .abs [1,2],
  .coef 0 [60] .absAll .phie [2,2] 6 .abs [2,2],
  .coef 0 [61] .angle .phie [0,1] 6 .ph [0,1],
  .coef 0 [62] .angle .phie [0,2] 6 .ph [0,2],
  .coef 0 [63] .angle .phie [1,2] 6 .ph [1,2],
  .coef 0 [64] .plain .ll [0,0,0,0] 7 .abs [0,0,0,0],
  .coef 0 [65] .plain .ll [0,0,1,1] 7 .abs [0,0,1,1],
  .coef 0 [66] .plain .ll [0,1,1,0] 7 .abs [0,1,1,0],
  .coef 0 [67] .plain .ll [0,0,2,2] 7 .abs [0,0,2,2],
  .coef 0 [68] .plain .ll [0,2,2,0] 7 .abs [0,2,2,0],
  .coef 0 [69] .plain .ll [1,1,1,1] 7 .abs [1,1,1,1],
  .coef 0 [70] .plain .ll [1,1,2,2] 7 .abs [1,1,2,2],
  .coef 0 [71] .plain .ll [1,2,2,1] 7 .abs [1,2,2,1],
  .coef 0 [72] .plain .ll [2,2,2,2] 7 .abs [2,2,2,2],
  .coef 0 [73] .abs .ll [0,0,0,1] 7 .abs [0,0,0,1],
  .coef 0 [74] .abs .ll [0,0,0,2] 7 .abs [0,0,0,2],
  .coef 0 [75] .abs .ll [0,0,1,2] 7 .abs [0,0,1,2],
  .coef 0 [76] .abs .ll [0,1,0,1] 7 .abs [0,1,0,1],
  .coef 0 [77] .abs .ll [0,1,0,2] 7 .abs [0,1,0,2],
  .coef 0 [78] .abs .ll [0,1,2,0] 7 .abs [0,1,2,0],
  .coef 0 [79] .abs .ll [0,1,1,1] 7 .abs [0,1,1,1],
  .coef 0 [80] .abs .ll [0,1,1,2] 7 .abs [0,1,1,2],
  .coef 0 [81] .abs .ll [0,1,2,1] 7 .abs [0,1,2,1],
  .coef 0 [82] .abs .ll [0,1,2,2] 7 .abs [0,1,2,2],
  .coef 0 [83] .abs .ll [0,2,0,2] 7 .abs [0,2,0,2],
  .coef 0 [84] .abs .ll [0,2,1,1] 7 .abs [0,2,1,1],
  .coef 0 [85] .abs .ll [0,2,2,1] 7 .abs [0,2,2,1],
  .coef 0 [86] .abs .ll [0,2,1,2] 7 .abs [0,2,1,2],
  .coef 0 [87] .abs .ll [0,2,2,2] 7 .abs [0,2,2,2],
  .coef 0 [88] .abs .ll [1,1,1,2] 7 .abs [1,1,1,2],
  .coef 0 [89] .abs .ll [1,2,1,2] 7 .abs [1,2,1,2],
  .coef 0 [90] .abs .ll [1,2,2,2] 7 .abs [2,2,1,2],
  .coef 0 [91] .angle .ll [0,0,0,1] 7 .ph [0,0,0,1],
  .coef 0 [92] .angle .ll [0,0,0,2] 7 .ph [0,0,0,2],
  .coef 0 [93] .angle .ll [0,0,1,2] 7 .ph [0,0,1,2],
  .coef 0 [94] .angle .ll [0,1,0,1] 7 .ph [0,1,0,1],
  .coef 0 [95] .angle .ll [0,1,0,2] 7 .ph [0,1,0,2],
  .coef 0 [96] .angle .ll [0,1,2,0] 7 .ph [0,1,2,0],
  .coef 0 [97] .angle .ll [0,1,1,1] 7 .ph [0,1,1,1],
  .coef 0 [98] .angle .ll [0,1,1,2] 7 .ph [0,1,1,2],
  .coef 0 [99] .angle .ll [0,1,2,1] 7 .ph [0,1,2,1],
  .coef 0 [100] .angle .ll [0,1,2,2] 7 .ph [0,1,2,2],
  .coef 0 [101] .angle .ll [0,2,0,2] 7 .ph [0,2,0,2],
  .coef 0 [102] .angle .ll [0,2,1,1] 7 .ph [0,2,1,1],
  .coef 0 [103] .angle .ll [0,2,2,1] 7 .ph [0,2,2,1],
  .coef 0 [104] .angle .ll [0,2,1,2] 7 .ph [0,2,1,2],
  .coef 0 [105] .angle .ll [0,2,2,2] 7 .ph [0,2,2,2],
  .coef 0 [106] .angle .ll [1,1,1,2] 7 .ph [1,1,1,2],
  .coef 0 [107] .angle .ll [1,2,1,2] 7 .ph [1,2,1,2],
  .coef 0 [108] .angle .ll [1,2,2,2] 7 .ph [2,2,1,2],
  .coef 0 [109] .plain .qq1 [0,0,0,0] 8 .abs [0,0,0,0],
  .coef 0 [110] .plain .qq1 [0,0,1,1] 8 .abs [0,0,1,1],
  .coef 0 [111] .plain .qq1 [0,1,1,0] 8 .abs [0,1,1,0],
  .coef 0 [112] .plain .qq1 [0,0,2,2] 8 .abs [0,0,2,2],
  .coef 0 [113] .plain .qq1 [0,2,2,0] 8 .abs [0,2,2,0],
  .coef 0 [114] .plain .qq1 [1,1,1,1] 8 .abs [1,1,1,1],
  .coef 0 [115] .plain .qq1 [1,1,2,2] 8 .abs [1,1,2,2],
  .coef 0 [116] .plain .qq1 [1,2,2,1] 8 .abs [1,2,2,1],
  .coef 0 [117] .plain .qq1 [2,2,2,2] 8 .abs [2,2,2,2],
  .coef 0 [118] .abs .qq1 [0,0,0,1] 8 .abs [0,0,0,1],
  .coef 0 [119] .abs .qq1 [0,0,0,2] 8 .abs [0,0,0,2],
  .coef 0 [120] .abs .qq1 [0,0,1,2] 8 .abs [0,0,1,2],
  .coef 0 [121] .abs .qq1 [0,1,0,1] 8 .abs [0,1,0,1],
  .coef 0 [122] .abs .qq1 [0,1,0,2] 8 .abs [0,1,0,2],
  .coef 0 [123] .abs .qq1 [0,1,2,0] 8 .abs [0,1,2,0],
  .coef 0 [124] .abs .qq1 [0,1,1,1] 8 .abs [0,1,1,1],
  .coef 0 [125] .abs .qq1 [0,1,1,2] 8 .abs [0,1,1,2]]

/-- `smeftsim.py:2840-2964` -/
def rowsB1 : List Row := [
  .coef 0 [126] .abs .qq1 [0,1,2,1] 8 .abs [0,1,2,1],
  .coef 0 [127] .abs .qq1 [0,1,2,2] 8 .abs [0,1,2,2],
  .coef 0 [128] .abs .qq1 [0,2,0,2] 8 .abs [0,2,0,2],
  .coef 0 [129] .abs .qq1 [0,2,1,1] 8 .abs [0,2,1,1],
  .coef 0 [130] .abs .qq1 [0,2,2,1] 8 .abs [0,2,2,1],
  .coef 0 [131] .abs .qq1 [0,2,1,2] 8 .abs [0,2,1,2],
  .coef 0 [132] .abs .qq1 [0,2,2,2] 8 .abs [0,2,2,2],
  .coef 0 [133] .abs .qq1 [1,1,1,2] 8 .abs [1,1,1,2],
  .coef 0 [134] .abs .qq1 [1,2,1,2] 8 .abs [1,2,1,2],
  .coef 0 [135] .abs .qq1 [1,2,2,2] 8 .abs [2,2,1,2],
  .coef 0 [136] .angle .qq1 [0,0,0,1] 8 .ph [0,0,0,1],
  .coef 0 [137] .angle .qq1 [0,0,0,2] 8 .ph [0,0,0,2],
  .coef 0 [138] .angle .qq1 [0,0,1,2] 8 .ph [0,0,1,2],
  .coef 0 [139] .angle .qq1 [0,1,0,1] 8 .ph [0,1,0,1],
  .coef 0 [140] .angle .qq1 [0,1,0,2] 8 .ph [0,1,0,2],
  .coef 0 [141] .angle .qq1 [0,1,2,0] 8 .ph [0,1,2,0],
  .coef 0 [142] .angle .qq1 [0,1,1,1] 8 .ph [0,1,1,1],
  .coef 0 [143] .angle .qq1 [0,1,1,2] 8 .ph [0,1,1,2],
  .coef 0 [144] .angle .qq1 [0,1,2,1] 8 .ph [0,1,2,1],
  .coef 0 [145] .angle .qq1 [0,1,2,2] 8 .ph [0,1,2,2],
  .coef 0 [146] .angle .qq1 [0,2,0,2] 8 .ph [0,2,0,2],
  .coef 0 [147] .angle .qq1 [0,2,1,1] 8 .ph [0,2,1,1],
  .coef 0 [148] .angle .qq1 [0,2,2,1] 8 .ph [0,2,2,1],
  .coef 0 [149] .angle .qq1 [0,2,1,2] 8 .ph [0,2,1,2],
  .coef 0 [150] .angle .qq1 [0,2,2,2] 8 .ph [0,2,2,2],
  .coef 0 [151] .angle .qq1 [1,1,1,2] 8 .ph [1,1,1,2],
  .coef 0 [152] .angle .qq1 [1,2,1,2] 8 .ph [1,2,1,2],
  .coef 0 [153] .angle .qq1 [1,2,2,2] 8 .ph [2,2,1,2],
  .coef 0 [154] .plain .qq3 [0,0,0,0] 9 .abs [0,0,0,0],
  .coef 0 [155] .plain .qq3 [0,0,1,1] 9 .abs [0,0,1,1],
  .coef 0 [156] .plain .qq3 [0,1,1,0] 9 .abs [0,1,1,0],
  .coef 0 [157] .plain .qq3 [0,0,2,2] 9 .abs [0,0,2,2],
  .coef 0 [158] .plain .qq3 [0,2,2,0] 9 .abs [0,2,2,0],
  .coef 0 [159] .plain .qq3 [1,1,1,1] 9 .abs [1,1,1,1],
  .coef 0 [160] .plain .qq3 [1,1,2,2] 9 .abs [1,1,2,2],
  .coef 0 [161] .plain .qq3 [1,2,2,1] 9 .abs [1,2,2,1],
  .coef 0 [162] .plain .qq3 [2,2,2,2] 9 .abs [2,2,2,2],
  .coef 0 [163] .abs .qq3 [0,0,0,1] 9 .abs [0,0,0,1],
  .coef 0 [164] .abs .qq3 [0,0,0,2] 9 .abs [0,0,0,2],
  .coef 0 [165] .abs .qq3 [0,0,1,2] 9 .abs [0,0,1,2],
  .coef 0 [166] .abs .qq3 [0,1,0,1] 9 .abs [0,1,0,1],
  .coef 0 [167] .abs .qq3 [0,1,0,2] 9 .abs [0,1,0,2],
  .coef 0 [168] .abs .qq3 [0,1,2,0] 9 .abs [0,1,2,0],
  .coef 0 [169] .abs .qq3 [0,1,1,1] 9 .abs [0,1,1,1],
  .coef 0 [170] .abs .qq3 [0,1,1,2] 9 .abs [0,1,1,2],
  .coef 0 [171] .abs .qq3 [0,1,2,1] 9 .abs [0,1,2,1],
  .coef 0 [172] .abs .qq3 [0,1,2,2] 9 .abs [0,1,2,2],
  .coef 0 [173] .abs .qq3 [0,2,0,2] 9 .abs [0,2,0,2],
  .coef 0 [174] .abs .qq3 [0,2,1,1] 9 .abs [0,2,1,1],
  .coef 0 [175] .abs .qq3 [0,2,2,1] 9 .abs [0,2,2,1],
  .coef 0 [176] .abs .qq3 [0,2,1,2] 9 .abs [0,2,1,2],
  .coef 0 [177] .abs .qq3 [0,2,2,2] 9 .abs [0,2,2,2],
  .coef 0 [178] .abs .qq3 [1,1,1,2] 9 .abs [1,1,1,2],
  .coef 0 [179] .abs .qq3 [1,2,1,2] 9 .abs [1,2,1,2],
  .coef 0 [180] .abs .qq3 [1,2,2,2] 9 .abs [2,2,1,2],
  .coef 0 [181] .angle .qq3 [0,0,0,1] 9 .ph [0,0,0,1],
  .coef 0 [182] .angle .qq3 [0,0,0,2] 9 .ph [0,0,0,2],
  .coef 0 [183] .angle .qq3 [0,0,1,2] 9 .ph [0,0,1,2],
  .coef 0 [184] .angle .qq3 [0,1,0,1] 9 .ph [0,1,0,1],
  .coef 0 [185] .angle .qq3 [0,1,0,2] 9 .ph [0,1,0,2],
  .coef 0 [186] .angle .qq3 [0,1,2,0] 9 .ph [0,1,2,0],
  .coef 0 [187] .angle .qq3 [0,1,1,1] 9 .ph [0,1,1,1],
  .coef 0 [188] .angle .qq3 [0,1,1,2] 9 .ph [0,1,1,2],
  .coef 0 [189] .angle .qq3 [0,1,2,1] 9 .ph [0,1,2,1],
  .coef 0 [190] .angle .qq3 [0,1,2,2] 9 .ph [0,1,2,2],
  .coef 0 [191] .angle .qq3 [0,2,0,2] 9 .ph [0,2,0,2],
  .coef 0 [192] .angle .qq3 [0,2,1,1] 9 .ph [0,2,1,1],
  .coef 0 [193] .angle .qq3 [0,2,2,1] 9 .ph [0,2,2,1],
  .coef 0 [194] .angle .qq3 [0,2,1,2] 9 .ph [0,2,1,2],
  .coef 0 [195] .angle .qq3 [0,2,2,2] 9 .ph [0,2,2,2],
  .coef 0 [196] .angle .qq3 [1,1,1,2] 9 .ph [1,1,1,2],
  .coef 0 [197] .angle .qq3 [1,2,1,2] 9 .ph [1,2,1,2],
  .coef 0 [198] .angle .qq3 [1,2,2,2] 9 .ph [2,2,1,2],
  .coef 0 [199] .plain .lq1 [0,0,0,0] 10 .abs [0,0,0,0],
  .coef 0 [200] .abs .lq1 [0,0,0,1] 10 .abs [0,0,0,1],
  .coef 0 [201] .abs .lq1 [0,0,0,2] 10 .abs [0,0,0,2],
  .coef 0 [202] .abs .lq1 [0,0,1,2] 10 .abs [0,0,1,2],
  .coef 0 [203] .plain .lq1 [0,0,1,1] 10 .abs [0,0,1,1],
  .coef 0 [204] .plain .lq1 [0,0,2,2] 10 .abs [0,0,2,2],
  .coef 0 [205] .abs .lq1 [0,1,0,0] 10 .abs [0,1,0,0],
  .coef 0 [206] .abs .lq1 [0,1,0,1] 10 .abs [0,1,0,1],
  .coef 0 [207] .abs .lq1 [0,1,1,0] 10 .abs [0,1,1,0],
  .coef 0 [208] .abs .lq1 [0,1,0,2] 10 .abs [0,1,0,2],
  .coef 0 [209] .abs .lq1 [0,1,2,0] 10 .abs [0,1,2,0],
  .coef 0 [210] .abs .lq1 [0,1,1,1] 10 .abs [0,1,1,1],
  .coef 0 [211] .abs .lq1 [0,1,1,2] 10 .abs [0,1,1,2],
  .coef 0 [212] .abs .lq1 [0,1,2,1] 10 .abs [0,1,2,1],
  .coef 0 [213] .abs .lq1 [0,1,2,2] 10 .abs [0,1,2,2],
  .coef 0 [214] .abs .lq1 [0,2,0,0] 10 .abs [0,2,0,0],
  .coef 0 [215] .abs .lq1 [0,2,0,1] 10 .abs [0,2,0,1],
  .coef 0 [216] .abs .lq1 [0,2,0,2] 10 .abs [0,2,0,2],
  .coef 0 [217] .abs .lq1 [0,2,2,0] 10 .abs [0,2,2,0],
  .coef 0 [218] .abs .lq1 [0,2,1,0] 10 .abs [0,2,1,0],
  .coef 0 [219] .abs .lq1 [0,2,1,1] 10 .abs [0,2,1,1],
  .coef 0 [220] .abs .lq1 [0,2,2,1] 10 .abs [0,2,2,1],
  .coef 0 [221] .abs .lq1 [0,2,1,2] 10 .abs [0,2,1,2],
  .coef 0 [222] .abs .lq1 [0,2,2,2] 10 .abs [0,2,2,2],
  .coef 0 [223] .plain .lq1 [1,1,0,0] 10 .abs [1,1,0,0],
  .coef 0 [224] .abs .lq1 [1,1,0,1] 10 .abs [1,1,0,1],
  .coef 0 [225] .abs .lq1 [1,1,0,2] 10 .abs [1,1,0,2],
  .coef 0 [226] .plain .lq1 [1,1,1,1] 10 .abs [1,1,1,1],
  .coef 0 [227] .abs .lq1 [1,1,1,2] 10 .abs [1,1,1,2],
  .coef 0 [228] .plain .lq1 [1,1,2,2] 10 .abs [1,1,2,2],
  .coef 0 [229] .abs .lq1 [1,2,0,0] 10 .abs [1,2,0,0],
  .coef 0 [230] .abs .lq1 [1,2,0,1] 10 .abs [1,2,0,1],
  .coef 0 [231] .abs .lq1 [1,2,0,2] 10 .abs [1,2,0,2],
  .coef 0 [232] .abs .lq1 [1,2,1,0] 10 .abs [1,2,1,0],
  .coef 0 [233] .abs .lq1 [1,2,1,1] 10 .abs [1,2,1,1],
  .coef 0 [234] .abs .lq1 [1,2,1,2] 10 .abs [1,2,1,2],
  .coef 0 [235] .abs .lq1 [1,2,2,0] 10 .abs [1,2,2,0],
  .coef 0 [236] .abs .lq1 [1,2,2,1] 10 .abs [1,2,2,1],
  .coef 0 [237] .abs .lq1 [1,2,2,2] 10 .abs [1,2,2,2],
  .coef 0 [238] .plain .lq1 [2,2,0,0] 10 .abs [2,2,0,0],
  .coef 0 [239] .abs .lq1 [2,2,0,1] 10 .abs [2,2,0,1],
  .coef 0 [240] .abs .lq1 [2,2,0,2] 10 .abs [2,2,0,2],
  .coef 0 [241] .plain .lq1 [2,2,1,1] 10 .abs [2,2,1,1],
  .coef 0 [242] .plain .lq1 [2,2,2,2] 10 .abs [2,2,2,2],
  .coef 0 [243] .abs .lq1 [2,2,1,2] 10 .abs [2,2,1,2],
  .coef 0 [244] .angle .lq1 [0,0,0,1] 10 .ph [0,0,0,1],
  .coef 0 [245] .angle .lq1 [1,1,0,1] 10 .ph [1,1,0,1],
  .coef 0 [246] .angle .lq1 [0,0,0,2] 10 .ph [0,0,0,2],
  .coef 0 [247] .angle .lq1 [0,0,1,2] 10 .ph [0,0,1,2],
  .coef 0 [248] .angle .lq1 [0,1,0,0] 10 .ph [0,1,0,0],
  .coef 0 [249] .angle .lq1 [0,1,0,1] 10 .ph [0,1,0,1],
  .coef 0 [250] .angle .lq1 [0,1,1,0] 10 .ph [0,1,1,0]]

/-- `smeftsim.py:2965-3089` -/
def rowsB2 : List Row := [
  .coef 0 [251] .angle .lq1 [0,1,0,2] 10 .ph [0,1,0,2],
  .coef 0 [252] .angle .lq1 [0,1,2,0] 10 .ph [0,1,2,0],
  .coef 0 [253] .angle .lq1 [0,1,1,1] 10 .ph [0,1,1,1],
  .coef 0 [254] .angle .lq1 [0,1,1,2] 10 .ph [0,1,1,2],
  .coef 0 [255] .angle .lq1 [0,1,2,1] 10 .ph [0,1,2,1],
  .coef 0 [256] .angle .lq1 [0,1,2,2] 10 .ph [0,1,2,2],
  .coef 0 [257] .angle .lq1 [0,2,0,0] 10 .ph [0,2,0,0],
  .coef 0 [258] .angle .lq1 [0,2,0,1] 10 .ph [0,2,0,1],
  .coef 0 [259] .angle .lq1 [0,2,0,2] 10 .ph [0,2,0,2],
  .coef 0 [260] .angle .lq1 [0,2,2,0] 10 .ph [0,2,2,0],
  .coef 0 [261] .angle .lq1 [0,2,1,0] 10 .ph [0,2,1,0],
  .coef 0 [262] .angle .lq1 [0,2,1,1] 10 .ph [0,2,1,1],
  .coef 0 [263] .angle .lq1 [0,2,2,1] 10 .ph [0,2,2,1],
  .coef 0 [264] .angle .lq1 [0,2,1,2] 10 .ph [0,2,1,2],
  .coef 0 [265] .angle .lq1 [0,2,2,2] 10 .ph [0,2,2,2],
  .coef 0 [266] .angle .lq1 [1,1,0,2] 10 .ph [1,1,0,2],
  .coef 0 [267] .angle .lq1 [1,1,1,2] 10 .ph [1,1,1,2],
  .coef 0 [268] .angle .lq1 [1,2,0,0] 10 .ph [1,2,0,0],
  .coef 0 [269] .angle .lq1 [1,2,0,1] 10 .ph [1,2,0,1],
  .coef 0 [270] .angle .lq1 [1,2,0,2] 10 .ph [1,2,0,2],
  .coef 0 [271] .angle .lq1 [1,2,1,0] 10 .ph [1,2,1,0],
  .coef 0 [272] .angle .lq1 [1,2,1,1] 10 .ph [1,2,1,1],
  .coef 0 [273] .angle .lq1 [1,2,1,2] 10 .ph [1,2,1,2],
  .coef 0 [274] .angle .lq1 [1,2,2,0] 10 .ph [1,2,2,0],
  .coef 0 [275] .angle .lq1 [1,2,2,1] 10 .ph [1,2,2,1],
  .coef 0 [276] .angle .lq1 [1,2,2,2] 10 .ph [1,2,2,2],
  .coef 0 [277] .angle .lq1 [2,2,1,2] 10 .ph [2,2,1,2],
  .coef 0 [278] .angle .lq1 [2,2,0,1] 10 .ph [2,2,0,1],
  .coef 0 [279] .angle .lq1 [2,2,0,2] 10 .ph [2,2,0,2],
  .coef 0 [280] .plain .lq3 [0,0,0,0] 11 .abs [0,0,0,0],
  .coef 0 [281] .abs .lq3 [0,0,0,1] 11 .abs [0,0,0,1],
  .coef 0 [282] .abs .lq3 [0,0,0,2] 11 .abs [0,0,0,2],
  .coef 0 [283] .abs .lq3 [0,0,1,2] 11 .abs [0,0,1,2],
  .coef 0 [284] .plain .lq3 [0,0,1,1] 11 .abs [0,0,1,1],
  .coef 0 [285] .plain .lq3 [0,0,2,2] 11 .abs [0,0,2,2],
  .coef 0 [286] .abs .lq3 [0,1,0,0] 11 .abs [0,1,0,0],
  .coef 0 [287] .abs .lq3 [0,1,0,1] 11 .abs [0,1,0,1],
  .coef 0 [288] .abs .lq3 [0,1,1,0] 11 .abs [0,1,1,0],
  .coef 0 [289] .abs .lq3 [0,1,0,2] 11 .abs [0,1,0,2],
  .coef 0 [290] .abs .lq3 [0,1,2,0] 11 .abs [0,1,2,0],
  .coef 0 [291] .abs .lq3 [0,1,1,1] 11 .abs [0,1,1,1],
  .coef 0 [292] .abs .lq3 [0,1,1,2] 11 .abs [0,1,1,2],
  .coef 0 [293] .abs .lq3 [0,1,2,1] 11 .abs [0,1,2,1],
  .coef 0 [294] .abs .lq3 [0,1,2,2] 11 .abs [0,1,2,2],
  .coef 0 [295] .abs .lq3 [0,2,0,0] 11 .abs [0,2,0,0],
  .coef 0 [296] .abs .lq3 [0,2,0,1] 11 .abs [0,2,0,1],
  .coef 0 [297] .abs .lq3 [0,2,0,2] 11 .abs [0,2,0,2],
  .coef 0 [298] .abs .lq3 [0,2,2,0] 11 .abs [0,2,2,0],
  .coef 0 [299] .abs .lq3 [0,2,1,0] 11 .abs [0,2,1,0],
  .coef 0 [300] .abs .lq3 [0,2,1,1] 11 .abs [0,2,1,1],
  .coef 0 [301] .abs .lq3 [0,2,2,1] 11 .abs [0,2,2,1],
  .coef 0 [302] .abs .lq3 [0,2,1,2] 11 .abs [0,2,1,2],
  .coef 0 [303] .abs .lq3 [0,2,2,2] 11 .abs [0,2,2,2],
  .coef 0 [304] .plain .lq3 [1,1,0,0] 11 .abs [1,1,0,0],
  .coef 0 [305] .abs .lq3 [1,1,0,1] 11 .abs [1,1,0,1],
  .coef 0 [306] .abs .lq3 [1,1,0,2] 11 .abs [1,1,0,2],
  .coef 0 [307] .plain .lq3 [1,1,1,1] 11 .abs [1,1,1,1],
  .coef 0 [308] .abs .lq3 [1,1,1,2] 11 .abs [1,1,1,2],
  .coef 0 [309] .plain .lq3 [1,1,2,2] 11 .abs [1,1,2,2],
  .coef 0 [310] .abs .lq3 [1,2,0,0] 11 .abs [1,2,0,0],
  .coef 0 [311] .abs .lq3 [1,2,0,1] 11 .abs [1,2,0,1],
  .coef 0 [312] .abs .lq3 [1,2,0,2] 11 .abs [1,2,0,2],
  .coef 0 [313] .abs .lq3 [1,2,1,0] 11 .abs [1,2,1,0],
  .coef 0 [314] .abs .lq3 [1,2,1,1] 11 .abs [1,2,1,1],
  .coef 0 [315] .abs .lq3 [1,2,1,2] 11 .abs [1,2,1,2],
  .coef 0 [316] .abs .lq3 [1,2,2,0] 11 .abs [1,2,2,0],
  .coef 0 [317] .abs .lq3 [1,2,2,1] 11 .abs [1,2,2,1],
  .coef 0 [318] .abs .lq3 [1,2,2,2] 11 .abs [1,2,2,2],
  .coef 0 [319] .plain .lq3 [2,2,0,0] 11 .abs [2,2,0,0],
  .coef 0 [320] .abs .lq3 [2,2,0,1] 11 .abs [2,2,0,1],
  .coef 0 [321] .abs .lq3 [2,2,0,2] 11 .abs [2,2,0,2],
  .coef 0 [322] .plain .lq3 [2,2,1,1] 11 .abs [2,2,1,1],
  .coef 0 [323] .plain .lq3 [2,2,2,2] 11 .abs [2,2,2,2],
  .coef 0 [324] .abs .lq3 [2,2,1,2] 11 .abs [2,2,1,2],
  .coef 0 [325] .angle .lq3 [0,0,0,1] 11 .ph [0,0,0,1],
  .coef 0 [326] .angle .lq3 [1,1,0,1] 11 .ph [1,1,0,1],
  .coef 0 [327] .angle .lq3 [0,0,0,2] 11 .ph [0,0,0,2],
  .coef 0 [328] .angle .lq3 [0,0,1,2] 11 .ph [0,0,1,2],
  .coef 0 [329] .angle .lq3 [0,1,0,0] 11 .ph [0,1,0,0],
  .coef 0 [330] .angle .lq3 [0,1,0,1] 11 .ph [0,1,0,1],
  .coef 0 [331] .angle .lq3 [0,1,1,0] 11 .ph [0,1,1,0],
  .coef 0 [332] .angle .lq3 [0,1,0,2] 11 .ph [0,1,0,2],
  .coef 0 [333] .angle .lq3 [0,1,2,0] 11 .ph [0,1,2,0],
  .coef 0 [334] .angle .lq3 [0,1,1,1] 11 .ph [0,1,1,1],
  .coef 0 [335] .angle .lq3 [0,1,1,2] 11 .ph [0,1,1,2],
  .coef 0 [336] .angle .lq3 [0,1,2,1] 11 .ph [0,1,2,1],
  .coef 0 [337] .angle .lq3 [0,1,2,2] 11 .ph [0,1,2,2],
  .coef 0 [338] .angle .lq3 [0,2,0,0] 11 .ph [0,2,0,0],
  .coef 0 [339] .angle .lq3 [0,2,0,1] 11 .ph [0,2,0,1],
  .coef 0 [340] .angle .lq3 [0,2,0,2] 11 .ph [0,2,0,2],
  .coef 0 [341] .angle .lq3 [0,2,2,0] 11 .ph [0,2,2,0],
  .coef 0 [342] .angle .lq3 [0,2,1,0] 11 .ph [0,2,1,0],
  .coef 0 [343] .angle .lq3 [0,2,1,1] 11 .ph [0,2,1,1],
  .coef 0 [344] .angle .lq3 [0,2,2,1] 11 .ph [0,2,2,1],
  .coef 0 [345] .angle .lq3 [0,2,1,2] 11 .ph [0,2,1,2],
  .coef 0 [346] .angle .lq3 [0,2,2,2] 11 .ph [0,2,2,2],
  .coef 0 [347] .angle .lq3 [1,1,0,2] 11 .ph [1,1,0,2],
  .coef 0 [348] .angle .lq3 [1,1,1,2] 11 .ph [1,1,1,2],
  .coef 0 [349] .angle .lq3 [1,2,0,0] 11 .ph [1,2,0,0],
  .coef 0 [350] .angle .lq3 [1,2,0,1] 11 .ph [1,2,0,1],
  .coef 0 [351] .angle .lq3 [1,2,0,2] 11 .ph [1,2,0,2],
  .coef 0 [352] .angle .lq3 [1,2,1,0] 11 .ph [1,2,1,0],
  .coef 0 [353] .angle .lq3 [1,2,1,1] 11 .ph [1,2,1,1],
  .coef 0 [354] .angle .lq3 [1,2,1,2] 11 .ph [1,2,1,2],
  .coef 0 [355] .angle .lq3 [1,2,2,0] 11 .ph [1,2,2,0],
  .coef 0 [356] .angle .lq3 [1,2,2,1] 11 .ph [1,2,2,1],
  .coef 0 [357] .angle .lq3 [1,2,2,2] 11 .ph [1,2,2,2],
  .coef 0 [358] .angle .lq3 [2,2,1,2] 11 .ph [2,2,1,2],
  .coef 0 [359] .angle .lq3 [2,2,0,1] 11 .ph [2,2,0,1],
  .coef 0 [360] .angle .lq3 [2,2,0,2] 11 .ph [2,2,0,2],
  .coef 0 [361] .plain .uu [0,0,0,0] 12 .abs [0,0,0,0],
  .coef 0 [362] .plain .uu [0,0,1,1] 12 .abs [0,0,1,1],
  .coef 0 [363] .plain .uu [0,1,1,0] 12 .abs [0,1,1,0],
  .coef 0 [364] .plain .uu [0,0,2,2] 12 .abs [0,0,2,2],
  .coef 0 [365] .plain .uu [0,2,2,0] 12 .abs [0,2,2,0],
  .coef 0 [366] .plain .uu [1,1,1,1] 12 .abs [1,1,1,1],
  .coef 0 [367] .plain .uu [1,1,2,2] 12 .abs [1,1,2,2],
  .coef 0 [368] .plain .uu [1,2,2,1] 12 .abs [1,2,2,1],
  .coef 0 [369] .plain .uu [2,2,2,2] 12 .abs [2,2,2,2],
  .coef 0 [370] .abs .uu [0,0,0,1] 12 .abs [0,0,0,1],
  .coef 0 [371] .abs .uu [0,0,0,2] 12 .abs [0,0,0,2],
  .coef 0 [372] .abs .uu [0,0,1,2] 12 .abs [0,0,1,2],
  .coef 0 [373] .abs .uu [0,1,0,1] 12 .abs [0,1,0,1],
  .coef 0 [374] .abs .uu [0,1,0,2] 12 .abs [0,1,0,2],
  .coef 0 [375] .abs .uu [0,1,2,0] 12 .abs [0,1,2,0]]

/-- `smeftsim.py:3090-3214` -/
def rowsB3 : List Row := [
  .coef 0 [376] .abs .uu [0,1,1,1] 12 .abs [0,1,1,1],
  .coef 0 [377] .abs .uu [0,1,1,2] 12 .abs [0,1,1,2],
  .coef 0 [378] .abs .uu [0,1,2,1] 12 .abs [0,1,2,1],
  .coef 0 [379] .abs .uu [0,1,2,2] 12 .abs [0,1,2,2],
  .coef 0 [380] .abs .uu [0,2,0,2] 12 .abs [0,2,0,2],
  .coef 0 [381] .abs .uu [0,2,1,1] 12 .abs [0,2,1,1],
  .coef 0 [382] .abs .uu [0,2,2,1] 12 .abs [0,2,2,1],
  .coef 0 [383] .abs .uu [0,2,1,2] 12 .abs [0,2,1,2],
  .coef 0 [384] .abs .uu [0,2,2,2] 12 .abs [0,2,2,2],
  .coef 0 [385] .abs .uu [1,1,1,2] 12 .abs [1,1,1,2],
  .coef 0 [386] .abs .uu [1,2,1,2] 12 .abs [1,2,1,2],
  .coef 0 [387] .abs .uu [1,2,2,2] 12 .abs [2,2,1,2],
  .coef 0 [388] .angle .uu [0,0,0,1] 12 .ph [0,0,0,1],
  .coef 0 [389] .angle .uu [0,0,0,2] 12 .ph [0,0,0,2],
  .coef 0 [390] .angle .uu [0,0,1,2] 12 .ph [0,0,1,2],
  .coef 0 [391] .angle .uu [0,1,0,1] 12 .ph [0,1,0,1],
  .coef 0 [392] .angle .uu [0,1,0,2] 12 .ph [0,1,0,2],
  .coef 0 [393] .angle .uu [0,1,2,0] 12 .ph [0,1,2,0],
  .coef 0 [394] .angle .uu [0,1,1,1] 12 .ph [0,1,1,1],
  .coef 0 [395] .angle .uu [0,1,1,2] 12 .ph [0,1,1,2],
  .coef 0 [396] .angle .uu [0,1,2,1] 12 .ph [0,1,2,1],
  .coef 0 [397] .angle .uu [0,1,2,2] 12 .ph [0,1,2,2],
  .coef 0 [398] .angle .uu [0,2,0,2] 12 .ph [0,2,0,2],
  .coef 0 [399] .angle .uu [0,2,1,1] 12 .ph [0,2,1,1],
  .coef 0 [400] .angle .uu [0,2,2,1] 12 .ph [0,2,2,1],
  .coef 0 [401] .angle .uu [0,2,1,2] 12 .ph [0,2,1,2],
  .coef 0 [402] .angle .uu [0,2,2,2] 12 .ph [0,2,2,2],
  .coef 0 [403] .angle .uu [1,1,1,2] 12 .ph [1,1,1,2],
  .coef 0 [404] .angle .uu [1,2,1,2] 12 .ph [1,2,1,2],
  .coef 0 [405] .angle .uu [1,2,2,2] 12 .ph [2,2,1,2],
  .coef 0 [406] .plain .dd [0,0,0,0] 13 .abs [0,0,0,0],
  .coef 0 [407] .plain .dd [0,0,1,1] 13 .abs [0,0,1,1],
  .coef 0 [408] .plain .dd [0,1,1,0] 13 .abs [0,1,1,0],
  .coef 0 [409] .plain .dd [0,0,2,2] 13 .abs [0,0,2,2],
  .coef 0 [410] .plain .dd [0,2,2,0] 13 .abs [0,2,2,0],
  .coef 0 [411] .plain .dd [1,1,1,1] 13 .abs [1,1,1,1],
  .coef 0 [412] .plain .dd [1,1,2,2] 13 .abs [1,1,2,2],
  .coef 0 [413] .plain .dd [1,2,2,1] 13 .abs [1,2,2,1],
  .coef 0 [414] .plain .dd [2,2,2,2] 13 .abs [2,2,2,2],
  .coef 0 [415] .abs .dd [0,0,0,1] 13 .abs [0,0,0,1],
  .coef 0 [416] .abs .dd [0,0,0,2] 13 .abs [0,0,0,2],
  .coef 0 [417] .abs .dd [0,0,1,2] 13 .abs [0,0,1,2],
  .coef 0 [418] .abs .dd [0,1,0,1] 13 .abs [0,1,0,1],
  .coef 0 [419] .abs .dd [0,1,0,2] 13 .abs [0,1,0,2],
  .coef 0 [420] .abs .dd [0,1,2,0] 13 .abs [0,1,2,0],
  .coef 0 [421] .abs .dd [0,1,1,1] 13 .abs [0,1,1,1],
  .coef 0 [422] .abs .dd [0,1,1,2] 13 .abs [0,1,1,2],
  .coef 0 [423] .abs .dd [0,1,2,1] 13 .abs [0,1,2,1],
  .coef 0 [424] .abs .dd [0,1,2,2] 13 .abs [0,1,2,2],
  .coef 0 [425] .abs .dd [0,2,0,2] 13 .abs [0,2,0,2],
  .coef 0 [426] .abs .dd [0,2,1,1] 13 .abs [0,2,1,1],
  .coef 0 [427] .abs .dd [0,2,2,1] 13 .abs [0,2,2,1],
  .coef 0 [428] .abs .dd [0,2,1,2] 13 .abs [0,2,1,2],
  .coef 0 [429] .abs .dd [0,2,2,2] 13 .abs [0,2,2,2],
  .coef 0 [430] .abs .dd [1,1,1,2] 13 .abs [1,1,1,2],
  .coef 0 [431] .abs .dd [1,2,1,2] 13 .abs [1,2,1,2],
  .coef 0 [432] .abs .dd [1,2,2,2] 13 .abs [2,2,1,2],
  .coef 0 [433] .angle .dd [0,0,0,1] 13 .ph [0,0,0,1],
  .coef 0 [434] .angle .dd [0,0,0,2] 13 .ph [0,0,0,2],
  .coef 0 [435] .angle .dd [0,0,1,2] 13 .ph [0,0,1,2],
  .coef 0 [436] .angle .dd [0,1,0,1] 13 .ph [0,1,0,1],
  .coef 0 [437] .angle .dd [0,1,0,2] 13 .ph [0,1,0,2],
  .coef 0 [438] .angle .dd [0,1,2,0] 13 .ph [0,1,2,0],
  .coef 0 [439] .angle .dd [0,1,1,1] 13 .ph [0,1,1,1],
  .coef 0 [440] .angle .dd [0,1,1,2] 13 .ph [0,1,1,2],
  .coef 0 [441] .angle .dd [0,1,2,1] 13 .ph [0,1,2,1],
  .coef 0 [442] .angle .dd [0,1,2,2] 13 .ph [0,1,2,2],
  .coef 0 [443] .angle .dd [0,2,0,2] 13 .ph [0,2,0,2],
  .coef 0 [444] .angle .dd [0,2,1,1] 13 .ph [0,2,1,1],
  .coef 0 [445] .angle .dd [0,2,2,1] 13 .ph [0,2,2,1],
  .coef 0 [446] .angle .dd [0,2,1,2] 13 .ph [0,2,1,2],
  .coef 0 [447] .angle .dd [0,2,2,2] 13 .ph [0,2,2,2],
  .coef 0 [448] .angle .dd [1,1,1,2] 13 .ph [1,1,1,2],
  .coef 0 [449] .angle .dd [1,2,1,2] 13 .ph [1,2,1,2],
  .coef 0 [450] .angle .dd [1,2,2,2] 13 .ph [2,2,1,2],
  .coef 0 [451] .plain .ee [0,0,0,0] 14 .abs [0,0,0,0],
  .coef 0 [452] .plain .ee [1,1,1,1] 14 .abs [1,1,1,1],
  .coef 0 [453] .plain .ee [2,2,2,2] 14 .abs [2,2,2,2],
  .coef 0 [454] .plain .ee [0,0,1,1] 14 .abs [0,0,1,1],
  .coef 0 [455] .plain .ee [0,0,2,2] 14 .abs [0,0,2,2],
  .coef 0 [456] .plain .ee [1,1,2,2] 14 .abs [1,1,2,2],
  .coef 0 [457] .abs .ee [0,1,0,1] 14 .abs [0,1,0,1],
  .coef 0 [458] .abs .ee [0,1,0,2] 14 .abs [0,1,0,2],
  .coef 0 [459] .abs .ee [0,1,2,1] 14 .abs [0,1,2,1],
  .coef 0 [460] .abs .ee [0,2,0,2] 14 .abs [0,2,0,2],
  .coef 0 [461] .abs .ee [0,2,1,2] 14 .abs [0,2,1,2],
  .coef 0 [462] .abs .ee [1,2,1,2] 14 .abs [1,2,1,2],
  .coef 0 [463] .abs .ee [0,0,0,1] 14 .abs [0,0,0,1],
  .coef 0 [464] .abs .ee [0,1,1,1] 14 .abs [0,1,1,1],
  .coef 0 [465] .abs .ee [0,1,2,2] 14 .abs [0,1,2,2],
  .coef 0 [466] .abs .ee [0,0,0,2] 14 .abs [0,0,0,2],
  .coef 0 [467] .abs .ee [0,1,1,2] 14 .abs [0,2,1,1],
  .coef 0 [468] .abs .ee [0,2,2,2] 14 .abs [0,2,2,2],
  .coef 0 [469] .abs .ee [0,0,1,2] 14 .abs [0,0,1,2],
  .coef 0 [470] .abs .ee [1,1,1,2] 14 .abs [1,1,1,2],
  .coef 0 [471] .abs .ee [1,2,2,2] 14 .abs [2,2,1,2],
  .coef 0 [472] .angle .ee [0,0,0,1] 14 .ph [0,0,0,1],
  .coef 0 [473] .angle .ee [0,0,0,2] 14 .ph [0,0,0,2],
  .coef 0 [474] .angle .ee [0,0,1,2] 14 .ph [0,0,1,2],
  .coef 0 [475] .angle .ee [0,1,0,1] 14 .ph [0,1,0,1],
  .coef 0 [476] .angle .ee [0,1,0,2] 14 .ph [0,1,0,2],
  .coef 0 [477] .angle .ee [0,2,1,2] 14 .ph [0,2,1,2],
  .coef 0 [478] .angle .ee [0,1,1,1] 14 .ph [0,1,1,1],
  .coef 0 [479] .angle .ee [1,2,2,2] 14 .ph [2,2,1,2],
  .coef 0 [480] .angle .ee [0,1,2,1] 14 .ph [0,1,2,1],
  .coef 0 [481] .angle .ee [0,1,2,2] 14 .ph [0,1,2,2],
  .coef 0 [482] .angle .ee [0,2,0,2] 14 .ph [0,2,0,2],
  .coef 0 [483] .angle .ee [0,1,1,2] 14 .ph [0,2,1,1],
  .coef 0 [484] .angle .ee [0,2,2,2] 14 .ph [0,2,2,2],
  .coef 0 [485] .angle .ee [1,1,1,2] 14 .ph [1,1,1,2],
  .coef 0 [486] .angle .ee [1,2,1,2] 14 .ph [1,2,1,2],
  .coef 0 [487] .plain .ud1 [0,0,0,0] 15 .abs [0,0,0,0],
  .coef 0 [488] .abs .ud1 [0,0,0,1] 15 .abs [0,0,0,1],
  .coef 0 [489] .abs .ud1 [0,0,0,2] 15 .abs [0,0,0,2],
  .coef 0 [490] .abs .ud1 [0,0,1,2] 15 .abs [0,0,1,2],
  .coef 0 [491] .plain .ud1 [0,0,1,1] 15 .abs [0,0,1,1],
  .coef 0 [492] .plain .ud1 [0,0,2,2] 15 .abs [0,0,2,2],
  .coef 0 [493] .abs .ud1 [0,1,0,0] 15 .abs [0,1,0,0],
  .coef 0 [494] .abs .ud1 [0,1,0,1] 15 .abs [0,1,0,1],
  .coef 0 [495] .abs .ud1 [0,1,1,0] 15 .abs [0,1,1,0],
  .coef 0 [496] .abs .ud1 [0,1,0,2] 15 .abs [0,1,0,2],
  .coef 0 [497] .abs .ud1 [0,1,2,0] 15 .abs [0,1,2,0],
  .coef 0 [498] .abs .ud1 [0,1,1,1] 15 .abs [0,1,1,1],
  .coef 0 [499] .abs .ud1 [0,1,1,2] 15 .abs [0,1,1,2],
  .coef 0 [500] .abs .ud1 [0,1,2,1] 15 .abs [0,1,2,1]]

/-- `smeftsim.py:3215-3339` -/
def rowsB4 : List Row := [
  .coef 0 [501] .abs .ud1 [0,1,2,2] 15 .abs [0,1,2,2],
  .coef 0 [502] .abs .ud1 [0,2,0,0] 15 .abs [0,2,0,0],
  .coef 0 [503] .abs .ud1 [0,2,0,1] 15 .abs [0,2,0,1],
  .coef 0 [504] .abs .ud1 [0,2,0,2] 15 .abs [0,2,0,2],
  .coef 0 [505] .abs .ud1 [0,2,2,0] 15 .abs [0,2,2,0],
  .coef 0 [506] .abs .ud1 [0,2,1,0] 15 .abs [0,2,1,0],
  .coef 0 [507] .abs .ud1 [0,2,1,1] 15 .abs [0,2,1,1],
  .coef 0 [508] .abs .ud1 [0,2,2,1] 15 .abs [0,2,2,1],
  .coef 0 [509] .abs .ud1 [0,2,1,2] 15 .abs [0,2,1,2],
  .coef 0 [510] .abs .ud1 [0,2,2,2] 15 .abs [0,2,2,2],
  .coef 0 [511] .plain .ud1 [1,1,0,0] 15 .abs [1,1,0,0],
  .coef 0 [512] .abs .ud1 [1,1,0,1] 15 .abs [1,1,0,1],
  .coef 0 [513] .abs .ud1 [1,1,0,2] 15 .abs [1,1,0,2],
  .coef 0 [514] .plain .ud1 [1,1,1,1] 15 .abs [1,1,1,1],
  .coef 0 [515] .abs .ud1 [1,1,1,2] 15 .abs [1,1,1,2],
  .coef 0 [516] .plain .ud1 [1,1,2,2] 15 .abs [1,1,2,2],
  .coef 0 [517] .abs .ud1 [1,2,0,0] 15 .abs [1,2,0,0],
  .coef 0 [518] .abs .ud1 [1,2,0,1] 15 .abs [1,2,0,1],
  .coef 0 [519] .abs .ud1 [1,2,0,2] 15 .abs [1,2,0,2],
  .coef 0 [520] .abs .ud1 [1,2,1,0] 15 .abs [1,2,1,0],
  .coef 0 [521] .abs .ud1 [1,2,1,1] 15 .abs [1,2,1,1],
  .coef 0 [522] .abs .ud1 [1,2,1,2] 15 .abs [1,2,1,2],
  .coef 0 [523] .abs .ud1 [1,2,2,0] 15 .abs [1,2,2,0],
  .coef 0 [524] .abs .ud1 [1,2,2,1] 15 .abs [1,2,2,1],
  .coef 0 [525] .abs .ud1 [1,2,2,2] 15 .abs [1,2,2,2],
  .coef 0 [526] .plain .ud1 [2,2,0,0] 15 .abs [2,2,0,0],
  .coef 0 [527] .abs .ud1 [2,2,0,1] 15 .abs [2,2,0,1],
  .coef 0 [528] .abs .ud1 [2,2,0,2] 15 .abs [2,2,0,2],
  .coef 0 [529] .plain .ud1 [2,2,1,1] 15 .abs [2,2,1,1],
  .coef 0 [530] .plain .ud1 [2,2,2,2] 15 .abs [2,2,2,2],
  .coef 0 [531] .abs .ud1 [2,2,1,2] 15 .abs [2,2,1,2],
  .coef 0 [532] .angle .ud1 [0,0,0,1] 15 .ph [0,0,0,1],
  .coef 0 [533] .angle .ud1 [1,1,0,1] 15 .ph [1,1,0,1],
  .coef 0 [534] .angle .ud1 [0,0,0,2] 15 .ph [0,0,0,2],
  .coef 0 [535] .angle .ud1 [0,0,1,2] 15 .ph [0,0,1,2],
  .coef 0 [536] .angle .ud1 [0,1,0,0] 15 .ph [0,1,0,0],
  .coef 0 [537] .angle .ud1 [0,1,0,1] 15 .ph [0,1,0,1],
  .coef 0 [538] .angle .ud1 [0,1,1,0] 15 .ph [0,1,1,0],
  .coef 0 [539] .angle .ud1 [0,1,0,2] 15 .ph [0,1,0,2],
  .coef 0 [540] .angle .ud1 [0,1,2,0] 15 .ph [0,1,2,0],
  .coef 0 [541] .angle .ud1 [0,1,1,1] 15 .ph [0,1,1,1],
  .coef 0 [542] .angle .ud1 [0,1,1,2] 15 .ph [0,1,1,2],
  .coef 0 [543] .angle .ud1 [0,1,2,1] 15 .ph [0,1,2,1],
  .coef 0 [544] .angle .ud1 [0,1,2,2] 15 .ph [0,1,2,2],
  .coef 0 [545] .angle .ud1 [0,2,0,0] 15 .ph [0,2,0,0],
  .coef 0 [546] .angle .ud1 [0,2,0,1] 15 .ph [0,2,0,1],
  .coef 0 [547] .angle .ud1 [0,2,0,2] 15 .ph [0,2,0,2],
  .coef 0 [548] .angle .ud1 [0,2,2,0] 15 .ph [0,2,2,0],
  .coef 0 [549] .angle .ud1 [0,2,1,0] 15 .ph [0,2,1,0],
  .coef 0 [550] .angle .ud1 [0,2,1,1] 15 .ph [0,2,1,1],
  .coef 0 [551] .angle .ud1 [0,2,2,1] 15 .ph [0,2,2,1],
  .coef 0 [552] .angle .ud1 [0,2,1,2] 15 .ph [0,2,1,2],
  .coef 0 [553] .angle .ud1 [0,2,2,2] 15 .ph [0,2,2,2],
  .coef 0 [554] .angle .ud1 [1,1,0,2] 15 .ph [1,1,0,2],
  .coef 0 [555] .angle .ud1 [1,1,1,2] 15 .ph [1,1,1,2],
  .coef 0 [556] .angle .ud1 [1,2,0,0] 15 .ph [1,2,0,0],
  .coef 0 [557] .angle .ud1 [1,2,0,1] 15 .ph [1,2,0,1],
  .coef 0 [558] .angle .ud1 [1,2,0,2] 15 .ph [1,2,0,2],
  .coef 0 [559] .angle .ud1 [1,2,1,0] 15 .ph [1,2,1,0],
  .coef 0 [560] .angle .ud1 [1,2,1,1] 15 .ph [1,2,1,1],
  .coef 0 [561] .angle .ud1 [1,2,1,2] 15 .ph [1,2,1,2],
  .coef 0 [562] .angle .ud1 [1,2,2,0] 15 .ph [1,2,2,0],
  .coef 0 [563] .angle .ud1 [1,2,2,1] 15 .ph [1,2,2,1],
  .coef 0 [564] .angle .ud1 [1,2,2,2] 15 .ph [1,2,2,2],
  .coef 0 [565] .angle .ud1 [2,2,1,2] 15 .ph [2,2,1,2],
  .coef 0 [566] .angle .ud1 [2,2,0,1] 15 .ph [2,2,0,1],
  .coef 0 [567] .angle .ud1 [2,2,0,2] 15 .ph [2,2,0,2],
  .coef 0 [568] .plain .ud8 [0,0,0,0] 16 .abs [0,0,0,0],
  .coef 0 [569] .abs .ud8 [0,0,0,1] 16 .abs [0,0,0,1],
  .coef 0 [570] .abs .ud8 [0,0,0,2] 16 .abs [0,0,0,2],
  .coef 0 [571] .abs .ud8 [0,0,1,2] 16 .abs [0,0,1,2],
  .coef 0 [572] .plain .ud8 [0,0,1,1] 16 .abs [0,0,1,1],
  .coef 0 [573] .plain .ud8 [0,0,2,2] 16 .abs [0,0,2,2],
  .coef 0 [574] .abs .ud8 [0,1,0,0] 16 .abs [0,1,0,0],
  .coef 0 [575] .abs .ud8 [0,1,0,1] 16 .abs [0,1,0,1],
  .coef 0 [576] .abs .ud8 [0,1,1,0] 16 .abs [0,1,1,0],
  .coef 0 [577] .abs .ud8 [0,1,0,2] 16 .abs [0,1,0,2],
  .coef 0 [578] .abs .ud8 [0,1,2,0] 16 .abs [0,1,2,0],
  .coef 0 [579] .abs .ud8 [0,1,1,1] 16 .abs [0,1,1,1],
  .coef 0 [580] .abs .ud8 [0,1,1,2] 16 .abs [0,1,1,2],
  .coef 0 [581] .abs .ud8 [0,1,2,1] 16 .abs [0,1,2,1],
  .coef 0 [582] .abs .ud8 [0,1,2,2] 16 .abs [0,1,2,2],
  .coef 0 [583] .abs .ud8 [0,2,0,0] 16 .abs [0,2,0,0],
  .coef 0 [584] .abs .ud8 [0,2,0,1] 16 .abs [0,2,0,1],
  .coef 0 [585] .abs .ud8 [0,2,0,2] 16 .abs [0,2,0,2],
  .coef 0 [586] .abs .ud8 [0,2,2,0] 16 .abs [0,2,2,0],
  .coef 0 [587] .abs .ud8 [0,2,1,0] 16 .abs [0,2,1,0],
  .coef 0 [588] .abs .ud8 [0,2,1,1] 16 .abs [0,2,1,1],
  .coef 0 [589] .abs .ud8 [0,2,2,1] 16 .abs [0,2,2,1],
  .coef 0 [590] .abs .ud8 [0,2,1,2] 16 .abs [0,2,1,2],
  .coef 0 [591] .abs .ud8 [0,2,2,2] 16 .abs [0,2,2,2],
  .coef 0 [592] .plain .ud8 [1,1,0,0] 16 .abs [1,1,0,0],
  .coef 0 [593] .abs .ud8 [1,1,0,1] 16 .abs [1,1,0,1],
  .coef 0 [594] .abs .ud8 [1,1,0,2] 16 .abs [1,1,0,2],
  .coef 0 [595] .plain .ud8 [1,1,1,1] 16 .abs [1,1,1,1],
  .coef 0 [596] .abs .ud8 [1,1,1,2] 16 .abs [1,1,1,2],
  .coef 0 [597] .plain .ud8 [1,1,2,2] 16 .abs [1,1,2,2],
  .coef 0 [598] .abs .ud8 [1,2,0,0] 16 .abs [1,2,0,0],
  .coef 0 [599] .abs .ud8 [1,2,0,1] 16 .abs [1,2,0,1],
  .coef 0 [600] .abs .ud8 [1,2,0,2] 16 .abs [1,2,0,2],
  .coef 0 [601] .abs .ud8 [1,2,1,0] 16 .abs [1,2,1,0],
  .coef 0 [602] .abs .ud8 [1,2,1,1] 16 .abs [1,2,1,1],
  .coef 0 [603] .abs .ud8 [1,2,1,2] 16 .abs [1,2,1,2],
  .coef 0 [604] .abs .ud8 [1,2,2,0] 16 .abs [1,2,2,0],
  .coef 0 [605] .abs .ud8 [1,2,2,1] 16 .abs [1,2,2,1],
  .coef 0 [606] .abs .ud8 [1,2,2,2] 16 .abs [1,2,2,2],
  .coef 0 [607] .plain .ud8 [2,2,0,0] 16 .abs [2,2,0,0],
  .coef 0 [608] .abs .ud8 [2,2,0,1] 16 .abs [2,2,0,1],
  .coef 0 [609] .abs .ud8 [2,2,0,2] 16 .abs [2,2,0,2],
  .coef 0 [610] .plain .ud8 [2,2,1,1] 16 .abs [2,2,1,1],
  .coef 0 [611] .plain .ud8 [2,2,2,2] 16 .abs [2,2,2,2],
  .coef 0 [612] .abs .ud8 [2,2,1,2] 16 .abs [2,2,1,2],
  .coef 0 [613] .angle .ud8 [0,0,0,1] 16 .ph [0,0,0,1],
  .coef 0 [614] .angle .ud8 [1,1,0,1] 16 .ph [1,1,0,1],
  .coef 0 [615] .angle .ud8 [0,0,0,2] 16 .ph [0,0,0,2],
  .coef 0 [616] .angle .ud8 [0,0,1,2] 16 .ph [0,0,1,2],
  .coef 0 [617] .angle .ud8 [0,1,0,0] 16 .ph [0,1,0,0],
  .coef 0 [618] .angle .ud8 [0,1,0,1] 16 .ph [0,1,0,1],
  .coef 0 [619] .angle .ud8 [0,1,1,0] 16 .ph [0,1,1,0],
  .coef 0 [620] .angle .ud8 [0,1,0,2] 16 .ph [0,1,0,2],
  .coef 0 [621] .angle .ud8 [0,1,2,0] 16 .ph [0,1,2,0],
  .coef 0 [622] .angle .ud8 [0,1,1,1] 16 .ph [0,1,1,1],
  .coef 0 [623] .angle .ud8 [0,1,1,2] 16 .ph [0,1,1,2],
  .coef 0 [624] .angle .ud8 [0,1,2,1] 16 .ph [0,1,2,1],
  .coef 0 [625] .angle .ud8 [0,1,2,2] 16 .ph [0,1,2,2]]

/-- `smeftsim.py:3340-3464` -/
def rowsB5 : List Row := [
  .coef 0 [626] .angle .ud8 [0,2,0,0] 16 .ph [0,2,0,0],
  .coef 0 [627] .angle .ud8 [0,2,0,1] 16 .ph [0,2,0,1],
  .coef 0 [628] .angle .ud8 [0,2,0,2] 16 .ph [0,2,0,2],
  .coef 0 [629] .angle .ud8 [0,2,2,0] 16 .ph [0,2,2,0],
  .coef 0 [630] .angle .ud8 [0,2,1,0] 16 .ph [0,2,1,0],
  .coef 0 [631] .angle .ud8 [0,2,1,1] 16 .ph [0,2,1,1],
  .coef 0 [632] .angle .ud8 [0,2,2,1] 16 .ph [0,2,2,1],
  .coef 0 [633] .angle .ud8 [0,2,1,2] 16 .ph [0,2,1,2],
  .coef 0 [634] .angle .ud8 [0,2,2,2] 16 .ph [0,2,2,2],
  .coef 0 [635] .angle .ud8 [1,1,0,2] 16 .ph [1,1,0,2],
  .coef 0 [636] .angle .ud8 [1,1,1,2] 16 .ph [1,1,1,2],
  .coef 0 [637] .angle .ud8 [1,2,0,0] 16 .ph [1,2,0,0],
  .coef 0 [638] .angle .ud8 [1,2,0,1] 16 .ph [1,2,0,1],
  .coef 0 [639] .angle .ud8 [1,2,0,2] 16 .ph [1,2,0,2],
  .coef 0 [640] .angle .ud8 [1,2,1,0] 16 .ph [1,2,1,0],
  .coef 0 [641] .angle .ud8 [1,2,1,1] 16 .ph [1,2,1,1],
  .coef 0 [642] .angle .ud8 [1,2,1,2] 16 .ph [1,2,1,2],
  .coef 0 [643] .angle .ud8 [1,2,2,0] 16 .ph [1,2,2,0],
  .coef 0 [644] .angle .ud8 [1,2,2,1] 16 .ph [1,2,2,1],
  .coef 0 [645] .angle .ud8 [1,2,2,2] 16 .ph [1,2,2,2],
  .coef 0 [646] .angle .ud8 [2,2,1,2] 16 .ph [2,2,1,2],
  .coef 0 [647] .angle .ud8 [2,2,0,1] 16 .ph [2,2,0,1],
  .coef 0 [648] .angle .ud8 [2,2,0,2] 16 .ph [2,2,0,2],
  .coef 0 [649] .plain .eu [0,0,0,0] 17 .abs [0,0,0,0],
  .coef 0 [650] .abs .eu [0,0,0,1] 17 .abs [0,0,0,1],
  .coef 0 [651] .abs .eu [0,0,0,2] 17 .abs [0,0,0,2],
  .coef 0 [652] .abs .eu [0,0,1,2] 17 .abs [0,0,1,2],
  .coef 0 [653] .plain .eu [0,0,1,1] 17 .abs [0,0,1,1],
  .coef 0 [654] .plain .eu [0,0,2,2] 17 .abs [0,0,2,2],
  .coef 0 [655] .abs .eu [0,1,0,0] 17 .abs [0,1,0,0],
  .coef 0 [656] .abs .eu [0,1,0,1] 17 .abs [0,1,0,1],
  .coef 0 [657] .abs .eu [0,1,1,0] 17 .abs [0,1,1,0],
  .coef 0 [658] .abs .eu [0,1,0,2] 17 .abs [0,1,0,2],
  .coef 0 [659] .abs .eu [0,1,2,0] 17 .abs [0,1,2,0],
  .coef 0 [660] .abs .eu [0,1,1,1] 17 .abs [0,1,1,1],
  .coef 0 [661] .abs .eu [0,1,1,2] 17 .abs [0,1,1,2],
  .coef 0 [662] .abs .eu [0,1,2,1] 17 .abs [0,1,2,1],
  .coef 0 [663] .abs .eu [0,1,2,2] 17 .abs [0,1,2,2],
  .coef 0 [664] .abs .eu [0,2,0,0] 17 .abs [0,2,0,0],
  .coef 0 [665] .abs .eu [0,2,0,1] 17 .abs [0,2,0,1],
  .coef 0 [666] .abs .eu [0,2,0,2] 17 .abs [0,2,0,2],
  .coef 0 [667] .abs .eu [0,2,2,0] 17 .abs [0,2,2,0],
  .coef 0 [668] .abs .eu [0,2,1,0] 17 .abs [0,2,1,0],
  .coef 0 [669] .abs .eu [0,2,1,1] 17 .abs [0,2,1,1],
  .coef 0 [670] .abs .eu [0,2,2,1] 17 .abs [0,2,2,1],
  .coef 0 [671] .abs .eu [0,2,1,2] 17 .abs [0,2,1,2],
  .coef 0 [672] .abs .eu [0,2,2,2] 17 .abs [0,2,2,2],
  .coef 0 [673] .plain .eu [1,1,0,0] 17 .abs [1,1,0,0],
  .coef 0 [674] .abs .eu [1,1,0,1] 17 .abs [1,1,0,1],
  .coef 0 [675] .abs .eu [1,1,0,2] 17 .abs [1,1,0,2],
  .coef 0 [676] .plain .eu [1,1,1,1] 17 .abs [1,1,1,1],
  .coef 0 [677] .abs .eu [1,1,1,2] 17 .abs [1,1,1,2],
  .coef 0 [678] .plain .eu [1,1,2,2] 17 .abs [1,1,2,2],
  .coef 0 [679] .abs .eu [1,2,0,0] 17 .abs [1,2,0,0],
  .coef 0 [680] .abs .eu [1,2,0,1] 17 .abs [1,2,0,1],
  .coef 0 [681] .abs .eu [1,2,0,2] 17 .abs [1,2,0,2],
  .coef 0 [682] .abs .eu [1,2,1,0] 17 .abs [1,2,1,0],
  .coef 0 [683] .abs .eu [1,2,1,1] 17 .abs [1,2,1,1],
  .coef 0 [684] .abs .eu [1,2,1,2] 17 .abs [1,2,1,2],
  .coef 0 [685] .abs .eu [1,2,2,0] 17 .abs [1,2,2,0],
  .coef 0 [686] .abs .eu [1,2,2,1] 17 .abs [1,2,2,1],
  .coef 0 [687] .abs .eu [1,2,2,2] 17 .abs [1,2,2,2],
  .coef 0 [688] .plain .eu [2,2,0,0] 17 .abs [2,2,0,0],
  .coef 0 [689] .abs .eu [2,2,0,1] 17 .abs [2,2,0,1],
  .coef 0 [690] .abs .eu [2,2,0,2] 17 .abs [2,2,0,2],
  .coef 0 [691] .plain .eu [2,2,1,1] 17 .abs [2,2,1,1],
  .coef 0 [692] .plain .eu [2,2,2,2] 17 .abs [2,2,2,2],
  .coef 0 [693] .abs .eu [2,2,1,2] 17 .abs [2,2,1,2],
  .coef 0 [694] .angle .eu [0,0,0,1] 17 .ph [0,0,0,1],
  .coef 0 [695] .angle .eu [1,1,0,1] 17 .ph [1,1,0,1],
  .coef 0 [696] .angle .eu [0,0,0,2] 17 .ph [0,0,0,2],
  .coef 0 [697] .angle .eu [0,0,1,2] 17 .ph [0,0,1,2],
  .coef 0 [698] .angle .eu [0,1,0,0] 17 .ph [0,1,0,0],
  .coef 0 [699] .angle .eu [0,1,0,1] 17 .ph [0,1,0,1],
  .coef 0 [700] .angle .eu [0,1,1,0] 17 .ph [0,1,1,0],
  .coef 0 [701] .angle .eu [0,1,0,2] 17 .ph [0,1,0,2],
  .coef 0 [702] .angle .eu [0,1,2,0] 17 .ph [0,1,2,0],
  .coef 0 [703] .angle .eu [0,1,1,1] 17 .ph [0,1,1,1],
  .coef 0 [704] .angle .eu [0,1,1,2] 17 .ph [0,1,1,2],
  .coef 0 [705] .angle .eu [0,1,2,1] 17 .ph [0,1,2,1],
  .coef 0 [706] .angle .eu [0,1,2,2] 17 .ph [0,1,2,2],
  .coef 0 [707] .angle .eu [0,2,0,0] 17 .ph [0,2,0,0],
  .coef 0 [708] .angle .eu [0,2,0,1] 17 .ph [0,2,0,1],
  .coef 0 [709] .angle .eu [0,2,0,2] 17 .ph [0,2,0,2],
  .coef 0 [710] .angle .eu [0,2,2,0] 17 .ph [0,2,2,0],
  .coef 0 [711] .angle .eu [0,2,1,0] 17 .ph [0,2,1,0],
  .coef 0 [712] .angle .eu [0,2,1,1] 17 .ph [0,2,1,1],
  .coef 0 [713] .angle .eu [0,2,2,1] 17 .ph [0,2,2,1],
  .coef 0 [714] .angle .eu [0,2,1,2] 17 .ph [0,2,1,2],
  .coef 0 [715] .angle .eu [0,2,2,2] 17 .ph [0,2,2,2],
  .coef 0 [716] .angle .eu [1,1,0,2] 17 .ph [1,1,0,2],
  .coef 0 [717] .angle .eu [1,1,1,2] 17 .ph [1,1,1,2],
  .coef 0 [718] .angle .eu [1,2,0,0] 17 .ph [1,2,0,0],
  .coef 0 [719] .angle .eu [1,2,0,1] 17 .ph [1,2,0,1],
  .coef 0 [720] .angle .eu [1,2,0,2] 17 .ph [1,2,0,2],
  .coef 0 [721] .angle .eu [1,2,1,0] 17 .ph [1,2,1,0],
  .coef 0 [722] .angle .eu [1,2,1,1] 17 .ph [1,2,1,1],
  .coef 0 [723] .angle .eu [1,2,1,2] 17 .ph [1,2,1,2],
  .coef 0 [724] .angle .eu [1,2,2,0] 17 .ph [1,2,2,0],
  .coef 0 [725] .angle .eu [1,2,2,1] 17 .ph [1,2,2,1],
  .coef 0 [726] .angle .eu [1,2,2,2] 17 .ph [1,2,2,2],
  .coef 0 [727] .angle .eu [2,2,1,2] 17 .ph [2,2,1,2],
  .coef 0 [728] .angle .eu [2,2,0,1] 17 .ph [2,2,0,1],
  .coef 0 [729] .angle .eu [2,2,0,2] 17 .ph [2,2,0,2],
  .coef 0 [730] .plain .ed [0,0,0,0] 18 .abs [0,0,0,0],
  .coef 0 [731] .abs .ed [0,0,0,1] 18 .abs [0,0,0,1],
  .coef 0 [732] .abs .ed [0,0,0,2] 18 .abs [0,0,0,2],
  .coef 0 [733] .abs .ed [0,0,1,2] 18 .abs [0,0,1,2],
  .coef 0 [734] .plain .ed [0,0,1,1] 18 .abs [0,0,1,1],
  .coef 0 [735] .plain .ed [0,0,2,2] 18 .abs [0,0,2,2],
  .coef 0 [736] .abs .ed [0,1,0,0] 18 .abs [0,1,0,0],
  .coef 0 [737] .abs .ed [0,1,0,1] 18 .abs [0,1,0,1],
  .coef 0 [738] .abs .ed [0,1,1,0] 18 .abs [0,1,1,0],
  .coef 0 [739] .abs .ed [0,1,0,2] 18 .abs [0,1,0,2],
  .coef 0 [740] .abs .ed [0,1,2,0] 18 .abs [0,1,2,0],
  .coef 0 [741] .abs .ed [0,1,1,1] 18 .abs [0,1,1,1],
  .coef 0 [742] .abs .ed [0,1,1,2] 18 .abs [0,1,1,2],
  .coef 0 [743] .abs .ed [0,1,2,1] 18 .abs [0,1,2,1],
  .coef 0 [744] .abs .ed [0,1,2,2] 18 .abs [0,1,2,2],
  .coef 0 [745] .abs .ed [0,2,0,0] 18 .abs [0,2,0,0],
  .coef 0 [746] .abs .ed [0,2,0,1] 18 .abs [0,2,0,1],
  .coef 0 [747] .abs .ed [0,2,0,2] 18 .abs [0,2,0,2],
  .coef 0 [748] .abs .ed [0,2,2,0] 18 .abs [0,2,2,0],
  .coef 0 [749] .abs .ed [0,2,1,0] 18 .abs [0,2,1,0],
  .coef 0 [750] .abs .ed [0,2,1,1] 18 .abs [0,2,1,1]]

/-- `smeftsim.py:3465-3589` -/
def rowsB6 : List Row := [
  .coef 0 [751] .abs .ed [0,2,2,1] 18 .abs [0,2,2,1],
  .coef 0 [752] .abs .ed [0,2,1,2] 18 .abs [0,2,1,2],
  .coef 0 [753] .abs .ed [0,2,2,2] 18 .abs [0,2,2,2],
  .coef 0 [754] .plain .ed [1,1,0,0] 18 .abs [1,1,0,0],
  .coef 0 [755] .abs .ed [1,1,0,1] 18 .abs [1,1,0,1],
  .coef 0 [756] .abs .ed [1,1,0,2] 18 .abs [1,1,0,2],
  .coef 0 [757] .plain .ed [1,1,1,1] 18 .abs [1,1,1,1],
  .coef 0 [758] .abs .ed [1,1,1,2] 18 .abs [1,1,1,2],
  .coef 0 [759] .plain .ed [1,1,2,2] 18 .abs [1,1,2,2],
  .coef 0 [760] .abs .ed [1,2,0,0] 18 .abs [1,2,0,0],
  .coef 0 [761] .abs .ed [1,2,0,1] 18 .abs [1,2,0,1],
  .coef 0 [762] .abs .ed [1,2,0,2] 18 .abs [1,2,0,2],
  .coef 0 [763] .abs .ed [1,2,1,0] 18 .abs [1,2,1,0],
  .coef 0 [764] .abs .ed [1,2,1,1] 18 .abs [1,2,1,1],
  .coef 0 [765] .abs .ed [1,2,1,2] 18 .abs [1,2,1,2],
  .coef 0 [766] .abs .ed [1,2,2,0] 18 .abs [1,2,2,0],
  .coef 0 [767] .abs .ed [1,2,2,1] 18 .abs [1,2,2,1],
  .coef 0 [768] .abs .ed [1,2,2,2] 18 .abs [1,2,2,2],
  .coef 0 [769] .plain .ed [2,2,0,0] 18 .abs [2,2,0,0],
  .coef 0 [770] .abs .ed [2,2,0,1] 18 .abs [2,2,0,1],
  .coef 0 [771] .abs .ed [2,2,0,2] 18 .abs [2,2,0,2],
  .coef 0 [772] .plain .ed [2,2,1,1] 18 .abs [2,2,1,1],
  .coef 0 [773] .plain .ed [2,2,2,2] 18 .abs [2,2,2,2],
  .coef 0 [774] .abs .ed [2,2,1,2] 18 .abs [2,2,1,2],
  .coef 0 [775] .angle .ed [0,0,0,1] 18 .ph [0,0,0,1],
  .coef 0 [776] .angle .ed [1,1,0,1] 18 .ph [1,1,0,1],
  .coef 0 [777] .angle .ed [0,0,0,2] 18 .ph [0,0,0,2],
  .coef 0 [778] .angle .ed [0,0,1,2] 18 .ph [0,0,1,2],
  .coef 0 [779] .angle .ed [0,1,0,0] 18 .ph [0,1,0,0],
  .coef 0 [780] .angle .ed [0,1,0,1] 18 .ph [0,1,0,1],
  .coef 0 [781] .angle .ed [0,1,1,0] 18 .ph [0,1,1,0],
  .coef 0 [782] .angle .ed [0,1,0,2] 18 .ph [0,1,0,2],
  .coef 0 [783] .angle .ed [0,1,2,0] 18 .ph [0,1,2,0],
  .coef 0 [784] .angle .ed [0,1,1,1] 18 .ph [0,1,1,1],
  .coef 0 [785] .angle .ed [0,1,1,2] 18 .ph [0,1,1,2],
  .coef 0 [786] .angle .ed [0,1,2,1] 18 .ph [0,1,2,1],
  .coef 0 [787] .angle .ed [0,1,2,2] 18 .ph [0,1,2,2],
  .coef 0 [788] .angle .ed [0,2,0,0] 18 .ph [0,2,0,0],
  .coef 0 [789] .angle .ed [0,2,0,1] 18 .ph [0,2,0,1],
  .coef 0 [790] .angle .ed [0,2,0,2] 18 .ph [0,2,0,2],
  .coef 0 [791] .angle .ed [0,2,2,0] 18 .ph [0,2,2,0],
  .coef 0 [792] .angle .ed [0,2,1,0] 18 .ph [0,2,1,0],
  .coef 0 [793] .angle .ed [0,2,1,1] 18 .ph [0,2,1,1],
  .coef 0 [794] .angle .ed [0,2,2,1] 18 .ph [0,2,2,1],
  .coef 0 [795] .angle .ed [0,2,1,2] 18 .ph [0,2,1,2],
  .coef 0 [796] .angle .ed [0,2,2,2] 18 .ph [0,2,2,2],
  .coef 0 [797] .angle .ed [1,1,0,2] 18 .ph [1,1,0,2],
  .coef 0 [798] .angle .ed [1,1,1,2] 18 .ph [1,1,1,2],
  .coef 0 [799] .angle .ed [1,2,0,0] 18 .ph [1,2,0,0],
  .coef 0 [800] .angle .ed [1,2,0,1] 18 .ph [1,2,0,1],
  .coef 0 [801] .angle .ed [1,2,0,2] 18 .ph [1,2,0,2],
  .coef 0 [802] .angle .ed [1,2,1,0] 18 .ph [1,2,1,0],
  .coef 0 [803] .angle .ed [1,2,1,1] 18 .ph [1,2,1,1],
  .coef 0 [804] .angle .ed [1,2,1,2] 18 .ph [1,2,1,2],
  .coef 0 [805] .angle .ed [1,2,2,0] 18 .ph [1,2,2,0],
  .coef 0 [806] .angle .ed [1,2,2,1] 18 .ph [1,2,2,1],
  .coef 0 [807] .angle .ed [1,2,2,2] 18 .ph [1,2,2,2],
  .coef 0 [808] .angle .ed [2,2,1,2] 18 .ph [2,2,1,2],
  .coef 0 [809] .angle .ed [2,2,0,1] 18 .ph [2,2,0,1],
  .coef 0 [810] .angle .ed [2,2,0,2] 18 .ph [2,2,0,2],
  .coef 0 [811] .plain .qu1 [0,0,0,0] 19 .abs [0,0,0,0],
  .coef 0 [812] .abs .qu1 [0,0,0,1] 19 .abs [0,0,0,1],
  .coef 0 [813] .abs .qu1 [0,0,0,2] 19 .abs [0,0,0,2],
  .coef 0 [814] .abs .qu1 [0,0,1,2] 19 .abs [0,0,1,2],
  .coef 0 [815] .plain .qu1 [0,0,1,1] 19 .abs [0,0,1,1],
  .coef 0 [816] .plain .qu1 [0,0,2,2] 19 .abs [0,0,2,2],
  .coef 0 [817] .abs .qu1 [0,1,0,0] 19 .abs [0,1,0,0],
  .coef 0 [818] .abs .qu1 [0,1,0,1] 19 .abs [0,1,0,1],
  .coef 0 [819] .abs .qu1 [0,1,1,0] 19 .abs [0,1,1,0],
  .coef 0 [820] .abs .qu1 [0,1,0,2] 19 .abs [0,1,0,2],
  .coef 0 [821] .abs .qu1 [0,1,2,0] 19 .abs [0,1,2,0],
  .coef 0 [822] .abs .qu1 [0,1,1,1] 19 .abs [0,1,1,1],
  .coef 0 [823] .abs .qu1 [0,1,1,2] 19 .abs [0,1,1,2],
  .coef 0 [824] .abs .qu1 [0,1,2,1] 19 .abs [0,1,2,1],
  .coef 0 [825] .abs .qu1 [0,1,2,2] 19 .abs [0,1,2,2],
  .coef 0 [826] .abs .qu1 [0,2,0,0] 19 .abs [0,2,0,0],
  .coef 0 [827] .abs .qu1 [0,2,0,1] 19 .abs [0,2,0,1],
  .coef 0 [828] .abs .qu1 [0,2,0,2] 19 .abs [0,2,0,2],
  .coef 0 [829] .abs .qu1 [0,2,2,0] 19 .abs [0,2,2,0],
  .coef 0 [830] .abs .qu1 [0,2,1,0] 19 .abs [0,2,1,0],
  .coef 0 [831] .abs .qu1 [0,2,1,1] 19 .abs [0,2,1,1],
  .coef 0 [832] .abs .qu1 [0,2,2,1] 19 .abs [0,2,2,1],
  .coef 0 [833] .abs .qu1 [0,2,1,2] 19 .abs [0,2,1,2],
  .coef 0 [834] .abs .qu1 [0,2,2,2] 19 .abs [0,2,2,2],
  .coef 0 [835] .plain .qu1 [1,1,0,0] 19 .abs [1,1,0,0],
  .coef 0 [836] .abs .qu1 [1,1,0,1] 19 .abs [1,1,0,1],
  .coef 0 [837] .abs .qu1 [1,1,0,2] 19 .abs [1,1,0,2],
  .coef 0 [838] .plain .qu1 [1,1,1,1] 19 .abs [1,1,1,1],
  .coef 0 [839] .abs .qu1 [1,1,1,2] 19 .abs [1,1,1,2],
  .coef 0 [840] .plain .qu1 [1,1,2,2] 19 .abs [1,1,2,2],
  .coef 0 [841] .abs .qu1 [1,2,0,0] 19 .abs [1,2,0,0],
  .coef 0 [842] .abs .qu1 [1,2,0,1] 19 .abs [1,2,0,1],
  .coef 0 [843] .abs .qu1 [1,2,0,2] 19 .abs [1,2,0,2],
  .coef 0 [844] .abs .qu1 [1,2,1,0] 19 .abs [1,2,1,0],
  .coef 0 [845] .abs .qu1 [1,2,1,1] 19 .abs [1,2,1,1],
  .coef 0 [846] .abs .qu1 [1,2,1,2] 19 .abs [1,2,1,2],
  .coef 0 [847] .abs .qu1 [1,2,2,0] 19 .abs [1,2,2,0],
  .coef 0 [848] .abs .qu1 [1,2,2,1] 19 .abs [1,2,2,1],
  .coef 0 [849] .abs .qu1 [1,2,2,2] 19 .abs [1,2,2,2],
  .coef 0 [850] .plain .qu1 [2,2,0,0] 19 .abs [2,2,0,0],
  .coef 0 [851] .abs .qu1 [2,2,0,1] 19 .abs [2,2,0,1],
  .coef 0 [852] .abs .qu1 [2,2,0,2] 19 .abs [2,2,0,2],
  .coef 0 [853] .plain .qu1 [2,2,1,1] 19 .abs [2,2,1,1],
  .coef 0 [854] .plain .qu1 [2,2,2,2] 19 .abs [2,2,2,2],
  .coef 0 [855] .abs .qu1 [2,2,1,2] 19 .abs [2,2,1,2],
  .coef 0 [856] .angle .qu1 [0,0,0,1] 19 .ph [0,0,0,1],
  .coef 0 [857] .angle .qu1 [1,1,0,1] 19 .ph [1,1,0,1],
  .coef 0 [858] .angle .qu1 [0,0,0,2] 19 .ph [0,0,0,2],
  .coef 0 [859] .angle .qu1 [0,0,1,2] 19 .ph [0,0,1,2],
  .coef 0 [860] .angle .qu1 [0,1,0,0] 19 .ph [0,1,0,0],
  .coef 0 [861] .angle .qu1 [0,1,0,1] 19 .ph [0,1,0,1],
  .coef 0 [862] .angle .qu1 [0,1,1,0] 19 .ph [0,1,1,0],
  .coef 0 [863] .angle .qu1 [0,1,0,2] 19 .ph [0,1,0,2],
  .coef 0 [864] .angle .qu1 [0,1,2,0] 19 .ph [0,1,2,0],
  .coef 0 [865] .angle .qu1 [0,1,1,1] 19 .ph [0,1,1,1],
  .coef 0 [866] .angle .qu1 [0,1,1,2] 19 .ph [0,1,1,2],
  .coef 0 [867] .angle .qu1 [0,1,2,1] 19 .ph [0,1,2,1],
  .coef 0 [868] .angle .qu1 [0,1,2,2] 19 .ph [0,1,2,2],
  .coef 0 [869] .angle .qu1 [0,2,0,0] 19 .ph [0,2,0,0],
  .coef 0 [870] .angle .qu1 [0,2,0,1] 19 .ph [0,2,0,1],
  .coef 0 [871] .angle .qu1 [0,2,0,2] 19 .ph [0,2,0,2],
  .coef 0 [872] .angle .qu1 [0,2,2,0] 19 .ph [0,2,2,0],
  .coef 0 [873] .angle .qu1 [0,2,1,0] 19 .ph [0,2,1,0],
  .coef 0 [874] .angle .qu1 [0,2,1,1] 19 .ph [0,2,1,1],
  .coef 0 [875] .angle .qu1 [0,2,2,1] 19 .ph [0,2,2,1]]

/-- `smeftsim.py:3590-3714` -/
def rowsB7 : List Row := [
  .coef 0 [876] .angle .qu1 [0,2,1,2] 19 .ph [0,2,1,2],
  .coef 0 [877] .angle .qu1 [0,2,2,2] 19 .ph [0,2,2,2],
  .coef 0 [878] .angle .qu1 [1,1,0,2] 19 .ph [1,1,0,2],
  .coef 0 [879] .angle .qu1 [1,1,1,2] 19 .ph [1,1,1,2],
  .coef 0 [880] .angle .qu1 [1,2,0,0] 19 .ph [1,2,0,0],
  .coef 0 [881] .angle .qu1 [1,2,0,1] 19 .ph [1,2,0,1],
  .coef 0 [882] .angle .qu1 [1,2,0,2] 19 .ph [1,2,0,2],
  .coef 0 [883] .angle .qu1 [1,2,1,0] 19 .ph [1,2,1,0],
  .coef 0 [884] .angle .qu1 [1,2,1,1] 19 .ph [1,2,1,1],
  .coef 0 [885] .angle .qu1 [1,2,1,2] 19 .ph [1,2,1,2],
  .coef 0 [886] .angle .qu1 [1,2,2,0] 19 .ph [1,2,2,0],
  .coef 0 [887] .angle .qu1 [1,2,2,1] 19 .ph [1,2,2,1],
  .coef 0 [888] .angle .qu1 [1,2,2,2] 19 .ph [1,2,2,2],
  .coef 0 [889] .angle .qu1 [2,2,1,2] 19 .ph [2,2,1,2],
  .coef 0 [890] .angle .qu1 [2,2,0,1] 19 .ph [2,2,0,1],
  .coef 0 [891] .angle .qu1 [2,2,0,2] 19 .ph [2,2,0,2],
  .coef 0 [892] .plain .qu8 [0,0,0,0] 20 .abs [0,0,0,0],
  .coef 0 [893] .abs .qu8 [0,0,0,1] 20 .abs [0,0,0,1],
  .coef 0 [894] .abs .qu8 [0,0,0,2] 20 .abs [0,0,0,2],
  .coef 0 [895] .abs .qu8 [0,0,1,2] 20 .abs [0,0,1,2],
  .coef 0 [896] .plain .qu8 [0,0,1,1] 20 .abs [0,0,1,1],
  .coef 0 [897] .plain .qu8 [0,0,2,2] 20 .abs [0,0,2,2],
  .coef 0 [898] .abs .qu8 [0,1,0,0] 20 .abs [0,1,0,0],
  .coef 0 [899] .abs .qu8 [0,1,0,1] 20 .abs [0,1,0,1],
  .coef 0 [900] .abs .qu8 [0,1,1,0] 20 .abs [0,1,1,0],
  .coef 0 [901] .abs .qu8 [0,1,0,2] 20 .abs [0,1,0,2],
  .coef 0 [902] .abs .qu8 [0,1,2,0] 20 .abs [0,1,2,0],
  .coef 0 [903] .abs .qu8 [0,1,1,1] 20 .abs [0,1,1,1],
  .coef 0 [904] .abs .qu8 [0,1,1,2] 20 .abs [0,1,1,2],
  .coef 0 [905] .abs .qu8 [0,1,2,1] 20 .abs [0,1,2,1],
  .coef 0 [906] .abs .qu8 [0,1,2,2] 20 .abs [0,1,2,2],
  .coef 0 [907] .abs .qu8 [0,2,0,0] 20 .abs [0,2,0,0],
  .coef 0 [908] .abs .qu8 [0,2,0,1] 20 .abs [0,2,0,1],
  .coef 0 [909] .abs .qu8 [0,2,0,2] 20 .abs [0,2,0,2],
  .coef 0 [910] .abs .qu8 [0,2,2,0] 20 .abs [0,2,2,0],
  .coef 0 [911] .abs .qu8 [0,2,1,0] 20 .abs [0,2,1,0],
  .coef 0 [912] .abs .qu8 [0,2,1,1] 20 .abs [0,2,1,1],
  .coef 0 [913] .abs .qu8 [0,2,2,1] 20 .abs [0,2,2,1],
  .coef 0 [914] .abs .qu8 [0,2,1,2] 20 .abs [0,2,1,2],
  .coef 0 [915] .abs .qu8 [0,2,2,2] 20 .abs [0,2,2,2],
  .coef 0 [916] .plain .qu8 [1,1,0,0] 20 .abs [1,1,0,0],
  .coef 0 [917] .abs .qu8 [1,1,0,1] 20 .abs [1,1,0,1],
  .coef 0 [918] .abs .qu8 [1,1,0,2] 20 .abs [1,1,0,2],
  .coef 0 [919] .plain .qu8 [1,1,1,1] 20 .abs [1,1,1,1],
  .coef 0 [920] .abs .qu8 [1,1,1,2] 20 .abs [1,1,1,2],
  .coef 0 [921] .plain .qu8 [1,1,2,2] 20 .abs [1,1,2,2],
  .coef 0 [922] .abs .qu8 [1,2,0,0] 20 .abs [1,2,0,0],
  .coef 0 [923] .abs .qu8 [1,2,0,1] 20 .abs [1,2,0,1],
  .coef 0 [924] .abs .qu8 [1,2,0,2] 20 .abs [1,2,0,2],
  .coef 0 [925] .abs .qu8 [1,2,1,0] 20 .abs [1,2,1,0],
  .coef 0 [926] .abs .qu8 [1,2,1,1] 20 .abs [1,2,1,1],
  .coef 0 [927] .abs .qu8 [1,2,1,2] 20 .abs [1,2,1,2],
  .coef 0 [928] .abs .qu8 [1,2,2,0] 20 .abs [1,2,2,0],
  .coef 0 [929] .abs .qu8 [1,2,2,1] 20 .abs [1,2,2,1],
  .coef 0 [930] .abs .qu8 [1,2,2,2] 20 .abs [1,2,2,2],
  .coef 0 [931] .plain .qu8 [2,2,0,0] 20 .abs [2,2,0,0],
  .coef 0 [932] .abs .qu8 [2,2,0,1] 20 .abs [2,2,0,1],
  .coef 0 [933] .abs .qu8 [2,2,0,2] 20 .abs [2,2,0,2],
  .coef 0 [934] .plain .qu8 [2,2,1,1] 20 .abs [2,2,1,1],
  .coef 0 [935] .plain .qu8 [2,2,2,2] 20 .abs [2,2,2,2],
  .coef 0 [936] .abs .qu8 [2,2,1,2] 20 .abs [2,2,1,2],
  .coef 0 [937] .angle .qu8 [0,0,0,1] 20 .ph [0,0,0,1],
  .coef 0 [938] .angle .qu8 [1,1,0,1] 20 .ph [1,1,0,1],
  .coef 0 [939] .angle .qu8 [0,0,0,2] 20 .ph [0,0,0,2],
  .coef 0 [940] .angle .qu8 [0,0,1,2] 20 .ph [0,0,1,2],
  .coef 0 [941] .angle .qu8 [0,1,0,0] 20 .ph [0,1,0,0],
  .coef 0 [942] .angle .qu8 [0,1,0,1] 20 .ph [0,1,0,1],
  .coef 0 [943] .angle .qu8 [0,1,1,0] 20 .ph [0,1,1,0],
  .coef 0 [944] .angle .qu8 [0,1,0,2] 20 .ph [0,1,0,2],
  .coef 0 [945] .angle .qu8 [0,1,2,0] 20 .ph [0,1,2,0],
  .coef 0 [946] .angle .qu8 [0,1,1,1] 20 .ph [0,1,1,1],
  .coef 0 [947] .angle .qu8 [0,1,1,2] 20 .ph [0,1,1,2],
  .coef 0 [948] .angle .qu8 [0,1,2,1] 20 .ph [0,1,2,1],
  .coef 0 [949] .angle .qu8 [0,1,2,2] 20 .ph [0,1,2,2],
  .coef 0 [950] .angle .qu8 [0,2,0,0] 20 .ph [0,2,0,0],
  .coef 0 [951] .angle .qu8 [0,2,0,1] 20 .ph [0,2,0,1],
  .coef 0 [952] .angle .qu8 [0,2,0,2] 20 .ph [0,2,0,2],
  .coef 0 [953] .angle .qu8 [0,2,2,0] 20 .ph [0,2,2,0],
  .coef 0 [954] .angle .qu8 [0,2,1,0] 20 .ph [0,2,1,0],
  .coef 0 [955] .angle .qu8 [0,2,1,1] 20 .ph [0,2,1,1],
  .coef 0 [956] .angle .qu8 [0,2,2,1] 20 .ph [0,2,2,1],
  .coef 0 [957] .angle .qu8 [0,2,1,2] 20 .ph [0,2,1,2],
  .coef 0 [958] .angle .qu8 [0,2,2,2] 20 .ph [0,2,2,2],
  .coef 0 [959] .angle .qu8 [1,1,0,2] 20 .ph [1,1,0,2],
  .coef 0 [960] .angle .qu8 [1,1,1,2] 20 .ph [1,1,1,2],
  .coef 0 [961] .angle .qu8 [1,2,0,0] 20 .ph [1,2,0,0],
  .coef 0 [962] .angle .qu8 [1,2,0,1] 20 .ph [1,2,0,1],
  .coef 0 [963] .angle .qu8 [1,2,0,2] 20 .ph [1,2,0,2],
  .coef 0 [964] .angle .qu8 [1,2,1,0] 20 .ph [1,2,1,0],
  .coef 0 [965] .angle .qu8 [1,2,1,1] 20 .ph [1,2,1,1],
  .coef 0 [966] .angle .qu8 [1,2,1,2] 20 .ph [1,2,1,2],
  .coef 0 [967] .angle .qu8 [1,2,2,0] 20 .ph [1,2,2,0],
  .coef 0 [968] .angle .qu8 [1,2,2,1] 20 .ph [1,2,2,1],
  .coef 0 [969] .angle .qu8 [1,2,2,2] 20 .ph [1,2,2,2],
  .coef 0 [970] .angle .qu8 [2,2,1,2] 20 .ph [2,2,1,2],
  .coef 0 [971] .angle .qu8 [2,2,0,1] 20 .ph [2,2,0,1],
  .coef 0 [972] .angle .qu8 [2,2,0,2] 20 .ph [2,2,0,2],
  .coef 0 [973] .plain .qd1 [0,0,0,0] 21 .abs [0,0,0,0],
  .coef 0 [974] .abs .qd1 [0,0,0,1] 21 .abs [0,0,0,1],
  .coef 0 [975] .abs .qd1 [0,0,0,2] 21 .abs [0,0,0,2],
  .coef 0 [976] .abs .qd1 [0,0,1,2] 21 .abs [0,0,1,2],
  .coef 0 [977] .plain .qd1 [0,0,1,1] 21 .abs [0,0,1,1],
  .coef 0 [978] .plain .qd1 [0,0,2,2] 21 .abs [0,0,2,2],
  .coef 0 [979] .abs .qd1 [0,1,0,0] 21 .abs [0,1,0,0],
  .coef 0 [980] .abs .qd1 [0,1,0,1] 21 .abs [0,1,0,1],
  .coef 0 [981] .abs .qd1 [0,1,1,0] 21 .abs [0,1,1,0],
  .coef 0 [982] .abs .qd1 [0,1,0,2] 21 .abs [0,1,0,2],
  .coef 0 [983] .abs .qd1 [0,1,2,0] 21 .abs [0,1,2,0],
  .coef 0 [984] .abs .qd1 [0,1,1,1] 21 .abs [0,1,1,1],
  .coef 0 [985] .abs .qd1 [0,1,1,2] 21 .abs [0,1,1,2],
  .coef 0 [986] .abs .qd1 [0,1,2,1] 21 .abs [0,1,2,1],
  .coef 0 [987] .abs .qd1 [0,1,2,2] 21 .abs [0,1,2,2],
  .coef 0 [988] .abs .qd1 [0,2,0,0] 21 .abs [0,2,0,0],
  .coef 0 [989] .abs .qd1 [0,2,0,1] 21 .abs [0,2,0,1],
  .coef 0 [990] .abs .qd1 [0,2,0,2] 21 .abs [0,2,0,2],
  .coef 0 [991] .abs .qd1 [0,2,2,0] 21 .abs [0,2,2,0],
  .coef 0 [992] .abs .qd1 [0,2,1,0] 21 .abs [0,2,1,0],
  .coef 0 [993] .abs .qd1 [0,2,1,1] 21 .abs [0,2,1,1],
  .coef 0 [994] .abs .qd1 [0,2,2,1] 21 .abs [0,2,2,1],
  .coef 0 [995] .abs .qd1 [0,2,1,2] 21 .abs [0,2,1,2],
  .coef 0 [996] .abs .qd1 [0,2,2,2] 21 .abs [0,2,2,2],
  .coef 0 [997] .plain .qd1 [1,1,0,0] 21 .abs [1,1,0,0],
  .coef 0 [998] .abs .qd1 [1,1,0,1] 21 .abs [1,1,0,1],
  .coef 0 [999] .abs .qd1 [1,1,0,2] 21 .abs [1,1,0,2],
  .coef 0 [1000] .plain .qd1 [1,1,1,1] 21 .abs [1,1,1,1]]

/-- `smeftsim.py:3715-3839` -/
def rowsB8 : List Row := [
  .coef 0 [1001] .abs .qd1 [1,1,1,2] 21 .abs [1,1,1,2],
  .coef 0 [1002] .plain .qd1 [1,1,2,2] 21 .abs [1,1,2,2],
  .coef 0 [1003] .abs .qd1 [1,2,0,0] 21 .abs [1,2,0,0],
  .coef 0 [1004] .abs .qd1 [1,2,0,1] 21 .abs [1,2,0,1],
  .coef 0 [1005] .abs .qd1 [1,2,0,2] 21 .abs [1,2,0,2],
  .coef 0 [1006] .abs .qd1 [1,2,1,0] 21 .abs [1,2,1,0],
  .coef 0 [1007] .abs .qd1 [1,2,1,1] 21 .abs [1,2,1,1],
  .coef 0 [1008] .abs .qd1 [1,2,1,2] 21 .abs [1,2,1,2],
  .coef 0 [1009] .abs .qd1 [1,2,2,0] 21 .abs [1,2,2,0],
  .coef 0 [1010] .abs .qd1 [1,2,2,1] 21 .abs [1,2,2,1],
  .coef 0 [1011] .abs .qd1 [1,2,2,2] 21 .abs [1,2,2,2],
  .coef 0 [1012] .plain .qd1 [2,2,0,0] 21 .abs [2,2,0,0],
  .coef 0 [1013] .abs .qd1 [2,2,0,1] 21 .abs [2,2,0,1],
  .coef 0 [1014] .abs .qd1 [2,2,0,2] 21 .abs [2,2,0,2],
  .coef 0 [1015] .plain .qd1 [2,2,1,1] 21 .abs [2,2,1,1],
  .coef 0 [1016] .plain .qd1 [2,2,2,2] 21 .abs [2,2,2,2],
  .coef 0 [1017] .abs .qd1 [2,2,1,2] 21 .abs [2,2,1,2],
  .coef 0 [1018] .angle .qd1 [0,0,0,1] 21 .ph [0,0,0,1],
  .coef 0 [1019] .angle .qd1 [1,1,0,1] 21 .ph [1,1,0,1],
  .coef 0 [1020] .angle .qd1 [0,0,0,2] 21 .ph [0,0,0,2],
  .coef 0 [1021] .angle .qd1 [0,0,1,2] 21 .ph [0,0,1,2],
  .coef 0 [1022] .angle .qd1 [0,1,0,0] 21 .ph [0,1,0,0],
  .coef 0 [1023] .angle .qd1 [0,1,0,1] 21 .ph [0,1,0,1],
  .coef 0 [1024] .angle .qd1 [0,1,1,0] 21 .ph [0,1,1,0],
  .coef 0 [1025] .angle .qd1 [0,1,0,2] 21 .ph [0,1,0,2],
  .coef 0 [1026] .angle .qd1 [0,1,2,0] 21 .ph [0,1,2,0],
  .coef 0 [1027] .angle .qd1 [0,1,1,1] 21 .ph [0,1,1,1],
  .coef 0 [1028] .angle .qd1 [0,1,1,2] 21 .ph [0,1,1,2],
  .coef 0 [1029] .angle .qd1 [0,1,2,1] 21 .ph [0,1,2,1],
  .coef 0 [1030] .angle .qd1 [0,1,2,2] 21 .ph [0,1,2,2],
  .coef 0 [1031] .angle .qd1 [0,2,0,0] 21 .ph [0,2,0,0],
  .coef 0 [1032] .angle .qd1 [0,2,0,1] 21 .ph [0,2,0,1],
  .coef 0 [1033] .angle .qd1 [0,2,0,2] 21 .ph [0,2,0,2],
  .coef 0 [1034] .angle .qd1 [0,2,2,0] 21 .ph [0,2,2,0],
  .coef 0 [1035] .angle .qd1 [0,2,1,0] 21 .ph [0,2,1,0],
  .coef 0 [1036] .angle .qd1 [0,2,1,1] 21 .ph [0,2,1,1],
  .coef 0 [1037] .angle .qd1 [0,2,2,1] 21 .ph [0,2,2,1],
  .coef 0 [1038] .angle .qd1 [0,2,1,2] 21 .ph [0,2,1,2],
  .coef 0 [1039] .angle .qd1 [0,2,2,2] 21 .ph [0,2,2,2],
  .coef 0 [1040] .angle .qd1 [1,1,0,2] 21 .ph [1,1,0,2],
  .coef 0 [1041] .angle .qd1 [1,1,1,2] 21 .ph [1,1,1,2],
  .coef 0 [1042] .angle .qd1 [1,2,0,0] 21 .ph [1,2,0,0],
  .coef 0 [1043] .angle .qd1 [1,2,0,1] 21 .ph [1,2,0,1],
  .coef 0 [1044] .angle .qd1 [1,2,0,2] 21 .ph [1,2,0,2],
  .coef 0 [1045] .angle .qd1 [1,2,1,0] 21 .ph [1,2,1,0],
  .coef 0 [1046] .angle .qd1 [1,2,1,1] 21 .ph [1,2,1,1],
  .coef 0 [1047] .angle .qd1 [1,2,1,2] 21 .ph [1,2,1,2],
  .coef 0 [1048] .angle .qd1 [1,2,2,0] 21 .ph [1,2,2,0],
  .coef 0 [1049] .angle .qd1 [1,2,2,1] 21 .ph [1,2,2,1],
  .coef 0 [1050] .angle .qd1 [1,2,2,2] 21 .ph [1,2,2,2],
  .coef 0 [1051] .angle .qd1 [2,2,1,2] 21 .ph [2,2,1,2],
  .coef 0 [1052] .angle .qd1 [2,2,0,1] 21 .ph [2,2,0,1],
  .coef 0 [1053] .angle .qd1 [2,2,0,2] 21 .ph [2,2,0,2],
  .coef 0 [1054] .plain .qd8 [0,0,0,0] 22 .abs [0,0,0,0],
  .coef 0 [1055] .abs .qd8 [0,0,0,1] 22 .abs [0,0,0,1],
  .coef 0 [1056] .abs .qd8 [0,0,0,2] 22 .abs [0,0,0,2],
  .coef 0 [1057] .abs .qd8 [0,0,1,2] 22 .abs [0,0,1,2],
  .coef 0 [1058] .plain .qd8 [0,0,1,1] 22 .abs [0,0,1,1],
  .coef 0 [1059] .plain .qd8 [0,0,2,2] 22 .abs [0,0,2,2],
  .coef 0 [1060] .abs .qd8 [0,1,0,0] 22 .abs [0,1,0,0],
  .coef 0 [1061] .abs .qd8 [0,1,0,1] 22 .abs [0,1,0,1],
  .coef 0 [1062] .abs .qd8 [0,1,1,0] 22 .abs [0,1,1,0],
  .coef 0 [1063] .abs .qd8 [0,1,0,2] 22 .abs [0,1,0,2],
  .coef 0 [1064] .abs .qd8 [0,1,2,0] 22 .abs [0,1,2,0],
  .coef 0 [1065] .abs .qd8 [0,1,1,1] 22 .abs [0,1,1,1],
  .coef 0 [1066] .abs .qd8 [0,1,1,2] 22 .abs [0,1,1,2],
  .coef 0 [1067] .abs .qd8 [0,1,2,1] 22 .abs [0,1,2,1],
  .coef 0 [1068] .abs .qd8 [0,1,2,2] 22 .abs [0,1,2,2],
  .coef 0 [1069] .abs .qd8 [0,2,0,0] 22 .abs [0,2,0,0],
  .coef 0 [1070] .abs .qd8 [0,2,0,1] 22 .abs [0,2,0,1],
  .coef 0 [1071] .abs .qd8 [0,2,0,2] 22 .abs [0,2,0,2],
  .coef 0 [1072] .abs .qd8 [0,2,2,0] 22 .abs [0,2,2,0],
  .coef 0 [1073] .abs .qd8 [0,2,1,0] 22 .abs [0,2,1,0],
  .coef 0 [1074] .abs .qd8 [0,2,1,1] 22 .abs [0,2,1,1],
  .coef 0 [1075] .abs .qd8 [0,2,2,1] 22 .abs [0,2,2,1],
  .coef 0 [1076] .abs .qd8 [0,2,1,2] 22 .abs [0,2,1,2],
  .coef 0 [1077] .abs .qd8 [0,2,2,2] 22 .abs [0,2,2,2],
  .coef 0 [1078] .plain .qd8 [1,1,0,0] 22 .abs [1,1,0,0],
  .coef 0 [1079] .abs .qd8 [1,1,0,1] 22 .abs [1,1,0,1],
  .coef 0 [1080] .abs .qd8 [1,1,0,2] 22 .abs [1,1,0,2],
  .coef 0 [1081] .plain .qd8 [1,1,1,1] 22 .abs [1,1,1,1],
  .coef 0 [1082] .abs .qd8 [1,1,1,2] 22 .abs [1,1,1,2],
  .coef 0 [1083] .plain .qd8 [1,1,2,2] 22 .abs [1,1,2,2],
  .coef 0 [1084] .abs .qd8 [1,2,0,0] 22 .abs [1,2,0,0],
  .coef 0 [1085] .abs .qd8 [1,2,0,1] 22 .abs [1,2,0,1],
  .coef 0 [1086] .abs .qd8 [1,2,0,2] 22 .abs [1,2,0,2],
  .coef 0 [1087] .abs .qd8 [1,2,1,0] 22 .abs [1,2,1,0],
  .coef 0 [1088] .abs .qd8 [1,2,1,1] 22 .abs [1,2,1,1],
  .coef 0 [1089] .abs .qd8 [1,2,1,2] 22 .abs [1,2,1,2],
  .coef 0 [1090] .abs .qd8 [1,2,2,0] 22 .abs [1,2,2,0],
  .coef 0 [1091] .abs .qd8 [1,2,2,1] 22 .abs [1,2,2,1],
  .coef 0 [1092] .abs .qd8 [1,2,2,2] 22 .abs [1,2,2,2],
  .coef 0 [1093] .plain .qd8 [2,2,0,0] 22 .abs [2,2,0,0],
  .coef 0 [1094] .abs .qd8 [2,2,0,1] 22 .abs [2,2,0,1],
  .coef 0 [1095] .abs .qd8 [2,2,0,2] 22 .abs [2,2,0,2],
  .coef 0 [1096] .plain .qd8 [2,2,1,1] 22 .abs [2,2,1,1],
  .coef 0 [1097] .plain .qd8 [2,2,2,2] 22 .abs [2,2,2,2],
  .coef 0 [1098] .abs .qd8 [2,2,1,2] 22 .abs [2,2,1,2],
  .coef 0 [1099] .angle .qd8 [0,0,0,1] 22 .ph [0,0,0,1],
  .coef 0 [1100] .angle .qd8 [1,1,0,1] 22 .ph [1,1,0,1],
  .coef 0 [1101] .angle .qd8 [0,0,0,2] 22 .ph [0,0,0,2],
  .coef 0 [1102] .angle .qd8 [0,0,1,2] 22 .ph [0,0,1,2],
  .coef 0 [1103] .angle .qd8 [0,1,0,0] 22 .ph [0,1,0,0],
  .coef 0 [1104] .angle .qd8 [0,1,0,1] 22 .ph [0,1,0,1],
  .coef 0 [1105] .angle .qd8 [0,1,1,0] 22 .ph [0,1,1,0],
  .coef 0 [1106] .angle .qd8 [0,1,0,2] 22 .ph [0,1,0,2],
  .coef 0 [1107] .angle .qd8 [0,1,2,0] 22 .ph [0,1,2,0],
  .coef 0 [1108] .angle .qd8 [0,1,1,1] 22 .ph [0,1,1,1],
  .coef 0 [1109] .angle .qd8 [0,1,1,2] 22 .ph [0,1,1,2],
  .coef 0 [1110] .angle .qd8 [0,1,2,1] 22 .ph [0,1,2,1],
  .coef 0 [1111] .angle .qd8 [0,1,2,2] 22 .ph [0,1,2,2],
  .coef 0 [1112] .angle .qd8 [0,2,0,0] 22 .ph [0,2,0,0],
  .coef 0 [1113] .angle .qd8 [0,2,0,1] 22 .ph [0,2,0,1],
  .coef 0 [1114] .angle .qd8 [0,2,0,2] 22 .ph [0,2,0,2],
  .coef 0 [1115] .angle .qd8 [0,2,2,0] 22 .ph [0,2,2,0],
  .coef 0 [1116] .angle .qd8 [0,2,1,0] 22 .ph [0,2,1,0],
  .coef 0 [1117] .angle .qd8 [0,2,1,1] 22 .ph [0,2,1,1],
  .coef 0 [1118] .angle .qd8 [0,2,2,1] 22 .ph [0,2,2,1],
  .coef 0 [1119] .angle .qd8 [0,2,1,2] 22 .ph [0,2,1,2],
  .coef 0 [1120] .angle .qd8 [0,2,2,2] 22 .ph [0,2,2,2],
  .coef 0 [1121] .angle .qd8 [1,1,0,2] 22 .ph [1,1,0,2],
  .coef 0 [1122] .angle .qd8 [1,1,1,2] 22 .ph [1,1,1,2],
  .coef 0 [1123] .angle .qd8 [1,2,0,0] 22 .ph [1,2,0,0],
  .coef 0 [1124] .angle .qd8 [1,2,0,1] 22 .ph [1,2,0,1],
  .coef 0 [1125] .angle .qd8 [1,2,0,2] 22 .ph [1,2,0,2]]

/-- `smeftsim.py:3840-3964` -/
def rowsB9 : List Row := [
  .coef 0 [1126] .angle .qd8 [1,2,1,0] 22 .ph [1,2,1,0],
  .coef 0 [1127] .angle .qd8 [1,2,1,1] 22 .ph [1,2,1,1],
  .coef 0 [1128] .angle .qd8 [1,2,1,2] 22 .ph [1,2,1,2],
  .coef 0 [1129] .angle .qd8 [1,2,2,0] 22 .ph [1,2,2,0],
  .coef 0 [1130] .angle .qd8 [1,2,2,1] 22 .ph [1,2,2,1],
  .coef 0 [1131] .angle .qd8 [1,2,2,2] 22 .ph [1,2,2,2],
  .coef 0 [1132] .angle .qd8 [2,2,1,2] 22 .ph [2,2,1,2],
  .coef 0 [1133] .angle .qd8 [2,2,0,1] 22 .ph [2,2,0,1],
  .coef 0 [1134] .angle .qd8 [2,2,0,2] 22 .ph [2,2,0,2],
  .coef 0 [1135] .plain .le [0,0,0,0] 23 .abs [0,0,0,0],
  .coef 0 [1136] .abs .le [0,0,0,1] 23 .abs [0,0,0,1],
  .coef 0 [1137] .abs .le [0,0,0,2] 23 .abs [0,0,0,2],
  .coef 0 [1138] .abs .le [0,0,1,2] 23 .abs [0,0,1,2],
  .coef 0 [1139] .plain .le [0,0,1,1] 23 .abs [0,0,1,1],
  .coef 0 [1140] .plain .le [0,0,2,2] 23 .abs [0,0,2,2],
  .coef 0 [1141] .abs .le [0,1,0,0] 23 .abs [0,1,0,0],
  .coef 0 [1142] .abs .le [0,1,0,1] 23 .abs [0,1,0,1],
  .coef 0 [1143] .abs .le [0,1,1,0] 23 .abs [0,1,1,0],
  .coef 0 [1144] .abs .le [0,1,0,2] 23 .abs [0,1,0,2],
  .coef 0 [1145] .abs .le [0,1,2,0] 23 .abs [0,1,2,0],
  .coef 0 [1146] .abs .le [0,1,1,1] 23 .abs [0,1,1,1],
  .coef 0 [1147] .abs .le [0,1,1,2] 23 .abs [0,1,1,2],
  .coef 0 [1148] .abs .le [0,1,2,1] 23 .abs [0,1,2,1],
  .coef 0 [1149] .abs .le [0,1,2,2] 23 .abs [0,1,2,2],
  .coef 0 [1150] .abs .le [0,2,0,0] 23 .abs [0,2,0,0],
  .coef 0 [1151] .abs .le [0,2,0,1] 23 .abs [0,2,0,1],
  .coef 0 [1152] .abs .le [0,2,0,2] 23 .abs [0,2,0,2],
  .coef 0 [1153] .abs .le [0,2,2,0] 23 .abs [0,2,2,0],
  .coef 0 [1154] .abs .le [0,2,1,0] 23 .abs [0,2,1,0],
  .coef 0 [1155] .abs .le [0,2,1,1] 23 .abs [0,2,1,1],
  .coef 0 [1156] .abs .le [0,2,2,1] 23 .abs [0,2,2,1],
  .coef 0 [1157] .abs .le [0,2,1,2] 23 .abs [0,2,1,2],
  .coef 0 [1158] .abs .le [0,2,2,2] 23 .abs [0,2,2,2],
  .coef 0 [1159] .plain .le [1,1,0,0] 23 .abs [1,1,0,0],
  .coef 0 [1160] .abs .le [1,1,0,1] 23 .abs [1,1,0,1],
  .coef 0 [1161] .abs .le [1,1,0,2] 23 .abs [1,1,0,2],
  .coef 0 [1162] .plain .le [1,1,1,1] 23 .abs [1,1,1,1],
  .coef 0 [1163] .abs .le [1,1,1,2] 23 .abs [1,1,1,2],
  .coef 0 [1164] .plain .le [1,1,2,2] 23 .abs [1,1,2,2],
  .coef 0 [1165] .abs .le [1,2,0,0] 23 .abs [1,2,0,0],
  .coef 0 [1166] .abs .le [1,2,0,1] 23 .abs [1,2,0,1],
  .coef 0 [1167] .abs .le [1,2,0,2] 23 .abs [1,2,0,2],
  .coef 0 [1168] .abs .le [1,2,1,0] 23 .abs [1,2,1,0],
  .coef 0 [1169] .abs .le [1,2,1,1] 23 .abs [1,2,1,1],
  .coef 0 [1170] .abs .le [1,2,1,2] 23 .abs [1,2,1,2],
  .coef 0 [1171] .abs .le [1,2,2,0] 23 .abs [1,2,2,0],
  .coef 0 [1172] .abs .le [1,2,2,1] 23 .abs [1,2,2,1],
  .coef 0 [1173] .abs .le [1,2,2,2] 23 .abs [1,2,2,2],
  .coef 0 [1174] .plain .le [2,2,0,0] 23 .abs [2,2,0,0],
  .coef 0 [1175] .abs .le [2,2,0,1] 23 .abs [2,2,0,1],
  .coef 0 [1176] .abs .le [2,2,0,2] 23 .abs [2,2,0,2],
  .coef 0 [1177] .plain .le [2,2,1,1] 23 .abs [2,2,1,1],
  .coef 0 [1178] .plain .le [2,2,2,2] 23 .abs [2,2,2,2],
  .coef 0 [1179] .abs .le [2,2,1,2] 23 .abs [2,2,1,2],
  .coef 0 [1180] .angle .le [0,0,0,1] 23 .ph [0,0,0,1],
  .coef 0 [1181] .angle .le [1,1,0,1] 23 .ph [1,1,0,1],
  .coef 0 [1182] .angle .le [0,0,0,2] 23 .ph [0,0,0,2],
  .coef 0 [1183] .angle .le [0,0,1,2] 23 .ph [0,0,1,2],
  .coef 0 [1184] .angle .le [0,1,0,0] 23 .ph [0,1,0,0],
  .coef 0 [1185] .angle .le [0,1,0,1] 23 .ph [0,1,0,1],
  .coef 0 [1186] .angle .le [0,1,1,0] 23 .ph [0,1,1,0],
  .coef 0 [1187] .angle .le [0,1,0,2] 23 .ph [0,1,0,2],
  .coef 0 [1188] .angle .le [0,1,2,0] 23 .ph [0,1,2,0],
  .coef 0 [1189] .angle .le [0,1,1,1] 23 .ph [0,1,1,1],
  .coef 0 [1190] .angle .le [0,1,1,2] 23 .ph [0,1,1,2],
  .coef 0 [1191] .angle .le [0,1,2,1] 23 .ph [0,1,2,1],
  .coef 0 [1192] .angle .le [0,1,2,2] 23 .ph [0,1,2,2],
  .coef 0 [1193] .angle .le [0,2,0,0] 23 .ph [0,2,0,0],
  .coef 0 [1194] .angle .le [0,2,0,1] 23 .ph [0,2,0,1],
  .coef 0 [1195] .angle .le [0,2,0,2] 23 .ph [0,2,0,2],
  .coef 0 [1196] .angle .le [0,2,2,0] 23 .ph [0,2,2,0],
  .coef 0 [1197] .angle .le [0,2,1,0] 23 .ph [0,2,1,0],
  .coef 0 [1198] .angle .le [0,2,1,1] 23 .ph [0,2,1,1],
  .coef 0 [1199] .angle .le [0,2,2,1] 23 .ph [0,2,2,1],
  .coef 0 [1200] .angle .le [0,2,1,2] 23 .ph [0,2,1,2],
  .coef 0 [1201] .angle .le [0,2,2,2] 23 .ph [0,2,2,2],
  .coef 0 [1202] .angle .le [1,1,0,2] 23 .ph [1,1,0,2],
  .coef 0 [1203] .angle .le [1,1,1,2] 23 .ph [1,1,1,2],
  .coef 0 [1204] .angle .le [1,2,0,0] 23 .ph [1,2,0,0],
  .coef 0 [1205] .angle .le [1,2,0,1] 23 .ph [1,2,0,1],
  .coef 0 [1206] .angle .le [1,2,0,2] 23 .ph [1,2,0,2],
  .coef 0 [1207] .angle .le [1,2,1,0] 23 .ph [1,2,1,0],
  .coef 0 [1208] .angle .le [1,2,1,1] 23 .ph [1,2,1,1],
  .coef 0 [1209] .angle .le [1,2,1,2] 23 .ph [1,2,1,2],
  .coef 0 [1210] .angle .le [1,2,2,0] 23 .ph [1,2,2,0],
  .coef 0 [1211] .angle .le [1,2,2,1] 23 .ph [1,2,2,1],
  .coef 0 [1212] .angle .le [1,2,2,2] 23 .ph [1,2,2,2],
  .coef 0 [1213] .angle .le [2,2,1,2] 23 .ph [2,2,1,2],
  .coef 0 [1214] .angle .le [2,2,0,1] 23 .ph [2,2,0,1],
  .coef 0 [1215] .angle .le [2,2,0,2] 23 .ph [2,2,0,2],
  .coef 0 [1216] .plain .lu [0,0,0,0] 24 .abs [0,0,0,0],
  .coef 0 [1217] .abs .lu [0,0,0,1] 24 .abs [0,0,0,1],
  .coef 0 [1218] .abs .lu [0,0,0,2] 24 .abs [0,0,0,2],
  .coef 0 [1219] .abs .lu [0,0,1,2] 24 .abs [0,0,1,2],
  .coef 0 [1220] .plain .lu [0,0,1,1] 24 .abs [0,0,1,1],
  .coef 0 [1221] .plain .lu [0,0,2,2] 24 .abs [0,0,2,2],
  .coef 0 [1222] .abs .lu [0,1,0,0] 24 .abs [0,1,0,0],
  .coef 0 [1223] .abs .lu [0,1,0,1] 24 .abs [0,1,0,1],
  .coef 0 [1224] .abs .lu [0,1,1,0] 24 .abs [0,1,1,0],
  .coef 0 [1225] .abs .lu [0,1,0,2] 24 .abs [0,1,0,2],
  .coef 0 [1226] .abs .lu [0,1,2,0] 24 .abs [0,1,2,0],
  .coef 0 [1227] .abs .lu [0,1,1,1] 24 .abs [0,1,1,1],
  .coef 0 [1228] .abs .lu [0,1,1,2] 24 .abs [0,1,1,2],
  .coef 0 [1229] .abs .lu [0,1,2,1] 24 .abs [0,1,2,1],
  .coef 0 [1230] .abs .lu [0,1,2,2] 24 .abs [0,1,2,2],
  .coef 0 [1231] .abs .lu [0,2,0,0] 24 .abs [0,2,0,0],
  .coef 0 [1232] .abs .lu [0,2,0,1] 24 .abs [0,2,0,1],
  .coef 0 [1233] .abs .lu [0,2,0,2] 24 .abs [0,2,0,2],
  .coef 0 [1234] .abs .lu [0,2,2,0] 24 .abs [0,2,2,0],
  .coef 0 [1235] .abs .lu [0,2,1,0] 24 .abs [0,2,1,0],
  .coef 0 [1236] .abs .lu [0,2,1,1] 24 .abs [0,2,1,1],
  .coef 0 [1237] .abs .lu [0,2,2,1] 24 .abs [0,2,2,1],
  .coef 0 [1238] .abs .lu [0,2,1,2] 24 .abs [0,2,1,2],
  .coef 0 [1239] .abs .lu [0,2,2,2] 24 .abs [0,2,2,2],
  .coef 0 [1240] .plain .lu [1,1,0,0] 24 .abs [1,1,0,0],
  .coef 0 [1241] .abs .lu [1,1,0,1] 24 .abs [1,1,0,1],
  .coef 0 [1242] .abs .lu [1,1,0,2] 24 .abs [1,1,0,2],
  .coef 0 [1243] .plain .lu [1,1,1,1] 24 .abs [1,1,1,1],
  .coef 0 [1244] .abs .lu [1,1,1,2] 24 .abs [1,1,1,2],
  .coef 0 [1245] .plain .lu [1,1,2,2] 24 .abs [1,1,2,2],
  .coef 0 [1246] .abs .lu [1,2,0,0] 24 .abs [1,2,0,0],
  .coef 0 [1247] .abs .lu [1,2,0,1] 24 .abs [1,2,0,1],
  .coef 0 [1248] .abs .lu [1,2,0,2] 24 .abs [1,2,0,2],
  .coef 0 [1249] .abs .lu [1,2,1,0] 24 .abs [1,2,1,0],
  .coef 0 [1250] .abs .lu [1,2,1,1] 24 .abs [1,2,1,1]]

/-- `smeftsim.py:3965-4089` -/
def rowsB10 : List Row := [
  .coef 0 [1251] .abs .lu [1,2,1,2] 24 .abs [1,2,1,2],
  .coef 0 [1252] .abs .lu [1,2,2,0] 24 .abs [1,2,2,0],
  .coef 0 [1253] .abs .lu [1,2,2,1] 24 .abs [1,2,2,1],
  .coef 0 [1254] .abs .lu [1,2,2,2] 24 .abs [1,2,2,2],
  .coef 0 [1255] .plain .lu [2,2,0,0] 24 .abs [2,2,0,0],
  .coef 0 [1256] .abs .lu [2,2,0,1] 24 .abs [2,2,0,1],
  .coef 0 [1257] .abs .lu [2,2,0,2] 24 .abs [2,2,0,2],
  .coef 0 [1258] .plain .lu [2,2,1,1] 24 .abs [2,2,1,1],
  .coef 0 [1259] .plain .lu [2,2,2,2] 24 .abs [2,2,2,2],
  .coef 0 [1260] .abs .lu [2,2,1,2] 24 .abs [2,2,1,2],
  .coef 0 [1261] .angle .lu [0,0,0,1] 24 .ph [0,0,0,1],
  .coef 0 [1262] .angle .lu [1,1,0,1] 24 .ph [1,1,0,1],
  .coef 0 [1263] .angle .lu [0,0,0,2] 24 .ph [0,0,0,2],
  .coef 0 [1264] .angle .lu [0,0,1,2] 24 .ph [0,0,1,2],
  .coef 0 [1265] .angle .lu [0,1,0,0] 24 .ph [0,1,0,0],
  .coef 0 [1266] .angle .lu [0,1,0,1] 24 .ph [0,1,0,1],
  .coef 0 [1267] .angle .lu [0,1,1,0] 24 .ph [0,1,1,0],
  .coef 0 [1268] .angle .lu [0,1,0,2] 24 .ph [0,1,0,2],
  .coef 0 [1269] .angle .lu [0,1,2,0] 24 .ph [0,1,2,0],
  .coef 0 [1270] .angle .lu [0,1,1,1] 24 .ph [0,1,1,1],
  .coef 0 [1271] .angle .lu [0,1,1,2] 24 .ph [0,1,1,2],
  .coef 0 [1272] .angle .lu [0,1,2,1] 24 .ph [0,1,2,1],
  .coef 0 [1273] .angle .lu [0,1,2,2] 24 .ph [0,1,2,2],
  .coef 0 [1274] .angle .lu [0,2,0,0] 24 .ph [0,2,0,0],
  .coef 0 [1275] .angle .lu [0,2,0,1] 24 .ph [0,2,0,1],
  .coef 0 [1276] .angle .lu [0,2,0,2] 24 .ph [0,2,0,2],
  .coef 0 [1277] .angle .lu [0,2,2,0] 24 .ph [0,2,2,0],
  .coef 0 [1278] .angle .lu [0,2,1,0] 24 .ph [0,2,1,0],
  .coef 0 [1279] .angle .lu [0,2,1,1] 24 .ph [0,2,1,1],
  .coef 0 [1280] .angle .lu [0,2,2,1] 24 .ph [0,2,2,1],
  .coef 0 [1281] .angle .lu [0,2,1,2] 24 .ph [0,2,1,2],
  .coef 0 [1282] .angle .lu [0,2,2,2] 24 .ph [0,2,2,2],
  .coef 0 [1283] .angle .lu [1,1,0,2] 24 .ph [1,1,0,2],
  .coef 0 [1284] .angle .lu [1,1,1,2] 24 .ph [1,1,1,2],
  .coef 0 [1285] .angle .lu [1,2,0,0] 24 .ph [1,2,0,0],
  .coef 0 [1286] .angle .lu [1,2,0,1] 24 .ph [1,2,0,1],
  .coef 0 [1287] .angle .lu [1,2,0,2] 24 .ph [1,2,0,2],
  .coef 0 [1288] .angle .lu [1,2,1,0] 24 .ph [1,2,1,0],
  .coef 0 [1289] .angle .lu [1,2,1,1] 24 .ph [1,2,1,1],
  .coef 0 [1290] .angle .lu [1,2,1,2] 24 .ph [1,2,1,2],
  .coef 0 [1291] .angle .lu [1,2,2,0] 24 .ph [1,2,2,0],
  .coef 0 [1292] .angle .lu [1,2,2,1] 24 .ph [1,2,2,1],
  .coef 0 [1293] .angle .lu [1,2,2,2] 24 .ph [1,2,2,2],
  .coef 0 [1294] .angle .lu [2,2,1,2] 24 .ph [2,2,1,2],
  .coef 0 [1295] .angle .lu [2,2,0,1] 24 .ph [2,2,0,1],
  .coef 0 [1296] .angle .lu [2,2,0,2] 24 .ph [2,2,0,2],
  .coef 0 [1297] .plain .ld [0,0,0,0] 25 .abs [0,0,0,0],
  .coef 0 [1298] .abs .ld [0,0,0,1] 25 .abs [0,0,0,1],
  .coef 0 [1299] .abs .ld [0,0,0,2] 25 .abs [0,0,0,2],
  .coef 0 [1300] .abs .ld [0,0,1,2] 25 .abs [0,0,1,2],
  .coef 0 [1301] .plain .ld [0,0,1,1] 25 .abs [0,0,1,1],
  .coef 0 [1302] .plain .ld [0,0,2,2] 25 .abs [0,0,2,2],
  .coef 0 [1303] .abs .ld [0,1,0,0] 25 .abs [0,1,0,0],
  .coef 0 [1304] .abs .ld [0,1,0,1] 25 .abs [0,1,0,1],
  .coef 0 [1305] .abs .ld [0,1,1,0] 25 .abs [0,1,1,0],
  .coef 0 [1306] .abs .ld [0,1,0,2] 25 .abs [0,1,0,2],
  .coef 0 [1307] .abs .ld [0,1,2,0] 25 .abs [0,1,2,0],
  .coef 0 [1308] .abs .ld [0,1,1,1] 25 .abs [0,1,1,1],
  .coef 0 [1309] .abs .ld [0,1,1,2] 25 .abs [0,1,1,2],
  .coef 0 [1310] .abs .ld [0,1,2,1] 25 .abs [0,1,2,1],
  .coef 0 [1311] .abs .ld [0,1,2,2] 25 .abs [0,1,2,2],
  .coef 0 [1312] .abs .ld [0,2,0,0] 25 .abs [0,2,0,0],
  .coef 0 [1313] .abs .ld [0,2,0,1] 25 .abs [0,2,0,1],
  .coef 0 [1314] .abs .ld [0,2,0,2] 25 .abs [0,2,0,2],
  .coef 0 [1315] .abs .ld [0,2,2,0] 25 .abs [0,2,2,0],
  .coef 0 [1316] .abs .ld [0,2,1,0] 25 .abs [0,2,1,0],
  .coef 0 [1317] .abs .ld [0,2,1,1] 25 .abs [0,2,1,1],
  .coef 0 [1318] .abs .ld [0,2,2,1] 25 .abs [0,2,2,1],
  .coef 0 [1319] .abs .ld [0,2,1,2] 25 .abs [0,2,1,2],
  .coef 0 [1320] .abs .ld [0,2,2,2] 25 .abs [0,2,2,2],
  .coef 0 [1321] .plain .ld [1,1,0,0] 25 .abs [1,1,0,0],
  .coef 0 [1322] .abs .ld [1,1,0,1] 25 .abs [1,1,0,1],
  .coef 0 [1323] .abs .ld [1,1,0,2] 25 .abs [1,1,0,2],
  .coef 0 [1324] .plain .ld [1,1,1,1] 25 .abs [1,1,1,1],
  .coef 0 [1325] .abs .ld [1,1,1,2] 25 .abs [1,1,1,2],
  .coef 0 [1326] .plain .ld [1,1,2,2] 25 .abs [1,1,2,2],
  .coef 0 [1327] .abs .ld [1,2,0,0] 25 .abs [1,2,0,0],
  .coef 0 [1328] .abs .ld [1,2,0,1] 25 .abs [1,2,0,1],
  .coef 0 [1329] .abs .ld [1,2,0,2] 25 .abs [1,2,0,2],
  .coef 0 [1330] .abs .ld [1,2,1,0] 25 .abs [1,2,1,0],
  .coef 0 [1331] .abs .ld [1,2,1,1] 25 .abs [1,2,1,1],
  .coef 0 [1332] .abs .ld [1,2,1,2] 25 .abs [1,2,1,2],
  .coef 0 [1333] .abs .ld [1,2,2,0] 25 .abs [1,2,2,0],
  .coef 0 [1334] .abs .ld [1,2,2,1] 25 .abs [1,2,2,1],
  .coef 0 [1335] .abs .ld [1,2,2,2] 25 .abs [1,2,2,2],
  .coef 0 [1336] .plain .ld [2,2,0,0] 25 .abs [2,2,0,0],
  .coef 0 [1337] .abs .ld [2,2,0,1] 25 .abs [2,2,0,1],
  .coef 0 [1338] .abs .ld [2,2,0,2] 25 .abs [2,2,0,2],
  .coef 0 [1339] .plain .ld [2,2,1,1] 25 .abs [2,2,1,1],
  .coef 0 [1340] .plain .ld [2,2,2,2] 25 .abs [2,2,2,2],
  .coef 0 [1341] .abs .ld [2,2,1,2] 25 .abs [2,2,1,2],
  .coef 0 [1342] .angle .ld [0,0,0,1] 25 .ph [0,0,0,1],
  .coef 0 [1343] .angle .ld [1,1,0,1] 25 .ph [1,1,0,1],
  .coef 0 [1344] .angle .ld [0,0,0,2] 25 .ph [0,0,0,2],
  .coef 0 [1345] .angle .ld [0,0,1,2] 25 .ph [0,0,1,2],
  .coef 0 [1346] .angle .ld [0,1,0,0] 25 .ph [0,1,0,0],
  .coef 0 [1347] .angle .ld [0,1,0,1] 25 .ph [0,1,0,1],
  .coef 0 [1348] .angle .ld [0,1,1,0] 25 .ph [0,1,1,0],
  .coef 0 [1349] .angle .ld [0,1,0,2] 25 .ph [0,1,0,2],
  .coef 0 [1350] .angle .ld [0,1,2,0] 25 .ph [0,1,2,0],
  .coef 0 [1351] .angle .ld [0,1,1,1] 25 .ph [0,1,1,1],
  .coef 0 [1352] .angle .ld [0,1,1,2] 25 .ph [0,1,1,2],
  .coef 0 [1353] .angle .ld [0,1,2,1] 25 .ph [0,1,2,1],
  .coef 0 [1354] .angle .ld [0,1,2,2] 25 .ph [0,1,2,2],
  .coef 0 [1355] .angle .ld [0,2,0,0] 25 .ph [0,2,0,0],
  .coef 0 [1356] .angle .ld [0,2,0,1] 25 .ph [0,2,0,1],
  .coef 0 [1357] .angle .ld [0,2,0,2] 25 .ph [0,2,0,2],
  .coef 0 [1358] .angle .ld [0,2,2,0] 25 .ph [0,2,2,0],
  .coef 0 [1359] .angle .ld [0,2,1,0] 25 .ph [0,2,1,0],
  .coef 0 [1360] .angle .ld [0,2,1,1] 25 .ph [0,2,1,1],
  .coef 0 [1361] .angle .ld [0,2,2,1] 25 .ph [0,2,2,1],
  .coef 0 [1362] .angle .ld [0,2,1,2] 25 .ph [0,2,1,2],
  .coef 0 [1363] .angle .ld [0,2,2,2] 25 .ph [0,2,2,2],
  .coef 0 [1364] .angle .ld [1,1,0,2] 25 .ph [1,1,0,2],
  .coef 0 [1365] .angle .ld [1,1,1,2] 25 .ph [1,1,1,2],
  .coef 0 [1366] .angle .ld [1,2,0,0] 25 .ph [1,2,0,0],
  .coef 0 [1367] .angle .ld [1,2,0,1] 25 .ph [1,2,0,1],
  .coef 0 [1368] .angle .ld [1,2,0,2] 25 .ph [1,2,0,2],
  .coef 0 [1369] .angle .ld [1,2,1,0] 25 .ph [1,2,1,0],
  .coef 0 [1370] .angle .ld [1,2,1,1] 25 .ph [1,2,1,1],
  .coef 0 [1371] .angle .ld [1,2,1,2] 25 .ph [1,2,1,2],
  .coef 0 [1372] .angle .ld [1,2,2,0] 25 .ph [1,2,2,0],
  .coef 0 [1373] .angle .ld [1,2,2,1] 25 .ph [1,2,2,1],
  .coef 0 [1374] .angle .ld [1,2,2,2] 25 .ph [1,2,2,2],
  .coef 0 [1375] .angle .ld [2,2,1,2] 25 .ph [2,2,1,2]]

/-- `smeftsim.py:4090-4229` -/
def rowsB11 : List Row := [
  .coef 0 [1376] .angle .ld [2,2,0,1] 25 .ph [2,2,0,1],
  .coef 0 [1377] .angle .ld [2,2,0,2] 25 .ph [2,2,0,2],
  .coef 0 [1378] .plain .qe [0,0,0,0] 26 .abs [0,0,0,0],
  .coef 0 [1379] .abs .qe [0,0,0,1] 26 .abs [0,0,0,1],
  .coef 0 [1380] .abs .qe [0,0,0,2] 26 .abs [0,0,0,2],
  .coef 0 [1381] .abs .qe [0,0,1,2] 26 .abs [0,0,1,2],
  .coef 0 [1382] .plain .qe [0,0,1,1] 26 .abs [0,0,1,1],
  .coef 0 [1383] .plain .qe [0,0,2,2] 26 .abs [0,0,2,2],
  .coef 0 [1384] .abs .qe [0,1,0,0] 26 .abs [0,1,0,0],
  .coef 0 [1385] .abs .qe [0,1,0,1] 26 .abs [0,1,0,1],
  .coef 0 [1386] .abs .qe [0,1,1,0] 26 .abs [0,1,1,0],
  .coef 0 [1387] .abs .qe [0,1,0,2] 26 .abs [0,1,0,2],
  .coef 0 [1388] .abs .qe [0,1,2,0] 26 .abs [0,1,2,0],
  .coef 0 [1389] .abs .qe [0,1,1,1] 26 .abs [0,1,1,1],
  .coef 0 [1390] .abs .qe [0,1,1,2] 26 .abs [0,1,1,2],
  .coef 0 [1391] .abs .qe [0,1,2,1] 26 .abs [0,1,2,1],
  .coef 0 [1392] .abs .qe [0,1,2,2] 26 .abs [0,1,2,2],
  .coef 0 [1393] .abs .qe [0,2,0,0] 26 .abs [0,2,0,0],
  .coef 0 [1394] .abs .qe [0,2,0,1] 26 .abs [0,2,0,1],
  .coef 0 [1395] .abs .qe [0,2,0,2] 26 .abs [0,2,0,2],
  .coef 0 [1396] .abs .qe [0,2,2,0] 26 .abs [0,2,2,0],
  .coef 0 [1397] .abs .qe [0,2,1,0] 26 .abs [0,2,1,0],
  .coef 0 [1398] .abs .qe [0,2,1,1] 26 .abs [0,2,1,1],
  .coef 0 [1399] .abs .qe [0,2,2,1] 26 .abs [0,2,2,1],
  .coef 0 [1400] .abs .qe [0,2,1,2] 26 .abs [0,2,1,2],
  .coef 0 [1401] .abs .qe [0,2,2,2] 26 .abs [0,2,2,2],
  .coef 0 [1402] .plain .qe [1,1,0,0] 26 .abs [1,1,0,0],
  .coef 0 [1403] .abs .qe [1,1,0,1] 26 .abs [1,1,0,1],
  .coef 0 [1404] .abs .qe [1,1,0,2] 26 .abs [1,1,0,2],
  .coef 0 [1405] .plain .qe [1,1,1,1] 26 .abs [1,1,1,1],
  .coef 0 [1406] .abs .qe [1,1,1,2] 26 .abs [1,1,1,2],
  .coef 0 [1407] .plain .qe [1,1,2,2] 26 .abs [1,1,2,2],
  .coef 0 [1408] .abs .qe [1,2,0,0] 26 .abs [1,2,0,0],
  .coef 0 [1409] .abs .qe [1,2,0,1] 26 .abs [1,2,0,1],
  .coef 0 [1410] .abs .qe [1,2,0,2] 26 .abs [1,2,0,2],
  .coef 0 [1411] .abs .qe [1,2,1,0] 26 .abs [1,2,1,0],
  .coef 0 [1412] .abs .qe [1,2,1,1] 26 .abs [1,2,1,1],
  .coef 0 [1413] .abs .qe [1,2,1,2] 26 .abs [1,2,1,2],
  .coef 0 [1414] .abs .qe [1,2,2,0] 26 .abs [1,2,2,0],
  .coef 0 [1415] .abs .qe [1,2,2,1] 26 .abs [1,2,2,1],
  .coef 0 [1416] .abs .qe [1,2,2,2] 26 .abs [1,2,2,2],
  .coef 0 [1417] .plain .qe [2,2,0,0] 26 .abs [2,2,0,0],
  .coef 0 [1418] .abs .qe [2,2,0,1] 26 .abs [2,2,0,1],
  .coef 0 [1419] .abs .qe [2,2,0,2] 26 .abs [2,2,0,2],
  .coef 0 [1420] .plain .qe [2,2,1,1] 26 .abs [2,2,1,1],
  .coef 0 [1421] .plain .qe [2,2,2,2] 26 .abs [2,2,2,2],
  .coef 0 [1422] .abs .qe [2,2,1,2] 26 .abs [2,2,1,2],
  .coef 0 [1423] .angle .qe [0,0,0,1] 26 .ph [0,0,0,1],
  .coef 0 [1424] .angle .qe [1,1,0,1] 26 .ph [1,1,0,1],
  .coef 0 [1425] .angle .qe [0,0,0,2] 26 .ph [0,0,0,2],
  .coef 0 [1426] .angle .qe [0,0,1,2] 26 .ph [0,0,1,2],
  .coef 0 [1427] .angle .qe [0,1,0,0] 26 .ph [0,1,0,0],
  .coef 0 [1428] .angle .qe [0,1,0,1] 26 .ph [0,1,0,1],
  .coef 0 [1429] .angle .qe [0,1,1,0] 26 .ph [0,1,1,0],
  .coef 0 [1430] .angle .qe [0,1,0,2] 26 .ph [0,1,0,2],
  .coef 0 [1431] .angle .qe [0,1,2,0] 26 .ph [0,1,2,0],
  .coef 0 [1432] .angle .qe [0,1,1,1] 26 .ph [0,1,1,1],
  .coef 0 [1433] .angle .qe [0,1,1,2] 26 .ph [0,1,1,2],
  .coef 0 [1434] .angle .qe [0,1,2,1] 26 .ph [0,1,2,1],
  .coef 0 [1435] .angle .qe [0,1,2,2] 26 .ph [0,1,2,2],
  .coef 0 [1436] .angle .qe [0,2,0,0] 26 .ph [0,2,0,0],
  .coef 0 [1437] .angle .qe [0,2,0,1] 26 .ph [0,2,0,1],
  .coef 0 [1438] .angle .qe [0,2,0,2] 26 .ph [0,2,0,2],
  .coef 0 [1439] .angle .qe [0,2,2,0] 26 .ph [0,2,2,0],
  .coef 0 [1440] .angle .qe [0,2,1,0] 26 .ph [0,2,1,0],
  .coef 0 [1441] .angle .qe [0,2,1,1] 26 .ph [0,2,1,1],
  .coef 0 [1442] .angle .qe [0,2,2,1] 26 .ph [0,2,2,1],
  .coef 0 [1443] .angle .qe [0,2,1,2] 26 .ph [0,2,1,2],
  .coef 0 [1444] .angle .qe [0,2,2,2] 26 .ph [0,2,2,2],
  .coef 0 [1445] .angle .qe [1,1,0,2] 26 .ph [1,1,0,2],
  .coef 0 [1446] .angle .qe [1,1,1,2] 26 .ph [1,1,1,2],
  .coef 0 [1447] .angle .qe [1,2,0,0] 26 .ph [1,2,0,0],
  .coef 0 [1448] .angle .qe [1,2,0,1] 26 .ph [1,2,0,1],
  .coef 0 [1449] .angle .qe [1,2,0,2] 26 .ph [1,2,0,2],
  .coef 0 [1450] .angle .qe [1,2,1,0] 26 .ph [1,2,1,0],
  .coef 0 [1451] .angle .qe [1,2,1,1] 26 .ph [1,2,1,1],
  .coef 0 [1452] .angle .qe [1,2,1,2] 26 .ph [1,2,1,2],
  .coef 0 [1453] .angle .qe [1,2,2,0] 26 .ph [1,2,2,0],
  .coef 0 [1454] .angle .qe [1,2,2,1] 26 .ph [1,2,2,1],
  .coef 0 [1455] .angle .qe [1,2,2,2] 26 .ph [1,2,2,2],
  .coef 0 [1456] .angle .qe [2,2,1,2] 26 .ph [2,2,1,2],
  .coef 0 [1457] .angle .qe [2,2,0,1] 26 .ph [2,2,0,1],
  .coef 0 [1458] .angle .qe [2,2,0,2] 26 .ph [2,2,0,2],
  .coef 1 [1,1] .angle .uphi [0,0] 27 .ph [0,0],
  .coef 1 [1,2] .angle .uphi [0,1] 27 .ph [0,1],
  .coef 1 [1,3] .angle .uphi [0,2] 27 .ph [0,2],
  .coef 1 [2,1] .angle .uphi [1,0] 27 .ph [1,0],
  .coef 1 [2,2] .angle .uphi [1,1] 27 .ph [1,1],
  .coef 1 [2,3] .angle .uphi [1,2] 27 .ph [1,2],
  .coef 1 [3,1] .angle .uphi [2,0] 27 .ph [2,0],
  .coef 1 [3,2] .angle .uphi [2,1] 27 .ph [2,1],
  .coef 1 [3,3] .angle .uphi [2,2] 27 .ph [2,2],
  .coef 2 [1,1] .angle .dphi [0,0] 28 .ph [0,0],
  .coef 2 [1,2] .angle .dphi [0,1] 28 .ph [0,1],
  .coef 2 [1,3] .angle .dphi [0,2] 28 .ph [0,2],
  .coef 2 [2,1] .angle .dphi [1,0] 28 .ph [1,0],
  .coef 2 [2,2] .angle .dphi [1,1] 28 .ph [1,1],
  .coef 2 [2,3] .angle .dphi [1,2] 28 .ph [1,2],
  .coef 2 [3,1] .angle .dphi [2,0] 28 .ph [2,0],
  .coef 2 [3,2] .angle .dphi [2,1] 28 .ph [2,1],
  .coef 2 [3,3] .angle .dphi [2,2] 28 .ph [2,2],
  .coef 3 [1,1] .abs .eW [0,0] 29 .abs [0,0],
  .coef 3 [1,2] .abs .eW [0,1] 29 .abs [0,1],
  .coef 3 [1,3] .abs .eW [0,2] 29 .abs [0,2],
  .coef 3 [2,1] .abs .eW [1,0] 29 .abs [1,0],
  .coef 3 [2,2] .abs .eW [1,1] 29 .abs [1,1],
  .coef 3 [2,3] .abs .eW [1,2] 29 .abs [1,2],
  .coef 3 [3,1] .abs .eW [2,0] 29 .abs [2,0],
  .coef 3 [3,2] .abs .eW [2,1] 29 .abs [2,1],
  .coef 3 [3,3] .abs .eW [2,2] 29 .abs [2,2],
  .coef 4 [1,1] .angle .eW [0,0] 29 .ph [0,0],
  .coef 4 [1,2] .angle .eW [0,1] 29 .ph [0,1],
  .coef 4 [1,3] .angle .eW [0,2] 29 .ph [0,2],
  .coef 4 [2,1] .angle .eW [1,0] 29 .ph [1,0],
  .coef 4 [2,2] .angle .eW [1,1] 29 .ph [1,1],
  .coef 4 [2,3] .angle .eW [1,2] 29 .ph [1,2],
  .coef 4 [3,1] .angle .eW [2,0] 29 .ph [2,0],
  .coef 4 [3,2] .angle .eW [2,1] 29 .ph [2,1],
  .coef 4 [3,3] .angle .eW [2,2] 29 .ph [2,2],
  .coef 5 [1,1] .abs .eB [0,0] 30 .abs [0,0],
  .coef 5 [1,2] .abs .eB [0,1] 30 .abs [0,1],
  .coef 5 [1,3] .abs .eB [0,2] 30 .abs [0,2],
  .coef 5 [2,1] .abs .eB [1,0] 30 .abs [1,0],
  .coef 5 [2,2] .abs .eB [1,1] 30 .abs [1,1],
  .coef 5 [2,3] .abs .eB [1,2] 30 .abs [1,2]]

/-- `smeftsim.py:4230-4396` -/
def rowsB12 : List Row := [
  .coef 5 [3,1] .abs .eB [2,0] 30 .abs [2,0],
  .coef 5 [3,2] .abs .eB [2,1] 30 .abs [2,1],
  .coef 5 [3,3] .abs .eB [2,2] 30 .abs [2,2],
  .coef 6 [1,1] .angle .eB [0,0] 30 .ph [0,0],
  .coef 6 [1,2] .angle .eB [0,1] 30 .ph [0,1],
  .coef 6 [1,3] .angle .eB [0,2] 30 .ph [0,2],
  .coef 6 [2,1] .angle .eB [1,0] 30 .ph [1,0],
  .coef 6 [2,2] .angle .eB [1,1] 30 .ph [1,1],
  .coef 6 [2,3] .angle .eB [1,2] 30 .ph [1,2],
  .coef 6 [3,1] .angle .eB [2,0] 30 .ph [2,0],
  .coef 6 [3,2] .angle .eB [2,1] 30 .ph [2,1],
  .coef 6 [3,3] .angle .eB [2,2] 30 .ph [2,2],
  .coef 7 [1,1] .abs .uG [0,0] 31 .abs [0,0],
  .coef 7 [1,2] .abs .uG [0,1] 31 .abs [0,1],
  .coef 7 [1,3] .abs .uG [0,2] 31 .abs [0,2],
  .coef 7 [2,1] .abs .uG [1,0] 31 .abs [1,0],
  .coef 7 [2,2] .abs .uG [1,1] 31 .abs [1,1],
  .coef 7 [2,3] .abs .uG [1,2] 31 .abs [1,2],
  .coef 7 [3,1] .abs .uG [2,0] 31 .abs [2,0],
  .coef 7 [3,2] .abs .uG [2,1] 31 .abs [2,1],
  .coef 7 [3,3] .abs .uG [2,2] 31 .abs [2,2],
  .coef 8 [1,1] .angle .uG [0,0] 31 .ph [0,0],
  .coef 8 [1,2] .angle .uG [0,1] 31 .ph [0,1],
  .coef 8 [1,3] .angle .uG [0,2] 31 .ph [0,2],
  .coef 8 [2,1] .angle .uG [1,0] 31 .ph [1,0],
  .coef 8 [2,2] .angle .uG [1,1] 31 .ph [1,1],
  .coef 8 [2,3] .angle .uG [1,2] 31 .ph [1,2],
  .coef 8 [3,1] .angle .uG [2,0] 31 .ph [2,0],
  .coef 8 [3,2] .angle .uG [2,1] 31 .ph [2,1],
  .coef 8 [3,3] .angle .uG [2,2] 31 .ph [2,2],
  .coef 9 [1,1] .abs .uW [0,0] 32 .abs [0,0],
  .coef 9 [1,2] .abs .uW [0,1] 32 .abs [0,1],
  .coef 9 [1,3] .abs .uW [0,2] 32 .abs [0,2],
  .coef 9 [2,1] .abs .uW [1,0] 32 .abs [1,0],
  .coef 9 [2,2] .abs .uW [1,1] 32 .abs [1,1],
  .coef 9 [2,3] .abs .uW [1,2] 32 .abs [1,2],
  .coef 9 [3,1] .abs .uW [2,0] 32 .abs [2,0],
  .coef 9 [3,2] .abs .uW [2,1] 32 .abs [2,1],
  .coef 9 [3,3] .abs .uW [2,2] 32 .abs [2,2],
  .coef 10 [1,1] .angle .uW [0,0] 32 .ph [0,0],
  .coef 10 [1,2] .angle .uW [0,1] 32 .ph [0,1],
  .coef 10 [1,3] .angle .uW [0,2] 32 .ph [0,2],
  .coef 10 [2,1] .angle .uW [1,0] 32 .ph [1,0],
  .coef 10 [2,2] .angle .uW [1,1] 32 .ph [1,1],
  .coef 10 [2,3] .angle .uW [1,2] 32 .ph [1,2],
  .coef 10 [3,1] .angle .uW [2,0] 32 .ph [2,0],
  .coef 10 [3,2] .angle .uW [2,1] 32 .ph [2,1],
  .coef 10 [3,3] .angle .uW [2,2] 32 .ph [2,2],
  .coef 11 [1,1] .abs .uB [0,0] 33 .abs [0,0],
  .coef 11 [1,2] .abs .uB [0,1] 33 .abs [0,1],
  .coef 11 [1,3] .abs .uB [0,2] 33 .abs [0,2],
  .coef 11 [2,1] .abs .uB [1,0] 33 .abs [1,0],
  .coef 11 [2,2] .abs .uB [1,1] 33 .abs [1,1],
  .coef 11 [2,3] .abs .uB [1,2] 33 .abs [1,2],
  .coef 11 [3,1] .abs .uB [2,0] 33 .abs [2,0],
  .coef 11 [3,2] .abs .uB [2,1] 33 .abs [2,1],
  .coef 11 [3,3] .abs .uB [2,2] 33 .abs [2,2],
  .coef 12 [1,1] .angle .uB [0,0] 33 .ph [0,0],
  .coef 12 [1,2] .angle .uB [0,1] 33 .ph [0,1],
  .coef 12 [1,3] .angle .uB [0,2] 33 .ph [0,2],
  .coef 12 [2,1] .angle .uB [1,0] 33 .ph [1,0],
  .coef 12 [2,2] .angle .uB [1,1] 33 .ph [1,1],
  .coef 12 [2,3] .angle .uB [1,2] 33 .ph [1,2],
  .coef 12 [3,1] .angle .uB [2,0] 33 .ph [2,0],
  .coef 12 [3,2] .angle .uB [2,1] 33 .ph [2,1],
  .coef 12 [3,3] .angle .uB [2,2] 33 .ph [2,2],
  .coef 13 [1,1] .abs .dG [0,0] 34 .abs [0,0],
  .coef 13 [1,2] .abs .dG [0,1] 34 .abs [0,1],
  .coef 13 [1,3] .abs .dG [0,2] 34 .abs [0,2],
  .coef 13 [2,1] .abs .dG [1,0] 34 .abs [1,0],
  .coef 13 [2,2] .abs .dG [1,1] 34 .abs [1,1],
  .coef 13 [2,3] .abs .dG [1,2] 34 .abs [1,2],
  .coef 13 [3,1] .abs .dG [2,0] 34 .abs [2,0],
  .coef 13 [3,2] .abs .dG [2,1] 34 .abs [2,1],
  .coef 13 [3,3] .abs .dG [2,2] 34 .abs [2,2],
  .coef 14 [1,1] .angle .dG [0,0] 34 .ph [0,0],
  .coef 14 [1,2] .angle .dG [0,1] 34 .ph [0,1],
  .coef 14 [1,3] .angle .dG [0,2] 34 .ph [0,2],
  .coef 14 [2,1] .angle .dG [1,0] 34 .ph [1,0],
  .coef 14 [2,2] .angle .dG [1,1] 34 .ph [1,1],
  .coef 14 [2,3] .angle .dG [1,2] 34 .ph [1,2],
  .coef 14 [3,1] .angle .dG [2,0] 34 .ph [2,0],
  .coef 14 [3,2] .angle .dG [2,1] 34 .ph [2,1],
  .coef 14 [3,3] .angle .dG [2,2] 34 .ph [2,2],
  .coef 15 [1,1] .abs .dW [0,0] 35 .abs [0,0],
  .coef 15 [1,2] .abs .dW [0,1] 35 .abs [0,1],
  .coef 15 [1,3] .abs .dW [0,2] 35 .abs [0,2],
  .coef 15 [2,1] .abs .dW [1,0] 35 .abs [1,0],
  .coef 15 [2,2] .abs .dW [1,1] 35 .abs [1,1],
  .coef 15 [2,3] .abs .dW [1,2] 35 .abs [1,2],
  .coef 15 [3,1] .abs .dW [2,0] 35 .abs [2,0],
  .coef 15 [3,2] .abs .dW [2,1] 35 .abs [2,1],
  .coef 15 [3,3] .abs .dW [2,2] 35 .abs [2,2],
  .coef 16 [1,1] .angle .dW [0,0] 35 .ph [0,0],
  .coef 16 [1,2] .angle .dW [0,1] 35 .ph [0,1],
  .coef 16 [1,3] .angle .dW [0,2] 35 .ph [0,2],
  .coef 16 [2,1] .angle .dW [1,0] 35 .ph [1,0],
  .coef 16 [2,2] .angle .dW [1,1] 35 .ph [1,1],
  .coef 16 [2,3] .angle .dW [1,2] 35 .ph [1,2],
  .coef 16 [3,1] .angle .dW [2,0] 35 .ph [2,0],
  .coef 16 [3,2] .angle .dW [2,1] 35 .ph [2,1],
  .coef 16 [3,3] .angle .dW [2,2] 35 .ph [2,2],
  .coef 17 [1,1] .abs .dB [0,0] 36 .abs [0,0],
  .coef 17 [1,2] .abs .dB [0,1] 36 .abs [0,1],
  .coef 17 [1,3] .abs .dB [0,2] 36 .abs [0,2],
  .coef 17 [2,1] .abs .dB [1,0] 36 .abs [1,0],
  .coef 17 [2,2] .abs .dB [1,1] 36 .abs [1,1],
  .coef 17 [2,3] .abs .dB [1,2] 36 .abs [1,2],
  .coef 17 [3,1] .abs .dB [2,0] 36 .abs [2,0],
  .coef 17 [3,2] .abs .dB [2,1] 36 .abs [2,1],
  .coef 17 [3,3] .abs .dB [2,2] 36 .abs [2,2],
  .coef 18 [1,1] .angle .dB [0,0] 36 .ph [0,0],
  .coef 18 [1,2] .angle .dB [0,1] 36 .ph [0,1],
  .coef 18 [1,3] .angle .dB [0,2] 36 .ph [0,2],
  .coef 18 [2,1] .angle .dB [1,0] 36 .ph [1,0],
  .coef 18 [2,2] .angle .dB [1,1] 36 .ph [1,1],
  .coef 18 [2,3] .angle .dB [1,2] 36 .ph [1,2],
  .coef 18 [3,1] .angle .dB [2,0] 36 .ph [2,0],
  .coef 18 [3,2] .angle .dB [2,1] 36 .ph [2,1],
  .coef 18 [3,3] .angle .dB [2,2] 36 .ph [2,2],
  .coef 19 [1,1] .abs .phiud [0,0] 37 .abs [0,0],
  .coef 19 [1,2] .abs .phiud [0,1] 37 .abs [0,1],
  .coef 19 [1,3] .abs .phiud [0,2] 37 .abs [0,2],
  .coef 19 [2,1] .abs .phiud [1,0] 37 .abs [1,0],
  .coef 19 [2,2] .abs .phiud [1,1] 37 .abs [1,1]]

/-- `smeftsim.py:4397-4536` -/
def rowsB13 : List Row := [
  .coef 19 [2,3] .abs .phiud [1,2] 37 .abs [1,2],
  .coef 19 [3,1] .abs .phiud [2,0] 37 .abs [2,0],
  .coef 19 [3,2] .abs .phiud [2,1] 37 .abs [2,1],
  .coef 19 [3,3] .abs .phiud [2,2] 37 .abs [2,2],
  .coef 20 [1,1] .angle .phiud [0,0] 37 .ph [0,0],
  .coef 20 [1,2] .angle .phiud [0,1] 37 .ph [0,1],
  .coef 20 [1,3] .angle .phiud [0,2] 37 .ph [0,2],
  .coef 20 [2,1] .angle .phiud [1,0] 37 .ph [1,0],
  .coef 20 [2,2] .angle .phiud [1,1] 37 .ph [1,1],
  .coef 20 [2,3] .angle .phiud [1,2] 37 .ph [1,2],
  .coef 20 [3,1] .angle .phiud [2,0] 37 .ph [2,0],
  .coef 20 [3,2] .angle .phiud [2,1] 37 .ph [2,1],
  .coef 20 [3,3] .angle .phiud [2,2] 37 .ph [2,2],
  .coef 21 [1,1] .abs .ephi [0,0] 38 .abs [0,0],
  .coef 21 [1,2] .abs .ephi [0,1] 38 .abs [0,1],
  .coef 21 [1,3] .abs .ephi [0,2] 38 .abs [0,2],
  .coef 21 [2,1] .abs .ephi [1,0] 38 .abs [1,0],
  .coef 21 [2,2] .abs .ephi [1,1] 38 .abs [1,1],
  .coef 21 [2,3] .abs .ephi [1,2] 38 .abs [1,2],
  .coef 21 [3,1] .abs .ephi [2,0] 38 .abs [2,0],
  .coef 21 [3,2] .abs .ephi [2,1] 38 .abs [2,1],
  .coef 21 [3,3] .abs .ephi [2,2] 38 .abs [2,2],
  .coef 22 [1,1,1,1] .abs .ledq [0,0,0,0] 39 .abs [0,0,0,0],
  .coef 22 [1,1,1,2] .abs .ledq [0,0,0,1] 39 .abs [0,0,0,1],
  .coef 22 [1,1,1,3] .abs .ledq [0,0,0,2] 39 .abs [0,0,0,2],
  .coef 22 [1,1,2,1] .abs .ledq [0,0,1,0] 39 .abs [0,0,1,0],
  .coef 22 [1,1,2,2] .abs .ledq [0,0,1,1] 39 .abs [0,0,1,1],
  .coef 22 [1,1,2,3] .abs .ledq [0,0,1,2] 39 .abs [0,0,1,2],
  .coef 22 [1,1,3,1] .abs .ledq [0,0,2,0] 39 .abs [0,0,2,0],
  .coef 22 [1,1,3,2] .abs .ledq [0,0,2,1] 39 .abs [0,0,2,1],
  .coef 22 [1,1,3,3] .abs .ledq [0,0,2,2] 39 .abs [0,0,2,2],
  .coef 22 [1,2,1,1] .abs .ledq [0,1,0,0] 39 .abs [0,1,0,0],
  .coef 22 [1,2,1,2] .abs .ledq [0,1,0,1] 39 .abs [0,1,0,1],
  .coef 22 [1,2,1,3] .abs .ledq [0,1,0,2] 39 .abs [0,1,0,2],
  .coef 22 [1,2,2,1] .abs .ledq [0,1,1,0] 39 .abs [0,1,1,0],
  .coef 22 [1,2,2,2] .abs .ledq [0,1,1,1] 39 .abs [0,1,1,1],
  .coef 22 [1,2,2,3] .abs .ledq [0,1,1,2] 39 .abs [0,1,1,2],
  .coef 22 [1,2,3,1] .abs .ledq [0,1,2,0] 39 .abs [0,1,2,0],
  .coef 22 [1,2,3,2] .abs .ledq [0,1,2,1] 39 .abs [0,1,2,1],
  .coef 22 [1,2,3,3] .abs .ledq [0,1,2,2] 39 .abs [0,1,2,2],
  .coef 22 [1,3,1,1] .abs .ledq [0,2,0,0] 39 .abs [0,2,0,0],
  .coef 22 [1,3,1,2] .abs .ledq [0,2,0,1] 39 .abs [0,2,0,1],
  .coef 22 [1,3,1,3] .abs .ledq [0,2,0,2] 39 .abs [0,2,0,2],
  .coef 22 [1,3,2,1] .abs .ledq [0,2,1,0] 39 .abs [0,2,1,0],
  .coef 22 [1,3,2,2] .abs .ledq [0,2,1,1] 39 .abs [0,2,1,1],
  .coef 22 [1,3,2,3] .abs .ledq [0,2,1,2] 39 .abs [0,2,1,2],
  .coef 22 [1,3,3,1] .abs .ledq [0,2,2,0] 39 .abs [0,2,2,0],
  .coef 22 [1,3,3,2] .abs .ledq [0,2,2,1] 39 .abs [0,2,2,1],
  .coef 22 [1,3,3,3] .abs .ledq [0,2,2,2] 39 .abs [0,2,2,2],
  .coef 22 [2,1,1,1] .abs .ledq [1,0,0,0] 39 .abs [1,0,0,0],
  .coef 22 [2,1,1,2] .abs .ledq [1,0,0,1] 39 .abs [1,0,0,1],
  .coef 22 [2,1,1,3] .abs .ledq [1,0,0,2] 39 .abs [1,0,0,2],
  .coef 22 [2,1,2,1] .abs .ledq [1,0,1,0] 39 .abs [1,0,1,0],
  .coef 22 [2,1,2,2] .abs .ledq [1,0,1,1] 39 .abs [1,0,1,1],
  .coef 22 [2,1,2,3] .abs .ledq [1,0,1,2] 39 .abs [1,0,1,2],
  .coef 22 [2,1,3,1] .abs .ledq [1,0,2,0] 39 .abs [1,0,2,0],
  .coef 22 [2,1,3,2] .abs .ledq [1,0,2,1] 39 .abs [1,0,2,1],
  .coef 22 [2,1,3,3] .abs .ledq [1,0,2,2] 39 .abs [1,0,2,2],
  .coef 22 [2,2,1,1] .abs .ledq [1,1,0,0] 39 .abs [1,1,0,0],
  .coef 22 [2,2,1,2] .abs .ledq [1,1,0,1] 39 .abs [1,1,0,1],
  .coef 22 [2,2,1,3] .abs .ledq [1,1,0,2] 39 .abs [1,1,0,2],
  .coef 22 [2,2,2,1] .abs .ledq [1,1,1,0] 39 .abs [1,1,1,0],
  .coef 22 [2,2,2,2] .abs .ledq [1,1,1,1] 39 .abs [1,1,1,1],
  .coef 22 [2,2,2,3] .abs .ledq [1,1,1,2] 39 .abs [1,1,1,2],
  .coef 22 [2,2,3,1] .abs .ledq [1,1,2,0] 39 .abs [1,1,2,0],
  .coef 22 [2,2,3,2] .abs .ledq [1,1,2,1] 39 .abs [1,1,2,1],
  .coef 22 [2,2,3,3] .abs .ledq [1,1,2,2] 39 .abs [1,1,2,2],
  .coef 22 [2,3,1,1] .abs .ledq [1,2,0,0] 39 .abs [1,2,0,0],
  .coef 22 [2,3,1,2] .abs .ledq [1,2,0,1] 39 .abs [1,2,0,1],
  .coef 22 [2,3,1,3] .abs .ledq [1,2,0,2] 39 .abs [1,2,0,2],
  .coef 22 [2,3,2,1] .abs .ledq [1,2,1,0] 39 .abs [1,2,1,0],
  .coef 22 [2,3,2,2] .abs .ledq [1,2,1,1] 39 .abs [1,2,1,1],
  .coef 22 [2,3,2,3] .abs .ledq [1,2,1,2] 39 .abs [1,2,1,2],
  .coef 22 [2,3,3,1] .abs .ledq [1,2,2,0] 39 .abs [1,2,2,0],
  .coef 22 [2,3,3,2] .abs .ledq [1,2,2,1] 39 .abs [1,2,2,1],
  .coef 22 [2,3,3,3] .abs .ledq [1,2,2,2] 39 .abs [1,2,2,2],
  .coef 22 [3,1,1,1] .abs .ledq [2,0,0,0] 39 .abs [2,0,0,0],
  .coef 22 [3,1,1,2] .abs .ledq [2,0,0,1] 39 .abs [2,0,0,1],
  .coef 22 [3,1,1,3] .abs .ledq [2,0,0,2] 39 .abs [2,0,0,2],
  .coef 22 [3,1,2,1] .abs .ledq [2,0,1,0] 39 .abs [2,0,1,0],
  .coef 22 [3,1,2,2] .abs .ledq [2,0,1,1] 39 .abs [2,0,1,1],
  .coef 22 [3,1,2,3] .abs .ledq [2,0,1,2] 39 .abs [2,0,1,2],
  .coef 22 [3,1,3,1] .abs .ledq [2,0,2,0] 39 .abs [2,0,2,0],
  .coef 22 [3,1,3,2] .abs .ledq [2,0,2,1] 39 .abs [2,0,2,1],
  .coef 22 [3,1,3,3] .abs .ledq [2,0,2,2] 39 .abs [2,0,2,2],
  .coef 22 [3,2,1,1] .abs .ledq [2,1,0,0] 39 .abs [2,1,0,0],
  .coef 22 [3,2,1,2] .abs .ledq [2,1,0,1] 39 .abs [2,1,0,1],
  .coef 22 [3,2,1,3] .abs .ledq [2,1,0,2] 39 .abs [2,1,0,2],
  .coef 22 [3,2,2,1] .abs .ledq [2,1,1,0] 39 .abs [2,1,1,0],
  .coef 22 [3,2,2,2] .abs .ledq [2,1,1,1] 39 .abs [2,1,1,1],
  .coef 22 [3,2,2,3] .abs .ledq [2,1,1,2] 39 .abs [2,1,1,2],
  .coef 22 [3,2,3,1] .abs .ledq [2,1,2,0] 39 .abs [2,1,2,0],
  .coef 22 [3,2,3,2] .abs .ledq [2,1,2,1] 39 .abs [2,1,2,1],
  .coef 22 [3,2,3,3] .abs .ledq [2,1,2,2] 39 .abs [2,1,2,2],
  .coef 22 [3,3,1,1] .abs .ledq [2,2,0,0] 39 .abs [2,2,0,0],
  .coef 22 [3,3,1,2] .abs .ledq [2,2,0,1] 39 .abs [2,2,0,1],
  .coef 22 [3,3,1,3] .abs .ledq [2,2,0,2] 39 .abs [2,2,0,2],
  .coef 22 [3,3,2,1] .abs .ledq [2,2,1,0] 39 .abs [2,2,1,0],
  .coef 22 [3,3,2,2] .abs .ledq [2,2,1,1] 39 .abs [2,2,1,1],
  .coef 22 [3,3,2,3] .abs .ledq [2,2,1,2] 39 .abs [2,2,1,2],
  .coef 22 [3,3,3,1] .abs .ledq [2,2,2,0] 39 .abs [2,2,2,0],
  .coef 22 [3,3,3,2] .abs .ledq [2,2,2,1] 39 .abs [2,2,2,1],
  .coef 22 [3,3,3,3] .abs .ledq [2,2,2,2] 39 .abs [2,2,2,2],
  .coef 23 [1,1] .abs .uphi [0,0] 27 .abs [0,0],
  .coef 23 [1,2] .abs .uphi [0,1] 27 .abs [0,1],
  .coef 23 [1,3] .abs .uphi [0,2] 27 .abs [0,2],
  .coef 23 [2,1] .abs .uphi [1,0] 27 .abs [1,0],
  .coef 23 [2,2] .abs .uphi [1,1] 27 .abs [1,1],
  .coef 23 [2,3] .abs .uphi [1,2] 27 .abs [1,2],
  .coef 23 [3,1] .abs .uphi [2,0] 27 .abs [2,0],
  .coef 23 [3,2] .abs .uphi [2,1] 27 .abs [2,1],
  .coef 23 [3,3] .abs .uphi [2,2] 27 .abs [2,2],
  .coef 24 [1,1,1,1] .angle .ledq [0,0,0,0] 39 .ph [0,0,0,0],
  .coef 24 [1,1,1,2] .angle .ledq [0,0,0,1] 39 .ph [0,0,0,1],
  .coef 24 [1,1,1,3] .angle .ledq [0,0,0,2] 39 .ph [0,0,0,2],
  .coef 24 [1,1,2,1] .angle .ledq [0,0,1,0] 39 .ph [0,0,1,0],
  .coef 24 [1,1,2,2] .angle .ledq [0,0,1,1] 39 .ph [0,0,1,1],
  .coef 24 [1,1,2,3] .angle .ledq [0,0,1,2] 39 .ph [0,0,1,2],
  .coef 24 [1,1,3,1] .angle .ledq [0,0,2,0] 39 .ph [0,0,2,0],
  .coef 24 [1,1,3,2] .angle .ledq [0,0,2,1] 39 .ph [0,0,2,1],
  .coef 24 [1,1,3,3] .angle .ledq [0,0,2,2] 39 .ph [0,0,2,2],
  .coef 24 [1,2,1,1] .angle .ledq [0,1,0,0] 39 .ph [0,1,0,0],
  .coef 24 [1,2,1,2] .angle .ledq [0,1,0,1] 39 .ph [0,1,0,1],
  .coef 24 [1,2,1,3] .angle .ledq [0,1,0,2] 39 .ph [0,1,0,2],
  .coef 24 [1,2,2,1] .angle .ledq [0,1,1,0] 39 .ph [0,1,1,0]]

/-- `smeftsim.py:4537-4664` -/
def rowsB14 : List Row := [
  .coef 24 [1,2,2,2] .angle .ledq [0,1,1,1] 39 .ph [0,1,1,1],
  .coef 24 [1,2,2,3] .angle .ledq [0,1,1,2] 39 .ph [0,1,1,2],
  .coef 24 [1,2,3,1] .angle .ledq [0,1,2,0] 39 .ph [0,1,2,0],
  .coef 24 [1,2,3,2] .angle .ledq [0,1,2,1] 39 .ph [0,1,2,1],
  .coef 24 [1,2,3,3] .angle .ledq [0,1,2,2] 39 .ph [0,1,2,2],
  .coef 24 [1,3,1,1] .angle .ledq [0,2,0,0] 39 .ph [0,2,0,0],
  .coef 24 [1,3,1,2] .angle .ledq [0,2,0,1] 39 .ph [0,2,0,1],
  .coef 24 [1,3,1,3] .angle .ledq [0,2,0,2] 39 .ph [0,2,0,2],
  .coef 24 [1,3,2,1] .angle .ledq [0,2,1,0] 39 .ph [0,2,1,0],
  .coef 24 [1,3,2,2] .angle .ledq [0,2,1,1] 39 .ph [0,2,1,1],
  .coef 24 [1,3,2,3] .angle .ledq [0,2,1,2] 39 .ph [0,2,1,2],
  .coef 24 [1,3,3,1] .angle .ledq [0,2,2,0] 39 .ph [0,2,2,0],
  .coef 24 [1,3,3,2] .angle .ledq [0,2,2,1] 39 .ph [0,2,2,1],
  .coef 24 [1,3,3,3] .angle .ledq [0,2,2,2] 39 .ph [0,2,2,2],
  .coef 24 [2,1,1,1] .angle .ledq [1,0,0,0] 39 .ph [1,0,0,0],
  .coef 24 [2,1,1,2] .angle .ledq [1,0,0,1] 39 .ph [1,0,0,1],
  .coef 24 [2,1,1,3] .angle .ledq [1,0,0,2] 39 .ph [1,0,0,2],
  .coef 24 [2,1,2,1] .angle .ledq [1,0,1,0] 39 .ph [1,0,1,0],
  .coef 24 [2,1,2,2] .angle .ledq [1,0,1,1] 39 .ph [1,0,1,1],
  .coef 24 [2,1,2,3] .angle .ledq [1,0,1,2] 39 .ph [1,0,1,2],
  .coef 24 [2,1,3,1] .angle .ledq [1,0,2,0] 39 .ph [1,0,2,0],
  .coef 24 [2,1,3,2] .angle .ledq [1,0,2,1] 39 .ph [1,0,2,1],
  .coef 24 [2,1,3,3] .angle .ledq [1,0,2,2] 39 .ph [1,0,2,2],
  .coef 24 [2,2,1,1] .angle .ledq [1,1,0,0] 39 .ph [1,1,0,0],
  .coef 24 [2,2,1,2] .angle .ledq [1,1,0,1] 39 .ph [1,1,0,1],
  .coef 24 [2,2,1,3] .angle .ledq [1,1,0,2] 39 .ph [1,1,0,2],
  .coef 24 [2,2,2,1] .angle .ledq [1,1,1,0] 39 .ph [1,1,1,0],
  .coef 24 [2,2,2,2] .angle .ledq [1,1,1,1] 39 .ph [1,1,1,1],
  .coef 24 [2,2,2,3] .angle .ledq [1,1,1,2] 39 .ph [1,1,1,2],
  .coef 24 [2,2,3,1] .angle .ledq [1,1,2,0] 39 .ph [1,1,2,0],
  .coef 24 [2,2,3,2] .angle .ledq [1,1,2,1] 39 .ph [1,1,2,1],
  .coef 24 [2,2,3,3] .angle .ledq [1,1,2,2] 39 .ph [1,1,2,2],
  .coef 24 [2,3,1,1] .angle .ledq [1,2,0,0] 39 .ph [1,2,0,0],
  .coef 24 [2,3,1,2] .angle .ledq [1,2,0,1] 39 .ph [1,2,0,1],
  .coef 24 [2,3,1,3] .angle .ledq [1,2,0,2] 39 .ph [1,2,0,2],
  .coef 24 [2,3,2,1] .angle .ledq [1,2,1,0] 39 .ph [1,2,1,0],
  .coef 24 [2,3,2,2] .angle .ledq [1,2,1,1] 39 .ph [1,2,1,1],
  .coef 24 [2,3,2,3] .angle .ledq [1,2,1,2] 39 .ph [1,2,1,2],
  .coef 24 [2,3,3,1] .angle .ledq [1,2,2,0] 39 .ph [1,2,2,0],
  .coef 24 [2,3,3,2] .angle .ledq [1,2,2,1] 39 .ph [1,2,2,1],
  .coef 24 [2,3,3,3] .angle .ledq [1,2,2,2] 39 .ph [1,2,2,2],
  .coef 24 [3,1,1,1] .angle .ledq [2,0,0,0] 39 .ph [2,0,0,0],
  .coef 24 [3,1,1,2] .angle .ledq [2,0,0,1] 39 .ph [2,0,0,1],
  .coef 24 [3,1,1,3] .angle .ledq [2,0,0,2] 39 .ph [2,0,0,2],
  .coef 24 [3,1,2,1] .angle .ledq [2,0,1,0] 39 .ph [2,0,1,0],
  .coef 24 [3,1,2,2] .angle .ledq [2,0,1,1] 39 .ph [2,0,1,1],
  .coef 24 [3,1,2,3] .angle .ledq [2,0,1,2] 39 .ph [2,0,1,2],
  .coef 24 [3,1,3,1] .angle .ledq [2,0,2,0] 39 .ph [2,0,2,0],
  .coef 24 [3,1,3,2] .angle .ledq [2,0,2,1] 39 .ph [2,0,2,1],
  .coef 24 [3,1,3,3] .angle .ledq [2,0,2,2] 39 .ph [2,0,2,2],
  .coef 24 [3,2,1,1] .angle .ledq [2,1,0,0] 39 .ph [2,1,0,0],
  .coef 24 [3,2,1,2] .angle .ledq [2,1,0,1] 39 .ph [2,1,0,1],
  .coef 24 [3,2,1,3] .angle .ledq [2,1,0,2] 39 .ph [2,1,0,2],
  .coef 24 [3,2,2,1] .angle .ledq [2,1,1,0] 39 .ph [2,1,1,0],
  .coef 24 [3,2,2,2] .angle .ledq [2,1,1,1] 39 .ph [2,1,1,1],
  .coef 24 [3,2,2,3] .angle .ledq [2,1,1,2] 39 .ph [2,1,1,2],
  .coef 24 [3,2,3,1] .angle .ledq [2,1,2,0] 39 .ph [2,1,2,0],
  .coef 24 [3,2,3,2] .angle .ledq [2,1,2,1] 39 .ph [2,1,2,1],
  .coef 24 [3,2,3,3] .angle .ledq [2,1,2,2] 39 .ph [2,1,2,2],
  .coef 24 [3,3,1,1] .angle .ledq [2,2,0,0] 39 .ph [2,2,0,0],
  .coef 24 [3,3,1,2] .angle .ledq [2,2,0,1] 39 .ph [2,2,0,1],
  .coef 24 [3,3,1,3] .angle .ledq [2,2,0,2] 39 .ph [2,2,0,2],
  .coef 24 [3,3,2,1] .angle .ledq [2,2,1,0] 39 .ph [2,2,1,0],
  .coef 24 [3,3,2,2] .angle .ledq [2,2,1,1] 39 .ph [2,2,1,1],
  .coef 24 [3,3,2,3] .angle .ledq [2,2,1,2] 39 .ph [2,2,1,2],
  .coef 24 [3,3,3,1] .angle .ledq [2,2,2,0] 39 .ph [2,2,2,0],
  .coef 24 [3,3,3,2] .angle .ledq [2,2,2,1] 39 .ph [2,2,2,1],
  .coef 24 [3,3,3,3] .angle .ledq [2,2,2,2] 39 .ph [2,2,2,2],
  .coef 25 [1,1,1,1] .abs .quqd1 [0,0,0,0] 40 .abs [0,0,0,0],
  .coef 25 [1,1,1,2] .abs .quqd1 [0,0,0,1] 40 .abs [0,0,0,1],
  .coef 25 [1,1,1,3] .abs .quqd1 [0,0,0,2] 40 .abs [0,0,0,2],
  .coef 25 [1,1,2,1] .abs .quqd1 [0,0,1,0] 40 .abs [0,0,1,0],
  .coef 25 [1,1,2,2] .abs .quqd1 [0,0,1,1] 40 .abs [0,0,1,1],
  .coef 25 [1,1,2,3] .abs .quqd1 [0,0,1,2] 40 .abs [0,0,1,2],
  .coef 25 [1,1,3,1] .abs .quqd1 [0,0,2,0] 40 .abs [0,0,2,0],
  .coef 25 [1,1,3,2] .abs .quqd1 [0,0,2,1] 40 .abs [0,0,2,1],
  .coef 25 [1,1,3,3] .abs .quqd1 [0,0,2,2] 40 .abs [0,0,2,2],
  .coef 25 [1,2,1,1] .abs .quqd1 [0,1,0,0] 40 .abs [0,1,0,0],
  .coef 25 [1,2,1,2] .abs .quqd1 [0,1,0,1] 40 .abs [0,1,0,1],
  .coef 25 [1,2,1,3] .abs .quqd1 [0,1,0,2] 40 .abs [0,1,0,2],
  .coef 25 [1,2,2,1] .abs .quqd1 [0,1,1,0] 40 .abs [0,1,1,0],
  .coef 25 [1,2,2,2] .abs .quqd1 [0,1,1,1] 40 .abs [0,1,1,1],
  .coef 25 [1,2,2,3] .abs .quqd1 [0,1,1,2] 40 .abs [0,1,1,2],
  .coef 25 [1,2,3,1] .abs .quqd1 [0,1,2,0] 40 .abs [0,1,2,0],
  .coef 25 [1,2,3,2] .abs .quqd1 [0,1,2,1] 40 .abs [0,1,2,1],
  .coef 25 [1,2,3,3] .abs .quqd1 [0,1,2,2] 40 .abs [0,1,2,2],
  .coef 25 [1,3,1,1] .abs .quqd1 [0,2,0,0] 40 .abs [0,2,0,0],
  .coef 25 [1,3,1,2] .abs .quqd1 [0,2,0,1] 40 .abs [0,2,0,1],
  .coef 25 [1,3,1,3] .abs .quqd1 [0,2,0,2] 40 .abs [0,2,0,2],
  .coef 25 [1,3,2,1] .abs .quqd1 [0,2,1,0] 40 .abs [0,2,1,0],
  .coef 25 [1,3,2,2] .abs .quqd1 [0,2,1,1] 40 .abs [0,2,1,1],
  .coef 25 [1,3,2,3] .abs .quqd1 [0,2,1,2] 40 .abs [0,2,1,2],
  .coef 25 [1,3,3,1] .abs .quqd1 [0,2,2,0] 40 .abs [0,2,2,0],
  .coef 25 [1,3,3,2] .abs .quqd1 [0,2,2,1] 40 .abs [0,2,2,1],
  .coef 25 [1,3,3,3] .abs .quqd1 [0,2,2,2] 40 .abs [0,2,2,2],
  .coef 25 [2,1,1,1] .abs .quqd1 [1,0,0,0] 40 .abs [1,0,0,0],
  .coef 25 [2,1,1,2] .abs .quqd1 [1,0,0,1] 40 .abs [1,0,0,1],
  .coef 25 [2,1,1,3] .abs .quqd1 [1,0,0,2] 40 .abs [1,0,0,2],
  .coef 25 [2,1,2,1] .abs .quqd1 [1,0,1,0] 40 .abs [1,0,1,0],
  .coef 25 [2,1,2,2] .abs .quqd1 [1,0,1,1] 40 .abs [1,0,1,1],
  .coef 25 [2,1,2,3] .abs .quqd1 [1,0,1,2] 40 .abs [1,0,1,2],
  .coef 25 [2,1,3,1] .abs .quqd1 [1,0,2,0] 40 .abs [1,0,2,0],
  .coef 25 [2,1,3,2] .abs .quqd1 [1,0,2,1] 40 .abs [1,0,2,1],
  .coef 25 [2,1,3,3] .abs .quqd1 [1,0,2,2] 40 .abs [1,0,2,2],
  .coef 25 [2,2,1,1] .abs .quqd1 [1,1,0,0] 40 .abs [1,1,0,0],
  .coef 25 [2,2,1,2] .abs .quqd1 [1,1,0,1] 40 .abs [1,1,0,1],
  .coef 25 [2,2,1,3] .abs .quqd1 [1,1,0,2] 40 .abs [1,1,0,2],
  .coef 25 [2,2,2,1] .abs .quqd1 [1,1,1,0] 40 .abs [1,1,1,0],
  .coef 25 [2,2,2,2] .abs .quqd1 [1,1,1,1] 40 .abs [1,1,1,1],
  .coef 25 [2,2,2,3] .abs .quqd1 [1,1,1,2] 40 .abs [1,1,1,2],
  .coef 25 [2,2,3,1] .abs .quqd1 [1,1,2,0] 40 .abs [1,1,2,0],
  .coef 25 [2,2,3,2] .abs .quqd1 [1,1,2,1] 40 .abs [1,1,2,1],
  .coef 25 [2,2,3,3] .abs .quqd1 [1,1,2,2] 40 .abs [1,1,2,2],
  .coef 25 [2,3,1,1] .abs .quqd1 [1,2,0,0] 40 .abs [1,2,0,0],
  .coef 25 [2,3,1,2] .abs .quqd1 [1,2,0,1] 40 .abs [1,2,0,1],
  .coef 25 [2,3,1,3] .abs .quqd1 [1,2,0,2] 40 .abs [1,2,0,2],
  .coef 25 [2,3,2,1] .abs .quqd1 [1,2,1,0] 40 .abs [1,2,1,0],
  .coef 25 [2,3,2,2] .abs .quqd1 [1,2,1,1] 40 .abs [1,2,1,1],
  .coef 25 [2,3,2,3] .abs .quqd1 [1,2,1,2] 40 .abs [1,2,1,2],
  .coef 25 [2,3,3,1] .abs .quqd1 [1,2,2,0] 40 .abs [1,2,2,0],
  .coef 25 [2,3,3,2] .abs .quqd1 [1,2,2,1] 40 .abs [1,2,2,1],
  .coef 25 [2,3,3,3] .abs .quqd1 [1,2,2,2] 40 .abs [1,2,2,2],
  .coef 25 [3,1,1,1] .abs .quqd1 [2,0,0,0] 40 .abs [2,0,0,0],
  .coef 25 [3,1,1,2] .abs .quqd1 [2,0,0,1] 40 .abs [2,0,0,1],
  .coef 25 [3,1,1,3] .abs .quqd1 [2,0,0,2] 40 .abs [2,0,0,2]]

/-- `smeftsim.py:4665-4795` -/
def rowsB15 : List Row := [
  .coef 25 [3,1,2,1] .abs .quqd1 [2,0,1,0] 40 .abs [2,0,1,0],
  .coef 25 [3,1,2,2] .abs .quqd1 [2,0,1,1] 40 .abs [2,0,1,1],
  .coef 25 [3,1,2,3] .abs .quqd1 [2,0,1,2] 40 .abs [2,0,1,2],
  .coef 25 [3,1,3,1] .abs .quqd1 [2,0,2,0] 40 .abs [2,0,2,0],
  .coef 25 [3,1,3,2] .abs .quqd1 [2,0,2,1] 40 .abs [2,0,2,1],
  .coef 25 [3,1,3,3] .abs .quqd1 [2,0,2,2] 40 .abs [2,0,2,2],
  .coef 25 [3,2,1,1] .abs .quqd1 [2,1,0,0] 40 .abs [2,1,0,0],
  .coef 25 [3,2,1,2] .abs .quqd1 [2,1,0,1] 40 .abs [2,1,0,1],
  .coef 25 [3,2,1,3] .abs .quqd1 [2,1,0,2] 40 .abs [2,1,0,2],
  .coef 25 [3,2,2,1] .abs .quqd1 [2,1,1,0] 40 .abs [2,1,1,0],
  .coef 25 [3,2,2,2] .abs .quqd1 [2,1,1,1] 40 .abs [2,1,1,1],
  .coef 25 [3,2,2,3] .abs .quqd1 [2,1,1,2] 40 .abs [2,1,1,2],
  .coef 25 [3,2,3,1] .abs .quqd1 [2,1,2,0] 40 .abs [2,1,2,0],
  .coef 25 [3,2,3,2] .abs .quqd1 [2,1,2,1] 40 .abs [2,1,2,1],
  .coef 25 [3,2,3,3] .abs .quqd1 [2,1,2,2] 40 .abs [2,1,2,2],
  .coef 25 [3,3,1,1] .abs .quqd1 [2,2,0,0] 40 .abs [2,2,0,0],
  .coef 25 [3,3,1,2] .abs .quqd1 [2,2,0,1] 40 .abs [2,2,0,1],
  .coef 25 [3,3,1,3] .abs .quqd1 [2,2,0,2] 40 .abs [2,2,0,2],
  .coef 25 [3,3,2,1] .abs .quqd1 [2,2,1,0] 40 .abs [2,2,1,0],
  .coef 25 [3,3,2,2] .abs .quqd1 [2,2,1,1] 40 .abs [2,2,1,1],
  .coef 25 [3,3,2,3] .abs .quqd1 [2,2,1,2] 40 .abs [2,2,1,2],
  .coef 25 [3,3,3,1] .abs .quqd1 [2,2,2,0] 40 .abs [2,2,2,0],
  .coef 25 [3,3,3,2] .abs .quqd1 [2,2,2,1] 40 .abs [2,2,2,1],
  .coef 25 [3,3,3,3] .abs .quqd1 [2,2,2,2] 40 .abs [2,2,2,2],
  .coef 26 [1,1,1,1] .angle .quqd1 [0,0,0,0] 40 .ph [0,0,0,0],
  .coef 26 [1,1,1,2] .angle .quqd1 [0,0,0,1] 40 .ph [0,0,0,1],
  .coef 26 [1,1,1,3] .angle .quqd1 [0,0,0,2] 40 .ph [0,0,0,2],
  .coef 26 [1,1,2,1] .angle .quqd1 [0,0,1,0] 40 .ph [0,0,1,0],
  .coef 26 [1,1,2,2] .angle .quqd1 [0,0,1,1] 40 .ph [0,0,1,1],
  .coef 26 [1,1,2,3] .angle .quqd1 [0,0,1,2] 40 .ph [0,0,1,2],
  .coef 26 [1,1,3,1] .angle .quqd1 [0,0,2,0] 40 .ph [0,0,2,0],
  .coef 26 [1,1,3,2] .angle .quqd1 [0,0,2,1] 40 .ph [0,0,2,1],
  .coef 26 [1,1,3,3] .angle .quqd1 [0,0,2,2] 40 .ph [0,0,2,2],
  .coef 26 [1,2,1,1] .angle .quqd1 [0,1,0,0] 40 .ph [0,1,0,0],
  .coef 26 [1,2,1,2] .angle .quqd1 [0,1,0,1] 40 .ph [0,1,0,1],
  .coef 26 [1,2,1,3] .angle .quqd1 [0,1,0,2] 40 .ph [0,1,0,2],
  .coef 26 [1,2,2,1] .angle .quqd1 [0,1,1,0] 40 .ph [0,1,1,0],
  .coef 26 [1,2,2,2] .angle .quqd1 [0,1,1,1] 40 .ph [0,1,1,1],
  .coef 26 [1,2,2,3] .angle .quqd1 [0,1,1,2] 40 .ph [0,1,1,2],
  .coef 26 [1,2,3,1] .angle .quqd1 [0,1,2,0] 40 .ph [0,1,2,0],
  .coef 26 [1,2,3,2] .angle .quqd1 [0,1,2,1] 40 .ph [0,1,2,1],
  .coef 26 [1,2,3,3] .angle .quqd1 [0,1,2,2] 40 .ph [0,1,2,2],
  .coef 26 [1,3,1,1] .angle .quqd1 [0,2,0,0] 40 .ph [0,2,0,0],
  .coef 26 [1,3,1,2] .angle .quqd1 [0,2,0,1] 40 .ph [0,2,0,1],
  .coef 26 [1,3,1,3] .angle .quqd1 [0,2,0,2] 40 .ph [0,2,0,2],
  .coef 26 [1,3,2,1] .angle .quqd1 [0,2,1,0] 40 .ph [0,2,1,0],
  .coef 26 [1,3,2,2] .angle .quqd1 [0,2,1,1] 40 .ph [0,2,1,1],
  .coef 26 [1,3,2,3] .angle .quqd1 [0,2,1,2] 40 .ph [0,2,1,2],
  .coef 26 [1,3,3,1] .angle .quqd1 [0,2,2,0] 40 .ph [0,2,2,0],
  .coef 26 [1,3,3,2] .angle .quqd1 [0,2,2,1] 40 .ph [0,2,2,1],
  .coef 26 [1,3,3,3] .angle .quqd1 [0,2,2,2] 40 .ph [0,2,2,2],
  .coef 26 [2,1,1,1] .angle .quqd1 [1,0,0,0] 40 .ph [1,0,0,0],
  .coef 26 [2,1,1,2] .angle .quqd1 [1,0,0,1] 40 .ph [1,0,0,1],
  .coef 26 [2,1,1,3] .angle .quqd1 [1,0,0,2] 40 .ph [1,0,0,2],
  .coef 26 [2,1,2,1] .angle .quqd1 [1,0,1,0] 40 .ph [1,0,1,0],
  .coef 26 [2,1,2,2] .angle .quqd1 [1,0,1,1] 40 .ph [1,0,1,1],
  .coef 26 [2,1,2,3] .angle .quqd1 [1,0,1,2] 40 .ph [1,0,1,2],
  .coef 26 [2,1,3,1] .angle .quqd1 [1,0,2,0] 40 .ph [1,0,2,0],
  .coef 26 [2,1,3,2] .angle .quqd1 [1,0,2,1] 40 .ph [1,0,2,1],
  .coef 26 [2,1,3,3] .angle .quqd1 [1,0,2,2] 40 .ph [1,0,2,2],
  .coef 26 [2,2,1,1] .angle .quqd1 [1,1,0,0] 40 .ph [1,1,0,0],
  .coef 26 [2,2,1,2] .angle .quqd1 [1,1,0,1] 40 .ph [1,1,0,1],
  .coef 26 [2,2,1,3] .angle .quqd1 [1,1,0,2] 40 .ph [1,1,0,2],
  .coef 26 [2,2,2,1] .angle .quqd1 [1,1,1,0] 40 .ph [1,1,1,0],
  .coef 26 [2,2,2,2] .angle .quqd1 [1,1,1,1] 40 .ph [1,1,1,1],
  .coef 26 [2,2,2,3] .angle .quqd1 [1,1,1,2] 40 .ph [1,1,1,2],
  .coef 26 [2,2,3,1] .angle .quqd1 [1,1,2,0] 40 .ph [1,1,2,0],
  .coef 26 [2,2,3,2] .angle .quqd1 [1,1,2,1] 40 .ph [1,1,2,1],
  .coef 26 [2,2,3,3] .angle .quqd1 [1,1,2,2] 40 .ph [1,1,2,2],
  .coef 26 [2,3,1,1] .angle .quqd1 [1,2,0,0] 40 .ph [1,2,0,0],
  .coef 26 [2,3,1,2] .angle .quqd1 [1,2,0,1] 40 .ph [1,2,0,1],
  .coef 26 [2,3,1,3] .angle .quqd1 [1,2,0,2] 40 .ph [1,2,0,2],
  .coef 26 [2,3,2,1] .angle .quqd1 [1,2,1,0] 40 .ph [1,2,1,0],
  .coef 26 [2,3,2,2] .angle .quqd1 [1,2,1,1] 40 .ph [1,2,1,1],
  .coef 26 [2,3,2,3] .angle .quqd1 [1,2,1,2] 40 .ph [1,2,1,2],
  .coef 26 [2,3,3,1] .angle .quqd1 [1,2,2,0] 40 .ph [1,2,2,0],
  .coef 26 [2,3,3,2] .angle .quqd1 [1,2,2,1] 40 .ph [1,2,2,1],
  .coef 26 [2,3,3,3] .angle .quqd1 [1,2,2,2] 40 .ph [1,2,2,2],
  .coef 26 [3,1,1,1] .angle .quqd1 [2,0,0,0] 40 .ph [2,0,0,0],
  .coef 26 [3,1,1,2] .angle .quqd1 [2,0,0,1] 40 .ph [2,0,0,1],
  .coef 26 [3,1,1,3] .angle .quqd1 [2,0,0,2] 40 .ph [2,0,0,2],
  .coef 26 [3,1,2,1] .angle .quqd1 [2,0,1,0] 40 .ph [2,0,1,0],
  .coef 26 [3,1,2,2] .angle .quqd1 [2,0,1,1] 40 .ph [2,0,1,1],
  .coef 26 [3,1,2,3] .angle .quqd1 [2,0,1,2] 40 .ph [2,0,1,2],
  .coef 26 [3,1,3,1] .angle .quqd1 [2,0,2,0] 40 .ph [2,0,2,0],
  .coef 26 [3,1,3,2] .angle .quqd1 [2,0,2,1] 40 .ph [2,0,2,1],
  .coef 26 [3,1,3,3] .angle .quqd1 [2,0,2,2] 40 .ph [2,0,2,2],
  .coef 26 [3,2,1,1] .angle .quqd1 [2,1,0,0] 40 .ph [2,1,0,0],
  .coef 26 [3,2,1,2] .angle .quqd1 [2,1,0,1] 40 .ph [2,1,0,1],
  .coef 26 [3,2,1,3] .angle .quqd1 [2,1,0,2] 40 .ph [2,1,0,2],
  .coef 26 [3,2,2,1] .angle .quqd1 [2,1,1,0] 40 .ph [2,1,1,0],
  .coef 26 [3,2,2,2] .angle .quqd1 [2,1,1,1] 40 .ph [2,1,1,1],
  .coef 26 [3,2,2,3] .angle .quqd1 [2,1,1,2] 40 .ph [2,1,1,2],
  .coef 26 [3,2,3,1] .angle .quqd1 [2,1,2,0] 40 .ph [2,1,2,0],
  .coef 26 [3,2,3,2] .angle .quqd1 [2,1,2,1] 40 .ph [2,1,2,1],
  .coef 26 [3,2,3,3] .angle .quqd1 [2,1,2,2] 40 .ph [2,1,2,2],
  .coef 26 [3,3,1,1] .angle .quqd1 [2,2,0,0] 40 .ph [2,2,0,0],
  .coef 26 [3,3,1,2] .angle .quqd1 [2,2,0,1] 40 .ph [2,2,0,1],
  .coef 26 [3,3,1,3] .angle .quqd1 [2,2,0,2] 40 .ph [2,2,0,2],
  .coef 26 [3,3,2,1] .angle .quqd1 [2,2,1,0] 40 .ph [2,2,1,0],
  .coef 26 [3,3,2,2] .angle .quqd1 [2,2,1,1] 40 .ph [2,2,1,1],
  .coef 26 [3,3,2,3] .angle .quqd1 [2,2,1,2] 40 .ph [2,2,1,2],
  .coef 26 [3,3,3,1] .angle .quqd1 [2,2,2,0] 40 .ph [2,2,2,0],
  .coef 26 [3,3,3,2] .angle .quqd1 [2,2,2,1] 40 .ph [2,2,2,1],
  .coef 26 [3,3,3,3] .angle .quqd1 [2,2,2,2] 40 .ph [2,2,2,2],
  .coef 27 [1,1,1,1] .abs .quqd8 [0,0,0,0] 41 .abs [0,0,0,0],
  .coef 27 [1,1,1,2] .abs .quqd8 [0,0,0,1] 41 .abs [0,0,0,1],
  .coef 27 [1,1,1,3] .abs .quqd8 [0,0,0,2] 41 .abs [0,0,0,2],
  .coef 27 [1,1,2,1] .abs .quqd8 [0,0,1,0] 41 .abs [0,0,1,0],
  .coef 27 [1,1,2,2] .abs .quqd8 [0,0,1,1] 41 .abs [0,0,1,1],
  .coef 27 [1,1,2,3] .abs .quqd8 [0,0,1,2] 41 .abs [0,0,1,2],
  .coef 27 [1,1,3,1] .abs .quqd8 [0,0,2,0] 41 .abs [0,0,2,0],
  .coef 27 [1,1,3,2] .abs .quqd8 [0,0,2,1] 41 .abs [0,0,2,1],
  .coef 27 [1,1,3,3] .abs .quqd8 [0,0,2,2] 41 .abs [0,0,2,2],
  .coef 27 [1,2,1,1] .abs .quqd8 [0,1,0,0] 41 .abs [0,1,0,0],
  .coef 27 [1,2,1,2] .abs .quqd8 [0,1,0,1] 41 .abs [0,1,0,1],
  .coef 27 [1,2,1,3] .abs .quqd8 [0,1,0,2] 41 .abs [0,1,0,2],
  .coef 27 [1,2,2,1] .abs .quqd8 [0,1,1,0] 41 .abs [0,1,1,0],
  .coef 27 [1,2,2,2] .abs .quqd8 [0,1,1,1] 41 .abs [0,1,1,1],
  .coef 27 [1,2,2,3] .abs .quqd8 [0,1,1,2] 41 .abs [0,1,1,2],
  .coef 27 [1,2,3,1] .abs .quqd8 [0,1,2,0] 41 .abs [0,1,2,0],
  .coef 27 [1,2,3,2] .abs .quqd8 [0,1,2,1] 41 .abs [0,1,2,1],
  .coef 27 [1,2,3,3] .abs .quqd8 [0,1,2,2] 41 .abs [0,1,2,2],
  .coef 27 [1,3,1,1] .abs .quqd8 [0,2,0,0] 41 .abs [0,2,0,0],
  .coef 27 [1,3,1,2] .abs .quqd8 [0,2,0,1] 41 .abs [0,2,0,1]]

/-- `smeftsim.py:4796-4923` -/
def rowsB16 : List Row := [
  .coef 27 [1,3,1,3] .abs .quqd8 [0,2,0,2] 41 .abs [0,2,0,2],
  .coef 27 [1,3,2,1] .abs .quqd8 [0,2,1,0] 41 .abs [0,2,1,0],
  .coef 27 [1,3,2,2] .abs .quqd8 [0,2,1,1] 41 .abs [0,2,1,1],
  .coef 27 [1,3,2,3] .abs .quqd8 [0,2,1,2] 41 .abs [0,2,1,2],
  .coef 27 [1,3,3,1] .abs .quqd8 [0,2,2,0] 41 .abs [0,2,2,0],
  .coef 27 [1,3,3,2] .abs .quqd8 [0,2,2,1] 41 .abs [0,2,2,1],
  .coef 27 [1,3,3,3] .abs .quqd8 [0,2,2,2] 41 .abs [0,2,2,2],
  .coef 27 [2,1,1,1] .abs .quqd8 [1,0,0,0] 41 .abs [1,0,0,0],
  .coef 27 [2,1,1,2] .abs .quqd8 [1,0,0,1] 41 .abs [1,0,0,1],
  .coef 27 [2,1,1,3] .abs .quqd8 [1,0,0,2] 41 .abs [1,0,0,2],
  .coef 27 [2,1,2,1] .abs .quqd8 [1,0,1,0] 41 .abs [1,0,1,0],
  .coef 27 [2,1,2,2] .abs .quqd8 [1,0,1,1] 41 .abs [1,0,1,1],
  .coef 27 [2,1,2,3] .abs .quqd8 [1,0,1,2] 41 .abs [1,0,1,2],
  .coef 27 [2,1,3,1] .abs .quqd8 [1,0,2,0] 41 .abs [1,0,2,0],
  .coef 27 [2,1,3,2] .abs .quqd8 [1,0,2,1] 41 .abs [1,0,2,1],
  .coef 27 [2,1,3,3] .abs .quqd8 [1,0,2,2] 41 .abs [1,0,2,2],
  .coef 27 [2,2,1,1] .abs .quqd8 [1,1,0,0] 41 .abs [1,1,0,0],
  .coef 27 [2,2,1,2] .abs .quqd8 [1,1,0,1] 41 .abs [1,1,0,1],
  .coef 27 [2,2,1,3] .abs .quqd8 [1,1,0,2] 41 .abs [1,1,0,2],
  .coef 27 [2,2,2,1] .abs .quqd8 [1,1,1,0] 41 .abs [1,1,1,0],
  .coef 27 [2,2,2,2] .abs .quqd8 [1,1,1,1] 41 .abs [1,1,1,1],
  .coef 27 [2,2,2,3] .abs .quqd8 [1,1,1,2] 41 .abs [1,1,1,2],
  .coef 27 [2,2,3,1] .abs .quqd8 [1,1,2,0] 41 .abs [1,1,2,0],
  .coef 27 [2,2,3,2] .abs .quqd8 [1,1,2,1] 41 .abs [1,1,2,1],
  .coef 27 [2,2,3,3] .abs .quqd8 [1,1,2,2] 41 .abs [1,1,2,2],
  .coef 27 [2,3,1,1] .abs .quqd8 [1,2,0,0] 41 .abs [1,2,0,0],
  .coef 27 [2,3,1,2] .abs .quqd8 [1,2,0,1] 41 .abs [1,2,0,1],
  .coef 27 [2,3,1,3] .abs .quqd8 [1,2,0,2] 41 .abs [1,2,0,2],
  .coef 27 [2,3,2,1] .abs .quqd8 [1,2,1,0] 41 .abs [1,2,1,0],
  .coef 27 [2,3,2,2] .abs .quqd8 [1,2,1,1] 41 .abs [1,2,1,1],
  .coef 27 [2,3,2,3] .abs .quqd8 [1,2,1,2] 41 .abs [1,2,1,2],
  .coef 27 [2,3,3,1] .abs .quqd8 [1,2,2,0] 41 .abs [1,2,2,0],
  .coef 27 [2,3,3,2] .abs .quqd8 [1,2,2,1] 41 .abs [1,2,2,1],
  .coef 27 [2,3,3,3] .abs .quqd8 [1,2,2,2] 41 .abs [1,2,2,2],
  .coef 27 [3,1,1,1] .abs .quqd8 [2,0,0,0] 41 .abs [2,0,0,0],
  .coef 27 [3,1,1,2] .abs .quqd8 [2,0,0,1] 41 .abs [2,0,0,1],
  .coef 27 [3,1,1,3] .abs .quqd8 [2,0,0,2] 41 .abs [2,0,0,2],
  .coef 27 [3,1,2,1] .abs .quqd8 [2,0,1,0] 41 .abs [2,0,1,0],
  .coef 27 [3,1,2,2] .abs .quqd8 [2,0,1,1] 41 .abs [2,0,1,1],
  .coef 27 [3,1,2,3] .abs .quqd8 [2,0,1,2] 41 .abs [2,0,1,2],
  .coef 27 [3,1,3,1] .abs .quqd8 [2,0,2,0] 41 .abs [2,0,2,0],
  .coef 27 [3,1,3,2] .abs .quqd8 [2,0,2,1] 41 .abs [2,0,2,1],
  .coef 27 [3,1,3,3] .abs .quqd8 [2,0,2,2] 41 .abs [2,0,2,2],
  .coef 27 [3,2,1,1] .abs .quqd8 [2,1,0,0] 41 .abs [2,1,0,0],
  .coef 27 [3,2,1,2] .abs .quqd8 [2,1,0,1] 41 .abs [2,1,0,1],
  .coef 27 [3,2,1,3] .abs .quqd8 [2,1,0,2] 41 .abs [2,1,0,2],
  .coef 27 [3,2,2,1] .abs .quqd8 [2,1,1,0] 41 .abs [2,1,1,0],
  .coef 27 [3,2,2,2] .abs .quqd8 [2,1,1,1] 41 .abs [2,1,1,1],
  .coef 27 [3,2,2,3] .abs .quqd8 [2,1,1,2] 41 .abs [2,1,1,2],
  .coef 27 [3,2,3,1] .abs .quqd8 [2,1,2,0] 41 .abs [2,1,2,0],
  .coef 27 [3,2,3,2] .abs .quqd8 [2,1,2,1] 41 .abs [2,1,2,1],
  .coef 27 [3,2,3,3] .abs .quqd8 [2,1,2,2] 41 .abs [2,1,2,2],
  .coef 27 [3,3,1,1] .abs .quqd8 [2,2,0,0] 41 .abs [2,2,0,0],
  .coef 27 [3,3,1,2] .abs .quqd8 [2,2,0,1] 41 .abs [2,2,0,1],
  .coef 27 [3,3,1,3] .abs .quqd8 [2,2,0,2] 41 .abs [2,2,0,2],
  .coef 27 [3,3,2,1] .abs .quqd8 [2,2,1,0] 41 .abs [2,2,1,0],
  .coef 27 [3,3,2,2] .abs .quqd8 [2,2,1,1] 41 .abs [2,2,1,1],
  .coef 27 [3,3,2,3] .abs .quqd8 [2,2,1,2] 41 .abs [2,2,1,2],
  .coef 27 [3,3,3,1] .abs .quqd8 [2,2,2,0] 41 .abs [2,2,2,0],
  .coef 27 [3,3,3,2] .abs .quqd8 [2,2,2,1] 41 .abs [2,2,2,1],
  .coef 27 [3,3,3,3] .abs .quqd8 [2,2,2,2] 41 .abs [2,2,2,2],
  .coef 28 [1,1,1,1] .angle .quqd8 [0,0,0,0] 41 .ph [0,0,0,0],
  .coef 28 [1,1,1,2] .angle .quqd8 [0,0,0,1] 41 .ph [0,0,0,1],
  .coef 28 [1,1,1,3] .angle .quqd8 [0,0,0,2] 41 .ph [0,0,0,2],
  .coef 28 [1,1,2,1] .angle .quqd8 [0,0,1,0] 41 .ph [0,0,1,0],
  .coef 28 [1,1,2,2] .angle .quqd8 [0,0,1,1] 41 .ph [0,0,1,1],
  .coef 28 [1,1,2,3] .angle .quqd8 [0,0,1,2] 41 .ph [0,0,1,2],
  .coef 28 [1,1,3,1] .angle .quqd8 [0,0,2,0] 41 .ph [0,0,2,0],
  .coef 28 [1,1,3,2] .angle .quqd8 [0,0,2,1] 41 .ph [0,0,2,1],
  .coef 28 [1,1,3,3] .angle .quqd8 [0,0,2,2] 41 .ph [0,0,2,2],
  .coef 28 [1,2,1,1] .angle .quqd8 [0,1,0,0] 41 .ph [0,1,0,0],
  .coef 28 [1,2,1,2] .angle .quqd8 [0,1,0,1] 41 .ph [0,1,0,1],
  .coef 28 [1,2,1,3] .angle .quqd8 [0,1,0,2] 41 .ph [0,1,0,2],
  .coef 28 [1,2,2,1] .angle .quqd8 [0,1,1,0] 41 .ph [0,1,1,0],
  .coef 28 [1,2,2,2] .angle .quqd8 [0,1,1,1] 41 .ph [0,1,1,1],
  .coef 28 [1,2,2,3] .angle .quqd8 [0,1,1,2] 41 .ph [0,1,1,2],
  .coef 28 [1,2,3,1] .angle .quqd8 [0,1,2,0] 41 .ph [0,1,2,0],
  .coef 28 [1,2,3,2] .angle .quqd8 [0,1,2,1] 41 .ph [0,1,2,1],
  .coef 28 [1,2,3,3] .angle .quqd8 [0,1,2,2] 41 .ph [0,1,2,2],
  .coef 28 [1,3,1,1] .angle .quqd8 [0,2,0,0] 41 .ph [0,2,0,0],
  .coef 28 [1,3,1,2] .angle .quqd8 [0,2,0,1] 41 .ph [0,2,0,1],
  .coef 28 [1,3,1,3] .angle .quqd8 [0,2,0,2] 41 .ph [0,2,0,2],
  .coef 28 [1,3,2,1] .angle .quqd8 [0,2,1,0] 41 .ph [0,2,1,0],
  .coef 28 [1,3,2,2] .angle .quqd8 [0,2,1,1] 41 .ph [0,2,1,1],
  .coef 28 [1,3,2,3] .angle .quqd8 [0,2,1,2] 41 .ph [0,2,1,2],
  .coef 28 [1,3,3,1] .angle .quqd8 [0,2,2,0] 41 .ph [0,2,2,0],
  .coef 28 [1,3,3,2] .angle .quqd8 [0,2,2,1] 41 .ph [0,2,2,1],
  .coef 28 [1,3,3,3] .angle .quqd8 [0,2,2,2] 41 .ph [0,2,2,2],
  .coef 28 [2,1,1,1] .angle .quqd8 [1,0,0,0] 41 .ph [1,0,0,0],
  .coef 28 [2,1,1,2] .angle .quqd8 [1,0,0,1] 41 .ph [1,0,0,1],
  .coef 28 [2,1,1,3] .angle .quqd8 [1,0,0,2] 41 .ph [1,0,0,2],
  .coef 28 [2,1,2,1] .angle .quqd8 [1,0,1,0] 41 .ph [1,0,1,0],
  .coef 28 [2,1,2,2] .angle .quqd8 [1,0,1,1] 41 .ph [1,0,1,1],
  .coef 28 [2,1,2,3] .angle .quqd8 [1,0,1,2] 41 .ph [1,0,1,2],
  .coef 28 [2,1,3,1] .angle .quqd8 [1,0,2,0] 41 .ph [1,0,2,0],
  .coef 28 [2,1,3,2] .angle .quqd8 [1,0,2,1] 41 .ph [1,0,2,1],
  .coef 28 [2,1,3,3] .angle .quqd8 [1,0,2,2] 41 .ph [1,0,2,2],
  .coef 28 [2,2,1,1] .angle .quqd8 [1,1,0,0] 41 .ph [1,1,0,0],
  .coef 28 [2,2,1,2] .angle .quqd8 [1,1,0,1] 41 .ph [1,1,0,1],
  .coef 28 [2,2,1,3] .angle .quqd8 [1,1,0,2] 41 .ph [1,1,0,2],
  .coef 28 [2,2,2,1] .angle .quqd8 [1,1,1,0] 41 .ph [1,1,1,0],
  .coef 28 [2,2,2,2] .angle .quqd8 [1,1,1,1] 41 .ph [1,1,1,1],
  .coef 28 [2,2,2,3] .angle .quqd8 [1,1,1,2] 41 .ph [1,1,1,2],
  .coef 28 [2,2,3,1] .angle .quqd8 [1,1,2,0] 41 .ph [1,1,2,0],
  .coef 28 [2,2,3,2] .angle .quqd8 [1,1,2,1] 41 .ph [1,1,2,1],
  .coef 28 [2,2,3,3] .angle .quqd8 [1,1,2,2] 41 .ph [1,1,2,2],
  .coef 28 [2,3,1,1] .angle .quqd8 [1,2,0,0] 41 .ph [1,2,0,0],
  .coef 28 [2,3,1,2] .angle .quqd8 [1,2,0,1] 41 .ph [1,2,0,1],
  .coef 28 [2,3,1,3] .angle .quqd8 [1,2,0,2] 41 .ph [1,2,0,2],
  .coef 28 [2,3,2,1] .angle .quqd8 [1,2,1,0] 41 .ph [1,2,1,0],
  .coef 28 [2,3,2,2] .angle .quqd8 [1,2,1,1] 41 .ph [1,2,1,1],
  .coef 28 [2,3,2,3] .angle .quqd8 [1,2,1,2] 41 .ph [1,2,1,2],
  .coef 28 [2,3,3,1] .angle .quqd8 [1,2,2,0] 41 .ph [1,2,2,0],
  .coef 28 [2,3,3,2] .angle .quqd8 [1,2,2,1] 41 .ph [1,2,2,1],
  .coef 28 [2,3,3,3] .angle .quqd8 [1,2,2,2] 41 .ph [1,2,2,2],
  .coef 28 [3,1,1,1] .angle .quqd8 [2,0,0,0] 41 .ph [2,0,0,0],
  .coef 28 [3,1,1,2] .angle .quqd8 [2,0,0,1] 41 .ph [2,0,0,1],
  .coef 28 [3,1,1,3] .angle .quqd8 [2,0,0,2] 41 .ph [2,0,0,2],
  .coef 28 [3,1,2,1] .angle .quqd8 [2,0,1,0] 41 .ph [2,0,1,0],
  .coef 28 [3,1,2,2] .angle .quqd8 [2,0,1,1] 41 .ph [2,0,1,1],
  .coef 28 [3,1,2,3] .angle .quqd8 [2,0,1,2] 41 .ph [2,0,1,2],
  .coef 28 [3,1,3,1] .angle .quqd8 [2,0,2,0] 41 .ph [2,0,2,0],
  .coef 28 [3,1,3,2] .angle .quqd8 [2,0,2,1] 41 .ph [2,0,2,1],
  .coef 28 [3,1,3,3] .angle .quqd8 [2,0,2,2] 41 .ph [2,0,2,2],
  .coef 28 [3,2,1,1] .angle .quqd8 [2,1,0,0] 41 .ph [2,1,0,0]]

/-- `smeftsim.py:4924-5054` -/
def rowsB17 : List Row := [
  .coef 28 [3,2,1,2] .angle .quqd8 [2,1,0,1] 41 .ph [2,1,0,1],
  .coef 28 [3,2,1,3] .angle .quqd8 [2,1,0,2] 41 .ph [2,1,0,2],
  .coef 28 [3,2,2,1] .angle .quqd8 [2,1,1,0] 41 .ph [2,1,1,0],
  .coef 28 [3,2,2,2] .angle .quqd8 [2,1,1,1] 41 .ph [2,1,1,1],
  .coef 28 [3,2,2,3] .angle .quqd8 [2,1,1,2] 41 .ph [2,1,1,2],
  .coef 28 [3,2,3,1] .angle .quqd8 [2,1,2,0] 41 .ph [2,1,2,0],
  .coef 28 [3,2,3,2] .angle .quqd8 [2,1,2,1] 41 .ph [2,1,2,1],
  .coef 28 [3,2,3,3] .angle .quqd8 [2,1,2,2] 41 .ph [2,1,2,2],
  .coef 28 [3,3,1,1] .angle .quqd8 [2,2,0,0] 41 .ph [2,2,0,0],
  .coef 28 [3,3,1,2] .angle .quqd8 [2,2,0,1] 41 .ph [2,2,0,1],
  .coef 28 [3,3,1,3] .angle .quqd8 [2,2,0,2] 41 .ph [2,2,0,2],
  .coef 28 [3,3,2,1] .angle .quqd8 [2,2,1,0] 41 .ph [2,2,1,0],
  .coef 28 [3,3,2,2] .angle .quqd8 [2,2,1,1] 41 .ph [2,2,1,1],
  .coef 28 [3,3,2,3] .angle .quqd8 [2,2,1,2] 41 .ph [2,2,1,2],
  .coef 28 [3,3,3,1] .angle .quqd8 [2,2,2,0] 41 .ph [2,2,2,0],
  .coef 28 [3,3,3,2] .angle .quqd8 [2,2,2,1] 41 .ph [2,2,2,1],
  .coef 28 [3,3,3,3] .angle .quqd8 [2,2,2,2] 41 .ph [2,2,2,2],
  .coef 29 [1,1,1,1] .abs .lequ1 [0,0,0,0] 42 .abs [0,0,0,0],
  .coef 29 [1,1,1,2] .abs .lequ1 [0,0,0,1] 42 .abs [0,0,0,1],
  .coef 29 [1,1,1,3] .abs .lequ1 [0,0,0,2] 42 .abs [0,0,0,2],
  .coef 29 [1,1,2,1] .abs .lequ1 [0,0,1,0] 42 .abs [0,0,1,0],
  .coef 29 [1,1,2,2] .abs .lequ1 [0,0,1,1] 42 .abs [0,0,1,1],
  .coef 29 [1,1,2,3] .abs .lequ1 [0,0,1,2] 42 .abs [0,0,1,2],
  .coef 29 [1,1,3,1] .abs .lequ1 [0,0,2,0] 42 .abs [0,0,2,0],
  .coef 29 [1,1,3,2] .abs .lequ1 [0,0,2,1] 42 .abs [0,0,2,1],
  .coef 29 [1,1,3,3] .abs .lequ1 [0,0,2,2] 42 .abs [0,0,2,2],
  .coef 29 [1,2,1,1] .abs .lequ1 [0,1,0,0] 42 .abs [0,1,0,0],
  .coef 29 [1,2,1,2] .abs .lequ1 [0,1,0,1] 42 .abs [0,1,0,1],
  .coef 29 [1,2,1,3] .abs .lequ1 [0,1,0,2] 42 .abs [0,1,0,2],
  .coef 29 [1,2,2,1] .abs .lequ1 [0,1,1,0] 42 .abs [0,1,1,0],
  .coef 29 [1,2,2,2] .abs .lequ1 [0,1,1,1] 42 .abs [0,1,1,1],
  .coef 29 [1,2,2,3] .abs .lequ1 [0,1,1,2] 42 .abs [0,1,1,2],
  .coef 29 [1,2,3,1] .abs .lequ1 [0,1,2,0] 42 .abs [0,1,2,0],
  .coef 29 [1,2,3,2] .abs .lequ1 [0,1,2,1] 42 .abs [0,1,2,1],
  .coef 29 [1,2,3,3] .abs .lequ1 [0,1,2,2] 42 .abs [0,1,2,2],
  .coef 29 [1,3,1,1] .abs .lequ1 [0,2,0,0] 42 .abs [0,2,0,0],
  .coef 29 [1,3,1,2] .abs .lequ1 [0,2,0,1] 42 .abs [0,2,0,1],
  .coef 29 [1,3,1,3] .abs .lequ1 [0,2,0,2] 42 .abs [0,2,0,2],
  .coef 29 [1,3,2,1] .abs .lequ1 [0,2,1,0] 42 .abs [0,2,1,0],
  .coef 29 [1,3,2,2] .abs .lequ1 [0,2,1,1] 42 .abs [0,2,1,1],
  .coef 29 [1,3,2,3] .abs .lequ1 [0,2,1,2] 42 .abs [0,2,1,2],
  .coef 29 [1,3,3,1] .abs .lequ1 [0,2,2,0] 42 .abs [0,2,2,0],
  .coef 29 [1,3,3,2] .abs .lequ1 [0,2,2,1] 42 .abs [0,2,2,1],
  .coef 29 [1,3,3,3] .abs .lequ1 [0,2,2,2] 42 .abs [0,2,2,2],
  .coef 29 [2,1,1,1] .abs .lequ1 [1,0,0,0] 42 .abs [1,0,0,0],
  .coef 29 [2,1,1,2] .abs .lequ1 [1,0,0,1] 42 .abs [1,0,0,1],
  .coef 29 [2,1,1,3] .abs .lequ1 [1,0,0,2] 42 .abs [1,0,0,2],
  .coef 29 [2,1,2,1] .abs .lequ1 [1,0,1,0] 42 .abs [1,0,1,0],
  .coef 29 [2,1,2,2] .abs .lequ1 [1,0,1,1] 42 .abs [1,0,1,1],
  .coef 29 [2,1,2,3] .abs .lequ1 [1,0,1,2] 42 .abs [1,0,1,2],
  .coef 29 [2,1,3,1] .abs .lequ1 [1,0,2,0] 42 .abs [1,0,2,0],
  .coef 29 [2,1,3,2] .abs .lequ1 [1,0,2,1] 42 .abs [1,0,2,1],
  .coef 29 [2,1,3,3] .abs .lequ1 [1,0,2,2] 42 .abs [1,0,2,2],
  .coef 29 [2,2,1,1] .abs .lequ1 [1,1,0,0] 42 .abs [1,1,0,0],
  .coef 29 [2,2,1,2] .abs .lequ1 [1,1,0,1] 42 .abs [1,1,0,1],
  .coef 29 [2,2,1,3] .abs .lequ1 [1,1,0,2] 42 .abs [1,1,0,2],
  .coef 29 [2,2,2,1] .abs .lequ1 [1,1,1,0] 42 .abs [1,1,1,0],
  .coef 29 [2,2,2,2] .abs .lequ1 [1,1,1,1] 42 .abs [1,1,1,1],
  .coef 29 [2,2,2,3] .abs .lequ1 [1,1,1,2] 42 .abs [1,1,1,2],
  .coef 29 [2,2,3,1] .abs .lequ1 [1,1,2,0] 42 .abs [1,1,2,0],
  .coef 29 [2,2,3,2] .abs .lequ1 [1,1,2,1] 42 .abs [1,1,2,1],
  .coef 29 [2,2,3,3] .abs .lequ1 [1,1,2,2] 42 .abs [1,1,2,2],
  .coef 29 [2,3,1,1] .abs .lequ1 [1,2,0,0] 42 .abs [1,2,0,0],
  .coef 29 [2,3,1,2] .abs .lequ1 [1,2,0,1] 42 .abs [1,2,0,1],
  .coef 29 [2,3,1,3] .abs .lequ1 [1,2,0,2] 42 .abs [1,2,0,2],
  .coef 29 [2,3,2,1] .abs .lequ1 [1,2,1,0] 42 .abs [1,2,1,0],
  .coef 29 [2,3,2,2] .abs .lequ1 [1,2,1,1] 42 .abs [1,2,1,1],
  .coef 29 [2,3,2,3] .abs .lequ1 [1,2,1,2] 42 .abs [1,2,1,2],
  .coef 29 [2,3,3,1] .abs .lequ1 [1,2,2,0] 42 .abs [1,2,2,0],
  .coef 29 [2,3,3,2] .abs .lequ1 [1,2,2,1] 42 .abs [1,2,2,1],
  .coef 29 [2,3,3,3] .abs .lequ1 [1,2,2,2] 42 .abs [1,2,2,2],
  .coef 29 [3,1,1,1] .abs .lequ1 [2,0,0,0] 42 .abs [2,0,0,0],
  .coef 29 [3,1,1,2] .abs .lequ1 [2,0,0,1] 42 .abs [2,0,0,1],
  .coef 29 [3,1,1,3] .abs .lequ1 [2,0,0,2] 42 .abs [2,0,0,2],
  .coef 29 [3,1,2,1] .abs .lequ1 [2,0,1,0] 42 .abs [2,0,1,0],
  .coef 29 [3,1,2,2] .abs .lequ1 [2,0,1,1] 42 .abs [2,0,1,1],
  .coef 29 [3,1,2,3] .abs .lequ1 [2,0,1,2] 42 .abs [2,0,1,2],
  .coef 29 [3,1,3,1] .abs .lequ1 [2,0,2,0] 42 .abs [2,0,2,0],
  .coef 29 [3,1,3,2] .abs .lequ1 [2,0,2,1] 42 .abs [2,0,2,1],
  .coef 29 [3,1,3,3] .abs .lequ1 [2,0,2,2] 42 .abs [2,0,2,2],
  .coef 29 [3,2,1,1] .abs .lequ1 [2,1,0,0] 42 .abs [2,1,0,0],
  .coef 29 [3,2,1,2] .abs .lequ1 [2,1,0,1] 42 .abs [2,1,0,1],
  .coef 29 [3,2,1,3] .abs .lequ1 [2,1,0,2] 42 .abs [2,1,0,2],
  .coef 29 [3,2,2,1] .abs .lequ1 [2,1,1,0] 42 .abs [2,1,1,0],
  .coef 29 [3,2,2,2] .abs .lequ1 [2,1,1,1] 42 .abs [2,1,1,1],
  .coef 29 [3,2,2,3] .abs .lequ1 [2,1,1,2] 42 .abs [2,1,1,2],
  .coef 29 [3,2,3,1] .abs .lequ1 [2,1,2,0] 42 .abs [2,1,2,0],
  .coef 29 [3,2,3,2] .abs .lequ1 [2,1,2,1] 42 .abs [2,1,2,1],
  .coef 29 [3,2,3,3] .abs .lequ1 [2,1,2,2] 42 .abs [2,1,2,2],
  .coef 29 [3,3,1,1] .abs .lequ1 [2,2,0,0] 42 .abs [2,2,0,0],
  .coef 29 [3,3,1,2] .abs .lequ1 [2,2,0,1] 42 .abs [2,2,0,1],
  .coef 29 [3,3,1,3] .abs .lequ1 [2,2,0,2] 42 .abs [2,2,0,2],
  .coef 29 [3,3,2,1] .abs .lequ1 [2,2,1,0] 42 .abs [2,2,1,0],
  .coef 29 [3,3,2,2] .abs .lequ1 [2,2,1,1] 42 .abs [2,2,1,1],
  .coef 29 [3,3,2,3] .abs .lequ1 [2,2,1,2] 42 .abs [2,2,1,2],
  .coef 29 [3,3,3,1] .abs .lequ1 [2,2,2,0] 42 .abs [2,2,2,0],
  .coef 29 [3,3,3,2] .abs .lequ1 [2,2,2,1] 42 .abs [2,2,2,1],
  .coef 29 [3,3,3,3] .abs .lequ1 [2,2,2,2] 42 .abs [2,2,2,2],
  .coef 30 [1,1,1,1] .angle .lequ1 [0,0,0,0] 42 .ph [0,0,0,0],
  .coef 30 [1,1,1,2] .angle .lequ1 [0,0,0,1] 42 .ph [0,0,0,1],
  .coef 30 [1,1,1,3] .angle .lequ1 [0,0,0,2] 42 .ph [0,0,0,2],
  .coef 30 [1,1,2,1] .angle .lequ1 [0,0,1,0] 42 .ph [0,0,1,0],
  .coef 30 [1,1,2,2] .angle .lequ1 [0,0,1,1] 42 .ph [0,0,1,1],
  .coef 30 [1,1,2,3] .angle .lequ1 [0,0,1,2] 42 .ph [0,0,1,2],
  .coef 30 [1,1,3,1] .angle .lequ1 [0,0,2,0] 42 .ph [0,0,2,0],
  .coef 30 [1,1,3,2] .angle .lequ1 [0,0,2,1] 42 .ph [0,0,2,1],
  .coef 30 [1,1,3,3] .angle .lequ1 [0,0,2,2] 42 .ph [0,0,2,2],
  .coef 30 [1,2,1,1] .angle .lequ1 [0,1,0,0] 42 .ph [0,1,0,0],
  .coef 30 [1,2,1,2] .angle .lequ1 [0,1,0,1] 42 .ph [0,1,0,1],
  .coef 30 [1,2,1,3] .angle .lequ1 [0,1,0,2] 42 .ph [0,1,0,2],
  .coef 30 [1,2,2,1] .angle .lequ1 [0,1,1,0] 42 .ph [0,1,1,0],
  .coef 30 [1,2,2,2] .angle .lequ1 [0,1,1,1] 42 .ph [0,1,1,1],
  .coef 30 [1,2,2,3] .angle .lequ1 [0,1,1,2] 42 .ph [0,1,1,2],
  .coef 30 [1,2,3,1] .angle .lequ1 [0,1,2,0] 42 .ph [0,1,2,0],
  .coef 30 [1,2,3,2] .angle .lequ1 [0,1,2,1] 42 .ph [0,1,2,1],
  .coef 30 [1,2,3,3] .angle .lequ1 [0,1,2,2] 42 .ph [0,1,2,2],
  .coef 30 [1,3,1,1] .angle .lequ1 [0,2,0,0] 42 .ph [0,2,0,0],
  .coef 30 [1,3,1,2] .angle .lequ1 [0,2,0,1] 42 .ph [0,2,0,1],
  .coef 30 [1,3,1,3] .angle .lequ1 [0,2,0,2] 42 .ph [0,2,0,2],
  .coef 30 [1,3,2,1] .angle .lequ1 [0,2,1,0] 42 .ph [0,2,1,0],
  .coef 30 [1,3,2,2] .angle .lequ1 [0,2,1,1] 42 .ph [0,2,1,1],
  .coef 30 [1,3,2,3] .angle .lequ1 [0,2,1,2] 42 .ph [0,2,1,2],
  .coef 30 [1,3,3,1] .angle .lequ1 [0,2,2,0] 42 .ph [0,2,2,0],
  .coef 30 [1,3,3,2] .angle .lequ1 [0,2,2,1] 42 .ph [0,2,2,1],
  .coef 30 [1,3,3,3] .angle .lequ1 [0,2,2,2] 42 .ph [0,2,2,2]]

/-- `smeftsim.py:5055-5185` -/
def rowsB18 : List Row := [
  .coef 30 [2,1,1,1] .angle .lequ1 [1,0,0,0] 42 .ph [1,0,0,0],
  .coef 30 [2,1,1,2] .angle .lequ1 [1,0,0,1] 42 .ph [1,0,0,1],
  .coef 30 [2,1,1,3] .angle .lequ1 [1,0,0,2] 42 .ph [1,0,0,2],
  .coef 30 [2,1,2,1] .angle .lequ1 [1,0,1,0] 42 .ph [1,0,1,0],
  .coef 30 [2,1,2,2] .angle .lequ1 [1,0,1,1] 42 .ph [1,0,1,1],
  .coef 30 [2,1,2,3] .angle .lequ1 [1,0,1,2] 42 .ph [1,0,1,2],
  .coef 30 [2,1,3,1] .angle .lequ1 [1,0,2,0] 42 .ph [1,0,2,0],
  .coef 30 [2,1,3,2] .angle .lequ1 [1,0,2,1] 42 .ph [1,0,2,1],
  .coef 30 [2,1,3,3] .angle .lequ1 [1,0,2,2] 42 .ph [1,0,2,2],
  .coef 30 [2,2,1,1] .angle .lequ1 [1,1,0,0] 42 .ph [1,1,0,0],
  .coef 30 [2,2,1,2] .angle .lequ1 [1,1,0,1] 42 .ph [1,1,0,1],
  .coef 30 [2,2,1,3] .angle .lequ1 [1,1,0,2] 42 .ph [1,1,0,2],
  .coef 30 [2,2,2,1] .angle .lequ1 [1,1,1,0] 42 .ph [1,1,1,0],
  .coef 30 [2,2,2,2] .angle .lequ1 [1,1,1,1] 42 .ph [1,1,1,1],
  .coef 30 [2,2,2,3] .angle .lequ1 [1,1,1,2] 42 .ph [1,1,1,2],
  .coef 30 [2,2,3,1] .angle .lequ1 [1,1,2,0] 42 .ph [1,1,2,0],
  .coef 30 [2,2,3,2] .angle .lequ1 [1,1,2,1] 42 .ph [1,1,2,1],
  .coef 30 [2,2,3,3] .angle .lequ1 [1,1,2,2] 42 .ph [1,1,2,2],
  .coef 30 [2,3,1,1] .angle .lequ1 [1,2,0,0] 42 .ph [1,2,0,0],
  .coef 30 [2,3,1,2] .angle .lequ1 [1,2,0,1] 42 .ph [1,2,0,1],
  .coef 30 [2,3,1,3] .angle .lequ1 [1,2,0,2] 42 .ph [1,2,0,2],
  .coef 30 [2,3,2,1] .angle .lequ1 [1,2,1,0] 42 .ph [1,2,1,0],
  .coef 30 [2,3,2,2] .angle .lequ1 [1,2,1,1] 42 .ph [1,2,1,1],
  .coef 30 [2,3,2,3] .angle .lequ1 [1,2,1,2] 42 .ph [1,2,1,2],
  .coef 30 [2,3,3,1] .angle .lequ1 [1,2,2,0] 42 .ph [1,2,2,0],
  .coef 30 [2,3,3,2] .angle .lequ1 [1,2,2,1] 42 .ph [1,2,2,1],
  .coef 30 [2,3,3,3] .angle .lequ1 [1,2,2,2] 42 .ph [1,2,2,2],
  .coef 30 [3,1,1,1] .angle .lequ1 [2,0,0,0] 42 .ph [2,0,0,0],
  .coef 30 [3,1,1,2] .angle .lequ1 [2,0,0,1] 42 .ph [2,0,0,1],
  .coef 30 [3,1,1,3] .angle .lequ1 [2,0,0,2] 42 .ph [2,0,0,2],
  .coef 30 [3,1,2,1] .angle .lequ1 [2,0,1,0] 42 .ph [2,0,1,0],
  .coef 30 [3,1,2,2] .angle .lequ1 [2,0,1,1] 42 .ph [2,0,1,1],
  .coef 30 [3,1,2,3] .angle .lequ1 [2,0,1,2] 42 .ph [2,0,1,2],
  .coef 30 [3,1,3,1] .angle .lequ1 [2,0,2,0] 42 .ph [2,0,2,0],
  .coef 30 [3,1,3,2] .angle .lequ1 [2,0,2,1] 42 .ph [2,0,2,1],
  .coef 30 [3,1,3,3] .angle .lequ1 [2,0,2,2] 42 .ph [2,0,2,2],
  .coef 30 [3,2,1,1] .angle .lequ1 [2,1,0,0] 42 .ph [2,1,0,0],
  .coef 30 [3,2,1,2] .angle .lequ1 [2,1,0,1] 42 .ph [2,1,0,1],
  .coef 30 [3,2,1,3] .angle .lequ1 [2,1,0,2] 42 .ph [2,1,0,2],
  .coef 30 [3,2,2,1] .angle .lequ1 [2,1,1,0] 42 .ph [2,1,1,0],
  .coef 30 [3,2,2,2] .angle .lequ1 [2,1,1,1] 42 .ph [2,1,1,1],
  .coef 30 [3,2,2,3] .angle .lequ1 [2,1,1,2] 42 .ph [2,1,1,2],
  .coef 30 [3,2,3,1] .angle .lequ1 [2,1,2,0] 42 .ph [2,1,2,0],
  .coef 30 [3,2,3,2] .angle .lequ1 [2,1,2,1] 42 .ph [2,1,2,1],
  .coef 30 [3,2,3,3] .angle .lequ1 [2,1,2,2] 42 .ph [2,1,2,2],
  .coef 30 [3,3,1,1] .angle .lequ1 [2,2,0,0] 42 .ph [2,2,0,0],
  .coef 30 [3,3,1,2] .angle .lequ1 [2,2,0,1] 42 .ph [2,2,0,1],
  .coef 30 [3,3,1,3] .angle .lequ1 [2,2,0,2] 42 .ph [2,2,0,2],
  .coef 30 [3,3,2,1] .angle .lequ1 [2,2,1,0] 42 .ph [2,2,1,0],
  .coef 30 [3,3,2,2] .angle .lequ1 [2,2,1,1] 42 .ph [2,2,1,1],
  .coef 30 [3,3,2,3] .angle .lequ1 [2,2,1,2] 42 .ph [2,2,1,2],
  .coef 30 [3,3,3,1] .angle .lequ1 [2,2,2,0] 42 .ph [2,2,2,0],
  .coef 30 [3,3,3,2] .angle .lequ1 [2,2,2,1] 42 .ph [2,2,2,1],
  .coef 30 [3,3,3,3] .angle .lequ1 [2,2,2,2] 42 .ph [2,2,2,2],
  .coef 31 [1,1] .abs .dphi [0,0] 28 .abs [0,0],
  .coef 31 [1,2] .abs .dphi [0,1] 28 .abs [0,1],
  .coef 31 [1,3] .abs .dphi [0,2] 28 .abs [0,2],
  .coef 31 [2,1] .abs .dphi [1,0] 28 .abs [1,0],
  .coef 31 [2,2] .abs .dphi [1,1] 28 .abs [1,1],
  .coef 31 [2,3] .abs .dphi [1,2] 28 .abs [1,2],
  .coef 31 [3,1] .abs .dphi [2,0] 28 .abs [2,0],
  .coef 31 [3,2] .abs .dphi [2,1] 28 .abs [2,1],
  .coef 31 [3,3] .abs .dphi [2,2] 28 .abs [2,2],
  .coef 32 [1,1,1,1] .abs .lequ3 [0,0,0,0] 43 .abs [0,0,0,0],
  .coef 32 [1,1,1,2] .abs .lequ3 [0,0,0,1] 43 .abs [0,0,0,1],
  .coef 32 [1,1,1,3] .abs .lequ3 [0,0,0,2] 43 .abs [0,0,0,2],
  .coef 32 [1,1,2,1] .abs .lequ3 [0,0,1,0] 43 .abs [0,0,1,0],
  .coef 32 [1,1,2,2] .abs .lequ3 [0,0,1,1] 43 .abs [0,0,1,1],
  .coef 32 [1,1,2,3] .abs .lequ3 [0,0,1,2] 43 .abs [0,0,1,2],
  .coef 32 [1,1,3,1] .abs .lequ3 [0,0,2,0] 43 .abs [0,0,2,0],
  .coef 32 [1,1,3,2] .abs .lequ3 [0,0,2,1] 43 .abs [0,0,2,1],
  .coef 32 [1,1,3,3] .abs .lequ3 [0,0,2,2] 43 .abs [0,0,2,2],
  .coef 32 [1,2,1,1] .abs .lequ3 [0,1,0,0] 43 .abs [0,1,0,0],
  .coef 32 [1,2,1,2] .abs .lequ3 [0,1,0,1] 43 .abs [0,1,0,1],
  .coef 32 [1,2,1,3] .abs .lequ3 [0,1,0,2] 43 .abs [0,1,0,2],
  .coef 32 [1,2,2,1] .abs .lequ3 [0,1,1,0] 43 .abs [0,1,1,0],
  .coef 32 [1,2,2,2] .abs .lequ3 [0,1,1,1] 43 .abs [0,1,1,1],
  .coef 32 [1,2,2,3] .abs .lequ3 [0,1,1,2] 43 .abs [0,1,1,2],
  .coef 32 [1,2,3,1] .abs .lequ3 [0,1,2,0] 43 .abs [0,1,2,0],
  .coef 32 [1,2,3,2] .abs .lequ3 [0,1,2,1] 43 .abs [0,1,2,1],
  .coef 32 [1,2,3,3] .abs .lequ3 [0,1,2,2] 43 .abs [0,1,2,2],
  .coef 32 [1,3,1,1] .abs .lequ3 [0,2,0,0] 43 .abs [0,2,0,0],
  .coef 32 [1,3,1,2] .abs .lequ3 [0,2,0,1] 43 .abs [0,2,0,1],
  .coef 32 [1,3,1,3] .abs .lequ3 [0,2,0,2] 43 .abs [0,2,0,2],
  .coef 32 [1,3,2,1] .abs .lequ3 [0,2,1,0] 43 .abs [0,2,1,0],
  .coef 32 [1,3,2,2] .abs .lequ3 [0,2,1,1] 43 .abs [0,2,1,1],
  .coef 32 [1,3,2,3] .abs .lequ3 [0,2,1,2] 43 .abs [0,2,1,2],
  .coef 32 [1,3,3,1] .abs .lequ3 [0,2,2,0] 43 .abs [0,2,2,0],
  .coef 32 [1,3,3,2] .abs .lequ3 [0,2,2,1] 43 .abs [0,2,2,1],
  .coef 32 [1,3,3,3] .abs .lequ3 [0,2,2,2] 43 .abs [0,2,2,2],
  .coef 32 [2,1,1,1] .abs .lequ3 [1,0,0,0] 43 .abs [1,0,0,0],
  .coef 32 [2,1,1,2] .abs .lequ3 [1,0,0,1] 43 .abs [1,0,0,1],
  .coef 32 [2,1,1,3] .abs .lequ3 [1,0,0,2] 43 .abs [1,0,0,2],
  .coef 32 [2,1,2,1] .abs .lequ3 [1,0,1,0] 43 .abs [1,0,1,0],
  .coef 32 [2,1,2,2] .abs .lequ3 [1,0,1,1] 43 .abs [1,0,1,1],
  .coef 32 [2,1,2,3] .abs .lequ3 [1,0,1,2] 43 .abs [1,0,1,2],
  .coef 32 [2,1,3,1] .abs .lequ3 [1,0,2,0] 43 .abs [1,0,2,0],
  .coef 32 [2,1,3,2] .abs .lequ3 [1,0,2,1] 43 .abs [1,0,2,1],
  .coef 32 [2,1,3,3] .abs .lequ3 [1,0,2,2] 43 .abs [1,0,2,2],
  .coef 32 [2,2,1,1] .abs .lequ3 [1,1,0,0] 43 .abs [1,1,0,0],
  .coef 32 [2,2,1,2] .abs .lequ3 [1,1,0,1] 43 .abs [1,1,0,1],
  .coef 32 [2,2,1,3] .abs .lequ3 [1,1,0,2] 43 .abs [1,1,0,2],
  .coef 32 [2,2,2,1] .abs .lequ3 [1,1,1,0] 43 .abs [1,1,1,0],
  .coef 32 [2,2,2,2] .abs .lequ3 [1,1,1,1] 43 .abs [1,1,1,1],
  .coef 32 [2,2,2,3] .abs .lequ3 [1,1,1,2] 43 .abs [1,1,1,2],
  .coef 32 [2,2,3,1] .abs .lequ3 [1,1,2,0] 43 .abs [1,1,2,0],
  .coef 32 [2,2,3,2] .abs .lequ3 [1,1,2,1] 43 .abs [1,1,2,1],
  .coef 32 [2,2,3,3] .abs .lequ3 [1,1,2,2] 43 .abs [1,1,2,2],
  .coef 32 [2,3,1,1] .abs .lequ3 [1,2,0,0] 43 .abs [1,2,0,0],
  .coef 32 [2,3,1,2] .abs .lequ3 [1,2,0,1] 43 .abs [1,2,0,1],
  .coef 32 [2,3,1,3] .abs .lequ3 [1,2,0,2] 43 .abs [1,2,0,2],
  .coef 32 [2,3,2,1] .abs .lequ3 [1,2,1,0] 43 .abs [1,2,1,0],
  .coef 32 [2,3,2,2] .abs .lequ3 [1,2,1,1] 43 .abs [1,2,1,1],
  .coef 32 [2,3,2,3] .abs .lequ3 [1,2,1,2] 43 .abs [1,2,1,2],
  .coef 32 [2,3,3,1] .abs .lequ3 [1,2,2,0] 43 .abs [1,2,2,0],
  .coef 32 [2,3,3,2] .abs .lequ3 [1,2,2,1] 43 .abs [1,2,2,1],
  .coef 32 [2,3,3,3] .abs .lequ3 [1,2,2,2] 43 .abs [1,2,2,2],
  .coef 32 [3,1,1,1] .abs .lequ3 [2,0,0,0] 43 .abs [2,0,0,0],
  .coef 32 [3,1,1,2] .abs .lequ3 [2,0,0,1] 43 .abs [2,0,0,1],
  .coef 32 [3,1,1,3] .abs .lequ3 [2,0,0,2] 43 .abs [2,0,0,2],
  .coef 32 [3,1,2,1] .abs .lequ3 [2,0,1,0] 43 .abs [2,0,1,0],
  .coef 32 [3,1,2,2] .abs .lequ3 [2,0,1,1] 43 .abs [2,0,1,1],
  .coef 32 [3,1,2,3] .abs .lequ3 [2,0,1,2] 43 .abs [2,0,1,2],
  .coef 32 [3,1,3,1] .abs .lequ3 [2,0,2,0] 43 .abs [2,0,2,0],
  .coef 32 [3,1,3,2] .abs .lequ3 [2,0,2,1] 43 .abs [2,0,2,1]]

/-- `smeftsim.py:5186-5319` -/
def rowsB19 : List Row := [
  .coef 32 [3,1,3,3] .abs .lequ3 [2,0,2,2] 43 .abs [2,0,2,2],
  .coef 32 [3,2,1,1] .abs .lequ3 [2,1,0,0] 43 .abs [2,1,0,0],
  .coef 32 [3,2,1,2] .abs .lequ3 [2,1,0,1] 43 .abs [2,1,0,1],
  .coef 32 [3,2,1,3] .abs .lequ3 [2,1,0,2] 43 .abs [2,1,0,2],
  .coef 32 [3,2,2,1] .abs .lequ3 [2,1,1,0] 43 .abs [2,1,1,0],
  .coef 32 [3,2,2,2] .abs .lequ3 [2,1,1,1] 43 .abs [2,1,1,1],
  .coef 32 [3,2,2,3] .abs .lequ3 [2,1,1,2] 43 .abs [2,1,1,2],
  .coef 32 [3,2,3,1] .abs .lequ3 [2,1,2,0] 43 .abs [2,1,2,0],
  .coef 32 [3,2,3,2] .abs .lequ3 [2,1,2,1] 43 .abs [2,1,2,1],
  .coef 32 [3,2,3,3] .abs .lequ3 [2,1,2,2] 43 .abs [2,1,2,2],
  .coef 32 [3,3,1,1] .abs .lequ3 [2,2,0,0] 43 .abs [2,2,0,0],
  .coef 32 [3,3,1,2] .abs .lequ3 [2,2,0,1] 43 .abs [2,2,0,1],
  .coef 32 [3,3,1,3] .abs .lequ3 [2,2,0,2] 43 .abs [2,2,0,2],
  .coef 32 [3,3,2,1] .abs .lequ3 [2,2,1,0] 43 .abs [2,2,1,0],
  .coef 32 [3,3,2,2] .abs .lequ3 [2,2,1,1] 43 .abs [2,2,1,1],
  .coef 32 [3,3,2,3] .abs .lequ3 [2,2,1,2] 43 .abs [2,2,1,2],
  .coef 32 [3,3,3,1] .abs .lequ3 [2,2,2,0] 43 .abs [2,2,2,0],
  .coef 32 [3,3,3,2] .abs .lequ3 [2,2,2,1] 43 .abs [2,2,2,1],
  .coef 32 [3,3,3,3] .abs .lequ3 [2,2,2,2] 43 .abs [2,2,2,2],
  .coef 33 [1,1,1,1] .angle .lequ3 [0,0,0,0] 43 .ph [0,0,0,0],
  .coef 33 [1,1,1,2] .angle .lequ3 [0,0,0,1] 43 .ph [0,0,0,1],
  .coef 33 [1,1,1,3] .angle .lequ3 [0,0,0,2] 43 .ph [0,0,0,2],
  .coef 33 [1,1,2,1] .angle .lequ3 [0,0,1,0] 43 .ph [0,0,1,0],
  .coef 33 [1,1,2,2] .angle .lequ3 [0,0,1,1] 43 .ph [0,0,1,1],
  .coef 33 [1,1,2,3] .angle .lequ3 [0,0,1,2] 43 .ph [0,0,1,2],
  .coef 33 [1,1,3,1] .angle .lequ3 [0,0,2,0] 43 .ph [0,0,2,0],
  .coef 33 [1,1,3,2] .angle .lequ3 [0,0,2,1] 43 .ph [0,0,2,1],
  .coef 33 [1,1,3,3] .angle .lequ3 [0,0,2,2] 43 .ph [0,0,2,2],
  .coef 33 [1,2,1,1] .angle .lequ3 [0,1,0,0] 43 .ph [0,1,0,0],
  .coef 33 [1,2,1,2] .angle .lequ3 [0,1,0,1] 43 .ph [0,1,0,1],
  .coef 33 [1,2,1,3] .angle .lequ3 [0,1,0,2] 43 .ph [0,1,0,2],
  .coef 33 [1,2,2,1] .angle .lequ3 [0,1,1,0] 43 .ph [0,1,1,0],
  .coef 33 [1,2,2,2] .angle .lequ3 [0,1,1,1] 43 .ph [0,1,1,1],
  .coef 33 [1,2,2,3] .angle .lequ3 [0,1,1,2] 43 .ph [0,1,1,2],
  .coef 33 [1,2,3,1] .angle .lequ3 [0,1,2,0] 43 .ph [0,1,2,0],
  .coef 33 [1,2,3,2] .angle .lequ3 [0,1,2,1] 43 .ph [0,1,2,1],
  .coef 33 [1,2,3,3] .angle .lequ3 [0,1,2,2] 43 .ph [0,1,2,2],
  .coef 33 [1,3,1,1] .angle .lequ3 [0,2,0,0] 43 .ph [0,2,0,0],
  .coef 33 [1,3,1,2] .angle .lequ3 [0,2,0,1] 43 .ph [0,2,0,1],
  .coef 33 [1,3,1,3] .angle .lequ3 [0,2,0,2] 43 .ph [0,2,0,2],
  .coef 33 [1,3,2,1] .angle .lequ3 [0,2,1,0] 43 .ph [0,2,1,0],
  .coef 33 [1,3,2,2] .angle .lequ3 [0,2,1,1] 43 .ph [0,2,1,1],
  .coef 33 [1,3,2,3] .angle .lequ3 [0,2,1,2] 43 .ph [0,2,1,2],
  .coef 33 [1,3,3,1] .angle .lequ3 [0,2,2,0] 43 .ph [0,2,2,0],
  .coef 33 [1,3,3,2] .angle .lequ3 [0,2,2,1] 43 .ph [0,2,2,1],
  .coef 33 [1,3,3,3] .angle .lequ3 [0,2,2,2] 43 .ph [0,2,2,2],
  .coef 33 [2,1,1,1] .angle .lequ3 [1,0,0,0] 43 .ph [1,0,0,0],
  .coef 33 [2,1,1,2] .angle .lequ3 [1,0,0,1] 43 .ph [1,0,0,1],
  .coef 33 [2,1,1,3] .angle .lequ3 [1,0,0,2] 43 .ph [1,0,0,2],
  .coef 33 [2,1,2,1] .angle .lequ3 [1,0,1,0] 43 .ph [1,0,1,0],
  .coef 33 [2,1,2,2] .angle .lequ3 [1,0,1,1] 43 .ph [1,0,1,1],
  .coef 33 [2,1,2,3] .angle .lequ3 [1,0,1,2] 43 .ph [1,0,1,2],
  .coef 33 [2,1,3,1] .angle .lequ3 [1,0,2,0] 43 .ph [1,0,2,0],
  .coef 33 [2,1,3,2] .angle .lequ3 [1,0,2,1] 43 .ph [1,0,2,1],
  .coef 33 [2,1,3,3] .angle .lequ3 [1,0,2,2] 43 .ph [1,0,2,2],
  .coef 33 [2,2,1,1] .angle .lequ3 [1,1,0,0] 43 .ph [1,1,0,0],
  .coef 33 [2,2,1,2] .angle .lequ3 [1,1,0,1] 43 .ph [1,1,0,1],
  .coef 33 [2,2,1,3] .angle .lequ3 [1,1,0,2] 43 .ph [1,1,0,2],
  .coef 33 [2,2,2,1] .angle .lequ3 [1,1,1,0] 43 .ph [1,1,1,0],
  .coef 33 [2,2,2,2] .angle .lequ3 [1,1,1,1] 43 .ph [1,1,1,1],
  .coef 33 [2,2,2,3] .angle .lequ3 [1,1,1,2] 43 .ph [1,1,1,2],
  .coef 33 [2,2,3,1] .angle .lequ3 [1,1,2,0] 43 .ph [1,1,2,0],
  .coef 33 [2,2,3,2] .angle .lequ3 [1,1,2,1] 43 .ph [1,1,2,1],
  .coef 33 [2,2,3,3] .angle .lequ3 [1,1,2,2] 43 .ph [1,1,2,2],
  .coef 33 [2,3,1,1] .angle .lequ3 [1,2,0,0] 43 .ph [1,2,0,0],
  .coef 33 [2,3,1,2] .angle .lequ3 [1,2,0,1] 43 .ph [1,2,0,1],
  .coef 33 [2,3,1,3] .angle .lequ3 [1,2,0,2] 43 .ph [1,2,0,2],
  .coef 33 [2,3,2,1] .angle .lequ3 [1,2,1,0] 43 .ph [1,2,1,0],
  .coef 33 [2,3,2,2] .angle .lequ3 [1,2,1,1] 43 .ph [1,2,1,1],
  .coef 33 [2,3,2,3] .angle .lequ3 [1,2,1,2] 43 .ph [1,2,1,2],
  .coef 33 [2,3,3,1] .angle .lequ3 [1,2,2,0] 43 .ph [1,2,2,0],
  .coef 33 [2,3,3,2] .angle .lequ3 [1,2,2,1] 43 .ph [1,2,2,1],
  .coef 33 [2,3,3,3] .angle .lequ3 [1,2,2,2] 43 .ph [1,2,2,2],
  .coef 33 [3,1,1,1] .angle .lequ3 [2,0,0,0] 43 .ph [2,0,0,0],
  .coef 33 [3,1,1,2] .angle .lequ3 [2,0,0,1] 43 .ph [2,0,0,1],
  .coef 33 [3,1,1,3] .angle .lequ3 [2,0,0,2] 43 .ph [2,0,0,2],
  .coef 33 [3,1,2,1] .angle .lequ3 [2,0,1,0] 43 .ph [2,0,1,0],
  .coef 33 [3,1,2,2] .angle .lequ3 [2,0,1,1] 43 .ph [2,0,1,1],
  .coef 33 [3,1,2,3] .angle .lequ3 [2,0,1,2] 43 .ph [2,0,1,2],
  .coef 33 [3,1,3,1] .angle .lequ3 [2,0,2,0] 43 .ph [2,0,2,0],
  .coef 33 [3,1,3,2] .angle .lequ3 [2,0,2,1] 43 .ph [2,0,2,1],
  .coef 33 [3,1,3,3] .angle .lequ3 [2,0,2,2] 43 .ph [2,0,2,2],
  .coef 33 [3,2,1,1] .angle .lequ3 [2,1,0,0] 43 .ph [2,1,0,0],
  .coef 33 [3,2,1,2] .angle .lequ3 [2,1,0,1] 43 .ph [2,1,0,1],
  .coef 33 [3,2,1,3] .angle .lequ3 [2,1,0,2] 43 .ph [2,1,0,2],
  .coef 33 [3,2,2,1] .angle .lequ3 [2,1,1,0] 43 .ph [2,1,1,0],
  .coef 33 [3,2,2,2] .angle .lequ3 [2,1,1,1] 43 .ph [2,1,1,1],
  .coef 33 [3,2,2,3] .angle .lequ3 [2,1,1,2] 43 .ph [2,1,1,2],
  .coef 33 [3,2,3,1] .angle .lequ3 [2,1,2,0] 43 .ph [2,1,2,0],
  .coef 33 [3,2,3,2] .angle .lequ3 [2,1,2,1] 43 .ph [2,1,2,1],
  .coef 33 [3,2,3,3] .angle .lequ3 [2,1,2,2] 43 .ph [2,1,2,2],
  .coef 33 [3,3,1,1] .angle .lequ3 [2,2,0,0] 43 .ph [2,2,0,0],
  .coef 33 [3,3,1,2] .angle .lequ3 [2,2,0,1] 43 .ph [2,2,0,1],
  .coef 33 [3,3,1,3] .angle .lequ3 [2,2,0,2] 43 .ph [2,2,0,2],
  .coef 33 [3,3,2,1] .angle .lequ3 [2,2,1,0] 43 .ph [2,2,1,0],
  .coef 33 [3,3,2,2] .angle .lequ3 [2,2,1,1] 43 .ph [2,2,1,1],
  .coef 33 [3,3,2,3] .angle .lequ3 [2,2,1,2] 43 .ph [2,2,1,2],
  .coef 33 [3,3,3,1] .angle .lequ3 [2,2,2,0] 43 .ph [2,2,2,0],
  .coef 33 [3,3,3,2] .angle .lequ3 [2,2,2,1] 43 .ph [2,2,2,1],
  .coef 33 [3,3,3,3] .angle .lequ3 [2,2,2,2] 43 .ph [2,2,2,2],
  .coef 34 [1,1] .angle .ephi [0,0] 38 .ph [0,0],
  .coef 34 [1,2] .angle .ephi [0,1] 38 .ph [0,1],
  .coef 34 [1,3] .angle .ephi [0,2] 38 .ph [0,2],
  .coef 34 [2,1] .angle .ephi [1,0] 38 .ph [1,0],
  .coef 34 [2,2] .angle .ephi [1,1] 38 .ph [1,1],
  .coef 34 [2,3] .angle .ephi [1,2] 38 .ph [1,2],
  .coef 34 [3,1] .angle .ephi [2,0] 38 .ph [2,0],
  .coef 34 [3,2] .angle .ephi [2,1] 38 .ph [2,1],
  .coef 34 [3,3] .angle .ephi [2,2] 38 .ph [2,2],
  .cutoff 35 [0],
  .coef 35 [1] .plain .phiBox [] 44 .none [],
  .coef 35 [2] .plain .phiD [] 45 .none [],
  .coef 35 [3] .plain .phi [] 46 .none [],
  .coef 35 [4] .plain .phiB [] 47 .none [],
  .coef 35 [5] .plain .phiW [] 48 .none [],
  .coef 35 [6] .plain .phiWB [] 49 .none [],
  .coef 35 [7] .plain .phiG [] 50 .none [],
  .coef 35 [8] .plain .W [] 51 .none [],
  .coef 35 [9] .plain .G [] 52 .none [],
  .coef 35 [10] .plain .Wtilde [] 53 .none [],
  .coef 35 [11] .plain .Gtilde [] 54 .none [],
  .coef 35 [12] .plain .phiBtilde [] 55 .none [],
  .coef 35 [13] .plain .phiWtilde [] 56 .none [],
  .coef 35 [14] .plain .phiWtildeB [] 57 .none [],
  .coef 35 [15] .plain .phiGtilde [] 58 .none []]

/-- all rows of model set B -/
def rowsB : List Row := [rowsB0, rowsB1, rowsB2, rowsB3, rowsB4, rowsB5, rowsB6, rowsB7, rowsB8, rowsB9, rowsB10, rowsB11, rowsB12, rowsB13, rowsB14, rowsB15, rowsB16, rowsB17, rowsB18, rowsB19].flatten

end Verif.Gen
