import Verif.Model.LoopDefs

/-! Generated by /verif/tools/gen_loop.py from /repo/wilson/match/smeft_loop.py. -/

set_option autoImplicit false
set_option maxRecDepth 20000

namespace Verif.Loop

def k152 : List (List ℕ) := [[0,1,3,94,157,231,284],
  [0,1,6,94,157,227,1249],
  [0,4,1,94,157,233,282,1249],
  [1,1,6,94,157,227],
  [1,1,6,94,157,229,286],
  [1,7,3,94,157,231,284,1249],
  [1,11,6,94,157,229,286,1249]]

def k153 : List (List ℕ) := [[0,1,24,94,158,226,286,354,673,1121],
  [0,1,48,94,158,354,673,1121],
  [0,1,54,94,158,226,865],
  [0,1,54,94,158,228,286,865],
  [0,1,144,94,158,290],
  [0,7,12,94,158,230,284,1249],
  [0,11,144,94,226,286,546,671,1185],
  [0,11,162,94,158,230,284,1185],
  [0,11,288,94,546,671,1185],
  [0,13,162,94,158,228,286,673,1121],
  [0,121,864,94,226,286,546,671],
  [0,121,1728,94,546,671],
  [0,229,972,94,158,230,284],
  [1,1,24,94,226,286,546,671,865],
  [1,1,27,94,158,230,284,865],
  [1,1,48,94,546,671,865],
  [1,4,81,94,158,230,284,673,1121],
  [1,5,162,94,158,226,673,1121],
  [1,5,243,94,158,226],
  [1,7,12,94,158,228,286,1249],
  [1,11,324,94,158,226,1185],
  [1,11,324,94,158,228,286,1185],
  [1,67,1944,94,158,228,286]]

def k154 : List (List ℕ) := [[0,1,24,94,158,226,286,354,673,1121],
  [0,1,24,94,546,671,1249],
  [0,1,48,94,158,354,673,1121],
  [0,1,54,94,158,226,865],
  [0,1,54,94,158,228,286,865],
  [0,1,144,94,158,290],
  [0,7,12,94,158,230,284,1249],
  [0,11,144,94,226,286,546,671,1185],
  [0,11,162,94,158,230,284,1185],
  [0,11,288,94,546,671,1185],
  [0,13,162,94,158,228,286,673,1121],
  [0,37,1728,94,546,671],
  [0,77,486,94,158,228,286],
  [0,121,864,94,226,286,546,671],
  [0,229,972,94,158,230,284],
  [1,1,24,94,226,286,546,671,865],
  [1,1,27,94,158,230,284,865],
  [1,1,48,94,546,671,865],
  [1,4,81,94,158,230,284,673,1121],
  [1,5,162,94,158,226,673,1121],
  [1,11,324,94,158,226,1185],
  [1,11,324,94,158,228,286,1185],
  [1,17,216,94,158,226,1249],
  [1,95,108,94,158,228,286,1249],
  [1,2045,3888,94,158,226]]

def k155 : List (List ℕ) := [[0,1,36,94,158,226,286,546,865],
  [0,1,36,94,158,228,284,546,865],
  [0,1,144,94,158,546,865],
  [0,131,5184,94,158,546],
  [1,1,24,94,158,546,1249],
  [1,1,480,94,350,548],
  [1,11,216,94,158,226,286,546,1185],
  [1,11,216,94,158,228,284,546,1185],
  [1,11,864,94,158,546,1185],
  [1,121,1296,94,158,226,286,546],
  [1,121,1296,94,158,228,284,546]]

def k156 : List (List ℕ) := [[0,1,72,94,228,284,546,865],
  [0,11,1728,94,546,1185],
  [0,121,10368,94,546],
  [1,1,288,94,546,865],
  [1,11,432,94,228,284,546,1185],
  [1,121,2592,94,228,284,546]]

def k157 : List (List ℕ) := [[0,1,36,33,94,161,227,284,546,865],
  [0,1,72,33,94,161,225,286,546,865],
  [1,11,216,33,94,161,227,284,546,1185],
  [1,11,432,33,94,161,225,286,546,1185],
  [1,121,1296,33,94,161,227,284,546],
  [1,121,2592,33,94,161,225,286,546]]

def k158 : List (List ℕ) := [[0,1,24,94,226,286,546,865],
  [0,1,48,94,546,865],
  [1,11,144,94,226,286,546,1185],
  [1,11,288,94,546,1185],
  [1,121,864,94,226,286,546],
  [1,121,1728,94,546]]

def k159 : List (List ℕ) := [[0,1,24,94,226,286,546,865],
  [0,1,48,94,546,865],
  [1,1,24,94,546,1249],
  [1,11,144,94,226,286,546,1185],
  [1,11,288,94,546,1185],
  [1,37,1728,94,546],
  [1,121,864,94,226,286,546]]

def k160 : List (List ℕ) := [[0,1,32,94,158,226,356,1121,1374,1438],
  [0,3,64,94,158,228,354,1249,1374,1438],
  [1,1,16,94,158,228,354,1121,1374,1438],
  [1,1,64,94,158,358,1121,1374,1438],
  [1,3,128,94,158,226,354,1375,1439],
  [1,3,128,94,158,356,1375,1439]]

def k161 : List (List ℕ) := [[0,1,12,94,158,226,286,354,1121],
  [0,1,24,94,158,354,1121],
  [0,1,27,94,158,226,1121],
  [0,1,27,94,158,228,286],
  [0,1,48,94,546,671,1121],
  [1,1,12,94,158,226,286,354],
  [1,1,24,94,158,354],
  [1,1,27,94,158,226],
  [1,1,27,94,158,228,286,1121],
  [1,1,48,94,546,671]]

def k162 : List (List ℕ) := [[0,1,48,94,546],
  [1,1,48,94,546,1121]]

def k163 : List (List ℕ) := [[0,1,9,94,156,230,354,1373,1437],
  [0,1,12,94,156,234,286,354,1249,1372,1436],
  [0,1,12,94,158,226,358,546,671,1249,1372,1436],
  [0,1,12,94,158,230,354,546,671,1121,1372,1436],
  [0,1,24,94,156,226,286,360,1373,1437],
  [0,1,27,94,156,234,286,1373,1437],
  [0,1,27,94,156,236,286,1121,1372,1436],
  [0,1,36,94,156,230,286,358,1121,1372,1436],
  [0,1,48,94,156,360,1373,1437],
  [0,4,27,94,156,228,286,360,1249,1372,1436],
  [0,7,24,94,156,232,286,356,1121,1372,1436],
  [0,7,64,94,158,228,354,546,671,1373,1437],
  [0,7,384,94,158,358,546,671,1373,1437],
  [0,17,432,94,156,226,358,1373,1437],
  [0,17,432,94,156,226,360,1249,1372,1436],
  [0,25,72,94,156,228,358,1121,1372,1436],
  [0,25,108,94,156,232,354,1121,1372,1436],
  [0,37,144,94,156,230,356,1249,1372,1436],
  [0,307,432,94,156,230,286,356,1373,1437],
  [1,1,9,94,156,228,286,360,1121,1372,1436],
  [1,1,12,94,156,232,354,1249,1372,1436],
  [1,1,27,94,156,232,1373,1437],
  [1,1,27,94,156,234,1121,1372,1436],
  [1,1,48,94,158,230,546,671,1373,1437],
  [1,1,48,94,158,232,546,671,1121,1372,1436],
  [1,1,48,94,158,360,546,671,1249,1372,1436],
  [1,3,64,94,158,228,356,546,671,1121,1372,1436],
  [1,4,27,94,156,228,356,1373,1437],
  [1,5,64,94,158,228,356,546,671,1249,1372,1436],
  [1,5,72,94,156,232,286,356,1249,1372,1436],
  [1,11,144,94,156,226,360,1121,1372,1436],
  [1,13,36,94,156,232,286,354,1373,1437],
  [1,19,108,94,156,230,286,358,1249,1372,1436],
  [1,23,48,94,156,230,356,1121,1372,1436],
  [1,25,108,94,156,234,286,354,1121,1372,1436],
  [1,35,384,94,158,226,356,546,671,1373,1437],
  [1,43,216,94,156,228,358,1249,1372,1436],
  [1,179,432,94,156,228,286,358,1373,1437]]

def k164 : List (List ℕ) := [[0,1,24,94,158,232,286,356,1121,1372,1436],
  [0,1,32,94,158,230,356,1249,1372,1436],
  [0,1,36,94,158,232,286,356,1249,1372,1436],
  [0,1,48,94,158,232,354,1121,1372,1436],
  [0,1,54,94,158,234,286,1373,1437],
  [0,1,54,94,158,236,286,1121,1372,1436],
  [0,1,64,94,158,226,286,360,1373,1437],
  [0,1,96,94,158,226,286,362,1121,1372,1436],
  [0,1,96,94,158,234,286,354,1249,1372,1436],
  [0,1,192,94,158,362,1121,1372,1436],
  [0,2,27,94,158,228,286,360,1249,1372,1436],
  [0,3,64,94,158,228,358,1121,1372,1436],
  [0,3,128,94,158,226,358,1373,1437],
  [0,7,384,94,158,230,354,1373,1437],
  [0,31,288,94,158,230,286,358,1121,1372,1436],
  [0,479,1728,94,158,230,286,356,1373,1437],
  [1,1,48,94,158,226,360,1121,1372,1436],
  [1,1,64,94,158,228,358,1249,1372,1436],
  [1,1,64,94,158,232,354,1249,1372,1436],
  [1,1,384,94,158,360,1373,1437],
  [1,2,27,94,158,234,286,354,1121,1372,1436],
  [1,5,96,94,158,230,356,1121,1372,1436],
  [1,5,128,94,158,228,356,1373,1437],
  [1,7,72,94,158,228,286,360,1121,1372,1436],
  [1,83,576,94,158,232,286,354,1373,1437],
  [1,103,864,94,158,230,286,358,1249,1372,1436],
  [1,277,1728,94,158,228,286,358,1373,1437]]

def k165 : List (List ℕ) := [[0,1,24,33,94,159,233,286,354,1249,1372,1436],
  [0,1,27,33,94,159,233,286,1373,1437],
  [0,1,27,33,94,159,235,286,1121,1372,1436],
  [0,1,48,33,94,159,225,286,360,1373,1437],
  [0,3,16,33,94,159,231,286,356,1121,1372,1436],
  [0,5,72,33,94,159,229,286,358,1121,1372,1436],
  [0,5,144,33,94,159,231,286,356,1249,1372,1436],
  [0,55,432,33,94,159,227,286,360,1249,1372,1436],
  [0,113,216,33,94,159,229,286,356,1373,1437],
  [1,13,144,33,94,159,227,286,360,1121,1372,1436],
  [1,29,108,33,94,159,227,286,358,1373,1437],
  [1,41,216,33,94,159,233,286,354,1121,1372,1436],
  [1,43,144,33,94,159,231,286,354,1373,1437],
  [1,47,216,33,94,159,229,286,358,1249,1372,1436]]

def k166 : List (List ℕ) := [[0,1,4,94,157,227,358,1121,1373,1437],
  [0,1,4,94,157,229,286,358,1249,1373,1437],
  [0,1,8,94,157,231,286,354,1374,1438],
  [0,3,8,94,157,227,356,1374,1438],
  [1,1,4,94,157,227,358,1249,1373,1437],
  [1,1,4,94,157,229,286,358,1121,1373,1437],
  [1,1,8,94,157,229,354,1374,1438],
  [1,3,8,94,157,229,286,356,1374,1438]]

def k167 : List (List ℕ) := [[0,1,1,94,158,356,3295],
  [0,1,16,94,158,226,356,1121,1374,1438],
  [0,3,32,94,158,228,354,1249,1374,1438],
  [1,1,8,94,158,228,354,1121,1374,1438],
  [1,1,32,94,158,358,1121,1374,1438],
  [1,7,1,94,158,226,354,3295]]

def k168 : List (List ℕ) := [[0,1,8,94,158,228,354,1121,1374,1438],
  [0,1,32,94,158,358,1121,1374,1438],
  [0,3,8,94,158,226,356,1249,1374,1438],
  [0,7,1,94,158,356,3295],
  [1,3,32,94,158,228,354,1249,1374,1438],
  [1,7,16,94,158,226,356,1121,1374,1438],
  [1,25,1,94,158,226,354,3295]]

def k169 : List (List ℕ) := [[0,1,16,94,158,354]]

def k170 : List (List ℕ) := [[1,1,16,94,158,354]]

def k171 : List (List ℕ) := [[0,1,8,94,158,228,354,1121,1374,1438],
  [0,1,32,94,158,358,1121,1374,1438],
  [0,7,64,94,158,226,354,1631],
  [1,1,16,94,158,226,356,1121,1374,1438],
  [1,1,64,94,158,356,1631],
  [1,3,32,94,158,228,354,1249,1374,1438]]

def k172 : List (List ℕ) := [[0,1,1,94,158,356,3359],
  [0,1,32,94,158,226,356,671,1121,1374,1438],
  [0,3,64,94,158,228,354,671,1249,1374,1438],
  [1,1,16,94,158,228,354,671,1121,1374,1438],
  [1,1,64,94,158,358,671,1121,1374,1438],
  [1,7,1,94,158,226,354,3359]]

def k173 : List (List ℕ) := [[0,1,48,94,158,230,546,1373,1437],
  [0,1,48,94,158,232,546,1121,1372,1436],
  [0,1,48,94,158,360,546,1249,1372,1436],
  [0,3,64,94,158,228,356,546,1121,1372,1436],
  [0,5,64,94,158,228,356,546,1249,1372,1436],
  [0,35,384,94,158,226,356,546,1373,1437],
  [1,1,12,94,158,226,358,546,1249,1372,1436],
  [1,1,12,94,158,230,354,546,1121,1372,1436],
  [1,7,64,94,158,228,354,546,1373,1437],
  [1,7,384,94,158,358,546,1373,1437]]

def k174 : List (List ℕ) := [[0,1,48,94,230,546,1373,1437],
  [0,1,48,94,232,546,1121,1372,1436],
  [0,1,48,94,360,546,1249,1372,1436],
  [0,3,64,94,228,356,546,1121,1372,1436],
  [0,5,64,94,228,356,546,1249,1372,1436],
  [0,35,384,94,226,356,546,1373,1437],
  [1,1,12,94,226,358,546,1249,1372,1436],
  [1,1,12,94,230,354,546,1121,1372,1436],
  [1,7,64,94,228,354,546,1373,1437],
  [1,7,384,94,358,546,1373,1437]]

def k175 : List (List ℕ) := [[0,1,16,94,231,353,546,607,1121,1372,1436],
  [0,1,32,94,229,355,546,607,1249,1372,1436],
  [0,5,48,94,229,353,546,607,1373,1437],
  [0,5,192,94,225,357,546,607,1373,1437],
  [1,1,16,94,231,353,546,607,1249,1372,1436],
  [1,1,32,94,229,355,546,607,1121,1372,1436],
  [1,19,192,94,227,355,546,607,1373,1437]]

def k176 : List (List ℕ) := [[0,1,24,94,158,230,286,354,1121,1374,1438],
  [0,1,48,94,158,228,354,1121,1374,1438],
  [0,1,64,94,158,226,286,356,1375,1439],
  [0,1,64,94,158,228,286,354,1375,1439],
  [0,1,96,94,158,226,286,358,1121,1374,1438],
  [0,1,128,94,158,226,354,1375,1439],
  [0,1,128,94,158,356,1375,1439],
  [0,1,192,94,158,358,1121,1374,1438],
  [1,1,32,94,158,230,286,354,1249,1374,1438],
  [1,1,48,94,158,228,286,356,1121,1374,1438],
  [1,1,64,94,158,228,354,1249,1374,1438],
  [1,1,96,94,158,226,356,1121,1374,1438]]

def k177 : List (List ℕ) := [[0,1,12,94,226,358,546,671,1249,1372,1436],
  [0,1,12,94,230,354,546,671,1121,1372,1436],
  [0,1,27,94,158,234,286,1373,1437],
  [0,1,27,94,158,236,286,1121,1372,1436],
  [0,4,27,94,158,228,286,360,1249,1372,1436],
  [0,5,72,94,158,226,360,1121,1372,1436],
  [0,5,96,94,158,234,286,354,1249,1372,1436],
  [0,7,64,94,228,354,546,671,1373,1437],
  [0,7,384,94,358,546,671,1373,1437],
  [0,13,72,94,158,228,286,360,1121,1372,1436],
  [0,17,432,94,158,226,360,1249,1372,1436],
  [0,25,48,94,158,232,286,356,1121,1372,1436],
  [0,83,288,94,158,230,356,1249,1372,1436],
  [0,83,576,94,158,228,358,1121,1372,1436],
  [0,91,432,94,158,232,354,1121,1372,1436],
  [0,185,1152,94,158,230,354,1373,1437],
  [0,541,3456,94,158,226,358,1373,1437],
  [0,769,1728,94,158,230,286,356,1373,1437],
  [1,1,27,94,158,232,1373,1437],
  [1,1,27,94,158,234,1121,1372,1436],
  [1,1,48,94,230,546,671,1373,1437],
  [1,1,48,94,232,546,671,1121,1372,1436],
  [1,1,48,94,360,546,671,1249,1372,1436],
  [1,1,144,94,158,232,286,356,1249,1372,1436],
  [1,3,64,94,228,356,546,671,1121,1372,1436],
  [1,5,64,94,228,356,546,671,1249,1372,1436],
  [1,5,192,94,158,226,286,360,1373,1437],
  [1,5,384,94,158,360,1373,1437],
  [1,7,96,94,158,226,286,362,1121,1372,1436],
  [1,7,192,94,158,362,1121,1372,1436],
  [1,19,192,94,158,232,354,1249,1372,1436],
  [1,35,96,94,158,230,356,1121,1372,1436],
  [1,35,384,94,226,356,546,671,1373,1437],
  [1,59,216,94,158,234,286,354,1121,1372,1436],
  [1,109,288,94,158,230,286,358,1121,1372,1436],
  [1,151,576,94,158,232,286,354,1373,1437],
  [1,179,864,94,158,230,286,358,1249,1372,1436],
  [1,311,1728,94,158,228,286,358,1373,1437],
  [1,371,1728,94,158,228,358,1249,1372,1436],
  [1,971,3456,94,158,228,356,1373,1437]]

def k178 : List (List ℕ) := [[0,1,4,94,158,227,286,359,607,1373,1437],
  [0,1,8,94,158,225,359,607,1373,1437],
  [0,1,16,94,231,353,546,607,671,1249,1372,1436],
  [0,1,24,94,158,227,359,607,1249,1372,1436],
  [0,1,32,94,229,355,546,607,671,1121,1372,1436],
  [0,1,36,94,158,233,353,607,1249,1372,1436],
  [0,1,36,94,158,235,286,353,607,1121,1372,1436],
  [0,3,4,94,158,231,286,357,607,1249,1372,1436],
  [0,5,12,94,158,229,286,359,607,1121,1372,1436],
  [0,5,18,94,158,233,286,355,607,1121,1372,1436],
  [0,7,72,94,158,231,355,607,1121,1372,1436],
  [0,17,108,94,158,233,286,353,607,1373,1437],
  [0,19,192,94,227,355,546,607,671,1373,1437],
  [0,29,54,94,158,229,355,607,1373,1437],
  [1,1,16,94,231,353,546,607,671,1121,1372,1436],
  [1,1,24,94,158,227,359,607,1121,1372,1436],
  [1,1,32,94,229,355,546,607,671,1249,1372,1436],
  [1,1,36,94,158,233,353,607,1121,1372,1436],
  [1,1,36,94,158,235,286,353,607,1249,1372,1436],
  [1,3,4,94,158,231,286,357,607,1121,1372,1436],
  [1,5,12,94,158,229,286,359,607,1249,1372,1436],
  [1,5,18,94,158,233,286,355,607,1249,1372,1436],
  [1,5,48,94,229,353,546,607,671,1373,1437],
  [1,5,192,94,225,357,546,607,671,1373,1437],
  [1,7,72,94,158,231,355,607,1249,1372,1436],
  [1,17,108,94,158,231,353,607,1373,1437],
  [1,35,216,94,158,231,286,355,607,1373,1437],
  [1,59,216,94,158,229,286,357,607,1373,1437],
  [1,103,216,94,158,227,357,607,1373,1437]]

def k179 : List (List ℕ) := [[0,1,16,94,158,228,354,1121,1374,1438],
  [0,1,64,94,158,358,1121,1374,1438],
  [0,7,128,94,158,226,354,1631],
  [1,1,32,94,158,226,356,1121,1374,1438],
  [1,1,128,94,158,356,1631],
  [1,3,64,94,158,228,354,1249,1374,1438]]

def k180 : List (List ℕ) := [[0,1,81,33,94,159,228,286,351,607,673],
  [0,5,108,33,94,159,228,284,353,607,673,1121],
  [0,13,216,33,94,159,226,286,353,607,673,1121],
  [1,1,81,33,94,159,230,284,351,607,673],
  [1,2,27,33,94,159,230,282,353,609,673,1121]]

def k181 : List (List ℕ) := [[1,1,96,94,161,351,547,607,671]]

def k182 : List (List ℕ) := [[0,1,18,94,159,226,286,355,414,607,673],
  [0,1,18,94,159,226,286,355,414,607,673,1121],
  [0,1,18,94,159,228,284,355,414,607,673],
  [0,1,18,94,159,228,284,355,414,607,673,1121],
  [0,1,72,94,159,355,414,607,673],
  [0,1,72,94,159,355,414,607,673,1121]]

def k183 : List (List ℕ) := [[0,1,96,94,161,351,547,607]]

def k184 : List (List ℕ) := [[1,1,24,94,158,226,286,354],
  [1,1,48,94,158,354]]

def k185 : List (List ℕ) := [[0,1,24,94,158,226,286,354],
  [0,1,48,94,158,354]]

def k186 : List (List ℕ) := [[0,1,16,94,158,230,286,354,1249,1374,1438],
  [0,1,24,94,158,228,286,356,1121,1374,1438],
  [0,1,32,94,158,228,354,1249,1374,1438],
  [0,1,48,94,158,226,356,1121,1374,1438],
  [0,1,96,94,158,226,286,356,1375,1439],
  [0,1,192,94,158,356,1375,1439],
  [1,1,12,94,158,230,286,354,1121,1374,1438],
  [1,1,24,94,158,228,354,1121,1374,1438],
  [1,1,48,94,158,226,286,358,1121,1374,1438],
  [1,1,96,94,158,358,1121,1374,1438],
  [1,7,96,94,158,228,286,354,1375,1439],
  [1,7,192,94,158,226,354,1375,1439]]

def k187 : List (List ℕ) := [[0,1,24,33,94,159,228,286,357,607,1121,1373,1437],
  [0,1,32,33,94,159,228,286,355,607,1374,1438],
  [0,1,48,33,94,159,230,286,355,607,1249,1373,1437],
  [0,1,96,33,94,159,226,286,357,607,1374,1438],
  [1,1,24,33,94,159,228,286,357,607,1249,1373,1437],
  [1,1,48,33,94,159,230,286,353,607,1374,1438],
  [1,1,48,33,94,159,230,286,355,607,1121,1373,1437]]

def k188 : List (List ℕ) := [[0,1,16,94,159,226,357,545,607,671,1121,1373,1437],
  [0,1,32,94,159,228,355,545,607,671,1249,1373,1437],
  [0,1,64,94,159,357,545,607,671,1374,1438],
  [0,3,64,94,159,226,355,545,607,671,1374,1438],
  [1,1,16,94,159,226,357,545,607,671,1249,1373,1437],
  [1,1,32,94,159,228,353,545,607,671,1374,1438],
  [1,1,32,94,159,228,355,545,607,671,1121,1373,1437]]

def k189 : List (List ℕ) := [[0,1,12,94,158,227,357,607,1121,1373,1437],
  [0,1,12,94,158,229,286,357,607,1249,1373,1437],
  [0,1,16,94,158,227,355,607,1374,1438],
  [0,1,24,94,158,229,355,607,1249,1373,1437],
  [0,1,24,94,158,231,286,353,607,1374,1438],
  [0,1,24,94,158,231,286,355,607,1121,1373,1437],
  [0,1,48,94,158,225,357,607,1374,1438],
  [1,1,12,94,158,227,357,607,1249,1373,1437],
  [1,1,12,94,158,229,286,357,607,1121,1373,1437],
  [1,1,16,94,158,229,286,355,607,1374,1438],
  [1,1,24,94,158,229,353,607,1374,1438],
  [1,1,24,94,158,229,355,607,1121,1373,1437],
  [1,1,24,94,158,231,286,355,607,1249,1373,1437],
  [1,1,48,94,158,227,286,357,607,1374,1438]]

def k190 : List (List ℕ) := [[0,1,16,94,159,226,357,545,607,1249,1373,1437],
  [0,1,32,94,159,228,353,545,607,1374,1438],
  [0,1,32,94,159,228,355,545,607,1121,1373,1437],
  [1,1,16,94,159,226,357,545,607,1121,1373,1437],
  [1,1,32,94,159,228,355,545,607,1249,1373,1437],
  [1,1,64,94,159,357,545,607,1374,1438],
  [1,3,64,94,159,226,355,545,607,1374,1438]]

def k191 : List (List ℕ) := [[0,3,16,94,158,226,358,1121,1373,1437],
  [0,11,32,94,158,226,356,1374,1438],
  [1,1,8,94,158,228,354,1374,1438],
  [1,1,32,94,158,358,1374,1438],
  [1,3,16,94,158,226,358,1249,1373,1437]]

def k192 : List (List ℕ) := [[0,3,8,94,158,227,357,607,1249,1373,1437],
  [1,3,8,94,158,227,357,607,1121,1373,1437],
  [1,3,16,94,158,225,357,607,1374,1438],
  [1,3,16,94,158,227,355,607,1374,1438]]

def k193 : List (List ℕ) := [[0,3,16,94,156,226,358,1121,1373,1437],
  [0,11,32,94,156,226,356,1374,1438],
  [1,1,8,94,156,228,354,1374,1438],
  [1,1,32,94,156,358,1374,1438],
  [1,3,16,94,156,226,358,1249,1373,1437]]

def k194 : List (List ℕ) := [[0,1,24,94,158,226,286,354,673,1121],
  [0,1,48,94,158,354,673,1121],
  [0,1,54,94,158,226,673,1121],
  [1,1,54,94,158,228,286,673,1121]]

def k195 : List (List ℕ) := [[0,1,54,94,158,228,286,673,1121],
  [1,1,24,94,158,226,286,354,673,1121],
  [1,1,48,94,158,354,673,1121],
  [1,1,54,94,158,226,673,1121]]

def k196 : List (List ℕ) := [[0,1,54,94,158,226,673,1121],
  [1,1,24,94,158,226,286,354,673,1121],
  [1,1,48,94,158,354,673,1121],
  [1,1,54,94,158,228,286,673,1121]]

def k197 : List (List ℕ) := [[0,1,192,94,546,671,1121]]

def k198 : List (List ℕ) := [[1,1,192,94,546,1121]]

def k199 : List (List ℕ) := [[0,1,16,94,159,226,353,545,607,1121,1631],
  [1,1,16,94,159,226,353,545,607,1249,1631]]

def k200 : List (List ℕ) := [[0,1,24,33,94,159,228,286,353,607,1249,1631],
  [1,1,24,33,94,159,228,286,353,607,1121,1375,1439]]

def k201 : List (List ℕ) := [[0,1,1,94,159,226,353,545,607,1249,3423],
  [1,1,1,94,159,226,353,545,607,1121,3423]]

def k202 : List (List ℕ) := [[0,2,81,94,158,230,284,673,1121],
  [1,1,18,94,158,226,286,354,673,1121],
  [1,1,18,94,158,228,284,354,673,1121],
  [1,1,72,94,158,354,673,1121],
  [1,1,81,94,158,226,673,1121],
  [1,1,81,94,158,228,286,673,1121]]

def k203 : List (List ℕ) := [[0,1,18,94,158,226,286,354,673,1121],
  [0,1,18,94,158,228,284,354,673,1121],
  [0,1,72,94,158,354,673,1121],
  [0,1,81,94,158,226,673,1121],
  [0,1,81,94,158,228,286,673,1121],
  [1,2,81,94,158,230,284,673,1121]]

def k204 : List (List ℕ) := [[0,1,18,94,158,226,286,354,673,1121],
  [0,1,18,94,158,228,284,354,673,1121],
  [0,1,72,94,158,354,673,1121],
  [0,2,81,94,158,230,284,673,1121],
  [1,1,81,94,158,226,673,1121],
  [1,1,81,94,158,228,286,673,1121]]

def k205 : List (List ℕ) := [[0,1,81,94,158,227,351,609,673],
  [0,1,81,94,158,231,284,351,609,673],
  [0,4,27,94,158,231,282,353,609,673,1121],
  [0,5,108,94,158,225,353,607,673,1121],
  [1,2,81,94,158,229,286,351,609,673],
  [1,11,108,94,158,227,286,353,607,673,1121],
  [1,13,54,94,158,229,284,353,607,673,1121]]

def k206 : List (List ℕ) := [[0,1,3,94,158,228,286,865],
  [0,1,8,94,158,290,1185],
  [0,5,16,94,158,290],
  [1,1,2,94,158,228,286,1185],
  [1,1,12,94,158,290,865],
  [1,5,4,94,158,228,286]]

def k207 : List (List ℕ) := [[0,1,2,94,158,226,865],
  [0,1,3,94,158,228,286,865],
  [0,1,8,94,158,290,1185],
  [0,5,16,94,158,290],
  [1,1,2,94,158,226],
  [1,1,2,94,158,228,286,1185],
  [1,1,12,94,158,290,865],
  [1,5,4,94,158,228,286]]

def k208 : List (List ℕ) := [[0,1,1,94,156,232,284,414,1249],
  [0,1,3,94,156,232,284,414],
  [0,1,4,94,156,228,284,420,1313,1695,1759],
  [0,1,6,94,156,228,284,354,673,1121],
  [0,1,6,94,156,356,414,673],
  [0,1,6,94,156,356,414,673,1121],
  [0,1,8,94,156,290,418,1313,1695,1759],
  [0,1,8,94,156,294,414,1185,1695,1759],
  [0,1,9,94,156,228,286,865],
  [0,1,12,94,156,228,414],
  [0,4,9,94,156,230,284,865],
  [0,5,54,94,156,228,286,418,1185,1695,1759],
  [0,7,24,94,156,228,284,418],
  [0,7,96,94,156,290],
  [0,10,9,94,156,230,286,1185,1695,1759],
  [0,14,3,94,156,232,282,1249],
  [0,17,162,94,156,226,418,1185,1695,1759],
  [0,25,72,94,156,226,1249],
  [0,32,405,94,156,230,286,350,673],
  [0,52,81,94,156,230,284,673,1121],
  [0,71,108,94,156,228,1185,1695,1759],
  [0,74,81,94,156,232,282,418,1185,1695,1759],
  [0,524,243,94,156,232,282],
  [1,1,2,94,156,228,286,418,1313,1695,1759],
  [1,1,2,94,156,228,290,414,1185,1695,1759],
  [1,1,3,94,156,228,286,1249],
  [1,1,4,94,156,228,414,1249],
  [1,1,9,94,156,226,865],
  [1,1,16,94,156,420,1313,1695,1759],
  [1,1,24,94,156,292,414],
  [1,1,24,94,156,354,673,1121],
  [1,2,3,94,156,228,284,356,414,673],
  [1,2,3,94,156,228,284,356,414,673,1121],
  [1,3,16,94,156,292,1185,1695,1759],
  [1,4,9,94,156,232,282,865],
  [1,7,96,94,156,418],
  [1,10,9,94,156,230,284,418,1185,1695,1759],
  [1,16,405,94,156,228,350,673],
  [1,16,405,94,156,232,284,350,673],
  [1,17,162,94,156,226,290,1185,1695,1759],
  [1,20,81,94,156,228,286,673,1121],
  [1,32,81,94,156,232,282,673,1121],
  [1,74,81,94,156,232,284,1185,1695,1759],
  [1,91,18,94,156,230,284,1249],
  [1,137,135,94,156,230,284],
  [1,2369,9720,94,156,226],
  [1,3449,3240,94,156,228,286]]

def k209 : List (List ℕ) := [[0,1,8,94],
  [0,1,8,94,1313],
  [1,1,2,94,228,284],
  [1,1,2,94,228,284,1313]]

def k210 : List (List ℕ) := [[0,1,1,94,158,230,284,418,1695,1759],
  [0,1,1,94,158,230,414,1695,1759],
  [0,1,2,94,158,294,1185,1694,1758],
  [0,1,4,94,158,226,290,418,1185,1694,1758],
  [0,1,4,94,158,226,294,414,1185,1694,1758],
  [0,1,12,94,158,226,290,1695,1759],
  [0,1,12,94,158,294,414,1695,1759],
  [0,2,1,94,158,228,418,1313,1694,1758],
  [0,2,1,94,158,228,1695,1759],
  [0,2,1,94,158,230,284,420,1313,1694,1758],
  [0,2,3,94,158,228,284,420,1695,1759],
  [0,2,3,94,158,228,284,422,1313,1694,1758],
  [0,3,1,94,158,228,292,414,1185,1694,1758],
  [0,3,1,94,158,228,418,1185,1694,1758],
  [0,4,1,94,158,232,284,414,1249],
  [0,4,3,94,158,232,284,1695,1759],
  [0,4,3,94,158,234,284,414,1695,1759],
  [0,8,3,94,158,228,286,356,414,673,1695,1759],
  [0,8,3,94,158,230,282,356,414,673,1121],
  [0,8,3,94,158,230,282,356,673,1695,1759],
  [0,20,3,94,158,230,1185,1694,1758],
  [1,1,1,94,158,228,286,418,1695,1759],
  [1,1,1,94,158,228,290,414,1695,1759],
  [1,1,2,94,158,226,292,1185,1694,1758],
  [1,1,4,94,158,292,418,1185,1694,1758],
  [1,1,4,94,158,296,414,1185,1694,1758],
  [1,1,12,94,158,226,292,414,1695,1759],
  [1,1,12,94,158,292,1695,1759],
  [1,2,1,94,158,228,286,420,1313,1694,1758],
  [1,2,1,94,158,230,286,418,1313,1694,1758],
  [1,2,1,94,158,230,286,1695,1759],
  [1,2,3,94,158,230,282,420,1695,1759],
  [1,2,3,94,158,230,282,422,1313,1694,1758],
  [1,3,1,94,158,230,286,418,1185,1694,1758],
  [1,3,1,94,158,230,290,414,1185,1694,1758],
  [1,4,1,94,158,234,282,414,1249],
  [1,4,3,94,158,232,286,414,1695,1759],
  [1,4,3,94,158,234,282,1695,1759],
  [1,8,3,94,158,228,284,356,414,673,1121],
  [1,8,3,94,158,228,284,356,673,1695,1759],
  [1,8,3,94,158,230,284,356,414,673,1695,1759],
  [1,20,3,94,158,228,290,1185,1694,1758]]

def k211 : List (List ℕ) := [[0,1,3,94,158,290,418,1313,1695,1759],
  [0,1,3,94,158,356,414,673],
  [0,1,3,94,158,356,414,673,1121],
  [0,1,4,94,158,294,414,1185,1695,1759],
  [0,1,6,94,158,228,414],
  [0,2,1,94,158,232,284,414,1249],
  [0,2,3,94,158,232,284,414],
  [0,3,2,94,158,228,1185,1695,1759],
  [0,5,6,94,158,228,284,420,1313,1695,1759],
  [0,5,48,94,158,290],
  [0,11,12,94,158,228,284,418],
  [1,1,1,94,158,228,290,414,1185,1695,1759],
  [1,1,2,94,158,228,414,1249],
  [1,1,12,94,158,292,414],
  [1,3,8,94,158,292,1185,1695,1759],
  [1,4,3,94,158,228,284,356,414,673],
  [1,4,3,94,158,228,284,356,414,673,1121],
  [1,4,3,94,158,228,286,418,1313,1695,1759],
  [1,5,12,94,158,228,286],
  [1,5,24,94,158,420,1313,1695,1759],
  [1,11,48,94,158,418]]

def k212 : List (List ℕ) := [[0,1,2,94,158,232,284,414,1249],
  [0,1,6,94,158,232,284,414],
  [0,1,8,94,158,228,414,1249],
  [0,1,12,94,158,418],
  [0,1,12,94,158,420,1313,1695,1759],
  [0,1,18,94,158,226,865],
  [0,1,24,94,158,354,673,1121],
  [0,2,9,94,158,230,284,865],
  [0,3,4,94,158,228,1185,1695,1759],
  [0,5,9,94,158,230,286,1185,1695,1759],
  [0,5,24,94,158,228,414],
  [0,14,3,94,158,232,282,1249],
  [0,16,405,94,158,230,286,350,673],
  [0,17,324,94,158,226,290,1185,1695,1759],
  [0,26,81,94,158,230,284,673,1121],
  [0,74,81,94,158,232,282,418,1185,1695,1759],
  [0,524,243,94,158,232,282],
  [1,1,2,94,158,228,290,414,1185,1695,1759],
  [1,1,3,94,158,228,284,356,414,673],
  [1,1,3,94,158,228,284,356,414,673,1121],
  [1,1,6,94,158,228,286,418,1313,1695,1759],
  [1,1,6,94,158,228,286,1249],
  [1,1,12,94,158,228,284,420,1313,1695,1759],
  [1,1,12,94,158,290,418,1313,1695,1759],
  [1,1,12,94,158,356,414,673],
  [1,1,12,94,158,356,414,673,1121],
  [1,1,24,94,158,228,284,418],
  [1,1,48,94,158,290],
  [1,4,9,94,158,232,282,865],
  [1,5,9,94,158,230,284,418,1185,1695,1759],
  [1,16,405,94,158,232,284,350,673],
  [1,17,324,94,158,226,418,1185,1695,1759],
  [1,32,81,94,158,232,282,673,1121],
  [1,49,18,94,158,230,284,1249],
  [1,59,270,94,158,230,284],
  [1,74,81,94,158,232,284,1185,1695,1759],
  [1,209,1080,94,158,228,286],
  [1,475,1944,94,158,226]]

def k213 : List (List ℕ) := [[0,1,1,94,158,228,286,418,1695,1759],
  [0,1,2,94,158,226,292,1185,1694,1758],
  [0,1,12,94,158,226,292,414,1695,1759],
  [0,2,1,94,158,228,286,420,1313,1694,1758],
  [0,2,1,94,158,230,286,418,1313,1694,1758],
  [0,2,1,94,158,230,286,1695,1759],
  [0,2,3,94,158,230,282,420,1695,1759],
  [0,2,3,94,158,230,282,422,1313,1694,1758],
  [0,2,3,94,158,232,286,414,1695,1759],
  [0,3,1,94,158,230,286,418,1185,1694,1758],
  [0,3,1,94,158,230,290,414,1185,1694,1758],
  [0,4,1,94,158,234,282,414,1249],
  [0,4,3,94,158,234,282,1695,1759],
  [0,5,6,94,158,228,290,414,1695,1759],
  [0,8,3,94,158,228,284,356,414,673,1121],
  [0,8,3,94,158,228,284,356,673,1695,1759],
  [0,8,3,94,158,230,284,356,414,673,1695,1759],
  [0,14,3,94,158,228,290,1185,1694,1758],
  [1,1,1,94,158,230,284,418,1695,1759],
  [1,1,1,94,158,230,414,1695,1759],
  [1,1,2,94,158,228,414,1249],
  [1,1,4,94,158,226,290,418,1185,1694,1758],
  [1,1,4,94,158,226,294,414,1185,1694,1758],
  [1,1,12,94,158,226,290,1695,1759],
  [1,2,1,94,158,228,292,414,1185,1694,1758],
  [1,2,1,94,158,228,418,1185,1694,1758],
  [1,2,1,94,158,228,418,1313,1694,1758],
  [1,2,1,94,158,230,284,420,1313,1694,1758],
  [1,2,1,94,158,232,284,414,1249],
  [1,2,3,94,158,228,284,420,1695,1759],
  [1,2,3,94,158,228,284,422,1313,1694,1758],
  [1,2,3,94,158,232,284,1695,1759],
  [1,4,3,94,158,234,284,414,1695,1759],
  [1,8,3,94,158,228,286,356,414,673,1695,1759],
  [1,8,3,94,158,230,282,356,414,673,1121],
  [1,8,3,94,158,230,282,356,673,1695,1759],
  [1,11,6,94,158,228,1695,1759],
  [1,20,3,94,158,230,1185,1694,1758]]

def k214 : List (List ℕ) := [[0,1,1,33,94,159,229,286,418,1313,1694,1758],
  [0,1,3,33,94,159,229,282,420,1695,1759],
  [0,1,3,33,94,159,229,282,422,1313,1694,1758],
  [0,1,4,33,94,159,225,292,1185,1694,1758],
  [0,1,6,33,94,159,227,284,354,673,1121],
  [0,1,8,33,94,159,227,284,420,1695,1759],
  [0,1,9,33,94,159,227,286,418,865,1695,1759],
  [0,1,12,33,94,159,227,284,422,1313,1694,1758],
  [0,1,24,33,94,159,225,292,414,1695,1759],
  [0,2,1,33,94,159,233,282,414,1249],
  [0,2,3,33,94,159,233,282,1695,1759],
  [0,3,2,33,94,159,229,290,414,1185,1694,1758],
  [0,4,3,33,94,159,229,284,356,414,673,1695,1759],
  [0,4,9,33,94,159,229,284,418,865,1695,1759],
  [0,8,9,33,94,159,231,284,865,1695,1759],
  [0,22,3,33,94,159,231,282,1249],
  [0,32,405,33,94,159,229,286,350,418,673,1695,1759],
  [0,32,405,33,94,159,231,286,350,673,1695,1759],
  [0,62,81,33,94,159,229,284,673,1121],
  [0,85,324,33,94,159,227,418,1185,1694,1758],
  [0,148,81,33,94,159,231,282,420,1185,1694,1758],
  [0,148,81,33,94,159,231,286,1185,1694,1758],
  [0,635,162,33,94,159,229,286,418,1185,1694,1758],
  [0,1210,243,33,94,159,231,282,418,1695,1759],
  [0,4967,2430,33,94,159,229,286,1695,1759],
  [0,6257,9720,33,94,159,227,1695,1759],
  [1,1,1,33,94,159,229,284,420,1313,1694,1758],
  [1,1,2,33,94,159,229,414,1695,1759],
  [1,1,4,33,94,159,227,286,420,1313,1694,1758],
  [1,1,8,33,94,159,225,290,418,1185,1694,1758],
  [1,1,8,33,94,159,225,294,414,1185,1694,1758],
  [1,1,9,33,94,159,227,865,1695,1759],
  [1,1,24,33,94,159,225,290,1695,1759],
  [1,1,162,33,94,159,227,286,420,1185,1694,1758],
  [1,2,3,33,94,159,233,284,414,1695,1759],
  [1,4,3,33,94,159,229,282,356,414,673,1121],
  [1,4,3,33,94,159,229,282,356,673,1695,1759],
  [1,4,9,33,94,159,229,286,865,1695,1759],
  [1,5,18,33,94,159,227,286,1249],
  [1,8,9,33,94,159,231,282,418,865,1695,1759],
  [1,10,81,33,94,159,227,286,673,1121],
  [1,13,3,33,94,159,229,284,1249],
  [1,29,324,33,94,159,227,290,1185,1694,1758],
  [1,32,405,33,94,159,229,350,673,1695,1759],
  [1,32,405,33,94,159,231,284,350,418,673,1695,1759],
  [1,64,81,33,94,159,231,282,673,1121],
  [1,98,81,33,94,159,229,284,420,1185,1694,1758],
  [1,296,81,33,94,159,231,284,418,1185,1694,1758],
  [1,368,81,33,94,159,229,1185,1694,1758],
  [1,1210,243,33,94,159,231,284,1695,1759],
  [1,1876,1215,33,94,159,229,284,418,1695,1759],
  [1,2273,2430,33,94,159,227,286,418,1695,1759]]

def k215 : List (List ℕ) := [[0,2,1,94,157,229,286,1249],
  [0,2,1,94,157,231,284],
  [0,24,1,94,157,233,282,1249],
  [1,2,1,94,157,229,286],
  [1,26,1,94,157,231,284,1249]]

def k216 : List (List ℕ) := [[0,1,9,94,158,226,865],
  [0,1,9,94,158,228,286,865],
  [0,1,12,94,158,226,286,354,673,1121],
  [0,1,24,94,158,354,673,1121],
  [0,1,36,94,158,228,286],
  [0,5,9,94,158,230,284,1185],
  [0,7,6,94,158,230,284,1249],
  [0,13,81,94,158,228,286,673,1121],
  [0,55,54,94,158,230,284],
  [1,1,2,94,158,228,286,1185],
  [1,1,18,94,158,226,1185],
  [1,1,24,94,158,290],
  [1,2,9,94,158,230,284,865],
  [1,5,81,94,158,226,673,1121],
  [1,7,6,94,158,228,286,1249],
  [1,8,81,94,158,230,284,673,1121],
  [1,17,27,94,158,226]]

def k217 : List (List ℕ) := [[0,1,9,94,158,226,865],
  [0,1,9,94,158,228,286,865],
  [0,1,12,94,158,226,286,354,673,1121],
  [0,1,24,94,158,354,673,1121],
  [0,5,9,94,158,230,284,1185],
  [0,7,6,94,158,230,284,1249],
  [0,13,54,94,158,228,286],
  [0,13,81,94,158,228,286,673,1121],
  [0,55,54,94,158,230,284],
  [1,1,2,94,158,228,286,1185],
  [1,1,18,94,158,226,1185],
  [1,1,24,94,158,290],
  [1,2,9,94,158,230,284,865],
  [1,5,81,94,158,226,673,1121],
  [1,8,81,94,158,230,284,673,1121],
  [1,11,36,94,158,226,1249],
  [1,29,18,94,158,228,286,1249],
  [1,317,216,94,158,226]]

def k218 : List (List ℕ) := [[0,1,1,94,158,228,286,865],
  [0,1,4,94,158,226,286,354,673,1121],
  [0,1,8,94,158,290],
  [0,7,2,94,158,230,284,1249],
  [0,13,27,94,158,228,286,673,1121],
  [0,25,54,94,158,226,1185],
  [0,29,27,94,158,230,284,1185],
  [0,169,162,94,158,226],
  [0,607,162,94,158,230,284],
  [1,1,3,94,158,226,865],
  [1,1,8,94,158,354,673,1121],
  [1,2,3,94,158,230,284,865],
  [1,5,27,94,158,226,673,1121],
  [1,7,2,94,158,228,286,1249],
  [1,8,27,94,158,230,284,673,1121],
  [1,83,54,94,158,228,286,1185],
  [1,1471,324,94,158,228,286]]

def k219 : List (List ℕ) := [[0,1,1,94,158,228,286,865],
  [0,1,4,94,158,226,286,354,673,1121],
  [0,1,8,94,158,290],
  [0,7,2,94,158,230,284,1249],
  [0,13,27,94,158,228,286,673,1121],
  [0,25,54,94,158,226,1185],
  [0,29,27,94,158,230,284,1185],
  [0,37,36,94,158,226,1249],
  [0,607,162,94,158,230,284],
  [1,1,3,94,158,226,865],
  [1,1,8,94,158,354,673,1121],
  [1,2,3,94,158,230,284,865],
  [1,5,27,94,158,226,673,1121],
  [1,8,27,94,158,230,284,673,1121],
  [1,83,54,94,158,228,286,1185],
  [1,95,18,94,158,228,286,1249],
  [1,274,81,94,158,228,286],
  [1,479,648,94,158,226]]

def k220 : List (List ℕ) := [[0,1,2,94,158,226,286,354,1121],
  [0,1,4,94,158,354],
  [0,2,9,94,158,226,1121],
  [0,2,9,94,158,228,286],
  [1,1,2,94,158,226,286,354],
  [1,1,4,94,158,354,1121],
  [1,2,9,94,158,226],
  [1,2,9,94,158,228,286,1121]]

def k221 : List (List ℕ) := [[0,1,2,94,156,234,286,354,1249,1372,1436],
  [0,1,4,94,156,226,286,360,1373,1437],
  [0,1,6,94,156,230,286,358,1121,1372,1436],
  [0,2,9,94,156,234,286,1373,1437],
  [0,2,9,94,156,236,286,1121,1372,1436],
  [0,5,3,94,156,230,354,1373,1437],
  [0,7,4,94,156,232,286,356,1121,1372,1436],
  [0,7,12,94,156,228,358,1121,1372,1436],
  [0,7,24,94,156,226,360,1121,1372,1436],
  [0,8,9,94,156,228,286,360,1249,1372,1436],
  [0,11,36,94,156,228,358,1249,1372,1436],
  [0,19,24,94,156,230,356,1249,1372,1436],
  [0,25,18,94,156,232,354,1121,1372,1436],
  [0,125,72,94,156,226,358,1373,1437],
  [0,307,72,94,156,230,286,356,1373,1437],
  [1,1,2,94,156,232,354,1249,1372,1436],
  [1,1,8,94,156,360,1373,1437],
  [1,2,3,94,156,228,286,360,1121,1372,1436],
  [1,2,9,94,156,232,1373,1437],
  [1,2,9,94,156,234,1121,1372,1436],
  [1,5,12,94,156,232,286,356,1249,1372,1436],
  [1,13,6,94,156,232,286,354,1373,1437],
  [1,17,8,94,156,230,356,1121,1372,1436],
  [1,19,18,94,156,230,286,358,1249,1372,1436],
  [1,25,18,94,156,234,286,354,1121,1372,1436],
  [1,37,72,94,156,226,360,1249,1372,1436],
  [1,113,36,94,156,228,356,1373,1437],
  [1,179,72,94,156,228,286,358,1373,1437]]

def k222 : List (List ℕ) := [[0,1,4,94,158,232,286,356,1121,1372,1436],
  [0,1,6,94,158,232,286,356,1249,1372,1436],
  [0,1,8,94,158,226,360,1121,1372,1436],
  [0,1,9,94,158,234,286,1373,1437],
  [0,1,9,94,158,236,286,1121,1372,1436],
  [0,1,16,94,158,226,286,362,1121,1372,1436],
  [0,1,16,94,158,234,286,354,1249,1372,1436],
  [0,1,64,94,158,360,1373,1437],
  [0,3,32,94,158,226,286,360,1373,1437],
  [0,3,32,94,158,228,358,1249,1372,1436],
  [0,3,32,94,158,232,354,1249,1372,1436],
  [0,4,9,94,158,228,286,360,1249,1372,1436],
  [0,5,16,94,158,230,356,1121,1372,1436],
  [0,15,64,94,158,228,356,1373,1437],
  [0,31,48,94,158,230,286,358,1121,1372,1436],
  [0,479,288,94,158,230,286,356,1373,1437],
  [1,1,8,94,158,232,354,1121,1372,1436],
  [1,1,32,94,158,362,1121,1372,1436],
  [1,3,16,94,158,230,356,1249,1372,1436],
  [1,4,9,94,158,234,286,354,1121,1372,1436],
  [1,7,12,94,158,228,286,360,1121,1372,1436],
  [1,7,64,94,158,230,354,1373,1437],
  [1,9,32,94,158,228,358,1121,1372,1436],
  [1,9,64,94,158,226,358,1373,1437],
  [1,83,96,94,158,232,286,354,1373,1437],
  [1,103,144,94,158,230,286,358,1249,1372,1436],
  [1,277,288,94,158,228,286,358,1373,1437]]

def k223 : List (List ℕ) := [[0,1,4,33,94,159,233,286,354,1249,1372,1436],
  [0,1,8,33,94,159,225,286,360,1373,1437],
  [0,2,9,33,94,159,233,286,1373,1437],
  [0,2,9,33,94,159,235,286,1121,1372,1436],
  [0,5,12,33,94,159,229,286,358,1121,1372,1436],
  [0,5,24,33,94,159,231,286,356,1249,1372,1436],
  [0,9,8,33,94,159,231,286,356,1121,1372,1436],
  [0,55,72,33,94,159,227,286,360,1249,1372,1436],
  [0,113,36,33,94,159,229,286,356,1373,1437],
  [1,13,24,33,94,159,227,286,360,1121,1372,1436],
  [1,29,18,33,94,159,227,286,358,1373,1437],
  [1,41,36,33,94,159,233,286,354,1121,1372,1436],
  [1,43,24,33,94,159,231,286,354,1373,1437],
  [1,47,36,33,94,159,229,286,358,1249,1372,1436]]

def k224 : List (List ℕ) := [[0,3,2,94,157,227,358,1121,1373,1437],
  [0,3,2,94,157,229,286,358,1249,1373,1437],
  [0,3,4,94,157,231,286,354,1374,1438],
  [0,9,4,94,157,227,356,1374,1438],
  [1,3,2,94,157,227,358,1249,1373,1437],
  [1,3,2,94,157,229,286,358,1121,1373,1437],
  [1,3,4,94,157,229,354,1374,1438],
  [1,9,4,94,157,229,286,356,1374,1438]]

def k225 : List (List ℕ) := [[0,1,4,94,158,228,354,1121,1374,1438],
  [0,1,16,94,158,358,1121,1374,1438],
  [0,3,4,94,158,226,356,1249,1374,1438],
  [0,7,1,94,158,356,1887],
  [1,3,16,94,158,228,354,1249,1374,1438],
  [1,7,8,94,158,226,356,1121,1374,1438],
  [1,25,1,94,158,226,354,1887]]

def k226 : List (List ℕ) := [[1,1,8,94,158,354]]

def k227 : List (List ℕ) := [[0,1,4,94,158,230,286,354,1121,1374,1438],
  [0,1,16,94,158,226,286,358,1121,1374,1438],
  [0,1,16,94,158,226,356,1121,1374,1438],
  [0,3,32,94,158,226,286,356,1375,1439],
  [0,3,32,94,158,228,286,354,1375,1439],
  [0,3,32,94,158,228,354,1249,1374,1438],
  [1,1,8,94,158,228,286,356,1121,1374,1438],
  [1,1,8,94,158,228,354,1121,1374,1438],
  [1,1,32,94,158,358,1121,1374,1438],
  [1,3,16,94,158,230,286,354,1249,1374,1438],
  [1,3,64,94,158,226,354,1375,1439],
  [1,3,64,94,158,356,1375,1439]]

def k228 : List (List ℕ) := [[0,2,9,94,158,234,286,1373,1437],
  [0,2,9,94,158,236,286,1121,1372,1436],
  [0,5,16,94,158,234,286,354,1249,1372,1436],
  [0,5,64,94,158,360,1373,1437],
  [0,7,32,94,158,362,1121,1372,1436],
  [0,8,9,94,158,228,286,360,1249,1372,1436],
  [0,13,12,94,158,228,286,360,1121,1372,1436],
  [0,25,8,94,158,232,286,356,1121,1372,1436],
  [0,29,48,94,158,230,356,1249,1372,1436],
  [0,109,72,94,158,232,354,1121,1372,1436],
  [0,115,288,94,158,228,358,1249,1372,1436],
  [0,173,96,94,158,228,358,1121,1372,1436],
  [0,263,192,94,158,230,354,1373,1437],
  [0,595,576,94,158,226,358,1373,1437],
  [0,769,288,94,158,230,286,356,1373,1437],
  [1,1,24,94,158,232,286,356,1249,1372,1436],
  [1,2,9,94,158,232,1373,1437],
  [1,2,9,94,158,234,1121,1372,1436],
  [1,5,32,94,158,226,286,360,1373,1437],
  [1,7,12,94,158,226,360,1121,1372,1436],
  [1,7,16,94,158,226,286,362,1121,1372,1436],
  [1,13,32,94,158,232,354,1249,1372,1436],
  [1,37,72,94,158,226,360,1249,1372,1436],
  [1,45,16,94,158,230,356,1121,1372,1436],
  [1,59,36,94,158,234,286,354,1121,1372,1436],
  [1,109,48,94,158,230,286,358,1121,1372,1436],
  [1,151,96,94,158,232,286,354,1373,1437],
  [1,179,144,94,158,230,286,358,1249,1372,1436],
  [1,311,288,94,158,228,286,358,1373,1437],
  [1,1349,576,94,158,228,356,1373,1437]]

def k229 : List (List ℕ) := [[0,1,6,94,158,233,353,607,1249,1372,1436],
  [0,1,6,94,158,235,286,353,607,1121,1372,1436],
  [0,3,1,94,158,229,357,607,1121,1372,1436],
  [0,3,2,94,158,227,286,359,607,1373,1437],
  [0,5,2,94,158,229,286,359,607,1121,1372,1436],
  [0,5,3,94,158,233,286,355,607,1121,1372,1436],
  [0,5,36,94,158,227,357,607,1373,1437],
  [0,7,4,94,158,227,359,607,1249,1372,1436],
  [0,9,2,94,158,231,286,357,607,1249,1372,1436],
  [0,11,12,94,158,231,355,607,1249,1372,1436],
  [0,17,18,94,158,233,286,353,607,1373,1437],
  [0,31,18,94,158,229,355,607,1373,1437],
  [1,1,6,94,158,233,353,607,1121,1372,1436],
  [1,1,6,94,158,235,286,353,607,1249,1372,1436],
  [1,3,1,94,158,229,357,607,1249,1372,1436],
  [1,3,4,94,158,225,359,607,1373,1437],
  [1,5,2,94,158,229,286,359,607,1249,1372,1436],
  [1,5,3,94,158,233,286,355,607,1249,1372,1436],
  [1,7,4,94,158,227,359,607,1121,1372,1436],
  [1,9,2,94,158,231,286,357,607,1121,1372,1436],
  [1,11,12,94,158,231,355,607,1121,1372,1436],
  [1,17,18,94,158,231,353,607,1373,1437],
  [1,35,36,94,158,231,286,355,607,1373,1437],
  [1,59,36,94,158,229,286,357,607,1373,1437]]

def k230 : List (List ℕ) := [[0,1,3,94,159,228,284,355,414,607,673],
  [0,1,3,94,159,228,284,355,414,607,673,1121],
  [1,1,12,94,159,355,414,607,673],
  [1,1,12,94,159,355,414,607,673,1121]]

def k231 : List (List ℕ) := [[0,1,8,94,158,354],
  [1,1,4,94,158,226,286,354]]

def k232 : List (List ℕ) := [[0,1,4,94,158,226,286,354],
  [1,1,8,94,158,354]]

def k233 : List (List ℕ) := [[0,1,4,94,158,228,286,356,1121,1374,1438],
  [0,1,4,94,158,228,354,1121,1374,1438],
  [0,1,16,94,158,226,286,356,1375,1439],
  [0,1,16,94,158,358,1121,1374,1438],
  [0,3,8,94,158,230,286,354,1249,1374,1438],
  [0,7,32,94,158,226,354,1375,1439],
  [1,1,2,94,158,230,286,354,1121,1374,1438],
  [1,1,8,94,158,226,286,358,1121,1374,1438],
  [1,1,8,94,158,226,356,1121,1374,1438],
  [1,1,32,94,158,356,1375,1439],
  [1,3,16,94,158,228,354,1249,1374,1438],
  [1,7,16,94,158,228,286,354,1375,1439]]

def k234 : List (List ℕ) := [[0,1,4,33,94,159,228,286,357,607,1121,1373,1437],
  [0,1,8,33,94,159,230,286,355,607,1249,1373,1437],
  [0,1,16,33,94,159,226,286,357,607,1374,1438],
  [0,3,16,33,94,159,228,286,355,607,1374,1438],
  [1,1,4,33,94,159,228,286,357,607,1249,1373,1437],
  [1,1,8,33,94,159,230,286,353,607,1374,1438],
  [1,1,8,33,94,159,230,286,355,607,1121,1373,1437]]

def k235 : List (List ℕ) := [[0,1,2,94,158,227,357,607,1121,1373,1437],
  [0,1,2,94,158,229,286,357,607,1249,1373,1437],
  [0,1,4,94,158,229,355,607,1249,1373,1437],
  [0,1,4,94,158,231,286,353,607,1374,1438],
  [0,1,4,94,158,231,286,355,607,1121,1373,1437],
  [0,1,8,94,158,225,357,607,1374,1438],
  [0,3,8,94,158,227,355,607,1374,1438],
  [1,1,2,94,158,227,357,607,1249,1373,1437],
  [1,1,2,94,158,229,286,357,607,1121,1373,1437],
  [1,1,4,94,158,229,353,607,1374,1438],
  [1,1,4,94,158,229,355,607,1121,1373,1437],
  [1,1,4,94,158,231,286,355,607,1249,1373,1437],
  [1,1,8,94,158,227,286,357,607,1374,1438],
  [1,3,8,94,158,229,286,355,607,1374,1438]]

def k236 : List (List ℕ) := [[0,1,27,94,158,228,286,673,1121],
  [1,1,12,94,158,226,286,354,673,1121],
  [1,1,24,94,158,354,673,1121],
  [1,1,27,94,158,226,673,1121]]

def k237 : List (List ℕ) := [[0,1,4,94,158,226,286,354,673,1121],
  [0,1,9,94,158,226,673,1121],
  [1,1,8,94,158,354,673,1121],
  [1,1,9,94,158,228,286,673,1121]]

def k238 : List (List ℕ) := [[0,1,8,94,158,354,673,1121],
  [0,1,9,94,158,228,286,673,1121],
  [1,1,4,94,158,226,286,354,673,1121],
  [1,1,9,94,158,226,673,1121]]

def k239 : List (List ℕ) := [[0,1,8,94,158,354,673,1121],
  [0,1,9,94,158,226,673,1121],
  [1,1,4,94,158,226,286,354,673,1121],
  [1,1,9,94,158,228,286,673,1121]]

def k240 : List (List ℕ) := [[0,1,4,33,94,159,228,286,353,607,1249,1631],
  [1,1,4,33,94,159,228,286,353,607,1121,1631]]

def k241 : List (List ℕ) := [[0,1,12,94,158,354,673,1121],
  [0,4,27,94,158,230,284,673,1121],
  [1,1,3,94,158,228,284,354,673,1121],
  [1,4,27,94,158,228,286,673,1121]]

def k242 : List (List ℕ) := [[0,1,3,94,158,228,284,354,673,1121],
  [0,4,27,94,158,228,286,673,1121],
  [1,1,12,94,158,354,673,1121],
  [1,4,27,94,158,230,284,673,1121]]

def k243 : List (List ℕ) := [[0,1,3,94,158,228,284,354,673,1121],
  [0,4,27,94,158,230,284,673,1121],
  [1,1,12,94,158,354,673,1121],
  [1,4,27,94,158,228,286,673,1121]]

def k244 : List (List ℕ) := [[0,1,27,33,94,159,228,286,351,609,673],
  [0,13,18,33,94,159,228,284,353,607,673,1121],
  [1,1,27,33,94,159,230,284,351,609,673],
  [1,4,9,33,94,159,230,282,353,609,673,1121]]

def k245 : List (List ℕ) := [[0,2,27,94,158,227,351,609,673],
  [0,2,27,94,158,231,284,351,609,673],
  [0,5,9,94,158,227,286,353,607,673,1121],
  [0,8,9,94,158,231,282,353,609,673,1121],
  [1,4,27,94,158,229,286,351,609,673],
  [1,7,3,94,158,229,284,353,607,673,1121]]

def k246 : List (List ℕ) := [[0,1,4,94,158,228,286,865],
  [0,1,16,94,158,290,865],
  [0,3,8,94,158,226,1185],
  [0,15,16,94,158,226],
  [1,1,4,94,158,226,865],
  [1,3,8,94,158,228,286,1185],
  [1,3,32,94,158,290,1185],
  [1,15,16,94,158,228,286],
  [1,15,64,94,158,290]]

def k247 : List (List ℕ) := [[0,1,2,94,156,226,286,356,414,673],
  [0,1,2,94,156,226,286,356,414,673,1121],
  [0,1,4,94,156,226,865],
  [0,1,4,94,156,232,284,414],
  [0,1,8,94,156,228,284,354,673,1121],
  [0,1,32,94,156,292,414],
  [0,1,32,94,156,354,673,1121],
  [0,1,128,94,156,290],
  [0,2,1,94,156,228,286,1249],
  [0,2,1,94,156,230,284,865],
  [0,3,4,94,156,232,284,414,1249],
  [0,3,8,94,156,226,292,414,1185,1695,1759],
  [0,3,8,94,156,226,418,1313,1695,1759],
  [0,3,16,94,156,228,284,420,1313,1695,1759],
  [0,3,16,94,156,228,414],
  [0,3,16,94,156,228,414,1249],
  [0,3,64,94,156,420,1313,1695,1759],
  [0,5,54,94,156,226,673,1121],
  [0,7,2,94,156,232,282,1249],
  [0,7,32,94,156,228,284,418],
  [0,7,128,94,156,418],
  [0,8,135,94,156,230,286,350,673],
  [0,9,64,94,156,292,1185,1695,1759],
  [0,11,3,94,156,230,286,1185,1695,1759],
  [0,11,6,94,156,232,282,418,1185,1695,1759],
  [0,17,27,94,156,230,284,673,1121],
  [0,40,9,94,156,232,282],
  [0,55,24,94,156,228,286,418,1185,1695,1759],
  [0,6937,1440,94,156,228,286],
  [1,1,1,94,156,232,282,865],
  [1,1,2,94,156,228,284,356,414,673],
  [1,1,2,94,156,228,284,356,414,673,1121],
  [1,1,4,94,156,230,286,414],
  [1,1,8,94,156,226,286,354,673,1121],
  [1,1,8,94,156,226,290,414],
  [1,1,8,94,156,356,414,673],
  [1,1,8,94,156,356,414,673,1121],
  [1,3,4,94,156,230,286,414,1249],
  [1,3,8,94,156,228,286,418,1313,1695,1759],
  [1,3,8,94,156,228,290,414,1185,1695,1759],
  [1,3,16,94,156,226,286,420,1313,1695,1759],
  [1,3,32,94,156,290,418,1313,1695,1759],
  [1,3,32,94,156,294,414,1185,1695,1759],
  [1,4,135,94,156,228,350,673],
  [1,4,135,94,156,232,284,350,673],
  [1,5,4,94,156,228,286,865],
  [1,5,48,94,156,226,290,1185,1695,1759],
  [1,5,96,94,156,226,1249],
  [1,7,32,94,156,226,286,418],
  [1,8,27,94,156,232,282,673,1121],
  [1,11,3,94,156,230,284,418,1185,1695,1759],
  [1,11,6,94,156,232,284,1185,1695,1759],
  [1,11,24,94,156,226,418,1185,1695,1759],
  [1,23,54,94,156,228,286,673,1121],
  [1,83,48,94,156,228,1185,1695,1759],
  [1,133,24,94,156,230,284,1249],
  [1,241,240,94,156,226],
  [1,373,45,94,156,230,284]]

def k248 : List (List ℕ) := [[0,3,8,94,226,286],
  [0,3,8,94,226,286,1313],
  [1,3,8,94,228,284],
  [1,3,8,94,228,284,1313],
  [1,3,32,94],
  [1,3,32,94,1313]]

def k249 : List (List ℕ) := [[0,1,1,94,158,226,286,356,414,673,1121],
  [0,1,1,94,158,226,286,356,673,1695,1759],
  [0,1,1,94,158,234,284,414,1695,1759],
  [0,1,16,94,158,292,1695,1759],
  [0,2,1,94,158,230,282,356,414,673,1121],
  [0,2,1,94,158,230,282,356,673,1695,1759],
  [0,3,1,94,158,228,286,356,414,673,1695,1759],
  [0,3,2,94,158,230,284,420,1313,1694,1758],
  [0,3,2,94,158,232,284,1695,1759],
  [0,3,4,94,158,226,420,1313,1694,1758],
  [0,3,4,94,158,228,284,420,1695,1759],
  [0,3,4,94,158,228,284,422,1313,1694,1758],
  [0,3,4,94,158,230,284,418,1695,1759],
  [0,3,8,94,158,226,418,1695,1759],
  [0,3,16,94,158,292,418,1185,1694,1758],
  [0,3,16,94,158,296,414,1185,1694,1758],
  [0,5,1,94,158,230,1185,1694,1758],
  [0,5,4,94,158,230,414,1695,1759],
  [0,9,2,94,158,232,284,414,1249],
  [0,9,4,94,158,228,418,1313,1694,1758],
  [0,9,16,94,158,226,292,414,1695,1759],
  [0,15,4,94,158,228,292,414,1185,1694,1758],
  [0,15,4,94,158,228,418,1185,1694,1758],
  [0,19,8,94,158,228,1695,1759],
  [0,29,8,94,158,226,292,1185,1694,1758],
  [1,1,1,94,158,226,356,414,673,1695,1759],
  [1,1,1,94,158,234,282,1695,1759],
  [1,1,2,94,158,230,282,420,1695,1759],
  [1,1,2,94,158,230,282,422,1313,1694,1758],
  [1,1,4,94,158,226,286,420,1695,1759],
  [1,1,4,94,158,226,286,422,1313,1694,1758],
  [1,1,16,94,158,294,414,1695,1759],
  [1,2,1,94,158,230,284,356,414,673,1695,1759],
  [1,2,1,94,158,230,286,1695,1759],
  [1,3,1,94,158,228,284,356,414,673,1121],
  [1,3,1,94,158,228,284,356,673,1695,1759],
  [1,3,1,94,158,234,282,414,1249],
  [1,3,2,94,158,230,286,414,1249],
  [1,3,2,94,158,230,286,418,1313,1694,1758],
  [1,3,2,94,158,232,286,414,1695,1759],
  [1,3,4,94,158,226,290,418,1313,1694,1758],
  [1,3,8,94,158,294,1185,1694,1758],
  [1,5,4,94,158,228,290,414,1695,1759],
  [1,9,4,94,158,228,286,420,1313,1694,1758],
  [1,9,4,94,158,230,286,418,1185,1694,1758],
  [1,9,4,94,158,230,290,414,1185,1694,1758],
  [1,9,8,94,158,228,286,418,1695,1759],
  [1,15,16,94,158,226,290,1695,1759],
  [1,27,16,94,158,226,290,418,1185,1694,1758],
  [1,27,16,94,158,226,294,414,1185,1694,1758],
  [1,33,4,94,158,228,290,1185,1694,1758]]

def k250 : List (List ℕ) := [[0,1,1,94,158,226,286,356,414,673],
  [0,1,1,94,158,226,286,356,414,673,1121],
  [0,1,1,94,158,226,418,1313,1695,1759],
  [0,1,2,94,158,232,284,414],
  [0,1,16,94,158,292,414],
  [0,3,2,94,158,232,284,414,1249],
  [0,3,4,94,158,226,292,414,1185,1695,1759],
  [0,3,8,94,158,228,414],
  [0,3,8,94,158,228,414,1249],
  [0,5,8,94,158,228,284,420,1313,1695,1759],
  [0,5,16,94,158,226],
  [0,5,32,94,158,420,1313,1695,1759],
  [0,9,8,94,158,228,1185,1695,1759],
  [0,9,32,94,158,292,1185,1695,1759],
  [0,11,16,94,158,228,284,418],
  [0,11,64,94,158,418],
  [1,1,1,94,158,228,284,356,414,673],
  [1,1,1,94,158,228,284,356,414,673,1121],
  [1,1,1,94,158,228,286,418,1313,1695,1759],
  [1,1,2,94,158,230,286,414],
  [1,1,4,94,158,226,290,414],
  [1,1,4,94,158,290,418,1313,1695,1759],
  [1,1,4,94,158,356,414,673],
  [1,1,4,94,158,356,414,673,1121],
  [1,3,2,94,158,230,286,414,1249],
  [1,3,4,94,158,228,290,414,1185,1695,1759],
  [1,3,16,94,158,294,414,1185,1695,1759],
  [1,5,8,94,158,226,286,420,1313,1695,1759],
  [1,5,16,94,158,228,286],
  [1,5,64,94,158,290],
  [1,9,8,94,158,226,290,1185,1695,1759],
  [1,11,16,94,158,226,286,418]]

def k251 : List (List ℕ) := [[0,1,1,94,158,230,284,865],
  [0,1,8,94,158,228,286,1249],
  [0,1,8,94,158,232,284,414],
  [0,1,16,94,158,226,286,354,673,1121],
  [0,1,16,94,158,290,418,1313,1695,1759],
  [0,1,16,94,158,356,414,673],
  [0,1,16,94,158,356,414,673,1121],
  [0,3,8,94,158,232,284,414,1249],
  [0,3,16,94,158,226,292,414,1185,1695,1759],
  [0,3,32,94,158,228,414],
  [0,4,135,94,158,230,286,350,673],
  [0,5,32,94,158,226,286,420,1313,1695,1759],
  [0,7,2,94,158,232,282,1249],
  [0,9,16,94,158,228,1185,1695,1759],
  [0,9,64,94,158,226,286,418],
  [0,11,6,94,158,230,286,1185,1695,1759],
  [0,11,6,94,158,232,282,418,1185,1695,1759],
  [0,11,48,94,158,226,418,1185,1695,1759],
  [0,17,54,94,158,230,284,673,1121],
  [0,40,9,94,158,232,282],
  [0,395,576,94,158,226],
  [1,1,1,94,158,232,282,865],
  [1,1,4,94,158,228,284,356,414,673],
  [1,1,4,94,158,228,284,356,414,673,1121],
  [1,1,8,94,158,226,865],
  [1,1,8,94,158,228,286,418,1313,1695,1759],
  [1,1,16,94,158,226,290,414],
  [1,1,16,94,158,226,418,1313,1695,1759],
  [1,1,16,94,158,228,284,420,1313,1695,1759],
  [1,1,16,94,158,418],
  [1,1,16,94,158,420,1313,1695,1759],
  [1,1,32,94,158,228,284,418],
  [1,1,32,94,158,354,673,1121],
  [1,3,8,94,158,228,290,414,1185,1695,1759],
  [1,3,32,94,158,228,414,1249],
  [1,3,64,94,158,290],
  [1,4,135,94,158,232,284,350,673],
  [1,5,108,94,158,226,673,1121],
  [1,8,27,94,158,232,282,673,1121],
  [1,11,6,94,158,230,284,418,1185,1695,1759],
  [1,11,6,94,158,232,284,1185,1695,1759],
  [1,35,12,94,158,230,284,1249],
  [1,49,96,94,158,226,290,1185,1695,1759],
  [1,599,1440,94,158,228,286],
  [1,707,180,94,158,230,284]]

def k252 : List (List ℕ) := [[0,1,1,94,158,226,356,414,673,1695,1759],
  [0,1,1,94,158,232,286,414,1695,1759],
  [0,1,1,94,158,234,282,1695,1759],
  [0,1,2,94,158,230,282,420,1695,1759],
  [0,1,2,94,158,230,282,422,1313,1694,1758],
  [0,1,4,94,158,226,286,420,1695,1759],
  [0,1,4,94,158,226,286,422,1313,1694,1758],
  [0,2,1,94,158,230,284,356,414,673,1695,1759],
  [0,3,1,94,158,228,284,356,414,673,1121],
  [0,3,1,94,158,228,284,356,673,1695,1759],
  [0,3,1,94,158,234,282,414,1249],
  [0,3,2,94,158,230,286,418,1313,1694,1758],
  [0,3,2,94,158,230,286,1695,1759],
  [0,3,4,94,158,226,290,418,1313,1694,1758],
  [0,3,8,94,158,228,414,1249],
  [0,7,8,94,158,228,290,414,1695,1759],
  [0,9,4,94,158,228,286,420,1313,1694,1758],
  [0,9,4,94,158,230,286,418,1185,1694,1758],
  [0,9,4,94,158,230,290,414,1185,1694,1758],
  [0,9,8,94,158,228,286,418,1695,1759],
  [0,11,16,94,158,226,290,1695,1759],
  [0,15,16,94,158,226,290,418,1185,1694,1758],
  [0,15,16,94,158,226,294,414,1185,1694,1758],
  [0,27,4,94,158,228,290,1185,1694,1758],
  [1,1,1,94,158,226,286,356,414,673,1121],
  [1,1,1,94,158,226,286,356,673,1695,1759],
  [1,1,1,94,158,232,284,1695,1759],
  [1,1,1,94,158,234,284,414,1695,1759],
  [1,2,1,94,158,228,1695,1759],
  [1,2,1,94,158,230,282,356,414,673,1121],
  [1,2,1,94,158,230,282,356,673,1695,1759],
  [1,3,1,94,158,228,286,356,414,673,1695,1759],
  [1,3,1,94,158,228,292,414,1185,1694,1758],
  [1,3,1,94,158,228,418,1185,1694,1758],
  [1,3,1,94,158,232,284,414,1249],
  [1,3,2,94,158,230,284,420,1313,1694,1758],
  [1,3,4,94,158,226,420,1313,1694,1758],
  [1,3,4,94,158,228,284,420,1695,1759],
  [1,3,4,94,158,228,284,422,1313,1694,1758],
  [1,3,4,94,158,230,284,418,1695,1759],
  [1,3,4,94,158,230,414,1695,1759],
  [1,3,8,94,158,226,418,1695,1759],
  [1,5,1,94,158,230,1185,1694,1758],
  [1,5,16,94,158,226,292,414,1695,1759],
  [1,9,4,94,158,228,418,1313,1694,1758],
  [1,17,8,94,158,226,292,1185,1694,1758]]

def k253 : List (List ℕ) := [[0,1,1,33,94,159,229,284,356,414,673,1695,1759],
  [0,1,2,33,94,159,227,284,356,414,673,1121],
  [0,1,2,33,94,159,227,284,356,673,1695,1759],
  [0,1,2,33,94,159,233,282,1695,1759],
  [0,1,4,33,94,159,227,290,414,1695,1759],
  [0,1,4,33,94,159,229,282,420,1695,1759],
  [0,1,4,33,94,159,229,282,422,1313,1694,1758],
  [0,1,4,33,94,159,231,286,414,1695,1759],
  [0,1,8,33,94,159,227,284,354,673,1121],
  [0,2,1,33,94,159,231,284,865,1695,1759],
  [0,3,2,33,94,159,233,282,414,1249],
  [0,3,4,33,94,159,227,865,1695,1759],
  [0,3,4,33,94,159,229,286,418,1313,1694,1758],
  [0,3,16,33,94,159,227,286,420,1313,1694,1758],
  [0,3,32,33,94,159,225,294,414,1185,1694,1758],
  [0,3,32,33,94,159,225,420,1313,1694,1758],
  [0,5,2,33,94,159,229,284,418,865,1695,1759],
  [0,8,135,33,94,159,229,286,350,418,673,1695,1759],
  [0,8,135,33,94,159,231,286,350,673,1695,1759],
  [0,9,8,33,94,159,229,290,414,1185,1694,1758],
  [0,11,2,33,94,159,231,282,1249],
  [0,11,3,33,94,159,231,282,420,1185,1694,1758],
  [0,11,3,33,94,159,231,286,1185,1694,1758],
  [0,11,8,33,94,159,227,286,420,1185,1694,1758],
  [0,15,64,33,94,159,225,290,1695,1759],
  [0,35,48,33,94,159,227,286,1249],
  [0,43,54,33,94,159,229,284,673,1121],
  [0,47,16,33,94,159,227,290,1185,1694,1758],
  [0,169,18,33,94,159,231,282,418,1695,1759],
  [0,247,24,33,94,159,229,286,418,1185,1694,1758],
  [0,536,45,33,94,159,229,286,1695,1759],
  [0,2521,720,33,94,159,227,286,418,1695,1759],
  [1,1,1,33,94,159,229,282,356,414,673,1121],
  [1,1,1,33,94,159,229,282,356,673,1695,1759],
  [1,1,2,33,94,159,227,286,356,414,673,1695,1759],
  [1,1,2,33,94,159,233,284,414,1695,1759],
  [1,1,16,33,94,159,225,286,354,673,1121],
  [1,1,16,33,94,159,227,284,422,1313,1694,1758],
  [1,1,32,33,94,159,225,286,422,1313,1694,1758],
  [1,1,32,33,94,159,225,292,414,1695,1759],
  [1,1,32,33,94,159,227,284,420,1695,1759],
  [1,2,1,33,94,159,231,282,418,865,1695,1759],
  [1,3,4,33,94,159,227,286,418,865,1695,1759],
  [1,3,4,33,94,159,227,292,414,1185,1694,1758],
  [1,3,4,33,94,159,229,284,420,1313,1694,1758],
  [1,3,4,33,94,159,231,284,414,1249],
  [1,3,8,33,94,159,227,418,1313,1694,1758],
  [1,3,8,33,94,159,229,414,1695,1759],
  [1,3,32,33,94,159,225,418,1695,1759],
  [1,3,64,33,94,159,225,286,420,1695,1759],
  [1,5,2,33,94,159,229,286,865,1695,1759],
  [1,5,32,33,94,159,225,292,1185,1694,1758],
  [1,7,27,33,94,159,227,286,673,1121],
  [1,8,135,33,94,159,229,350,673,1695,1759],
  [1,8,135,33,94,159,231,284,350,418,673,1695,1759],
  [1,16,27,33,94,159,231,282,673,1121],
  [1,22,3,33,94,159,231,284,418,1185,1694,1758],
  [1,41,8,33,94,159,229,284,1249],
  [1,53,16,33,94,159,227,418,1185,1694,1758],
  [1,55,12,33,94,159,229,284,420,1185,1694,1758],
  [1,85,12,33,94,159,229,1185,1694,1758],
  [1,347,36,33,94,159,231,284,1695,1759],
  [1,4153,360,33,94,159,229,284,418,1695,1759],
  [1,5717,1440,33,94,159,227,1695,1759]]

def k254 : List (List ℕ) := [[0,3,2,94,157,231,284],
  [0,3,4,94,157,227],
  [0,18,1,94,157,233,282,1249],
  [0,45,4,94,157,229,286,1249],
  [1,3,4,94,157,227,1249],
  [1,9,4,94,157,229,286],
  [1,57,2,94,157,231,284,1249]]

def k255 : List (List ℕ) := [[0,1,16,94,158,226,286,354,673,1121],
  [0,3,4,94,158,228,286,865],
  [0,7,8,94,158,230,284,1249],
  [0,11,12,94,158,230,284,1185],
  [0,11,24,94,158,226,1185],
  [0,13,108,94,158,228,286,673,1121],
  [0,101,72,94,158,226],
  [0,181,72,94,158,230,284],
  [1,1,2,94,158,230,284,865],
  [1,1,4,94,158,226,865],
  [1,1,32,94,158,354,673,1121],
  [1,2,27,94,158,230,284,673,1121],
  [1,3,32,94,158,290],
  [1,5,108,94,158,226,673,1121],
  [1,7,8,94,158,228,286,1249],
  [1,11,8,94,158,228,286,1185],
  [1,179,48,94,158,228,286]]

def k256 : List (List ℕ) := [[0,1,16,94,158,226,286,354,673,1121],
  [0,3,4,94,158,228,286,865],
  [0,7,8,94,158,230,284,1249],
  [0,7,48,94,158,226,1249],
  [0,11,12,94,158,230,284,1185],
  [0,11,24,94,158,226,1185],
  [0,13,108,94,158,228,286,673,1121],
  [0,181,72,94,158,230,284],
  [0,313,288,94,158,226],
  [1,1,2,94,158,230,284,865],
  [1,1,4,94,158,226,865],
  [1,1,32,94,158,354,673,1121],
  [1,2,27,94,158,230,284,673,1121],
  [1,3,32,94,158,290],
  [1,5,108,94,158,226,673,1121],
  [1,11,8,94,158,228,286,1185],
  [1,29,24,94,158,228,286,1249],
  [1,257,72,94,158,228,286]]

def k257 : List (List ℕ) := [[0,1,18,33,94,159,228,286,351,607,673],
  [0,7,8,33,94,159,228,284,353,607,673,1121],
  [1,1,3,33,94,159,230,282,353,609,673,1121],
  [1,1,18,33,94,159,230,284,351,607,673],
  [1,13,48,33,94,159,226,286,353,607,673,1121]]

def k258 : List (List ℕ) := [[0,1,4,94,159,228,284,355,414,607,673],
  [0,1,4,94,159,228,284,355,414,607,673,1121],
  [0,1,16,94,159,355,414,607,673],
  [0,1,16,94,159,355,414,607,673,1121],
  [1,1,4,94,159,226,286,355,414,607,673],
  [1,1,4,94,159,226,286,355,414,607,673,1121]]

def k259 : List (List ℕ) := [[0,1,9,94,158,227,351,607,673],
  [0,1,9,94,158,231,284,351,607,673],
  [0,2,3,94,158,231,282,353,609,673,1121],
  [0,31,24,94,158,227,286,353,607,673,1121],
  [1,1,9,94,158,229,286,351,609,673],
  [1,5,24,94,158,225,353,607,673,1121],
  [1,29,12,94,158,229,284,353,607,673,1121]]

def k260 : List (List ℕ) := [[0,1,16,94,158,226,286,354,673,1121],
  [0,1,36,94,158,226,673,1121],
  [1,1,32,94,158,354,673,1121],
  [1,1,36,94,158,228,286,673,1121]]

def k261 : List (List ℕ) := [[0,1,32,94,158,354,673,1121],
  [0,1,36,94,158,228,286,673,1121],
  [1,1,16,94,158,226,286,354,673,1121],
  [1,1,36,94,158,226,673,1121]]

def k262 : List (List ℕ) := [[0,1,32,94,158,354,673,1121],
  [0,1,36,94,158,226,673,1121],
  [1,1,16,94,158,226,286,354,673,1121],
  [1,1,36,94,158,228,286,673,1121]]

def k263 : List (List ℕ) := [[0,1,4,94,158,226,286,354,673,1121],
  [0,1,9,94,158,230,284,673,1121],
  [0,1,18,94,158,226,673,1121],
  [1,1,4,94,158,228,284,354,673,1121],
  [1,1,6,94,158,228,286,673,1121],
  [1,1,16,94,158,354,673,1121]]

def k264 : List (List ℕ) := [[0,1,4,94,158,228,284,354,673,1121],
  [0,1,6,94,158,228,286,673,1121],
  [0,1,16,94,158,354,673,1121],
  [1,1,4,94,158,226,286,354,673,1121],
  [1,1,9,94,158,230,284,673,1121],
  [1,1,18,94,158,226,673,1121]]

def k265 : List (List ℕ) := [[0,1,4,94,158,228,284,354,673,1121],
  [0,1,9,94,158,230,284,673,1121],
  [0,1,16,94,158,354,673,1121],
  [0,1,18,94,158,226,673,1121],
  [1,1,4,94,158,226,286,354,673,1121],
  [1,1,6,94,158,228,286,673,1121]]

def k266 : List (List ℕ) := [[0,1,1,94,158,228,286,1185],
  [0,1,2,94,158,226,865],
  [0,1,8,94,158,290,1185],
  [0,5,2,94,158,228,286],
  [0,5,16,94,158,290],
  [1,1,12,94,158,290,865],
  [1,2,3,94,158,228,286,865],
  [1,3,4,94,158,226,1185],
  [1,15,8,94,158,226]]

def k267 : List (List ℕ) := [[0,1,12,94,158,290,865],
  [0,2,3,94,158,228,286,865],
  [0,3,4,94,158,226,1185],
  [1,1,1,94,158,228,286,1185],
  [1,1,8,94,158,290,1185],
  [1,3,2,94,158,226,1249],
  [1,5,2,94,158,228,286],
  [1,5,16,94,158,290],
  [1,11,8,94,158,226]]

def k268 : List (List ℕ) := [[0,1,1,94,156,228,286,418,1313,1695,1759],
  [0,1,1,94,156,228,290,414,1185,1695,1759],
  [0,1,2,94,156,230,286,414],
  [0,1,4,94,156,226,286,354,673,1121],
  [0,1,4,94,156,226,290,414],
  [0,1,6,94,156,356,414,673],
  [0,1,6,94,156,356,414,673,1121],
  [0,1,8,94,156,290,418,1313,1695,1759],
  [0,1,8,94,156,294,414,1185,1695,1759],
  [0,2,9,94,156,226,865],
  [0,3,2,94,156,230,286,414,1249],
  [0,3,8,94,156,226,286,420,1313,1695,1759],
  [0,4,3,94,156,228,284,356,414,673],
  [0,4,3,94,156,228,284,356,414,673,1121],
  [0,5,3,94,156,228,286,418,1185,1695,1759],
  [0,7,16,94,156,226,286,418],
  [0,7,96,94,156,290],
  [0,28,9,94,156,230,284,865],
  [0,32,405,94,156,228,350,673],
  [0,32,405,94,156,232,284,350,673],
  [0,64,81,94,156,232,282,673,1121],
  [0,79,81,94,156,228,286,673,1121],
  [0,94,27,94,156,230,286,1185,1695,1759],
  [0,164,81,94,156,232,282,418,1185,1695,1759],
  [0,245,18,94,156,230,284,1249],
  [0,865,648,94,156,226,290,1185,1695,1759],
  [0,1910,243,94,156,232,282],
  [0,4753,540,94,156,228,286],
  [1,1,1,94,156,226,286,356,414,673],
  [1,1,1,94,156,226,286,356,414,673,1121],
  [1,1,2,94,156,228,284,420,1313,1695,1759],
  [1,1,3,94,156,228,284,354,673,1121],
  [1,1,4,94,156,228,414,1249],
  [1,1,16,94,156,420,1313,1695,1759],
  [1,1,24,94,156,292,414],
  [1,1,24,94,156,354,673,1121],
  [1,2,1,94,156,232,284,414,1249],
  [1,2,3,94,156,232,284,414],
  [1,3,4,94,156,226,292,414,1185,1695,1759],
  [1,3,4,94,156,226,418,1313,1695,1759],
  [1,3,16,94,156,292,1185,1695,1759],
  [1,5,12,94,156,228,414],
  [1,5,27,94,156,226,673,1121],
  [1,5,72,94,156,226,1249],
  [1,7,12,94,156,228,284,418],
  [1,7,96,94,156,418],
  [1,14,9,94,156,228,286,865],
  [1,16,9,94,156,232,282,865],
  [1,17,81,94,156,226,418,1185,1695,1759],
  [1,19,6,94,156,228,1185,1695,1759],
  [1,23,6,94,156,228,286,1249],
  [1,28,3,94,156,232,282,1249],
  [1,64,405,94,156,230,286,350,673],
  [1,94,27,94,156,230,284,418,1185,1695,1759],
  [1,128,81,94,156,230,284,673,1121],
  [1,164,81,94,156,232,284,1185,1695,1759],
  [1,6068,405,94,156,230,284],
  [1,10369,19440,94,156,226]]

def k269 : List (List ℕ) := [[0,1,1,94,228,284],
  [0,1,1,94,228,284,1313],
  [0,1,8,94],
  [0,1,8,94,1313],
  [1,3,4,94,226,286],
  [1,3,4,94,226,286,1313]]

def k270 : List (List ℕ) := [[0,1,2,94,158,226,286,420,1695,1759],
  [0,1,2,94,158,226,286,422,1313,1694,1758],
  [0,1,2,94,158,294,1185,1694,1758],
  [0,1,12,94,158,294,414,1695,1759],
  [0,2,1,94,158,226,356,414,673,1695,1759],
  [0,3,1,94,158,228,290,414,1695,1759],
  [0,3,1,94,158,230,286,414,1249],
  [0,3,2,94,158,226,290,418,1313,1694,1758],
  [0,4,1,94,158,230,286,418,1313,1694,1758],
  [0,4,3,94,158,230,282,420,1695,1759],
  [0,4,3,94,158,230,282,422,1313,1694,1758],
  [0,5,1,94,158,230,286,1695,1759],
  [0,6,1,94,158,230,286,418,1185,1694,1758],
  [0,6,1,94,158,230,290,414,1185,1694,1758],
  [0,8,1,94,158,234,282,414,1249],
  [0,8,3,94,158,234,282,1695,1759],
  [0,11,2,94,158,228,286,420,1313,1694,1758],
  [0,11,3,94,158,232,286,414,1695,1759],
  [0,11,4,94,158,228,286,418,1695,1759],
  [0,11,6,94,158,226,290,1695,1759],
  [0,13,4,94,158,226,290,418,1185,1694,1758],
  [0,13,4,94,158,226,294,414,1185,1694,1758],
  [0,16,3,94,158,230,284,356,414,673,1695,1759],
  [0,22,3,94,158,228,284,356,414,673,1121],
  [0,22,3,94,158,228,284,356,673,1695,1759],
  [0,119,6,94,158,228,290,1185,1694,1758],
  [1,1,4,94,158,292,418,1185,1694,1758],
  [1,1,4,94,158,296,414,1185,1694,1758],
  [1,1,12,94,158,292,1695,1759],
  [1,2,1,94,158,226,286,356,414,673,1121],
  [1,2,1,94,158,226,286,356,673,1695,1759],
  [1,2,1,94,158,230,284,418,1695,1759],
  [1,3,1,94,158,230,414,1695,1759],
  [1,3,2,94,158,226,420,1313,1694,1758],
  [1,3,4,94,158,226,418,1695,1759],
  [1,4,1,94,158,230,284,420,1313,1694,1758],
  [1,7,1,94,158,226,292,1185,1694,1758],
  [1,8,3,94,158,234,284,414,1695,1759],
  [1,9,1,94,158,228,292,414,1185,1694,1758],
  [1,9,1,94,158,228,418,1185,1694,1758],
  [1,11,1,94,158,232,284,414,1249],
  [1,11,2,94,158,228,418,1313,1694,1758],
  [1,11,3,94,158,232,284,1695,1759],
  [1,11,6,94,158,228,284,420,1695,1759],
  [1,11,6,94,158,228,284,422,1313,1694,1758],
  [1,13,12,94,158,226,292,414,1695,1759],
  [1,16,3,94,158,230,282,356,414,673,1121],
  [1,16,3,94,158,230,282,356,673,1695,1759],
  [1,22,3,94,158,228,286,356,414,673,1695,1759],
  [1,23,4,94,158,228,1695,1759],
  [1,40,3,94,158,230,1185,1694,1758]]

def k271 : List (List ℕ) := [[0,1,1,94,158,230,286,414],
  [0,1,2,94,158,226,290,414],
  [0,1,3,94,158,290,418,1313,1695,1759],
  [0,1,3,94,158,356,414,673],
  [0,1,3,94,158,356,414,673,1121],
  [0,1,4,94,158,294,414,1185,1695,1759],
  [0,2,1,94,158,228,290,414,1185,1695,1759],
  [0,3,1,94,158,230,286,414,1249],
  [0,5,4,94,158,226,286,420,1313,1695,1759],
  [0,5,6,94,158,228,286],
  [0,5,48,94,158,290],
  [0,8,3,94,158,228,284,356,414,673],
  [0,8,3,94,158,228,284,356,414,673,1121],
  [0,8,3,94,158,228,286,418,1313,1695,1759],
  [0,9,4,94,158,226,290,1185,1695,1759],
  [0,11,8,94,158,226,286,418],
  [1,1,2,94,158,228,414,1249],
  [1,1,12,94,158,292,414],
  [1,2,1,94,158,226,286,356,414,673],
  [1,2,1,94,158,226,286,356,414,673,1121],
  [1,2,1,94,158,226,418,1313,1695,1759],
  [1,3,1,94,158,228,1185,1695,1759],
  [1,3,2,94,158,226,292,414,1185,1695,1759],
  [1,3,8,94,158,292,1185,1695,1759],
  [1,4,1,94,158,232,284,414,1249],
  [1,4,3,94,158,232,284,414],
  [1,5,3,94,158,228,284,420,1313,1695,1759],
  [1,5,6,94,158,228,414],
  [1,5,8,94,158,226],
  [1,5,24,94,158,420,1313,1695,1759],
  [1,11,6,94,158,228,284,418],
  [1,11,48,94,158,418]]

def k272 : List (List ℕ) := [[0,1,1,94,158,228,290,414,1185,1695,1759],
  [0,1,3,94,158,228,286,418,1313,1695,1759],
  [0,1,6,94,158,228,284,420,1313,1695,1759],
  [0,1,8,94,158,226,290,414],
  [0,1,8,94,158,226,418,1313,1695,1759],
  [0,1,8,94,158,228,414,1249],
  [0,1,12,94,158,228,284,418],
  [0,1,12,94,158,418],
  [0,1,12,94,158,420,1313,1695,1759],
  [0,1,24,94,158,354,673,1121],
  [0,2,3,94,158,228,284,356,414,673],
  [0,2,3,94,158,228,284,356,414,673,1121],
  [0,5,54,94,158,226,673,1121],
  [0,14,9,94,158,230,284,865],
  [0,17,162,94,158,226,418,1185,1695,1759],
  [0,32,405,94,158,232,284,350,673],
  [0,47,27,94,158,230,286,1185,1695,1759],
  [0,64,81,94,158,232,282,673,1121],
  [0,164,81,94,158,232,282,418,1185,1695,1759],
  [0,259,36,94,158,230,284,1249],
  [0,593,1296,94,158,226,290,1185,1695,1759],
  [0,1003,1080,94,158,228,286],
  [0,1910,243,94,158,232,282],
  [0,3557,7776,94,158,226],
  [1,1,1,94,158,232,284,414,1249],
  [1,1,3,94,158,232,284,414],
  [1,1,6,94,158,228,286,1249],
  [1,1,8,94,158,226,286,354,673,1121],
  [1,1,9,94,158,226,865],
  [1,1,12,94,158,290,418,1313,1695,1759],
  [1,1,12,94,158,356,414,673],
  [1,1,12,94,158,356,414,673,1121],
  [1,1,48,94,158,290],
  [1,3,2,94,158,228,1185,1695,1759],
  [1,3,8,94,158,226,292,414,1185,1695,1759],
  [1,5,16,94,158,226,286,420,1313,1695,1759],
  [1,7,24,94,158,228,414],
  [1,9,32,94,158,226,286,418],
  [1,16,9,94,158,232,282,865],
  [1,28,3,94,158,232,282,1249],
  [1,32,405,94,158,230,286,350,673],
  [1,47,27,94,158,230,284,418,1185,1695,1759],
  [1,64,81,94,158,230,284,673,1121],
  [1,164,81,94,158,232,284,1185,1695,1759],
  [1,3268,405,94,158,230,284]]

def k273 : List (List ℕ) := [[0,2,1,94,158,226,286,356,414,673,1121],
  [0,2,1,94,158,226,286,356,673,1695,1759],
  [0,2,1,94,158,230,284,418,1695,1759],
  [0,2,1,94,158,230,414,1695,1759],
  [0,3,2,94,158,226,420,1313,1694,1758],
  [0,3,4,94,158,226,418,1695,1759],
  [0,4,1,94,158,226,292,1185,1694,1758],
  [0,4,1,94,158,230,284,420,1313,1694,1758],
  [0,7,1,94,158,228,292,414,1185,1694,1758],
  [0,7,1,94,158,228,418,1185,1694,1758],
  [0,7,1,94,158,232,284,414,1249],
  [0,7,3,94,158,232,284,1695,1759],
  [0,7,12,94,158,226,292,414,1695,1759],
  [0,8,3,94,158,234,284,414,1695,1759],
  [0,11,2,94,158,228,418,1313,1694,1758],
  [0,11,6,94,158,228,284,420,1695,1759],
  [0,11,6,94,158,228,284,422,1313,1694,1758],
  [0,16,3,94,158,230,282,356,414,673,1121],
  [0,16,3,94,158,230,282,356,673,1695,1759],
  [0,22,3,94,158,228,286,356,414,673,1695,1759],
  [0,40,3,94,158,230,1185,1694,1758],
  [0,59,12,94,158,228,1695,1759],
  [1,1,2,94,158,226,286,420,1695,1759],
  [1,1,2,94,158,226,286,422,1313,1694,1758],
  [1,1,2,94,158,228,414,1249],
  [1,2,1,94,158,226,356,414,673,1695,1759],
  [1,3,2,94,158,226,290,418,1313,1694,1758],
  [1,4,1,94,158,230,286,418,1313,1694,1758],
  [1,4,1,94,158,230,286,1695,1759],
  [1,4,3,94,158,226,290,1695,1759],
  [1,4,3,94,158,230,282,420,1695,1759],
  [1,4,3,94,158,230,282,422,1313,1694,1758],
  [1,6,1,94,158,230,286,418,1185,1694,1758],
  [1,6,1,94,158,230,290,414,1185,1694,1758],
  [1,7,3,94,158,232,286,414,1695,1759],
  [1,7,4,94,158,226,290,418,1185,1694,1758],
  [1,7,4,94,158,226,294,414,1185,1694,1758],
  [1,8,1,94,158,234,282,414,1249],
  [1,8,3,94,158,234,282,1695,1759],
  [1,11,2,94,158,228,286,420,1313,1694,1758],
  [1,11,4,94,158,228,286,418,1695,1759],
  [1,13,6,94,158,228,290,414,1695,1759],
  [1,16,3,94,158,230,284,356,414,673,1695,1759],
  [1,22,3,94,158,228,284,356,414,673,1121],
  [1,22,3,94,158,228,284,356,673,1695,1759],
  [1,95,6,94,158,228,290,1185,1694,1758]]

/-- factors occurring in lines 57-153: each is a sum of monomials
`[flag, numerator, denominator, factors]`, see `Verif.Loop.monoVal`; part 1 -/
def coefTab1 : List (List (List ℕ)) := [
  k152, k153, k154, k155, k156, k157, k158, k159, k160, k161, k162, k163, k164, k165, k166,
  k167, k168, k169, k170, k171, k172, k173, k174, k175, k176, k177, k178, k179, k180, k181,
  k182, k183, k184, k185, k186, k187, k188, k189, k190, k191, k192, k193, k194, k195, k196,
  k197, k198, k199, k200, k201, k202, k203, k204, k205, k206, k207, k208, k209, k210, k211,
  k212, k213, k214, k215, k216, k217, k218, k219, k220, k221, k222, k223, k224, k225, k226,
  k227, k228, k229, k230, k231, k232, k233, k234, k235, k236, k237, k238, k239, k240, k241,
  k242, k243, k244, k245, k246, k247, k248, k249, k250, k251, k252, k253, k254, k255, k256,
  k257, k258, k259, k260, k261, k262, k263, k264, k265, k266, k267, k268, k269, k270, k271,
  k272, k273]

end Verif.Loop
