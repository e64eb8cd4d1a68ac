import Verif.Model.WetRun

/-!
# The anomalous dimension matrices of the WET running, generated

GENERATED by tools/gen_wet.py from /repo/wilson/run/wet/adm.py (lines 16-2644); do not edit.
Each matrix is the list of its rows; a row lists its non-zero entries as pairs (column, entry).
Fractions are reduced; floating point literals are the rational numbers they denote.
-/

set_option autoImplicit false

namespace Verif.WetTab

/-- the mass arguments of the functions of adm.py -/
inductive Q | u | d | s | c | b | e | mu | tau
  deriving DecidableEq, Repr

/-- the shapes of the matrix entries occurring in adm.py -/
inductive Ent
  /-- `n/d` -/
  | p (n d : ℕ)
  /-- `-n/d` -/
  | n (n d : ℕ)
  /-- `-n/d*b0g + k/l` -/
  | b (n d k l : ℕ)
  /-- `n/d*m_x/m_y` -/
  | mp (n d : ℕ) (x y : Q)
  /-- `-n/d*m_x/m_y` -/
  | mn (n d : ℕ) (x y : Q)
  /-- `n/d*1j` -/
  | i (n d : ℕ)
  deriving DecidableEq, Repr

/-- a matrix by its rows -/
abbrev Rows := List (List (ℕ × Ent))

/-- adm.py line 16 `adm_e_I` -/
def adm_e_I : Rows :=
  [
    [(0, .p 4 27), (2, .p 32 9)],
    [(1, .p 4 27), (3, .p 32 9)],
    [(0, .p 64 81), (2, .n 28 27)],
    [(1, .p 64 81), (3, .n 28 27)],
    [(4, .n 4 3)],
    [(5, .n 4 3)],
    [(6, .p 4 3)],
    [(7, .p 4 3)]]

/-- adm.py line 27 `adm_s_I` -/
def adm_s_I : Rows :=
  [
    [(0, .n 80 9), (2, .p 8 3)],
    [(1, .n 80 9), (3, .p 8 3)],
    [(0, .p 160 27), (2, .p 92 9)],
    [(1, .p 160 27), (3, .p 92 9)],
    [(5, .n 12 1)],
    [(4, .n 8 3), (5, .n 14 1)],
    [(6, .p 4 1)],
    [(7, .p 4 1)]]

/-- adm.py line 38 `adm_e_Ie` -/
def adm_e_Ie : Rows :=
  [
    [(0, .p 12 1)],
    [(1, .p 12 1)],
    [(2, .p 12 1)],
    [(3, .n 12 1)],
    [(4, .p 12 1)]]

/-- adm.py line 46 `adm_s_Ie` -/
def adm_s_Ie : Rows :=
  [
    [],
    [],
    [],
    [],
    []]

/-- adm.py line 54 `adm_e_Iu` -/
def adm_e_Iu : Rows :=
  [
    [(0, .p 16 27), (2, .p 128 9)],
    [(1, .p 16 27), (3, .p 128 9)],
    [(0, .p 256 81), (2, .n 112 27)],
    [(1, .p 256 81), (3, .n 112 27)],
    [(4, .n 16 3)],
    [(5, .n 16 3)],
    [(6, .p 16 3)],
    [(7, .p 16 3)]]

/-- adm.py line 65 `adm_s_Iu` -/
def adm_s_Iu : Rows :=
  [
    [(0, .n 80 9), (2, .p 8 3)],
    [(1, .n 80 9), (3, .p 8 3)],
    [(0, .p 160 27), (2, .p 92 9)],
    [(1, .p 160 27), (3, .p 92 9)],
    [(5, .n 12 1)],
    [(4, .n 8 3), (5, .n 14 1)],
    [(6, .p 4 1)],
    [(7, .p 4 1)]]

/-- adm.py line 76 `adm_e_II` -/
def adm_e_II : Rows :=
  [
    [(0, .p 4 3)],
    [(1, .p 4 3)],
    [(2, .p 4 3)],
    [(3, .p 4 3), (6, .p 1 6)],
    [(4, .p 4 3), (7, .p 1 6)],
    [(5, .p 4 3), (8, .p 1 6)],
    [(3, .p 8 1), (6, .n 40 9)],
    [(4, .p 8 1), (7, .n 40 9)],
    [(5, .p 8 1), (8, .n 40 9)],
    [(9, .n 4 1)],
    [(10, .n 4 1)],
    [(11, .n 4 1)],
    [(12, .n 2 1)],
    [(13, .n 2 1)],
    [(14, .n 2 1)]]

/-- adm.py line 94 `adm_s_II` -/
def adm_s_II : Rows :=
  [
    [(0, .n 8 1)],
    [(1, .n 8 1)],
    [(2, .n 8 1)],
    [(3, .n 8 1)],
    [(4, .n 8 1)],
    [(5, .n 8 1)],
    [(6, .p 8 3)],
    [(7, .p 8 3)],
    [(8, .p 8 3)],
    [],
    [],
    [],
    [],
    [],
    []]

/-- adm.py line 112 `adm_e_III` -/
def adm_e_III : Rows :=
  [
    [(0, .n 46 9), (2, .n 32 27), (6, .n 64 9)],
    [(1, .n 46 9), (3, .n 32 27), (7, .n 64 9)],
    [(0, .p 4 27), (2, .p 26 9), (4, .p 8 9)],
    [(1, .p 4 27), (3, .p 26 9), (5, .p 8 9)],
    [(2, .n 128 81), (4, .n 46 9), (6, .p 32 27)],
    [(3, .n 128 81), (5, .n 46 9), (7, .p 32 27)],
    [(0, .p 16 81), (4, .n 4 27), (6, .p 26 9)],
    [(1, .p 16 81), (5, .n 4 27), (7, .p 26 9)],
    [(8, .p 8 3)],
    [(9, .n 8 3)],
    [(10, .p 8 3)],
    [(11, .n 8 3)],
    [(12, .n 10 3)],
    [(13, .n 10 3)],
    [(14, .p 8 3)],
    [(15, .n 8 3)],
    [(16, .p 8 3)],
    [(17, .n 8 3)],
    [(18, .n 10 3)],
    [(19, .n 10 3)]]

/-- adm.py line 135 `adm_s_III` -/
def adm_s_III : Rows :=
  [
    [(0, .n 16 1), (2, .p 64 9), (4, .p 8 1), (6, .n 16 3)],
    [(1, .n 16 1), (3, .p 64 9), (5, .p 8 1), (7, .n 16 3)],
    [(0, .p 64 9), (2, .n 16 1), (4, .n 16 3), (6, .p 8 1)],
    [(1, .p 64 9), (3, .n 16 1), (5, .n 16 3), (7, .p 8 1)],
    [(0, .p 16 9), (2, .p 112 27), (4, .p 16 3), (6, .p 44 9)],
    [(1, .p 16 9), (3, .p 112 27), (5, .p 16 3), (7, .p 44 9)],
    [(0, .p 112 27), (2, .p 16 9), (4, .p 44 9), (6, .p 16 3)],
    [(1, .p 112 27), (3, .p 16 9), (5, .p 44 9), (7, .p 16 3)],
    [(14, .n 12 1)],
    [(15, .p 12 1)],
    [(16, .n 12 1)],
    [(17, .p 12 1)],
    [(18, .n 12 1)],
    [(19, .n 12 1)],
    [(8, .n 8 3), (14, .n 14 1)],
    [(9, .p 8 3), (15, .n 4 1)],
    [(10, .n 8 3), (16, .n 14 1)],
    [(11, .p 8 3), (17, .n 4 1)],
    [(12, .n 8 3), (18, .n 14 1)],
    [(13, .n 8 3), (19, .n 14 1)]]

/-- adm.py line 158 `adm_e_IV` -/
def adm_e_IV : Rows :=
  [
    [(0, .p 4 27), (2, .p 32 9)],
    [(1, .p 4 27), (3, .p 32 9)],
    [(0, .p 64 81), (2, .n 28 27)],
    [(1, .p 64 81), (3, .n 28 27)],
    [(4, .n 4 3)],
    [(5, .n 4 3)],
    [(6, .n 4 3)],
    [(7, .n 4 3)],
    [(8, .p 4 3)],
    [(9, .p 4 3)]]

/-- adm.py line 171 `adm_s_IV` -/
def adm_s_IV : Rows :=
  [
    [(0, .n 80 9), (2, .p 8 3)],
    [(1, .n 80 9), (3, .p 8 3)],
    [(0, .p 160 27), (2, .p 92 9)],
    [(1, .p 160 27), (3, .p 92 9)],
    [(6, .n 12 1)],
    [(7, .n 12 1)],
    [(4, .n 8 3), (6, .n 14 1)],
    [(5, .n 8 3), (7, .n 14 1)],
    [(8, .p 4 1)],
    [(9, .p 4 1)]]

/-- adm.py line 184 `adm_e_Vb` -/
def adm_e_Vb : Rows :=
  [
    [(0, .n 20 3)],
    [(1, .n 20 3)],
    [(2, .n 20 3), (4, .n 2 3)],
    [(3, .n 20 3), (5, .n 2 3)],
    [(2, .n 32 1), (4, .p 20 9)],
    [(3, .n 32 1), (5, .p 20 9)],
    [(6, .n 4 1)],
    [(7, .p 4 1)],
    [(8, .n 4 1)],
    [(9, .p 4 1)]]

/-- adm.py line 197 `adm_s_Vb` -/
def adm_s_Vb : Rows :=
  [
    [(0, .n 8 1)],
    [(1, .n 8 1)],
    [(2, .n 8 1)],
    [(3, .n 8 1)],
    [(4, .p 8 3)],
    [(5, .p 8 3)],
    [],
    [],
    [],
    []]

/-- adm.py line 210 `adm_e_Vb_c` -/
def adm_e_Vb_c : Rows :=
  [
    [(0, .n 26 3)],
    [(1, .n 26 3)],
    [(2, .n 26 3), (4, .p 4 3)],
    [(3, .n 26 3), (5, .p 4 3)],
    [(2, .p 64 1), (4, .p 26 9)],
    [(3, .p 64 1), (5, .p 26 9)],
    [(6, .n 8 1)],
    [(7, .p 8 1)],
    [(8, .n 8 1)],
    [(9, .p 8 1)]]

/-- adm.py line 223 `adm_s_Vb_c` -/
def adm_s_Vb_c : Rows :=
  [
    [(0, .n 8 1)],
    [(1, .n 8 1)],
    [(2, .n 8 1)],
    [(3, .n 8 1)],
    [(4, .p 8 3)],
    [(5, .p 8 3)],
    [],
    [],
    [],
    []]

/-- adm.py line 236 `adm_e_IVe` -/
def adm_e_IVe : Rows :=
  [
    [(0, .p 12 1)],
    [(1, .p 12 1)],
    [(2, .p 12 1)],
    [(3, .n 12 1)],
    [(4, .n 12 1)],
    [(5, .p 12 1)]]

/-- adm.py line 245 `adm_s_IVe` -/
def adm_s_IVe : Rows :=
  [
    [],
    [],
    [],
    [],
    [],
    []]

/-- adm.py line 254 `adm_e_inv` -/
def adm_e_inv : Rows :=
  [
    [],
    [],
    [],
    [],
    [],
    [],
    [],
    [],
    [],
    [],
    [],
    [],
    [],
    [],
    [],
    [],
    [],
    []]

/-- adm.py line 275 `adm_s_inv` -/
def adm_s_inv : Rows :=
  [
    [],
    [],
    [],
    [],
    [],
    [],
    [],
    [],
    [],
    [],
    [],
    [],
    [],
    [],
    [],
    [],
    [],
    []]

/-- adm.py line 296 `adm_e_cu` -/
def adm_e_cu : Rows :=
  [
    [(0, .n 46 9), (6, .n 32 27), (22, .n 64 9)],
    [(1, .n 46 9), (7, .n 32 27), (23, .n 64 9)],
    [(2, .n 46 9), (8, .n 32 27), (24, .n 64 9)],
    [(3, .n 46 9), (9, .n 32 27), (25, .n 64 9)],
    [(4, .n 46 9), (10, .n 32 27), (26, .n 64 9)],
    [(5, .n 46 9), (11, .n 32 27), (27, .n 64 9)],
    [(0, .p 4 27), (6, .p 26 9), (16, .p 8 9)],
    [(1, .p 4 27), (7, .p 26 9), (17, .p 8 9)],
    [(2, .p 4 27), (8, .p 26 9), (18, .p 8 9)],
    [(3, .p 4 27), (9, .p 26 9), (19, .p 8 9)],
    [(4, .p 4 27), (10, .p 26 9), (20, .p 8 9)],
    [(5, .p 4 27), (11, .p 26 9), (21, .p 8 9)],
    [(12, .p 16 27), (28, .p 128 9)],
    [(13, .p 16 27), (29, .p 128 9)],
    [(14, .p 16 27), (30, .p 128 9)],
    [(15, .p 16 27), (31, .p 128 9)],
    [(6, .n 128 81), (16, .n 46 9), (22, .p 32 27)],
    [(7, .n 128 81), (17, .n 46 9), (23, .p 32 27)],
    [(8, .n 128 81), (18, .n 46 9), (24, .p 32 27)],
    [(9, .n 128 81), (19, .n 46 9), (25, .p 32 27)],
    [(10, .n 128 81), (20, .n 46 9), (26, .p 32 27)],
    [(11, .n 128 81), (21, .n 46 9), (27, .p 32 27)],
    [(0, .p 16 81), (16, .n 4 27), (22, .p 26 9)],
    [(1, .p 16 81), (17, .n 4 27), (23, .p 26 9)],
    [(2, .p 16 81), (18, .n 4 27), (24, .p 26 9)],
    [(3, .p 16 81), (19, .n 4 27), (25, .p 26 9)],
    [(4, .p 16 81), (20, .n 4 27), (26, .p 26 9)],
    [(5, .p 16 81), (21, .n 4 27), (27, .p 26 9)],
    [(12, .p 256 81), (28, .n 112 27)],
    [(13, .p 256 81), (29, .n 112 27)],
    [(14, .p 256 81), (30, .n 112 27)],
    [(15, .p 256 81), (31, .n 112 27)],
    [(32, .n 26 3)],
    [(33, .n 26 3)],
    [(34, .n 26 3)],
    [(35, .n 26 3)],
    [(36, .n 26 3)],
    [(37, .n 26 3)],
    [(38, .n 26 3), (44, .p 4 3)],
    [(39, .n 26 3), (45, .p 4 3)],
    [(40, .n 26 3), (46, .p 4 3)],
    [(41, .n 26 3), (47, .p 4 3)],
    [(42, .n 26 3), (48, .p 4 3)],
    [(43, .n 26 3), (49, .p 4 3)],
    [(38, .p 64 1), (44, .p 26 9)],
    [(39, .p 64 1), (45, .p 26 9)],
    [(40, .p 64 1), (46, .p 26 9)],
    [(41, .p 64 1), (47, .p 26 9)],
    [(42, .p 64 1), (48, .p 26 9)],
    [(43, .p 64 1), (49, .p 26 9)],
    [(50, .p 28 9), (51, .p 4 9), (52, .p 4 9), (59, .p 4 9), (60, .p 4 9), (61, .p 4 9),
     (68, .n 8 9), (71, .n 8 9), (97, .p 4 3), (98, .p 4 3), (99, .p 4 3), (100, .p 4 3),
     (101, .p 4 3), (102, .p 4 3), (108, .n 8 9), (109, .n 8 9)],
    [(50, .p 4 9), (51, .p 28 9), (52, .p 4 9), (59, .p 4 9), (60, .p 4 9), (61, .p 4 9),
     (68, .n 8 9), (71, .n 8 9), (97, .p 4 3), (98, .p 4 3), (99, .p 4 3), (100, .p 4 3),
     (101, .p 4 3), (102, .p 4 3), (108, .n 8 9), (109, .n 8 9)],
    [(50, .p 4 9), (51, .p 4 9), (52, .p 28 9), (59, .p 4 9), (60, .p 4 9), (61, .p 4 9),
     (68, .n 8 9), (71, .n 8 9), (97, .p 4 3), (98, .p 4 3), (99, .p 4 3), (100, .p 4 3),
     (101, .p 4 3), (102, .p 4 3), (108, .n 8 9), (109, .n 8 9)],
    [(53, .n 20 9), (54, .p 4 9), (55, .p 4 9), (56, .p 4 9), (57, .p 4 9), (58, .p 4 9),
     (69, .n 8 9), (70, .n 8 9), (94, .p 4 3), (95, .p 4 3), (96, .p 4 3), (103, .p 4 3),
     (104, .p 4 3), (105, .p 4 3), (106, .n 8 9), (107, .n 8 9)],
    [(53, .p 4 9), (54, .n 20 9), (55, .p 4 9), (56, .p 4 9), (57, .p 4 9), (58, .p 4 9),
     (69, .n 8 9), (70, .n 8 9), (94, .p 4 3), (95, .p 4 3), (96, .p 4 3), (103, .p 4 3),
     (104, .p 4 3), (105, .p 4 3), (106, .n 8 9), (107, .n 8 9)],
    [(53, .p 4 9), (54, .p 4 9), (55, .n 20 9), (56, .p 4 9), (57, .p 4 9), (58, .p 4 9),
     (69, .n 8 9), (70, .n 8 9), (94, .p 4 3), (95, .p 4 3), (96, .p 4 3), (103, .p 4 3),
     (104, .p 4 3), (105, .p 4 3), (106, .n 8 9), (107, .n 8 9)],
    [(53, .p 4 9), (54, .p 4 9), (55, .p 4 9), (56, .p 28 9), (57, .p 4 9), (58, .p 4 9),
     (69, .n 8 9), (70, .n 8 9), (94, .p 4 3), (95, .p 4 3), (96, .p 4 3), (103, .p 4 3),
     (104, .p 4 3), (105, .p 4 3), (106, .n 8 9), (107, .n 8 9)],
    [(53, .p 4 9), (54, .p 4 9), (55, .p 4 9), (56, .p 4 9), (57, .p 28 9), (58, .p 4 9),
     (69, .n 8 9), (70, .n 8 9), (94, .p 4 3), (95, .p 4 3), (96, .p 4 3), (103, .p 4 3),
     (104, .p 4 3), (105, .p 4 3), (106, .n 8 9), (107, .n 8 9)],
    [(53, .p 4 9), (54, .p 4 9), (55, .p 4 9), (56, .p 4 9), (57, .p 4 9), (58, .p 28 9),
     (69, .n 8 9), (70, .n 8 9), (94, .p 4 3), (95, .p 4 3), (96, .p 4 3), (103, .p 4 3),
     (104, .p 4 3), (105, .p 4 3), (106, .n 8 9), (107, .n 8 9)],
    [(50, .p 4 9), (51, .p 4 9), (52, .p 4 9), (59, .n 20 9), (60, .p 4 9), (61, .p 4 9),
     (68, .n 8 9), (71, .n 8 9), (97, .p 4 3), (98, .p 4 3), (99, .p 4 3), (100, .p 4 3),
     (101, .p 4 3), (102, .p 4 3), (108, .n 8 9), (109, .n 8 9)],
    [(50, .p 4 9), (51, .p 4 9), (52, .p 4 9), (59, .p 4 9), (60, .n 20 9), (61, .p 4 9),
     (68, .n 8 9), (71, .n 8 9), (97, .p 4 3), (98, .p 4 3), (99, .p 4 3), (100, .p 4 3),
     (101, .p 4 3), (102, .p 4 3), (108, .n 8 9), (109, .n 8 9)],
    [(50, .p 4 9), (51, .p 4 9), (52, .p 4 9), (59, .p 4 9), (60, .p 4 9), (61, .n 20 9),
     (68, .n 8 9), (71, .n 8 9), (97, .p 4 3), (98, .p 4 3), (99, .p 4 3), (100, .p 4 3),
     (101, .p 4 3), (102, .p 4 3), (108, .n 8 9), (109, .n 8 9)],
    [(62, .n 10 3)],
    [(63, .n 10 3)],
    [(64, .n 10 3)],
    [(65, .n 10 3)],
    [(66, .n 10 3)],
    [(67, .n 10 3)],
    [(50, .n 8 9), (51, .n 8 9), (52, .n 8 9), (59, .n 8 9), (60, .n 8 9), (61, .n 8 9),
     (68, .n 32 9), (71, .p 16 9), (97, .n 8 3), (98, .n 8 3), (99, .n 8 3), (100, .n 8 3),
     (101, .n 8 3), (102, .n 8 3), (108, .p 16 9), (109, .p 16 9)],
    [(53, .n 8 9), (54, .n 8 9), (55, .n 8 9), (56, .n 8 9), (57, .n 8 9), (58, .n 8 9),
     (69, .n 32 9), (70, .p 16 9), (94, .n 8 3), (95, .n 8 3), (96, .n 8 3), (103, .n 8 3),
     (104, .n 8 3), (105, .n 8 3), (106, .p 16 9), (107, .p 16 9)],
    [(53, .n 8 9), (54, .n 8 9), (55, .n 8 9), (56, .n 8 9), (57, .n 8 9), (58, .n 8 9),
     (69, .p 16 9), (70, .n 32 9), (94, .n 8 3), (95, .n 8 3), (96, .n 8 3), (103, .n 8 3),
     (104, .n 8 3), (105, .n 8 3), (106, .p 16 9), (107, .p 16 9)],
    [(50, .n 8 9), (51, .n 8 9), (52, .n 8 9), (59, .n 8 9), (60, .n 8 9), (61, .n 8 9),
     (68, .p 16 9), (71, .n 32 9), (97, .n 8 3), (98, .n 8 3), (99, .n 8 3), (100, .n 8 3),
     (101, .n 8 3), (102, .n 8 3), (108, .p 16 9), (109, .p 16 9)],
    [(72, .p 8 3)],
    [(73, .p 8 3)],
    [(74, .p 8 3)],
    [(75, .n 8 3)],
    [(76, .n 8 3)],
    [(77, .n 8 3)],
    [(78, .p 8 3)],
    [(79, .p 8 3)],
    [(80, .p 8 3)],
    [(81, .n 8 3)],
    [(82, .n 8 3)],
    [(83, .n 8 3)],
    [(84, .n 10 3)],
    [(85, .n 10 3)],
    [(86, .n 10 3)],
    [(87, .n 10 3)],
    [(88, .n 10 3)],
    [(89, .n 10 3)],
    [(90, .n 16 3)],
    [(91, .n 16 3)],
    [(92, .n 16 3)],
    [(93, .n 16 3)],
    [(53, .p 4 9), (54, .p 4 9), (55, .p 4 9), (56, .p 4 9), (57, .p 4 9), (58, .p 4 9),
     (69, .n 8 9), (70, .n 8 9), (94, .n 20 3), (95, .p 4 3), (96, .p 4 3), (103, .p 4 3),
     (104, .p 4 3), (105, .p 4 3), (106, .n 8 9), (107, .n 8 9)],
    [(53, .p 4 9), (54, .p 4 9), (55, .p 4 9), (56, .p 4 9), (57, .p 4 9), (58, .p 4 9),
     (69, .n 8 9), (70, .n 8 9), (94, .p 4 3), (95, .n 20 3), (96, .p 4 3), (103, .p 4 3),
     (104, .p 4 3), (105, .p 4 3), (106, .n 8 9), (107, .n 8 9)],
    [(53, .p 4 9), (54, .p 4 9), (55, .p 4 9), (56, .p 4 9), (57, .p 4 9), (58, .p 4 9),
     (69, .n 8 9), (70, .n 8 9), (94, .p 4 3), (95, .p 4 3), (96, .n 20 3), (103, .p 4 3),
     (104, .p 4 3), (105, .p 4 3), (106, .n 8 9), (107, .n 8 9)],
    [(50, .p 4 9), (51, .p 4 9), (52, .p 4 9), (59, .p 4 9), (60, .p 4 9), (61, .p 4 9),
     (68, .n 8 9), (71, .n 8 9), (97, .p 28 3), (98, .p 4 3), (99, .p 4 3), (100, .p 4 3),
     (101, .p 4 3), (102, .p 4 3), (108, .n 8 9), (109, .n 8 9)],
    [(50, .p 4 9), (51, .p 4 9), (52, .p 4 9), (59, .p 4 9), (60, .p 4 9), (61, .p 4 9),
     (68, .n 8 9), (71, .n 8 9), (97, .p 4 3), (98, .p 28 3), (99, .p 4 3), (100, .p 4 3),
     (101, .p 4 3), (102, .p 4 3), (108, .n 8 9), (109, .n 8 9)],
    [(50, .p 4 9), (51, .p 4 9), (52, .p 4 9), (59, .p 4 9), (60, .p 4 9), (61, .p 4 9),
     (68, .n 8 9), (71, .n 8 9), (97, .p 4 3), (98, .p 4 3), (99, .p 28 3), (100, .p 4 3),
     (101, .p 4 3), (102, .p 4 3), (108, .n 8 9), (109, .n 8 9)],
    [(50, .p 4 9), (51, .p 4 9), (52, .p 4 9), (59, .p 4 9), (60, .p 4 9), (61, .p 4 9),
     (68, .n 8 9), (71, .n 8 9), (97, .p 4 3), (98, .p 4 3), (99, .p 4 3), (100, .n 20 3),
     (101, .p 4 3), (102, .p 4 3), (108, .n 8 9), (109, .n 8 9)],
    [(50, .p 4 9), (51, .p 4 9), (52, .p 4 9), (59, .p 4 9), (60, .p 4 9), (61, .p 4 9),
     (68, .n 8 9), (71, .n 8 9), (97, .p 4 3), (98, .p 4 3), (99, .p 4 3), (100, .p 4 3),
     (101, .n 20 3), (102, .p 4 3), (108, .n 8 9), (109, .n 8 9)],
    [(50, .p 4 9), (51, .p 4 9), (52, .p 4 9), (59, .p 4 9), (60, .p 4 9), (61, .p 4 9),
     (68, .n 8 9), (71, .n 8 9), (97, .p 4 3), (98, .p 4 3), (99, .p 4 3), (100, .p 4 3),
     (101, .p 4 3), (102, .n 20 3), (108, .n 8 9), (109, .n 8 9)],
    [(53, .p 4 9), (54, .p 4 9), (55, .p 4 9), (56, .p 4 9), (57, .p 4 9), (58, .p 4 9),
     (69, .n 8 9), (70, .n 8 9), (94, .p 4 3), (95, .p 4 3), (96, .p 4 3), (103, .p 28 3),
     (104, .p 4 3), (105, .p 4 3), (106, .n 8 9), (107, .n 8 9)],
    [(53, .p 4 9), (54, .p 4 9), (55, .p 4 9), (56, .p 4 9), (57, .p 4 9), (58, .p 4 9),
     (69, .n 8 9), (70, .n 8 9), (94, .p 4 3), (95, .p 4 3), (96, .p 4 3), (103, .p 4 3),
     (104, .p 28 3), (105, .p 4 3), (106, .n 8 9), (107, .n 8 9)],
    [(53, .p 4 9), (54, .p 4 9), (55, .p 4 9), (56, .p 4 9), (57, .p 4 9), (58, .p 4 9),
     (69, .n 8 9), (70, .n 8 9), (94, .p 4 3), (95, .p 4 3), (96, .p 4 3), (103, .p 4 3),
     (104, .p 4 3), (105, .p 28 3), (106, .n 8 9), (107, .n 8 9)],
    [(53, .n 32 27), (54, .n 32 27), (55, .n 32 27), (56, .n 32 27), (57, .n 32 27),
     (58, .n 32 27), (69, .p 64 27), (70, .p 64 27), (94, .n 32 9), (95, .n 32 9), (96, .n 32 9),
     (103, .n 32 9), (104, .n 32 9), (105, .n 32 9), (106, .p 208 27), (107, .p 64 27)],
    [(53, .n 32 27), (54, .n 32 27), (55, .n 32 27), (56, .n 32 27), (57, .n 32 27),
     (58, .n 32 27), (69, .p 64 27), (70, .p 64 27), (94, .n 32 9), (95, .n 32 9), (96, .n 32 9),
     (103, .n 32 9), (104, .n 32 9), (105, .n 32 9), (106, .p 64 27), (107, .p 208 27)],
    [(50, .n 32 27), (51, .n 32 27), (52, .n 32 27), (59, .n 32 27), (60, .n 32 27),
     (61, .n 32 27), (68, .p 64 27), (71, .p 64 27), (97, .n 32 9), (98, .n 32 9), (99, .n 32 9),
     (100, .n 32 9), (101, .n 32 9), (102, .n 32 9), (108, .p 208 27), (109, .p 64 27)],
    [(50, .n 32 27), (51, .n 32 27), (52, .n 32 27), (59, .n 32 27), (60, .n 32 27),
     (61, .n 32 27), (68, .p 64 27), (71, .p 64 27), (97, .n 32 9), (98, .n 32 9), (99, .n 32 9),
     (100, .n 32 9), (101, .n 32 9), (102, .n 32 9), (108, .p 64 27), (109, .p 208 27)],
    [(110, .p 32 9)],
    [(111, .p 32 9)],
    [(110, .p 16 3), (112, .p 711111111111111 100000000000000)],
    [(111, .p 16 3), (113, .p 711111111111111 100000000000000)]]

/-- adm.py line 413 `adm_s_cu` -/
def adm_s_cu : Rows :=
  [
    [(0, .n 16 1), (6, .p 64 9), (16, .p 8 1), (22, .n 16 3)],
    [(1, .n 16 1), (7, .p 64 9), (17, .p 8 1), (23, .n 16 3)],
    [(2, .n 16 1), (8, .p 64 9), (18, .p 8 1), (24, .n 16 3)],
    [(3, .n 16 1), (9, .p 64 9), (19, .p 8 1), (25, .n 16 3)],
    [(4, .n 16 1), (10, .p 64 9), (20, .p 8 1), (26, .n 16 3)],
    [(5, .n 16 1), (11, .p 64 9), (21, .p 8 1), (27, .n 16 3)],
    [(0, .p 64 9), (6, .n 16 1), (16, .n 16 3), (22, .p 8 1), (110, .mp 1 1 .d .c),
     (112, .mn 1 3 .d .c)],
    [(1, .p 64 9), (7, .n 16 1), (17, .n 16 3), (23, .p 8 1), (110, .mp 1 1 .s .c),
     (112, .mn 1 3 .s .c)],
    [(2, .p 64 9), (8, .n 16 1), (18, .n 16 3), (24, .p 8 1), (110, .mp 1 1 .b .c),
     (112, .mn 1 3 .b .c)],
    [(3, .p 64 9), (9, .n 16 1), (19, .n 16 3), (25, .p 8 1), (111, .mp 1 1 .d .c),
     (113, .mn 1 3 .d .c)],
    [(4, .p 64 9), (10, .n 16 1), (20, .n 16 3), (26, .p 8 1), (111, .mp 1 1 .s .c),
     (113, .mn 1 3 .s .c)],
    [(5, .p 64 9), (11, .n 16 1), (21, .n 16 3), (27, .p 8 1), (111, .mp 1 1 .b .c),
     (113, .mn 1 3 .b .c)],
    [(12, .n 80 9), (28, .p 8 3), (110, .mp 1 1 .u .c), (112, .mp 2 3 .u .c)],
    [(13, .n 80 9), (29, .p 8 3), (111, .mp 1 1 .u .c), (113, .mp 2 3 .u .c)],
    [(14, .n 80 9), (30, .p 8 3), (110, .p 1 1), (112, .p 2 3)],
    [(15, .n 80 9), (31, .p 8 3), (111, .p 1 1), (113, .p 2 3)],
    [(0, .p 16 9), (6, .p 112 27), (16, .p 16 3), (22, .p 44 9)],
    [(1, .p 16 9), (7, .p 112 27), (17, .p 16 3), (23, .p 44 9)],
    [(2, .p 16 9), (8, .p 112 27), (18, .p 16 3), (24, .p 44 9)],
    [(3, .p 16 9), (9, .p 112 27), (19, .p 16 3), (25, .p 44 9)],
    [(4, .p 16 9), (10, .p 112 27), (20, .p 16 3), (26, .p 44 9)],
    [(5, .p 16 9), (11, .p 112 27), (21, .p 16 3), (27, .p 44 9)],
    [(0, .p 112 27), (6, .p 16 9), (16, .p 44 9), (22, .p 16 3), (110, .mn 1 6 .d .c),
     (112, .mn 4 9 .d .c)],
    [(1, .p 112 27), (7, .p 16 9), (17, .p 44 9), (23, .p 16 3), (110, .mn 1 6 .s .c),
     (112, .mn 4 9 .s .c)],
    [(2, .p 112 27), (8, .p 16 9), (18, .p 44 9), (24, .p 16 3), (110, .mn 1 6 .b .c),
     (112, .mn 4 9 .b .c)],
    [(3, .p 112 27), (9, .p 16 9), (19, .p 44 9), (25, .p 16 3), (111, .mn 1 6 .d .c),
     (113, .mn 4 9 .d .c)],
    [(4, .p 112 27), (10, .p 16 9), (20, .p 44 9), (26, .p 16 3), (111, .mn 1 6 .s .c),
     (113, .mn 4 9 .s .c)],
    [(5, .p 112 27), (11, .p 16 9), (21, .p 44 9), (27, .p 16 3), (111, .mn 1 6 .b .c),
     (113, .mn 4 9 .b .c)],
    [(12, .p 160 27), (28, .p 92 9), (110, .mn 1 6 .u .c), (112, .mp 8 9 .u .c)],
    [(13, .p 160 27), (29, .p 92 9), (111, .mn 1 6 .u .c), (113, .mp 8 9 .u .c)],
    [(14, .p 160 27), (30, .p 92 9), (110, .n 1 6), (112, .p 8 9)],
    [(15, .p 160 27), (31, .p 92 9), (111, .n 1 6), (113, .p 8 9)],
    [(32, .n 8 1)],
    [(33, .n 8 1)],
    [(34, .n 8 1)],
    [(35, .n 8 1)],
    [(36, .n 8 1)],
    [(37, .n 8 1)],
    [(38, .n 8 1)],
    [(39, .n 8 1)],
    [(40, .n 8 1)],
    [(41, .n 8 1)],
    [(42, .n 8 1)],
    [(43, .n 8 1)],
    [(44, .p 8 3), (112, .mp 8 1 .e .c)],
    [(45, .p 8 3), (113, .mp 8 1 .e .c)],
    [(46, .p 8 3), (112, .mp 8 1 .mu .c)],
    [(47, .p 8 3), (113, .mp 8 1 .mu .c)],
    [(48, .p 8 3), (112, .mp 8 1 .tau .c)],
    [(49, .p 8 3), (113, .mp 8 1 .tau .c)],
    [(72, .n 12 1)],
    [(73, .n 12 1)],
    [(74, .n 12 1)],
    [(75, .p 12 1)],
    [(76, .p 12 1)],
    [(77, .p 12 1)],
    [(78, .n 12 1)],
    [(79, .n 12 1)],
    [(80, .n 12 1)],
    [(81, .p 12 1)],
    [(82, .p 12 1)],
    [(83, .p 12 1)],
    [(84, .n 12 1)],
    [(85, .n 12 1)],
    [(86, .n 12 1)],
    [(87, .n 12 1)],
    [(88, .n 12 1)],
    [(89, .n 12 1)],
    [(90, .n 12 1)],
    [(91, .n 12 1)],
    [(92, .n 12 1)],
    [(93, .n 12 1)],
    [(50, .n 8 3), (72, .n 40 3), (73, .p 2 3), (74, .p 2 3), (81, .p 2 3), (82, .p 2 3),
     (83, .p 2 3), (90, .p 2 3), (93, .p 2 3), (108, .p 2 9), (109, .p 2 9)],
    [(51, .n 8 3), (72, .p 2 3), (73, .n 40 3), (74, .p 2 3), (81, .p 2 3), (82, .p 2 3),
     (83, .p 2 3), (90, .p 2 3), (93, .p 2 3), (108, .p 2 9), (109, .p 2 9)],
    [(52, .n 8 3), (72, .p 2 3), (73, .p 2 3), (74, .n 40 3), (81, .p 2 3), (82, .p 2 3),
     (83, .p 2 3), (90, .p 2 3), (93, .p 2 3), (108, .p 2 9), (109, .p 2 9)],
    [(53, .p 8 3), (75, .n 10 3), (76, .p 2 3), (77, .p 2 3), (78, .p 2 3), (79, .p 2 3),
     (80, .p 2 3), (91, .p 2 3), (92, .p 2 3), (106, .p 2 9), (107, .p 2 9)],
    [(54, .p 8 3), (75, .p 2 3), (76, .n 10 3), (77, .p 2 3), (78, .p 2 3), (79, .p 2 3),
     (80, .p 2 3), (91, .p 2 3), (92, .p 2 3), (106, .p 2 9), (107, .p 2 9)],
    [(55, .p 8 3), (75, .p 2 3), (76, .p 2 3), (77, .n 10 3), (78, .p 2 3), (79, .p 2 3),
     (80, .p 2 3), (91, .p 2 3), (92, .p 2 3), (106, .p 2 9), (107, .p 2 9)],
    [(56, .n 8 3), (75, .p 2 3), (76, .p 2 3), (77, .p 2 3), (78, .n 40 3), (79, .p 2 3),
     (80, .p 2 3), (91, .p 2 3), (92, .p 2 3), (106, .p 2 9), (107, .p 2 9)],
    [(57, .n 8 3), (75, .p 2 3), (76, .p 2 3), (77, .p 2 3), (78, .p 2 3), (79, .n 40 3),
     (80, .p 2 3), (91, .p 2 3), (92, .p 2 3), (106, .p 2 9), (107, .p 2 9)],
    [(58, .n 8 3), (75, .p 2 3), (76, .p 2 3), (77, .p 2 3), (78, .p 2 3), (79, .p 2 3),
     (80, .n 40 3), (91, .p 2 3), (92, .p 2 3), (106, .p 2 9), (107, .p 2 9)],
    [(59, .p 8 3), (72, .p 2 3), (73, .p 2 3), (74, .p 2 3), (81, .n 10 3), (82, .p 2 3),
     (83, .p 2 3), (90, .p 2 3), (93, .p 2 3), (108, .p 2 9), (109, .p 2 9)],
    [(60, .p 8 3), (72, .p 2 3), (73, .p 2 3), (74, .p 2 3), (81, .p 2 3), (82, .n 10 3),
     (83, .p 2 3), (90, .p 2 3), (93, .p 2 3), (108, .p 2 9), (109, .p 2 9)],
    [(61, .p 8 3), (72, .p 2 3), (73, .p 2 3), (74, .p 2 3), (81, .p 2 3), (82, .p 2 3),
     (83, .n 10 3), (90, .p 2 3), (93, .p 2 3), (108, .p 2 9), (109, .p 2 9)],
    [(62, .n 8 3), (84, .n 14 1)],
    [(63, .n 8 3), (85, .n 14 1)],
    [(64, .n 8 3), (86, .n 14 1)],
    [(65, .n 8 3), (87, .n 14 1)],
    [(66, .n 8 3), (88, .n 14 1)],
    [(67, .n 8 3), (89, .n 14 1)],
    [(68, .n 8 3), (72, .p 2 3), (73, .p 2 3), (74, .p 2 3), (81, .p 2 3), (82, .p 2 3),
     (83, .p 2 3), (90, .n 40 3), (93, .p 2 3), (108, .p 2 9), (109, .p 2 9)],
    [(69, .n 8 3), (75, .p 2 3), (76, .p 2 3), (77, .p 2 3), (78, .p 2 3), (79, .p 2 3),
     (80, .p 2 3), (91, .n 40 3), (92, .p 2 3), (106, .p 2 9), (107, .p 2 9)],
    [(70, .n 8 3), (75, .p 2 3), (76, .p 2 3), (77, .p 2 3), (78, .p 2 3), (79, .p 2 3),
     (80, .p 2 3), (91, .p 2 3), (92, .n 40 3), (106, .p 2 9), (107, .p 2 9)],
    [(71, .n 8 3), (72, .p 2 3), (73, .p 2 3), (74, .p 2 3), (81, .p 2 3), (82, .p 2 3),
     (83, .p 2 3), (90, .p 2 3), (93, .n 40 3), (108, .p 2 9), (109, .p 2 9)],
    [],
    [],
    [],
    [],
    [],
    [],
    [],
    [],
    [],
    [],
    [],
    [],
    [(75, .p 4 3), (76, .p 4 3), (77, .p 4 3), (78, .p 4 3), (79, .p 4 3), (80, .p 4 3),
     (91, .p 4 3), (92, .p 4 3), (106, .p 40 9), (107, .p 4 9)],
    [(75, .p 4 3), (76, .p 4 3), (77, .p 4 3), (78, .p 4 3), (79, .p 4 3), (80, .p 4 3),
     (91, .p 4 3), (92, .p 4 3), (106, .p 4 9), (107, .p 40 9)],
    [(72, .p 4 3), (73, .p 4 3), (74, .p 4 3), (81, .p 4 3), (82, .p 4 3), (83, .p 4 3),
     (90, .p 4 3), (93, .p 4 3), (108, .p 40 9), (109, .p 4 9)],
    [(72, .p 4 3), (73, .p 4 3), (74, .p 4 3), (81, .p 4 3), (82, .p 4 3), (83, .p 4 3),
     (90, .p 4 3), (93, .p 4 3), (108, .p 4 9), (109, .p 40 9)],
    [(110, .b 2 1 28 3), (112, .p 64 9)],
    [(111, .b 2 1 28 3), (113, .p 64 9)],
    [(112, .b 2 1 32 3)],
    [(113, .b 2 1 32 3)]]

/-- adm.py line 531 `adm_e_db` -/
def adm_e_db : Rows :=
  [
    [(0, .p 4 27), (16, .p 32 9)],
    [(1, .p 4 27), (17, .p 32 9)],
    [(2, .n 4 9), (3, .p 16 27), (19, .p 32 9)],
    [(2, .p 16 27), (3, .n 4 9), (18, .p 32 9)],
    [(4, .p 4 27), (20, .p 32 9)],
    [(5, .n 4 9), (6, .p 16 27), (22, .p 32 9)],
    [(5, .p 16 27), (6, .n 4 9), (21, .p 32 9)],
    [(7, .p 4 27), (23, .p 32 9)],
    [(8, .n 46 9), (13, .n 32 27), (29, .n 64 9)],
    [(9, .n 46 9), (12, .n 32 27), (28, .n 64 9)],
    [(10, .n 46 9), (15, .n 32 27), (31, .n 64 9)],
    [(11, .n 46 9), (14, .n 32 27), (30, .n 64 9)],
    [(9, .p 4 27), (12, .p 26 9), (25, .p 8 9)],
    [(8, .p 4 27), (13, .p 26 9), (24, .p 8 9)],
    [(11, .p 4 27), (14, .p 26 9), (27, .p 8 9)],
    [(10, .p 4 27), (15, .p 26 9), (26, .p 8 9)],
    [(0, .p 64 81), (16, .n 28 27)],
    [(1, .p 64 81), (17, .n 28 27)],
    [(3, .p 64 81), (18, .n 4 9), (19, .n 16 27)],
    [(2, .p 64 81), (18, .n 16 27), (19, .n 4 9)],
    [(4, .p 64 81), (20, .n 28 27)],
    [(6, .p 64 81), (21, .n 4 9), (22, .n 16 27)],
    [(5, .p 64 81), (21, .n 16 27), (22, .n 4 9)],
    [(7, .p 64 81), (23, .n 28 27)],
    [(13, .n 128 81), (24, .n 46 9), (29, .p 32 27)],
    [(12, .n 128 81), (25, .n 46 9), (28, .p 32 27)],
    [(15, .n 128 81), (26, .n 46 9), (31, .p 32 27)],
    [(14, .n 128 81), (27, .n 46 9), (30, .p 32 27)],
    [(9, .p 16 81), (25, .n 4 27), (28, .p 26 9)],
    [(8, .p 16 81), (24, .n 4 27), (29, .p 26 9)],
    [(11, .p 16 81), (27, .n 4 27), (30, .p 26 9)],
    [(10, .p 16 81), (26, .n 4 27), (31, .p 26 9)],
    [(32, .n 20 3)],
    [(33, .n 20 3)],
    [(34, .n 20 3)],
    [(35, .n 20 3)],
    [(36, .n 20 3)],
    [(37, .n 20 3)],
    [(38, .n 20 3), (44, .n 2 3)],
    [(39, .n 20 3), (45, .n 2 3)],
    [(40, .n 20 3), (46, .n 2 3)],
    [(41, .n 20 3), (47, .n 2 3)],
    [(42, .n 20 3), (48, .n 2 3)],
    [(43, .n 20 3), (49, .n 2 3)],
    [(38, .n 32 1), (44, .p 20 9)],
    [(39, .n 32 1), (45, .p 20 9)],
    [(40, .n 32 1), (46, .p 20 9)],
    [(41, .n 32 1), (47, .p 20 9)],
    [(42, .n 32 1), (48, .p 20 9)],
    [(43, .n 32 1), (49, .p 20 9)],
    [(50, .n 8 9), (55, .p 4 9), (57, .p 4 9), (62, .n 8 9), (63, .n 8 9), (64, .n 8 9),
     (65, .n 8 9), (94, .p 4 9), (96, .p 4 9), (97, .p 4 9), (104, .p 4 3), (105, .p 4 3),
     (106, .p 4 3), (107, .p 4 3), (108, .p 4 3), (109, .p 4 3)],
    [(51, .n 4 3)],
    [(52, .n 8 9), (53, .p 4 9), (54, .p 4 9), (58, .n 8 9), (59, .n 8 9), (60, .n 8 9),
     (61, .n 8 9), (90, .p 4 9), (92, .p 4 9), (93, .p 4 9), (98, .p 4 3), (99, .p 4 3),
     (100, .p 4 3), (101, .p 4 3), (102, .p 4 3), (103, .p 4 3)],
    [(52, .p 4 9), (53, .n 8 9), (54, .p 4 9), (58, .n 8 9), (59, .n 8 9), (60, .n 8 9),
     (61, .n 8 9), (90, .p 4 9), (92, .p 4 9), (93, .p 4 9), (98, .p 4 3), (99, .p 4 3),
     (100, .p 4 3), (101, .p 4 3), (102, .p 4 3), (103, .p 4 3)],
    [(52, .p 4 9), (53, .p 4 9), (54, .n 8 9), (58, .n 8 9), (59, .n 8 9), (60, .n 8 9),
     (61, .n 8 9), (90, .p 4 9), (92, .p 4 9), (93, .p 4 9), (98, .p 4 3), (99, .p 4 3),
     (100, .p 4 3), (101, .p 4 3), (102, .p 4 3), (103, .p 4 3)],
    [(50, .p 4 9), (55, .n 8 9), (57, .p 4 9), (62, .n 8 9), (63, .n 8 9), (64, .n 8 9),
     (65, .n 8 9), (94, .p 4 9), (96, .p 4 9), (97, .p 4 9), (104, .p 4 3), (105, .p 4 3),
     (106, .p 4 3), (107, .p 4 3), (108, .p 4 3), (109, .p 4 3)],
    [(56, .n 4 3)],
    [(50, .p 4 9), (55, .p 4 9), (57, .n 8 9), (62, .n 8 9), (63, .n 8 9), (64, .n 8 9),
     (65, .n 8 9), (94, .p 4 9), (96, .p 4 9), (97, .p 4 9), (104, .p 4 3), (105, .p 4 3),
     (106, .p 4 3), (107, .p 4 3), (108, .p 4 3), (109, .p 4 3)],
    [(52, .n 8 9), (53, .n 8 9), (54, .n 8 9), (58, .p 40 9), (59, .p 16 9), (60, .p 16 9),
     (61, .p 16 9), (90, .n 8 9), (92, .n 8 9), (93, .n 8 9), (98, .n 8 3), (99, .n 8 3),
     (100, .n 8 3), (101, .n 8 3), (102, .n 8 3), (103, .n 8 3)],
    [(52, .n 8 9), (53, .n 8 9), (54, .n 8 9), (58, .p 16 9), (59, .p 40 9), (60, .p 16 9),
     (61, .p 16 9), (90, .n 8 9), (92, .n 8 9), (93, .n 8 9), (98, .n 8 3), (99, .n 8 3),
     (100, .n 8 3), (101, .n 8 3), (102, .n 8 3), (103, .n 8 3)],
    [(52, .n 8 9), (53, .n 8 9), (54, .n 8 9), (58, .p 16 9), (59, .p 16 9), (60, .n 8 9),
     (61, .p 16 9), (90, .n 8 9), (92, .n 8 9), (93, .n 8 9), (98, .n 8 3), (99, .n 8 3),
     (100, .n 8 3), (101, .n 8 3), (102, .n 8 3), (103, .n 8 3)],
    [(52, .n 8 9), (53, .n 8 9), (54, .n 8 9), (58, .p 16 9), (59, .p 16 9), (60, .p 16 9),
     (61, .n 8 9), (90, .n 8 9), (92, .n 8 9), (93, .n 8 9), (98, .n 8 3), (99, .n 8 3),
     (100, .n 8 3), (101, .n 8 3), (102, .n 8 3), (103, .n 8 3)],
    [(50, .n 8 9), (55, .n 8 9), (57, .n 8 9), (62, .p 40 9), (63, .p 16 9), (64, .p 16 9),
     (65, .p 16 9), (94, .n 8 9), (96, .n 8 9), (97, .n 8 9), (104, .n 8 3), (105, .n 8 3),
     (106, .n 8 3), (107, .n 8 3), (108, .n 8 3), (109, .n 8 3)],
    [(50, .n 8 9), (55, .n 8 9), (57, .n 8 9), (62, .p 16 9), (63, .p 40 9), (64, .p 16 9),
     (65, .p 16 9), (94, .n 8 9), (96, .n 8 9), (97, .n 8 9), (104, .n 8 3), (105, .n 8 3),
     (106, .n 8 3), (107, .n 8 3), (108, .n 8 3), (109, .n 8 3)],
    [(50, .n 8 9), (55, .n 8 9), (57, .n 8 9), (62, .p 16 9), (63, .p 16 9), (64, .n 8 9),
     (65, .p 16 9), (94, .n 8 9), (96, .n 8 9), (97, .n 8 9), (104, .n 8 3), (105, .n 8 3),
     (106, .n 8 3), (107, .n 8 3), (108, .n 8 3), (109, .n 8 3)],
    [(50, .n 8 9), (55, .n 8 9), (57, .n 8 9), (62, .p 16 9), (63, .p 16 9), (64, .p 16 9),
     (65, .n 8 9), (94, .n 8 9), (96, .n 8 9), (97, .n 8 9), (104, .n 8 3), (105, .n 8 3),
     (106, .n 8 3), (107, .n 8 3), (108, .n 8 3), (109, .n 8 3)],
    [(66, .n 10 3)],
    [(67, .n 10 3)],
    [(68, .n 10 3)],
    [(69, .n 10 3)],
    [(70, .n 4 3)],
    [(71, .n 4 3)],
    [(72, .n 4 3)],
    [(73, .n 4 3)],
    [(74, .n 4 3)],
    [(75, .n 4 3)],
    [(76, .n 4 3)],
    [(77, .n 4 3)],
    [(78, .p 8 3)],
    [(79, .p 8 3)],
    [(80, .n 8 3)],
    [(81, .n 8 3)],
    [(82, .p 8 3)],
    [(83, .p 8 3)],
    [(84, .n 8 3)],
    [(85, .n 8 3)],
    [(86, .n 10 3)],
    [(87, .n 10 3)],
    [(88, .n 10 3)],
    [(89, .n 10 3)],
    [(52, .p 16 27), (53, .p 16 27), (54, .p 16 27), (58, .n 32 27), (59, .n 32 27),
     (60, .n 32 27), (61, .n 32 27), (90, .p 52 27), (92, .p 16 27), (93, .p 16 27),
     (98, .p 16 9), (99, .p 16 9), (100, .p 16 9), (101, .p 16 9), (102, .p 16 9), (103, .p 16 9)],
    [(52, .p 4 27), (53, .p 4 27), (54, .p 4 27), (58, .n 8 27), (59, .n 8 27), (60, .n 8 27),
     (61, .n 8 27), (90, .p 4 27), (91, .p 4 3), (92, .p 4 27), (93, .p 4 27), (98, .p 4 9),
     (99, .p 4 9), (100, .p 4 9), (101, .p 4 9), (102, .p 4 9), (103, .p 4 9)],
    [(52, .p 4 9), (53, .p 4 9), (54, .p 4 9), (58, .n 8 9), (59, .n 8 9), (60, .n 8 9),
     (61, .n 8 9), (90, .p 4 9), (92, .p 16 9), (93, .p 4 9), (98, .p 4 3), (99, .p 4 3),
     (100, .p 4 3), (101, .p 4 3), (102, .p 4 3), (103, .p 4 3)],
    [(52, .p 16 27), (53, .p 16 27), (54, .p 16 27), (58, .n 32 27), (59, .n 32 27),
     (60, .n 32 27), (61, .n 32 27), (90, .p 16 27), (92, .p 16 27), (93, .p 52 27),
     (98, .p 16 9), (99, .p 16 9), (100, .p 16 9), (101, .p 16 9), (102, .p 16 9), (103, .p 16 9)],
    [(50, .p 16 27), (55, .p 16 27), (57, .p 16 27), (62, .n 32 27), (63, .n 32 27),
     (64, .n 32 27), (65, .n 32 27), (94, .p 52 27), (96, .p 16 27), (97, .p 16 27),
     (104, .p 16 9), (105, .p 16 9), (106, .p 16 9), (107, .p 16 9), (108, .p 16 9),
     (109, .p 16 9)],
    [(50, .p 4 27), (55, .p 4 27), (57, .p 4 27), (62, .n 8 27), (63, .n 8 27), (64, .n 8 27),
     (65, .n 8 27), (94, .p 4 27), (95, .p 4 3), (96, .p 4 27), (97, .p 4 27), (104, .p 4 9),
     (105, .p 4 9), (106, .p 4 9), (107, .p 4 9), (108, .p 4 9), (109, .p 4 9)],
    [(50, .p 4 9), (55, .p 4 9), (57, .p 4 9), (62, .n 8 9), (63, .n 8 9), (64, .n 8 9),
     (65, .n 8 9), (94, .p 4 9), (96, .p 16 9), (97, .p 4 9), (104, .p 4 3), (105, .p 4 3),
     (106, .p 4 3), (107, .p 4 3), (108, .p 4 3), (109, .p 4 3)],
    [(50, .p 16 27), (55, .p 16 27), (57, .p 16 27), (62, .n 32 27), (63, .n 32 27),
     (64, .n 32 27), (65, .n 32 27), (94, .p 16 27), (96, .p 16 27), (97, .p 52 27),
     (104, .p 16 9), (105, .p 16 9), (106, .p 16 9), (107, .p 16 9), (108, .p 16 9),
     (109, .p 16 9)],
    [(52, .p 4 9), (53, .p 4 9), (54, .p 4 9), (58, .n 8 9), (59, .n 8 9), (60, .n 8 9),
     (61, .n 8 9), (90, .p 4 9), (92, .p 4 9), (93, .p 4 9), (98, .n 8 3), (99, .p 4 3),
     (100, .p 4 3), (101, .p 4 3), (102, .p 4 3), (103, .p 4 3)],
    [(52, .p 4 9), (53, .p 4 9), (54, .p 4 9), (58, .n 8 9), (59, .n 8 9), (60, .n 8 9),
     (61, .n 8 9), (90, .p 4 9), (92, .p 4 9), (93, .p 4 9), (98, .p 4 3), (99, .n 8 3),
     (100, .p 4 3), (101, .p 4 3), (102, .p 4 3), (103, .p 4 3)],
    [(52, .p 4 9), (53, .p 4 9), (54, .p 4 9), (58, .n 8 9), (59, .n 8 9), (60, .n 8 9),
     (61, .n 8 9), (90, .p 4 9), (92, .p 4 9), (93, .p 4 9), (98, .p 4 3), (99, .p 4 3),
     (100, .n 8 3), (101, .p 4 3), (102, .p 4 3), (103, .p 4 3)],
    [(52, .p 4 9), (53, .p 4 9), (54, .p 4 9), (58, .n 8 9), (59, .n 8 9), (60, .n 8 9),
     (61, .n 8 9), (90, .p 4 9), (92, .p 4 9), (93, .p 4 9), (98, .p 4 3), (99, .p 4 3),
     (100, .p 4 3), (101, .p 16 3), (102, .p 4 3), (103, .p 4 3)],
    [(52, .p 4 9), (53, .p 4 9), (54, .p 4 9), (58, .n 8 9), (59, .n 8 9), (60, .n 8 9),
     (61, .n 8 9), (90, .p 4 9), (92, .p 4 9), (93, .p 4 9), (98, .p 4 3), (99, .p 4 3),
     (100, .p 4 3), (101, .p 4 3), (102, .p 16 3), (103, .p 4 3)],
    [(52, .p 4 9), (53, .p 4 9), (54, .p 4 9), (58, .n 8 9), (59, .n 8 9), (60, .n 8 9),
     (61, .n 8 9), (90, .p 4 9), (92, .p 4 9), (93, .p 4 9), (98, .p 4 3), (99, .p 4 3),
     (100, .p 4 3), (101, .p 4 3), (102, .p 4 3), (103, .p 16 3)],
    [(50, .p 4 9), (55, .p 4 9), (57, .p 4 9), (62, .n 8 9), (63, .n 8 9), (64, .n 8 9),
     (65, .n 8 9), (94, .p 4 9), (96, .p 4 9), (97, .p 4 9), (104, .n 8 3), (105, .p 4 3),
     (106, .p 4 3), (107, .p 4 3), (108, .p 4 3), (109, .p 4 3)],
    [(50, .p 4 9), (55, .p 4 9), (57, .p 4 9), (62, .n 8 9), (63, .n 8 9), (64, .n 8 9),
     (65, .n 8 9), (94, .p 4 9), (96, .p 4 9), (97, .p 4 9), (104, .p 4 3), (105, .n 8 3),
     (106, .p 4 3), (107, .p 4 3), (108, .p 4 3), (109, .p 4 3)],
    [(50, .p 4 9), (55, .p 4 9), (57, .p 4 9), (62, .n 8 9), (63, .n 8 9), (64, .n 8 9),
     (65, .n 8 9), (94, .p 4 9), (96, .p 4 9), (97, .p 4 9), (104, .p 4 3), (105, .p 4 3),
     (106, .n 8 3), (107, .p 4 3), (108, .p 4 3), (109, .p 4 3)],
    [(50, .p 4 9), (55, .p 4 9), (57, .p 4 9), (62, .n 8 9), (63, .n 8 9), (64, .n 8 9),
     (65, .n 8 9), (94, .p 4 9), (96, .p 4 9), (97, .p 4 9), (104, .p 4 3), (105, .p 4 3),
     (106, .p 4 3), (107, .p 16 3), (108, .p 4 3), (109, .p 4 3)],
    [(50, .p 4 9), (55, .p 4 9), (57, .p 4 9), (62, .n 8 9), (63, .n 8 9), (64, .n 8 9),
     (65, .n 8 9), (94, .p 4 9), (96, .p 4 9), (97, .p 4 9), (104, .p 4 3), (105, .p 4 3),
     (106, .p 4 3), (107, .p 4 3), (108, .p 16 3), (109, .p 4 3)],
    [(50, .p 4 9), (55, .p 4 9), (57, .p 4 9), (62, .n 8 9), (63, .n 8 9), (64, .n 8 9),
     (65, .n 8 9), (94, .p 4 9), (96, .p 4 9), (97, .p 4 9), (104, .p 4 3), (105, .p 4 3),
     (106, .p 4 3), (107, .p 4 3), (108, .p 4 3), (109, .p 16 3)],
    [(110, .p 8 9)],
    [(111, .p 8 9)],
    [(110, .n 8 3), (112, .p 88888888888889 50000000000000)],
    [(111, .n 8 3), (113, .p 88888888888889 50000000000000)]]

/-- adm.py line 648 `adm_s_db` -/
def adm_s_db : Rows :=
  [
    [(0, .n 80 9), (16, .p 8 3), (110, .mp 1 1 .d .b), (112, .mn 1 3 .d .b)],
    [(1, .n 80 9), (17, .p 8 3), (111, .mp 1 1 .d .b), (113, .mn 1 3 .d .b)],
    [(2, .n 16 1), (3, .p 64 9), (18, .p 8 1), (19, .n 16 3), (110, .mp 1 1 .s .b),
     (112, .mn 1 3 .s .b)],
    [(2, .p 64 9), (3, .n 16 1), (18, .n 16 3), (19, .p 8 1)],
    [(4, .n 80 9), (20, .p 8 3), (110, .p 1 1), (112, .n 1 3)],
    [(5, .n 16 1), (6, .p 64 9), (21, .p 8 1), (22, .n 16 3), (111, .mp 1 1 .s .b),
     (113, .mn 1 3 .s .b)],
    [(5, .p 64 9), (6, .n 16 1), (21, .n 16 3), (22, .p 8 1)],
    [(7, .n 80 9), (23, .p 8 3), (111, .p 1 1), (113, .n 1 3)],
    [(8, .n 16 1), (13, .p 64 9), (24, .p 8 1), (29, .n 16 3)],
    [(9, .n 16 1), (12, .p 64 9), (25, .p 8 1), (28, .n 16 3)],
    [(10, .n 16 1), (15, .p 64 9), (26, .p 8 1), (31, .n 16 3)],
    [(11, .n 16 1), (14, .p 64 9), (27, .p 8 1), (30, .n 16 3)],
    [(9, .p 64 9), (12, .n 16 1), (25, .n 16 3), (28, .p 8 1), (111, .mp 1 1 .u .b),
     (113, .mp 2 3 .u .b)],
    [(8, .p 64 9), (13, .n 16 1), (24, .n 16 3), (29, .p 8 1), (110, .mp 1 1 .u .b),
     (112, .mp 2 3 .u .b)],
    [(11, .p 64 9), (14, .n 16 1), (27, .n 16 3), (30, .p 8 1), (111, .mp 1 1 .c .b),
     (113, .mp 2 3 .c .b)],
    [(10, .p 64 9), (15, .n 16 1), (26, .n 16 3), (31, .p 8 1), (110, .mp 1 1 .c .b),
     (112, .mp 2 3 .c .b)],
    [(0, .p 160 27), (16, .p 92 9), (110, .mn 1 6 .d .b), (112, .mn 4 9 .d .b)],
    [(1, .p 160 27), (17, .p 92 9), (111, .mn 1 6 .d .b), (113, .mn 4 9 .d .b)],
    [(2, .p 16 9), (3, .p 112 27), (18, .p 16 3), (19, .p 44 9), (110, .mn 1 6 .s .b),
     (112, .mn 4 9 .s .b)],
    [(2, .p 112 27), (3, .p 16 9), (18, .p 44 9), (19, .p 16 3)],
    [(4, .p 160 27), (20, .p 92 9), (110, .n 1 6), (112, .n 4 9)],
    [(5, .p 16 9), (6, .p 112 27), (21, .p 16 3), (22, .p 44 9), (111, .mn 1 6 .s .b),
     (113, .mn 4 9 .s .b)],
    [(5, .p 112 27), (6, .p 16 9), (21, .p 44 9), (22, .p 16 3)],
    [(7, .p 160 27), (23, .p 92 9), (111, .n 1 6), (113, .n 4 9)],
    [(8, .p 16 9), (13, .p 112 27), (24, .p 16 3), (29, .p 44 9)],
    [(9, .p 16 9), (12, .p 112 27), (25, .p 16 3), (28, .p 44 9)],
    [(10, .p 16 9), (15, .p 112 27), (26, .p 16 3), (31, .p 44 9)],
    [(11, .p 16 9), (14, .p 112 27), (27, .p 16 3), (30, .p 44 9)],
    [(9, .p 112 27), (12, .p 16 9), (25, .p 44 9), (28, .p 16 3), (111, .mn 1 6 .u .b),
     (113, .mp 8 9 .u .b)],
    [(8, .p 112 27), (13, .p 16 9), (24, .p 44 9), (29, .p 16 3), (110, .mn 1 6 .u .b),
     (112, .mp 8 9 .u .b)],
    [(11, .p 112 27), (14, .p 16 9), (27, .p 44 9), (30, .p 16 3), (111, .mn 1 6 .c .b),
     (113, .mp 8 9 .c .b)],
    [(10, .p 112 27), (15, .p 16 9), (26, .p 44 9), (31, .p 16 3), (110, .mn 1 6 .c .b),
     (112, .mp 8 9 .c .b)],
    [(32, .n 8 1)],
    [(33, .n 8 1)],
    [(34, .n 8 1)],
    [(35, .n 8 1)],
    [(36, .n 8 1)],
    [(37, .n 8 1)],
    [(38, .n 8 1)],
    [(39, .n 8 1)],
    [(40, .n 8 1)],
    [(41, .n 8 1)],
    [(42, .n 8 1)],
    [(43, .n 8 1)],
    [(44, .p 8 3), (112, .mp 8 1 .e .b)],
    [(45, .p 8 3), (113, .mp 8 1 .e .b)],
    [(46, .p 8 3), (112, .mp 8 1 .mu .b)],
    [(47, .p 8 3), (113, .mp 8 1 .mu .b)],
    [(48, .p 8 3), (112, .mp 8 1 .tau .b)],
    [(49, .p 8 3), (113, .mp 8 1 .tau .b)],
    [(70, .n 12 1)],
    [(71, .n 12 1)],
    [(72, .n 12 1)],
    [(73, .n 12 1)],
    [(74, .n 12 1)],
    [(75, .n 12 1)],
    [(76, .n 12 1)],
    [(77, .n 12 1)],
    [(78, .n 12 1)],
    [(79, .n 12 1)],
    [(80, .p 12 1)],
    [(81, .p 12 1)],
    [(82, .n 12 1)],
    [(83, .n 12 1)],
    [(84, .p 12 1)],
    [(85, .p 12 1)],
    [(86, .n 12 1)],
    [(87, .n 12 1)],
    [(88, .n 12 1)],
    [(89, .n 12 1)],
    [(50, .n 8 3), (70, .n 40 3), (75, .p 2 3), (77, .p 2 3), (82, .p 2 3), (83, .p 2 3),
     (84, .p 2 3), (85, .p 2 3), (94, .p 2 9), (95, .p 1 3), (96, .n 1 9), (97, .p 2 9)],
    [(51, .n 8 3), (71, .n 14 1)],
    [(52, .n 8 3), (72, .n 40 3), (73, .p 2 3), (74, .p 2 3), (78, .p 2 3), (79, .p 2 3),
     (80, .p 2 3), (81, .p 2 3), (90, .p 2 9), (91, .p 1 3), (92, .n 1 9), (93, .p 2 9)],
    [(53, .n 8 3), (72, .p 2 3), (73, .n 40 3), (74, .p 2 3), (78, .p 2 3), (79, .p 2 3),
     (80, .p 2 3), (81, .p 2 3), (90, .p 2 9), (91, .p 1 3), (92, .n 1 9), (93, .p 2 9)],
    [(54, .n 8 3), (72, .p 2 3), (73, .p 2 3), (74, .n 40 3), (78, .p 2 3), (79, .p 2 3),
     (80, .p 2 3), (81, .p 2 3), (90, .p 2 9), (91, .p 1 3), (92, .n 1 9), (93, .p 2 9)],
    [(55, .n 8 3), (70, .p 2 3), (75, .n 40 3), (77, .p 2 3), (82, .p 2 3), (83, .p 2 3),
     (84, .p 2 3), (85, .p 2 3), (94, .p 2 9), (95, .p 1 3), (96, .n 1 9), (97, .p 2 9)],
    [(56, .n 8 3), (76, .n 14 1)],
    [(57, .n 8 3), (70, .p 2 3), (75, .p 2 3), (77, .n 40 3), (82, .p 2 3), (83, .p 2 3),
     (84, .p 2 3), (85, .p 2 3), (94, .p 2 9), (95, .p 1 3), (96, .n 1 9), (97, .p 2 9)],
    [(58, .n 8 3), (72, .p 2 3), (73, .p 2 3), (74, .p 2 3), (78, .n 40 3), (79, .p 2 3),
     (80, .p 2 3), (81, .p 2 3), (90, .p 2 9), (91, .p 1 3), (92, .n 1 9), (93, .p 2 9)],
    [(59, .n 8 3), (72, .p 2 3), (73, .p 2 3), (74, .p 2 3), (78, .p 2 3), (79, .n 40 3),
     (80, .p 2 3), (81, .p 2 3), (90, .p 2 9), (91, .p 1 3), (92, .n 1 9), (93, .p 2 9)],
    [(60, .p 8 3), (72, .p 2 3), (73, .p 2 3), (74, .p 2 3), (78, .p 2 3), (79, .p 2 3),
     (80, .n 10 3), (81, .p 2 3), (90, .p 2 9), (91, .p 1 3), (92, .n 1 9), (93, .p 2 9)],
    [(61, .p 8 3), (72, .p 2 3), (73, .p 2 3), (74, .p 2 3), (78, .p 2 3), (79, .p 2 3),
     (80, .p 2 3), (81, .n 10 3), (90, .p 2 9), (91, .p 1 3), (92, .n 1 9), (93, .p 2 9)],
    [(62, .n 8 3), (70, .p 2 3), (75, .p 2 3), (77, .p 2 3), (82, .n 40 3), (83, .p 2 3),
     (84, .p 2 3), (85, .p 2 3), (94, .p 2 9), (95, .p 1 3), (96, .n 1 9), (97, .p 2 9)],
    [(63, .n 8 3), (70, .p 2 3), (75, .p 2 3), (77, .p 2 3), (82, .p 2 3), (83, .n 40 3),
     (84, .p 2 3), (85, .p 2 3), (94, .p 2 9), (95, .p 1 3), (96, .n 1 9), (97, .p 2 9)],
    [(64, .p 8 3), (70, .p 2 3), (75, .p 2 3), (77, .p 2 3), (82, .p 2 3), (83, .p 2 3),
     (84, .n 10 3), (85, .p 2 3), (94, .p 2 9), (95, .p 1 3), (96, .n 1 9), (97, .p 2 9)],
    [(65, .p 8 3), (70, .p 2 3), (75, .p 2 3), (77, .p 2 3), (82, .p 2 3), (83, .p 2 3),
     (84, .p 2 3), (85, .n 10 3), (94, .p 2 9), (95, .p 1 3), (96, .n 1 9), (97, .p 2 9)],
    [(66, .n 8 3), (86, .n 14 1)],
    [(67, .n 8 3), (87, .n 14 1)],
    [(68, .n 8 3), (88, .n 14 1)],
    [(69, .n 8 3), (89, .n 14 1)],
    [(72, .p 4 3), (73, .p 4 3), (74, .p 4 3), (78, .p 4 3), (79, .p 4 3), (80, .p 4 3),
     (81, .p 4 3), (90, .p 40 9), (91, .p 2 3), (92, .n 2 9), (93, .p 4 9)],
    [(72, .p 4 3), (73, .p 4 3), (74, .p 4 3), (78, .p 4 3), (79, .p 4 3), (80, .p 4 3),
     (81, .p 4 3), (90, .p 4 9), (91, .n 4 3), (92, .p 52 9), (93, .p 4 9)],
    [(91, .p 6 1), (92, .n 2 1)],
    [(72, .p 4 3), (73, .p 4 3), (74, .p 4 3), (78, .p 4 3), (79, .p 4 3), (80, .p 4 3),
     (81, .p 4 3), (90, .p 4 9), (91, .p 2 3), (92, .n 2 9), (93, .p 40 9)],
    [(70, .p 4 3), (75, .p 4 3), (77, .p 4 3), (82, .p 4 3), (83, .p 4 3), (84, .p 4 3),
     (85, .p 4 3), (94, .p 40 9), (95, .p 2 3), (96, .n 2 9), (97, .p 4 9)],
    [(70, .p 4 3), (75, .p 4 3), (77, .p 4 3), (82, .p 4 3), (83, .p 4 3), (84, .p 4 3),
     (85, .p 4 3), (94, .p 4 9), (95, .n 4 3), (96, .p 52 9), (97, .p 4 9)],
    [(95, .p 6 1), (96, .n 2 1)],
    [(70, .p 4 3), (75, .p 4 3), (77, .p 4 3), (82, .p 4 3), (83, .p 4 3), (84, .p 4 3),
     (85, .p 4 3), (94, .p 4 9), (95, .p 2 3), (96, .n 2 9), (97, .p 40 9)],
    [],
    [],
    [],
    [],
    [],
    [],
    [],
    [],
    [],
    [],
    [],
    [],
    [(110, .b 2 1 28 3), (112, .n 32 9)],
    [(111, .b 2 1 28 3), (113, .n 32 9)],
    [(112, .b 2 1 32 3)],
    [(113, .b 2 1 32 3)]]

/-- adm.py line 766 `adm_e_sb` -/
def adm_e_sb : Rows :=
  [
    [(0, .n 4 9), (3, .p 16 27), (19, .p 32 9)],
    [(1, .n 4 9), (2, .p 16 27), (18, .p 32 9)],
    [(1, .p 16 27), (2, .n 4 9), (17, .p 32 9)],
    [(0, .p 16 27), (3, .n 4 9), (16, .p 32 9)],
    [(4, .p 4 27), (20, .p 32 9)],
    [(5, .p 4 27), (21, .p 32 9)],
    [(6, .p 4 27), (22, .p 32 9)],
    [(7, .p 4 27), (23, .p 32 9)],
    [(8, .n 46 9), (13, .n 32 27), (29, .n 64 9)],
    [(9, .n 46 9), (12, .n 32 27), (28, .n 64 9)],
    [(10, .n 46 9), (15, .n 32 27), (31, .n 64 9)],
    [(11, .n 46 9), (14, .n 32 27), (30, .n 64 9)],
    [(9, .p 4 27), (12, .p 26 9), (25, .p 8 9)],
    [(8, .p 4 27), (13, .p 26 9), (24, .p 8 9)],
    [(11, .p 4 27), (14, .p 26 9), (27, .p 8 9)],
    [(10, .p 4 27), (15, .p 26 9), (26, .p 8 9)],
    [(3, .p 64 81), (16, .n 4 9), (19, .n 16 27)],
    [(2, .p 64 81), (17, .n 4 9), (18, .n 16 27)],
    [(1, .p 64 81), (17, .n 16 27), (18, .n 4 9)],
    [(0, .p 64 81), (16, .n 16 27), (19, .n 4 9)],
    [(4, .p 64 81), (20, .n 28 27)],
    [(5, .p 64 81), (21, .n 28 27)],
    [(6, .p 64 81), (22, .n 28 27)],
    [(7, .p 64 81), (23, .n 28 27)],
    [(13, .n 128 81), (24, .n 46 9), (29, .p 32 27)],
    [(12, .n 128 81), (25, .n 46 9), (28, .p 32 27)],
    [(15, .n 128 81), (26, .n 46 9), (31, .p 32 27)],
    [(14, .n 128 81), (27, .n 46 9), (30, .p 32 27)],
    [(9, .p 16 81), (25, .n 4 27), (28, .p 26 9)],
    [(8, .p 16 81), (24, .n 4 27), (29, .p 26 9)],
    [(11, .p 16 81), (27, .n 4 27), (30, .p 26 9)],
    [(10, .p 16 81), (26, .n 4 27), (31, .p 26 9)],
    [(32, .n 20 3)],
    [(33, .n 20 3)],
    [(34, .n 20 3)],
    [(35, .n 20 3)],
    [(36, .n 20 3)],
    [(37, .n 20 3)],
    [(38, .n 20 3), (44, .n 2 3)],
    [(39, .n 20 3), (45, .n 2 3)],
    [(40, .n 20 3), (46, .n 2 3)],
    [(41, .n 20 3), (47, .n 2 3)],
    [(42, .n 20 3), (48, .n 2 3)],
    [(43, .n 20 3), (49, .n 2 3)],
    [(38, .n 32 1), (44, .p 20 9)],
    [(39, .n 32 1), (45, .p 20 9)],
    [(40, .n 32 1), (46, .p 20 9)],
    [(41, .n 32 1), (47, .p 20 9)],
    [(42, .n 32 1), (48, .p 20 9)],
    [(43, .n 32 1), (49, .p 20 9)],
    [(50, .n 8 9), (53, .p 4 9), (57, .p 4 9), (62, .n 8 9), (63, .n 8 9), (64, .n 8 9),
     (65, .n 8 9), (94, .p 4 9), (96, .p 4 9), (97, .p 4 9), (104, .p 4 3), (105, .p 4 3),
     (106, .p 4 3), (107, .p 4 3), (108, .p 4 3), (109, .p 4 3)],
    [(51, .n 4 3)],
    [(52, .n 4 3)],
    [(50, .p 4 9), (53, .n 8 9), (57, .p 4 9), (62, .n 8 9), (63, .n 8 9), (64, .n 8 9),
     (65, .n 8 9), (94, .p 4 9), (96, .p 4 9), (97, .p 4 9), (104, .p 4 3), (105, .p 4 3),
     (106, .p 4 3), (107, .p 4 3), (108, .p 4 3), (109, .p 4 3)],
    [(54, .n 8 9), (55, .p 4 9), (56, .p 4 9), (58, .n 8 9), (59, .n 8 9), (60, .n 8 9),
     (61, .n 8 9), (90, .p 4 9), (92, .p 4 9), (93, .p 4 9), (98, .p 4 3), (99, .p 4 3),
     (100, .p 4 3), (101, .p 4 3), (102, .p 4 3), (103, .p 4 3)],
    [(54, .p 4 9), (55, .n 8 9), (56, .p 4 9), (58, .n 8 9), (59, .n 8 9), (60, .n 8 9),
     (61, .n 8 9), (90, .p 4 9), (92, .p 4 9), (93, .p 4 9), (98, .p 4 3), (99, .p 4 3),
     (100, .p 4 3), (101, .p 4 3), (102, .p 4 3), (103, .p 4 3)],
    [(54, .p 4 9), (55, .p 4 9), (56, .n 8 9), (58, .n 8 9), (59, .n 8 9), (60, .n 8 9),
     (61, .n 8 9), (90, .p 4 9), (92, .p 4 9), (93, .p 4 9), (98, .p 4 3), (99, .p 4 3),
     (100, .p 4 3), (101, .p 4 3), (102, .p 4 3), (103, .p 4 3)],
    [(50, .p 4 9), (53, .p 4 9), (57, .n 8 9), (62, .n 8 9), (63, .n 8 9), (64, .n 8 9),
     (65, .n 8 9), (94, .p 4 9), (96, .p 4 9), (97, .p 4 9), (104, .p 4 3), (105, .p 4 3),
     (106, .p 4 3), (107, .p 4 3), (108, .p 4 3), (109, .p 4 3)],
    [(54, .n 8 9), (55, .n 8 9), (56, .n 8 9), (58, .p 40 9), (59, .p 16 9), (60, .p 16 9),
     (61, .p 16 9), (90, .n 8 9), (92, .n 8 9), (93, .n 8 9), (98, .n 8 3), (99, .n 8 3),
     (100, .n 8 3), (101, .n 8 3), (102, .n 8 3), (103, .n 8 3)],
    [(54, .n 8 9), (55, .n 8 9), (56, .n 8 9), (58, .p 16 9), (59, .p 40 9), (60, .p 16 9),
     (61, .p 16 9), (90, .n 8 9), (92, .n 8 9), (93, .n 8 9), (98, .n 8 3), (99, .n 8 3),
     (100, .n 8 3), (101, .n 8 3), (102, .n 8 3), (103, .n 8 3)],
    [(54, .n 8 9), (55, .n 8 9), (56, .n 8 9), (58, .p 16 9), (59, .p 16 9), (60, .n 8 9),
     (61, .p 16 9), (90, .n 8 9), (92, .n 8 9), (93, .n 8 9), (98, .n 8 3), (99, .n 8 3),
     (100, .n 8 3), (101, .n 8 3), (102, .n 8 3), (103, .n 8 3)],
    [(54, .n 8 9), (55, .n 8 9), (56, .n 8 9), (58, .p 16 9), (59, .p 16 9), (60, .p 16 9),
     (61, .n 8 9), (90, .n 8 9), (92, .n 8 9), (93, .n 8 9), (98, .n 8 3), (99, .n 8 3),
     (100, .n 8 3), (101, .n 8 3), (102, .n 8 3), (103, .n 8 3)],
    [(50, .n 8 9), (53, .n 8 9), (57, .n 8 9), (62, .p 40 9), (63, .p 16 9), (64, .p 16 9),
     (65, .p 16 9), (94, .n 8 9), (96, .n 8 9), (97, .n 8 9), (104, .n 8 3), (105, .n 8 3),
     (106, .n 8 3), (107, .n 8 3), (108, .n 8 3), (109, .n 8 3)],
    [(50, .n 8 9), (53, .n 8 9), (57, .n 8 9), (62, .p 16 9), (63, .p 40 9), (64, .p 16 9),
     (65, .p 16 9), (94, .n 8 9), (96, .n 8 9), (97, .n 8 9), (104, .n 8 3), (105, .n 8 3),
     (106, .n 8 3), (107, .n 8 3), (108, .n 8 3), (109, .n 8 3)],
    [(50, .n 8 9), (53, .n 8 9), (57, .n 8 9), (62, .p 16 9), (63, .p 16 9), (64, .n 8 9),
     (65, .p 16 9), (94, .n 8 9), (96, .n 8 9), (97, .n 8 9), (104, .n 8 3), (105, .n 8 3),
     (106, .n 8 3), (107, .n 8 3), (108, .n 8 3), (109, .n 8 3)],
    [(50, .n 8 9), (53, .n 8 9), (57, .n 8 9), (62, .p 16 9), (63, .p 16 9), (64, .p 16 9),
     (65, .n 8 9), (94, .n 8 9), (96, .n 8 9), (97, .n 8 9), (104, .n 8 3), (105, .n 8 3),
     (106, .n 8 3), (107, .n 8 3), (108, .n 8 3), (109, .n 8 3)],
    [(66, .n 10 3)],
    [(67, .n 10 3)],
    [(68, .n 10 3)],
    [(69, .n 10 3)],
    [(70, .n 4 3)],
    [(71, .n 4 3)],
    [(72, .n 4 3)],
    [(73, .n 4 3)],
    [(74, .n 4 3)],
    [(75, .n 4 3)],
    [(76, .n 4 3)],
    [(77, .n 4 3)],
    [(78, .p 8 3)],
    [(79, .p 8 3)],
    [(80, .n 8 3)],
    [(81, .n 8 3)],
    [(82, .p 8 3)],
    [(83, .p 8 3)],
    [(84, .n 8 3)],
    [(85, .n 8 3)],
    [(86, .n 10 3)],
    [(87, .n 10 3)],
    [(88, .n 10 3)],
    [(89, .n 10 3)],
    [(54, .p 4 9), (55, .p 4 9), (56, .p 4 9), (58, .n 8 9), (59, .n 8 9), (60, .n 8 9),
     (61, .n 8 9), (90, .p 16 9), (92, .p 4 9), (93, .p 4 9), (98, .p 4 3), (99, .p 4 3),
     (100, .p 4 3), (101, .p 4 3), (102, .p 4 3), (103, .p 4 3)],
    [(54, .p 4 27), (55, .p 4 27), (56, .p 4 27), (58, .n 8 27), (59, .n 8 27), (60, .n 8 27),
     (61, .n 8 27), (90, .p 4 27), (91, .p 4 3), (92, .p 4 27), (93, .p 4 27), (98, .p 4 9),
     (99, .p 4 9), (100, .p 4 9), (101, .p 4 9), (102, .p 4 9), (103, .p 4 9)],
    [(54, .p 16 27), (55, .p 16 27), (56, .p 16 27), (58, .n 32 27), (59, .n 32 27),
     (60, .n 32 27), (61, .n 32 27), (90, .p 16 27), (92, .p 52 27), (93, .p 16 27),
     (98, .p 16 9), (99, .p 16 9), (100, .p 16 9), (101, .p 16 9), (102, .p 16 9), (103, .p 16 9)],
    [(54, .p 16 27), (55, .p 16 27), (56, .p 16 27), (58, .n 32 27), (59, .n 32 27),
     (60, .n 32 27), (61, .n 32 27), (90, .p 16 27), (92, .p 16 27), (93, .p 52 27),
     (98, .p 16 9), (99, .p 16 9), (100, .p 16 9), (101, .p 16 9), (102, .p 16 9), (103, .p 16 9)],
    [(50, .p 4 9), (53, .p 4 9), (57, .p 4 9), (62, .n 8 9), (63, .n 8 9), (64, .n 8 9),
     (65, .n 8 9), (94, .p 16 9), (96, .p 4 9), (97, .p 4 9), (104, .p 4 3), (105, .p 4 3),
     (106, .p 4 3), (107, .p 4 3), (108, .p 4 3), (109, .p 4 3)],
    [(50, .p 4 27), (53, .p 4 27), (57, .p 4 27), (62, .n 8 27), (63, .n 8 27), (64, .n 8 27),
     (65, .n 8 27), (94, .p 4 27), (95, .p 4 3), (96, .p 4 27), (97, .p 4 27), (104, .p 4 9),
     (105, .p 4 9), (106, .p 4 9), (107, .p 4 9), (108, .p 4 9), (109, .p 4 9)],
    [(50, .p 16 27), (53, .p 16 27), (57, .p 16 27), (62, .n 32 27), (63, .n 32 27),
     (64, .n 32 27), (65, .n 32 27), (94, .p 16 27), (96, .p 52 27), (97, .p 16 27),
     (104, .p 16 9), (105, .p 16 9), (106, .p 16 9), (107, .p 16 9), (108, .p 16 9),
     (109, .p 16 9)],
    [(50, .p 16 27), (53, .p 16 27), (57, .p 16 27), (62, .n 32 27), (63, .n 32 27),
     (64, .n 32 27), (65, .n 32 27), (94, .p 16 27), (96, .p 16 27), (97, .p 52 27),
     (104, .p 16 9), (105, .p 16 9), (106, .p 16 9), (107, .p 16 9), (108, .p 16 9),
     (109, .p 16 9)],
    [(54, .p 4 9), (55, .p 4 9), (56, .p 4 9), (58, .n 8 9), (59, .n 8 9), (60, .n 8 9),
     (61, .n 8 9), (90, .p 4 9), (92, .p 4 9), (93, .p 4 9), (98, .n 8 3), (99, .p 4 3),
     (100, .p 4 3), (101, .p 4 3), (102, .p 4 3), (103, .p 4 3)],
    [(54, .p 4 9), (55, .p 4 9), (56, .p 4 9), (58, .n 8 9), (59, .n 8 9), (60, .n 8 9),
     (61, .n 8 9), (90, .p 4 9), (92, .p 4 9), (93, .p 4 9), (98, .p 4 3), (99, .n 8 3),
     (100, .p 4 3), (101, .p 4 3), (102, .p 4 3), (103, .p 4 3)],
    [(54, .p 4 9), (55, .p 4 9), (56, .p 4 9), (58, .n 8 9), (59, .n 8 9), (60, .n 8 9),
     (61, .n 8 9), (90, .p 4 9), (92, .p 4 9), (93, .p 4 9), (98, .p 4 3), (99, .p 4 3),
     (100, .n 8 3), (101, .p 4 3), (102, .p 4 3), (103, .p 4 3)],
    [(54, .p 4 9), (55, .p 4 9), (56, .p 4 9), (58, .n 8 9), (59, .n 8 9), (60, .n 8 9),
     (61, .n 8 9), (90, .p 4 9), (92, .p 4 9), (93, .p 4 9), (98, .p 4 3), (99, .p 4 3),
     (100, .p 4 3), (101, .p 16 3), (102, .p 4 3), (103, .p 4 3)],
    [(54, .p 4 9), (55, .p 4 9), (56, .p 4 9), (58, .n 8 9), (59, .n 8 9), (60, .n 8 9),
     (61, .n 8 9), (90, .p 4 9), (92, .p 4 9), (93, .p 4 9), (98, .p 4 3), (99, .p 4 3),
     (100, .p 4 3), (101, .p 4 3), (102, .p 16 3), (103, .p 4 3)],
    [(54, .p 4 9), (55, .p 4 9), (56, .p 4 9), (58, .n 8 9), (59, .n 8 9), (60, .n 8 9),
     (61, .n 8 9), (90, .p 4 9), (92, .p 4 9), (93, .p 4 9), (98, .p 4 3), (99, .p 4 3),
     (100, .p 4 3), (101, .p 4 3), (102, .p 4 3), (103, .p 16 3)],
    [(50, .p 4 9), (53, .p 4 9), (57, .p 4 9), (62, .n 8 9), (63, .n 8 9), (64, .n 8 9),
     (65, .n 8 9), (94, .p 4 9), (96, .p 4 9), (97, .p 4 9), (104, .n 8 3), (105, .p 4 3),
     (106, .p 4 3), (107, .p 4 3), (108, .p 4 3), (109, .p 4 3)],
    [(50, .p 4 9), (53, .p 4 9), (57, .p 4 9), (62, .n 8 9), (63, .n 8 9), (64, .n 8 9),
     (65, .n 8 9), (94, .p 4 9), (96, .p 4 9), (97, .p 4 9), (104, .p 4 3), (105, .n 8 3),
     (106, .p 4 3), (107, .p 4 3), (108, .p 4 3), (109, .p 4 3)],
    [(50, .p 4 9), (53, .p 4 9), (57, .p 4 9), (62, .n 8 9), (63, .n 8 9), (64, .n 8 9),
     (65, .n 8 9), (94, .p 4 9), (96, .p 4 9), (97, .p 4 9), (104, .p 4 3), (105, .p 4 3),
     (106, .n 8 3), (107, .p 4 3), (108, .p 4 3), (109, .p 4 3)],
    [(50, .p 4 9), (53, .p 4 9), (57, .p 4 9), (62, .n 8 9), (63, .n 8 9), (64, .n 8 9),
     (65, .n 8 9), (94, .p 4 9), (96, .p 4 9), (97, .p 4 9), (104, .p 4 3), (105, .p 4 3),
     (106, .p 4 3), (107, .p 16 3), (108, .p 4 3), (109, .p 4 3)],
    [(50, .p 4 9), (53, .p 4 9), (57, .p 4 9), (62, .n 8 9), (63, .n 8 9), (64, .n 8 9),
     (65, .n 8 9), (94, .p 4 9), (96, .p 4 9), (97, .p 4 9), (104, .p 4 3), (105, .p 4 3),
     (106, .p 4 3), (107, .p 4 3), (108, .p 16 3), (109, .p 4 3)],
    [(50, .p 4 9), (53, .p 4 9), (57, .p 4 9), (62, .n 8 9), (63, .n 8 9), (64, .n 8 9),
     (65, .n 8 9), (94, .p 4 9), (96, .p 4 9), (97, .p 4 9), (104, .p 4 3), (105, .p 4 3),
     (106, .p 4 3), (107, .p 4 3), (108, .p 4 3), (109, .p 16 3)],
    [(110, .p 8 9)],
    [(111, .p 8 9)],
    [(110, .n 8 3), (112, .p 88888888888889 50000000000000)],
    [(111, .n 8 3), (113, .p 88888888888889 50000000000000)]]

/-- adm.py line 883 `adm_s_sb` -/
def adm_s_sb : Rows :=
  [
    [(0, .n 16 1), (3, .p 64 9), (16, .p 8 1), (19, .n 16 3)],
    [(1, .n 16 1), (2, .p 64 9), (17, .p 8 1), (18, .n 16 3)],
    [(1, .p 64 9), (2, .n 16 1), (17, .n 16 3), (18, .p 8 1), (111, .mp 1 1 .d .b),
     (113, .mn 1 3 .d .b)],
    [(0, .p 64 9), (3, .n 16 1), (16, .n 16 3), (19, .p 8 1), (110, .mp 1 1 .d .b),
     (112, .mn 1 3 .d .b)],
    [(4, .n 80 9), (20, .p 8 3), (110, .mp 1 1 .s .b), (112, .mn 1 3 .s .b)],
    [(5, .n 80 9), (21, .p 8 3), (111, .mp 1 1 .s .b), (113, .mn 1 3 .s .b)],
    [(6, .n 80 9), (22, .p 8 3), (110, .p 1 1), (112, .n 1 3)],
    [(7, .n 80 9), (23, .p 8 3), (111, .p 1 1), (113, .n 1 3)],
    [(8, .n 16 1), (13, .p 64 9), (24, .p 8 1), (29, .n 16 3)],
    [(9, .n 16 1), (12, .p 64 9), (25, .p 8 1), (28, .n 16 3)],
    [(10, .n 16 1), (15, .p 64 9), (26, .p 8 1), (31, .n 16 3)],
    [(11, .n 16 1), (14, .p 64 9), (27, .p 8 1), (30, .n 16 3)],
    [(9, .p 64 9), (12, .n 16 1), (25, .n 16 3), (28, .p 8 1), (111, .mp 1 1 .u .b),
     (113, .mp 2 3 .u .b)],
    [(8, .p 64 9), (13, .n 16 1), (24, .n 16 3), (29, .p 8 1), (110, .mp 1 1 .u .b),
     (112, .mp 2 3 .u .b)],
    [(11, .p 64 9), (14, .n 16 1), (27, .n 16 3), (30, .p 8 1), (111, .mp 1 1 .c .b),
     (113, .mp 2 3 .c .b)],
    [(10, .p 64 9), (15, .n 16 1), (26, .n 16 3), (31, .p 8 1), (110, .mp 1 1 .c .b),
     (112, .mp 2 3 .c .b)],
    [(0, .p 16 9), (3, .p 112 27), (16, .p 16 3), (19, .p 44 9)],
    [(1, .p 16 9), (2, .p 112 27), (17, .p 16 3), (18, .p 44 9)],
    [(1, .p 112 27), (2, .p 16 9), (17, .p 44 9), (18, .p 16 3), (111, .mn 1 6 .d .b),
     (113, .mn 4 9 .d .b)],
    [(0, .p 112 27), (3, .p 16 9), (16, .p 44 9), (19, .p 16 3), (110, .mn 1 6 .d .b),
     (112, .mn 4 9 .d .b)],
    [(4, .p 160 27), (20, .p 92 9), (110, .mn 1 6 .s .b), (112, .mn 4 9 .s .b)],
    [(5, .p 160 27), (21, .p 92 9), (111, .mn 1 6 .s .b), (113, .mn 4 9 .s .b)],
    [(6, .p 160 27), (22, .p 92 9), (110, .n 1 6), (112, .n 4 9)],
    [(7, .p 160 27), (23, .p 92 9), (111, .n 1 6), (113, .n 4 9)],
    [(8, .p 16 9), (13, .p 112 27), (24, .p 16 3), (29, .p 44 9)],
    [(9, .p 16 9), (12, .p 112 27), (25, .p 16 3), (28, .p 44 9)],
    [(10, .p 16 9), (15, .p 112 27), (26, .p 16 3), (31, .p 44 9)],
    [(11, .p 16 9), (14, .p 112 27), (27, .p 16 3), (30, .p 44 9)],
    [(9, .p 112 27), (12, .p 16 9), (25, .p 44 9), (28, .p 16 3), (111, .mn 1 6 .u .b),
     (113, .mp 8 9 .u .b)],
    [(8, .p 112 27), (13, .p 16 9), (24, .p 44 9), (29, .p 16 3), (110, .mn 1 6 .u .b),
     (112, .mp 8 9 .u .b)],
    [(11, .p 112 27), (14, .p 16 9), (27, .p 44 9), (30, .p 16 3), (111, .mn 1 6 .c .b),
     (113, .mp 8 9 .c .b)],
    [(10, .p 112 27), (15, .p 16 9), (26, .p 44 9), (31, .p 16 3), (110, .mn 1 6 .c .b),
     (112, .mp 8 9 .c .b)],
    [(32, .n 8 1)],
    [(33, .n 8 1)],
    [(34, .n 8 1)],
    [(35, .n 8 1)],
    [(36, .n 8 1)],
    [(37, .n 8 1)],
    [(38, .n 8 1)],
    [(39, .n 8 1)],
    [(40, .n 8 1)],
    [(41, .n 8 1)],
    [(42, .n 8 1)],
    [(43, .n 8 1)],
    [(44, .p 8 3), (112, .mp 8 1 .e .b)],
    [(45, .p 8 3), (113, .mp 8 1 .e .b)],
    [(46, .p 8 3), (112, .mp 8 1 .mu .b)],
    [(47, .p 8 3), (113, .mp 8 1 .mu .b)],
    [(48, .p 8 3), (112, .mp 8 1 .tau .b)],
    [(49, .p 8 3), (113, .mp 8 1 .tau .b)],
    [(70, .n 12 1)],
    [(71, .n 12 1)],
    [(72, .n 12 1)],
    [(73, .n 12 1)],
    [(74, .n 12 1)],
    [(75, .n 12 1)],
    [(76, .n 12 1)],
    [(77, .n 12 1)],
    [(78, .n 12 1)],
    [(79, .n 12 1)],
    [(80, .p 12 1)],
    [(81, .p 12 1)],
    [(82, .n 12 1)],
    [(83, .n 12 1)],
    [(84, .p 12 1)],
    [(85, .p 12 1)],
    [(86, .n 12 1)],
    [(87, .n 12 1)],
    [(88, .n 12 1)],
    [(89, .n 12 1)],
    [(50, .n 8 3), (70, .n 40 3), (73, .p 2 3), (77, .p 2 3), (82, .p 2 3), (83, .p 2 3),
     (84, .p 2 3), (85, .p 2 3), (94, .n 1 9), (95, .p 1 3), (96, .p 2 9), (97, .p 2 9)],
    [(51, .n 8 3), (71, .n 14 1)],
    [(52, .n 8 3), (72, .n 14 1)],
    [(53, .n 8 3), (70, .p 2 3), (73, .n 40 3), (77, .p 2 3), (82, .p 2 3), (83, .p 2 3),
     (84, .p 2 3), (85, .p 2 3), (94, .n 1 9), (95, .p 1 3), (96, .p 2 9), (97, .p 2 9)],
    [(54, .n 8 3), (74, .n 40 3), (75, .p 2 3), (76, .p 2 3), (78, .p 2 3), (79, .p 2 3),
     (80, .p 2 3), (81, .p 2 3), (90, .n 1 9), (91, .p 1 3), (92, .p 2 9), (93, .p 2 9)],
    [(55, .n 8 3), (74, .p 2 3), (75, .n 40 3), (76, .p 2 3), (78, .p 2 3), (79, .p 2 3),
     (80, .p 2 3), (81, .p 2 3), (90, .n 1 9), (91, .p 1 3), (92, .p 2 9), (93, .p 2 9)],
    [(56, .n 8 3), (74, .p 2 3), (75, .p 2 3), (76, .n 40 3), (78, .p 2 3), (79, .p 2 3),
     (80, .p 2 3), (81, .p 2 3), (90, .n 1 9), (91, .p 1 3), (92, .p 2 9), (93, .p 2 9)],
    [(57, .n 8 3), (70, .p 2 3), (73, .p 2 3), (77, .n 40 3), (82, .p 2 3), (83, .p 2 3),
     (84, .p 2 3), (85, .p 2 3), (94, .n 1 9), (95, .p 1 3), (96, .p 2 9), (97, .p 2 9)],
    [(58, .n 8 3), (74, .p 2 3), (75, .p 2 3), (76, .p 2 3), (78, .n 40 3), (79, .p 2 3),
     (80, .p 2 3), (81, .p 2 3), (90, .n 1 9), (91, .p 1 3), (92, .p 2 9), (93, .p 2 9)],
    [(59, .n 8 3), (74, .p 2 3), (75, .p 2 3), (76, .p 2 3), (78, .p 2 3), (79, .n 40 3),
     (80, .p 2 3), (81, .p 2 3), (90, .n 1 9), (91, .p 1 3), (92, .p 2 9), (93, .p 2 9)],
    [(60, .p 8 3), (74, .p 2 3), (75, .p 2 3), (76, .p 2 3), (78, .p 2 3), (79, .p 2 3),
     (80, .n 10 3), (81, .p 2 3), (90, .n 1 9), (91, .p 1 3), (92, .p 2 9), (93, .p 2 9)],
    [(61, .p 8 3), (74, .p 2 3), (75, .p 2 3), (76, .p 2 3), (78, .p 2 3), (79, .p 2 3),
     (80, .p 2 3), (81, .n 10 3), (90, .n 1 9), (91, .p 1 3), (92, .p 2 9), (93, .p 2 9)],
    [(62, .n 8 3), (70, .p 2 3), (73, .p 2 3), (77, .p 2 3), (82, .n 40 3), (83, .p 2 3),
     (84, .p 2 3), (85, .p 2 3), (94, .n 1 9), (95, .p 1 3), (96, .p 2 9), (97, .p 2 9)],
    [(63, .n 8 3), (70, .p 2 3), (73, .p 2 3), (77, .p 2 3), (82, .p 2 3), (83, .n 40 3),
     (84, .p 2 3), (85, .p 2 3), (94, .n 1 9), (95, .p 1 3), (96, .p 2 9), (97, .p 2 9)],
    [(64, .p 8 3), (70, .p 2 3), (73, .p 2 3), (77, .p 2 3), (82, .p 2 3), (83, .p 2 3),
     (84, .n 10 3), (85, .p 2 3), (94, .n 1 9), (95, .p 1 3), (96, .p 2 9), (97, .p 2 9)],
    [(65, .p 8 3), (70, .p 2 3), (73, .p 2 3), (77, .p 2 3), (82, .p 2 3), (83, .p 2 3),
     (84, .p 2 3), (85, .n 10 3), (94, .n 1 9), (95, .p 1 3), (96, .p 2 9), (97, .p 2 9)],
    [(66, .n 8 3), (86, .n 14 1)],
    [(67, .n 8 3), (87, .n 14 1)],
    [(68, .n 8 3), (88, .n 14 1)],
    [(69, .n 8 3), (89, .n 14 1)],
    [(90, .n 2 1), (91, .p 6 1)],
    [(74, .p 4 3), (75, .p 4 3), (76, .p 4 3), (78, .p 4 3), (79, .p 4 3), (80, .p 4 3),
     (81, .p 4 3), (90, .p 52 9), (91, .n 4 3), (92, .p 4 9), (93, .p 4 9)],
    [(74, .p 4 3), (75, .p 4 3), (76, .p 4 3), (78, .p 4 3), (79, .p 4 3), (80, .p 4 3),
     (81, .p 4 3), (90, .n 2 9), (91, .p 2 3), (92, .p 40 9), (93, .p 4 9)],
    [(74, .p 4 3), (75, .p 4 3), (76, .p 4 3), (78, .p 4 3), (79, .p 4 3), (80, .p 4 3),
     (81, .p 4 3), (90, .n 2 9), (91, .p 2 3), (92, .p 4 9), (93, .p 40 9)],
    [(94, .n 2 1), (95, .p 6 1)],
    [(70, .p 4 3), (73, .p 4 3), (77, .p 4 3), (82, .p 4 3), (83, .p 4 3), (84, .p 4 3),
     (85, .p 4 3), (94, .p 52 9), (95, .n 4 3), (96, .p 4 9), (97, .p 4 9)],
    [(70, .p 4 3), (73, .p 4 3), (77, .p 4 3), (82, .p 4 3), (83, .p 4 3), (84, .p 4 3),
     (85, .p 4 3), (94, .n 2 9), (95, .p 2 3), (96, .p 40 9), (97, .p 4 9)],
    [(70, .p 4 3), (73, .p 4 3), (77, .p 4 3), (82, .p 4 3), (83, .p 4 3), (84, .p 4 3),
     (85, .p 4 3), (94, .n 2 9), (95, .p 2 3), (96, .p 4 9), (97, .p 40 9)],
    [],
    [],
    [],
    [],
    [],
    [],
    [],
    [],
    [],
    [],
    [],
    [],
    [(110, .b 2 1 28 3), (112, .n 32 9)],
    [(111, .b 2 1 28 3), (113, .n 32 9)],
    [(112, .b 2 1 32 3)],
    [(113, .b 2 1 32 3)]]

/-- adm.py line 1001 `adm_e_sd` -/
def adm_e_sd : Rows :=
  [
    [(0, .p 4 27), (16, .p 32 9)],
    [(1, .p 4 27), (17, .p 32 9)],
    [(2, .p 4 27), (18, .p 32 9)],
    [(3, .n 4 9), (4, .p 16 27), (20, .p 32 9)],
    [(3, .p 16 27), (4, .n 4 9), (19, .p 32 9)],
    [(5, .p 4 27), (21, .p 32 9)],
    [(6, .n 4 9), (7, .p 16 27), (23, .p 32 9)],
    [(6, .p 16 27), (7, .n 4 9), (22, .p 32 9)],
    [(8, .n 46 9), (13, .n 32 27), (29, .n 64 9)],
    [(9, .n 46 9), (12, .n 32 27), (28, .n 64 9)],
    [(10, .n 46 9), (15, .n 32 27), (31, .n 64 9)],
    [(11, .n 46 9), (14, .n 32 27), (30, .n 64 9)],
    [(9, .p 4 27), (12, .p 26 9), (25, .p 8 9)],
    [(8, .p 4 27), (13, .p 26 9), (24, .p 8 9)],
    [(11, .p 4 27), (14, .p 26 9), (27, .p 8 9)],
    [(10, .p 4 27), (15, .p 26 9), (26, .p 8 9)],
    [(0, .p 64 81), (16, .n 28 27)],
    [(1, .p 64 81), (17, .n 28 27)],
    [(2, .p 64 81), (18, .n 28 27)],
    [(4, .p 64 81), (19, .n 4 9), (20, .n 16 27)],
    [(3, .p 64 81), (19, .n 16 27), (20, .n 4 9)],
    [(5, .p 64 81), (21, .n 28 27)],
    [(7, .p 64 81), (22, .n 4 9), (23, .n 16 27)],
    [(6, .p 64 81), (22, .n 16 27), (23, .n 4 9)],
    [(13, .n 128 81), (24, .n 46 9), (29, .p 32 27)],
    [(12, .n 128 81), (25, .n 46 9), (28, .p 32 27)],
    [(15, .n 128 81), (26, .n 46 9), (31, .p 32 27)],
    [(14, .n 128 81), (27, .n 46 9), (30, .p 32 27)],
    [(9, .p 16 81), (25, .n 4 27), (28, .p 26 9)],
    [(8, .p 16 81), (24, .n 4 27), (29, .p 26 9)],
    [(11, .p 16 81), (27, .n 4 27), (30, .p 26 9)],
    [(10, .p 16 81), (26, .n 4 27), (31, .p 26 9)],
    [(32, .n 20 3)],
    [(33, .n 20 3)],
    [(34, .n 20 3)],
    [(35, .n 20 3)],
    [(36, .n 20 3)],
    [(37, .n 20 3)],
    [(38, .n 20 3), (44, .n 2 3)],
    [(39, .n 20 3), (45, .n 2 3)],
    [(40, .n 20 3), (46, .n 2 3)],
    [(41, .n 20 3), (47, .n 2 3)],
    [(42, .n 20 3), (48, .n 2 3)],
    [(43, .n 20 3), (49, .n 2 3)],
    [(38, .n 32 1), (44, .p 20 9)],
    [(39, .n 32 1), (45, .p 20 9)],
    [(40, .n 32 1), (46, .p 20 9)],
    [(41, .n 32 1), (47, .p 20 9)],
    [(42, .n 32 1), (48, .p 20 9)],
    [(43, .n 32 1), (49, .p 20 9)],
    [(50, .n 8 9), (55, .p 4 9), (57, .p 4 9), (62, .n 8 9), (63, .n 8 9), (64, .n 8 9),
     (65, .n 8 9), (94, .p 4 9), (95, .p 4 9), (96, .p 4 9), (104, .p 4 3), (105, .p 4 3),
     (106, .p 4 3), (107, .p 4 3), (108, .p 4 3), (109, .p 4 3)],
    [(51, .n 8 9), (52, .p 4 9), (53, .p 4 9), (58, .n 8 9), (59, .n 8 9), (60, .n 8 9),
     (61, .n 8 9), (90, .p 4 9), (91, .p 4 9), (92, .p 4 9), (98, .p 4 3), (99, .p 4 3),
     (100, .p 4 3), (101, .p 4 3), (102, .p 4 3), (103, .p 4 3)],
    [(51, .p 4 9), (52, .n 8 9), (53, .p 4 9), (58, .n 8 9), (59, .n 8 9), (60, .n 8 9),
     (61, .n 8 9), (90, .p 4 9), (91, .p 4 9), (92, .p 4 9), (98, .p 4 3), (99, .p 4 3),
     (100, .p 4 3), (101, .p 4 3), (102, .p 4 3), (103, .p 4 3)],
    [(51, .p 4 9), (52, .p 4 9), (53, .n 8 9), (58, .n 8 9), (59, .n 8 9), (60, .n 8 9),
     (61, .n 8 9), (90, .p 4 9), (91, .p 4 9), (92, .p 4 9), (98, .p 4 3), (99, .p 4 3),
     (100, .p 4 3), (101, .p 4 3), (102, .p 4 3), (103, .p 4 3)],
    [(54, .n 4 3)],
    [(50, .p 4 9), (55, .n 8 9), (57, .p 4 9), (62, .n 8 9), (63, .n 8 9), (64, .n 8 9),
     (65, .n 8 9), (94, .p 4 9), (95, .p 4 9), (96, .p 4 9), (104, .p 4 3), (105, .p 4 3),
     (106, .p 4 3), (107, .p 4 3), (108, .p 4 3), (109, .p 4 3)],
    [(56, .n 4 3)],
    [(50, .p 4 9), (55, .p 4 9), (57, .n 8 9), (62, .n 8 9), (63, .n 8 9), (64, .n 8 9),
     (65, .n 8 9), (94, .p 4 9), (95, .p 4 9), (96, .p 4 9), (104, .p 4 3), (105, .p 4 3),
     (106, .p 4 3), (107, .p 4 3), (108, .p 4 3), (109, .p 4 3)],
    [(51, .n 8 9), (52, .n 8 9), (53, .n 8 9), (58, .p 40 9), (59, .p 16 9), (60, .p 16 9),
     (61, .p 16 9), (90, .n 8 9), (91, .n 8 9), (92, .n 8 9), (98, .n 8 3), (99, .n 8 3),
     (100, .n 8 3), (101, .n 8 3), (102, .n 8 3), (103, .n 8 3)],
    [(51, .n 8 9), (52, .n 8 9), (53, .n 8 9), (58, .p 16 9), (59, .p 40 9), (60, .p 16 9),
     (61, .p 16 9), (90, .n 8 9), (91, .n 8 9), (92, .n 8 9), (98, .n 8 3), (99, .n 8 3),
     (100, .n 8 3), (101, .n 8 3), (102, .n 8 3), (103, .n 8 3)],
    [(51, .n 8 9), (52, .n 8 9), (53, .n 8 9), (58, .p 16 9), (59, .p 16 9), (60, .n 8 9),
     (61, .p 16 9), (90, .n 8 9), (91, .n 8 9), (92, .n 8 9), (98, .n 8 3), (99, .n 8 3),
     (100, .n 8 3), (101, .n 8 3), (102, .n 8 3), (103, .n 8 3)],
    [(51, .n 8 9), (52, .n 8 9), (53, .n 8 9), (58, .p 16 9), (59, .p 16 9), (60, .p 16 9),
     (61, .n 8 9), (90, .n 8 9), (91, .n 8 9), (92, .n 8 9), (98, .n 8 3), (99, .n 8 3),
     (100, .n 8 3), (101, .n 8 3), (102, .n 8 3), (103, .n 8 3)],
    [(50, .n 8 9), (55, .n 8 9), (57, .n 8 9), (62, .p 40 9), (63, .p 16 9), (64, .p 16 9),
     (65, .p 16 9), (94, .n 8 9), (95, .n 8 9), (96, .n 8 9), (104, .n 8 3), (105, .n 8 3),
     (106, .n 8 3), (107, .n 8 3), (108, .n 8 3), (109, .n 8 3)],
    [(50, .n 8 9), (55, .n 8 9), (57, .n 8 9), (62, .p 16 9), (63, .p 40 9), (64, .p 16 9),
     (65, .p 16 9), (94, .n 8 9), (95, .n 8 9), (96, .n 8 9), (104, .n 8 3), (105, .n 8 3),
     (106, .n 8 3), (107, .n 8 3), (108, .n 8 3), (109, .n 8 3)],
    [(50, .n 8 9), (55, .n 8 9), (57, .n 8 9), (62, .p 16 9), (63, .p 16 9), (64, .n 8 9),
     (65, .p 16 9), (94, .n 8 9), (95, .n 8 9), (96, .n 8 9), (104, .n 8 3), (105, .n 8 3),
     (106, .n 8 3), (107, .n 8 3), (108, .n 8 3), (109, .n 8 3)],
    [(50, .n 8 9), (55, .n 8 9), (57, .n 8 9), (62, .p 16 9), (63, .p 16 9), (64, .p 16 9),
     (65, .n 8 9), (94, .n 8 9), (95, .n 8 9), (96, .n 8 9), (104, .n 8 3), (105, .n 8 3),
     (106, .n 8 3), (107, .n 8 3), (108, .n 8 3), (109, .n 8 3)],
    [(66, .n 10 3)],
    [(67, .n 10 3)],
    [(68, .n 10 3)],
    [(69, .n 10 3)],
    [(70, .n 4 3)],
    [(71, .n 4 3)],
    [(72, .n 4 3)],
    [(73, .n 4 3)],
    [(74, .n 4 3)],
    [(75, .n 4 3)],
    [(76, .n 4 3)],
    [(77, .n 4 3)],
    [(78, .p 8 3)],
    [(79, .p 8 3)],
    [(80, .n 8 3)],
    [(81, .n 8 3)],
    [(82, .p 8 3)],
    [(83, .p 8 3)],
    [(84, .n 8 3)],
    [(85, .n 8 3)],
    [(86, .n 10 3)],
    [(87, .n 10 3)],
    [(88, .n 10 3)],
    [(89, .n 10 3)],
    [(51, .p 16 27), (52, .p 16 27), (53, .p 16 27), (58, .n 32 27), (59, .n 32 27),
     (60, .n 32 27), (61, .n 32 27), (90, .p 52 27), (91, .p 16 27), (92, .p 16 27),
     (98, .p 16 9), (99, .p 16 9), (100, .p 16 9), (101, .p 16 9), (102, .p 16 9), (103, .p 16 9)],
    [(51, .p 16 27), (52, .p 16 27), (53, .p 16 27), (58, .n 32 27), (59, .n 32 27),
     (60, .n 32 27), (61, .n 32 27), (90, .p 16 27), (91, .p 52 27), (92, .p 16 27),
     (98, .p 16 9), (99, .p 16 9), (100, .p 16 9), (101, .p 16 9), (102, .p 16 9), (103, .p 16 9)],
    [(51, .p 4 9), (52, .p 4 9), (53, .p 4 9), (58, .n 8 9), (59, .n 8 9), (60, .n 8 9),
     (61, .n 8 9), (90, .p 4 9), (91, .p 4 9), (92, .p 16 9), (98, .p 4 3), (99, .p 4 3),
     (100, .p 4 3), (101, .p 4 3), (102, .p 4 3), (103, .p 4 3)],
    [(51, .p 4 27), (52, .p 4 27), (53, .p 4 27), (58, .n 8 27), (59, .n 8 27), (60, .n 8 27),
     (61, .n 8 27), (90, .p 4 27), (91, .p 4 27), (92, .p 4 27), (93, .p 4 3), (98, .p 4 9),
     (99, .p 4 9), (100, .p 4 9), (101, .p 4 9), (102, .p 4 9), (103, .p 4 9)],
    [(50, .p 16 27), (55, .p 16 27), (57, .p 16 27), (62, .n 32 27), (63, .n 32 27),
     (64, .n 32 27), (65, .n 32 27), (94, .p 52 27), (95, .p 16 27), (96, .p 16 27),
     (104, .p 16 9), (105, .p 16 9), (106, .p 16 9), (107, .p 16 9), (108, .p 16 9),
     (109, .p 16 9)],
    [(50, .p 16 27), (55, .p 16 27), (57, .p 16 27), (62, .n 32 27), (63, .n 32 27),
     (64, .n 32 27), (65, .n 32 27), (94, .p 16 27), (95, .p 52 27), (96, .p 16 27),
     (104, .p 16 9), (105, .p 16 9), (106, .p 16 9), (107, .p 16 9), (108, .p 16 9),
     (109, .p 16 9)],
    [(50, .p 4 9), (55, .p 4 9), (57, .p 4 9), (62, .n 8 9), (63, .n 8 9), (64, .n 8 9),
     (65, .n 8 9), (94, .p 4 9), (95, .p 4 9), (96, .p 16 9), (104, .p 4 3), (105, .p 4 3),
     (106, .p 4 3), (107, .p 4 3), (108, .p 4 3), (109, .p 4 3)],
    [(50, .p 4 27), (55, .p 4 27), (57, .p 4 27), (62, .n 8 27), (63, .n 8 27), (64, .n 8 27),
     (65, .n 8 27), (94, .p 4 27), (95, .p 4 27), (96, .p 4 27), (97, .p 4 3), (104, .p 4 9),
     (105, .p 4 9), (106, .p 4 9), (107, .p 4 9), (108, .p 4 9), (109, .p 4 9)],
    [(51, .p 4 9), (52, .p 4 9), (53, .p 4 9), (58, .n 8 9), (59, .n 8 9), (60, .n 8 9),
     (61, .n 8 9), (90, .p 4 9), (91, .p 4 9), (92, .p 4 9), (98, .n 8 3), (99, .p 4 3),
     (100, .p 4 3), (101, .p 4 3), (102, .p 4 3), (103, .p 4 3)],
    [(51, .p 4 9), (52, .p 4 9), (53, .p 4 9), (58, .n 8 9), (59, .n 8 9), (60, .n 8 9),
     (61, .n 8 9), (90, .p 4 9), (91, .p 4 9), (92, .p 4 9), (98, .p 4 3), (99, .n 8 3),
     (100, .p 4 3), (101, .p 4 3), (102, .p 4 3), (103, .p 4 3)],
    [(51, .p 4 9), (52, .p 4 9), (53, .p 4 9), (58, .n 8 9), (59, .n 8 9), (60, .n 8 9),
     (61, .n 8 9), (90, .p 4 9), (91, .p 4 9), (92, .p 4 9), (98, .p 4 3), (99, .p 4 3),
     (100, .n 8 3), (101, .p 4 3), (102, .p 4 3), (103, .p 4 3)],
    [(51, .p 4 9), (52, .p 4 9), (53, .p 4 9), (58, .n 8 9), (59, .n 8 9), (60, .n 8 9),
     (61, .n 8 9), (90, .p 4 9), (91, .p 4 9), (92, .p 4 9), (98, .p 4 3), (99, .p 4 3),
     (100, .p 4 3), (101, .p 16 3), (102, .p 4 3), (103, .p 4 3)],
    [(51, .p 4 9), (52, .p 4 9), (53, .p 4 9), (58, .n 8 9), (59, .n 8 9), (60, .n 8 9),
     (61, .n 8 9), (90, .p 4 9), (91, .p 4 9), (92, .p 4 9), (98, .p 4 3), (99, .p 4 3),
     (100, .p 4 3), (101, .p 4 3), (102, .p 16 3), (103, .p 4 3)],
    [(51, .p 4 9), (52, .p 4 9), (53, .p 4 9), (58, .n 8 9), (59, .n 8 9), (60, .n 8 9),
     (61, .n 8 9), (90, .p 4 9), (91, .p 4 9), (92, .p 4 9), (98, .p 4 3), (99, .p 4 3),
     (100, .p 4 3), (101, .p 4 3), (102, .p 4 3), (103, .p 16 3)],
    [(50, .p 4 9), (55, .p 4 9), (57, .p 4 9), (62, .n 8 9), (63, .n 8 9), (64, .n 8 9),
     (65, .n 8 9), (94, .p 4 9), (95, .p 4 9), (96, .p 4 9), (104, .n 8 3), (105, .p 4 3),
     (106, .p 4 3), (107, .p 4 3), (108, .p 4 3), (109, .p 4 3)],
    [(50, .p 4 9), (55, .p 4 9), (57, .p 4 9), (62, .n 8 9), (63, .n 8 9), (64, .n 8 9),
     (65, .n 8 9), (94, .p 4 9), (95, .p 4 9), (96, .p 4 9), (104, .p 4 3), (105, .n 8 3),
     (106, .p 4 3), (107, .p 4 3), (108, .p 4 3), (109, .p 4 3)],
    [(50, .p 4 9), (55, .p 4 9), (57, .p 4 9), (62, .n 8 9), (63, .n 8 9), (64, .n 8 9),
     (65, .n 8 9), (94, .p 4 9), (95, .p 4 9), (96, .p 4 9), (104, .p 4 3), (105, .p 4 3),
     (106, .n 8 3), (107, .p 4 3), (108, .p 4 3), (109, .p 4 3)],
    [(50, .p 4 9), (55, .p 4 9), (57, .p 4 9), (62, .n 8 9), (63, .n 8 9), (64, .n 8 9),
     (65, .n 8 9), (94, .p 4 9), (95, .p 4 9), (96, .p 4 9), (104, .p 4 3), (105, .p 4 3),
     (106, .p 4 3), (107, .p 16 3), (108, .p 4 3), (109, .p 4 3)],
    [(50, .p 4 9), (55, .p 4 9), (57, .p 4 9), (62, .n 8 9), (63, .n 8 9), (64, .n 8 9),
     (65, .n 8 9), (94, .p 4 9), (95, .p 4 9), (96, .p 4 9), (104, .p 4 3), (105, .p 4 3),
     (106, .p 4 3), (107, .p 4 3), (108, .p 16 3), (109, .p 4 3)],
    [(50, .p 4 9), (55, .p 4 9), (57, .p 4 9), (62, .n 8 9), (63, .n 8 9), (64, .n 8 9),
     (65, .n 8 9), (94, .p 4 9), (95, .p 4 9), (96, .p 4 9), (104, .p 4 3), (105, .p 4 3),
     (106, .p 4 3), (107, .p 4 3), (108, .p 4 3), (109, .p 16 3)],
    [(110, .p 8 9)],
    [(111, .p 8 9)],
    [(110, .n 8 3), (112, .p 88888888888889 50000000000000)],
    [(111, .n 8 3), (113, .p 88888888888889 50000000000000)]]

/-- adm.py line 1118 `adm_s_sd` -/
def adm_s_sd : Rows :=
  [
    [(0, .n 80 9), (16, .p 8 3), (110, .mp 1 1 .d .s), (112, .mn 1 3 .d .s)],
    [(1, .n 80 9), (17, .p 8 3), (111, .mp 1 1 .d .s), (113, .mn 1 3 .d .s)],
    [(2, .n 80 9), (18, .p 8 3), (110, .p 1 1), (112, .n 1 3)],
    [(3, .n 16 1), (4, .p 64 9), (19, .p 8 1), (20, .n 16 3)],
    [(3, .p 64 9), (4, .n 16 1), (19, .n 16 3), (20, .p 8 1), (110, .mp 1 1 .b .s),
     (112, .mn 1 3 .b .s)],
    [(5, .n 80 9), (21, .p 8 3), (111, .p 1 1), (113, .n 1 3)],
    [(6, .n 16 1), (7, .p 64 9), (22, .p 8 1), (23, .n 16 3)],
    [(6, .p 64 9), (7, .n 16 1), (22, .n 16 3), (23, .p 8 1), (111, .mp 1 1 .b .s),
     (113, .mn 1 3 .b .s)],
    [(8, .n 16 1), (13, .p 64 9), (24, .p 8 1), (29, .n 16 3)],
    [(9, .n 16 1), (12, .p 64 9), (25, .p 8 1), (28, .n 16 3)],
    [(10, .n 16 1), (15, .p 64 9), (26, .p 8 1), (31, .n 16 3)],
    [(11, .n 16 1), (14, .p 64 9), (27, .p 8 1), (30, .n 16 3)],
    [(9, .p 64 9), (12, .n 16 1), (25, .n 16 3), (28, .p 8 1), (111, .mp 1 1 .u .s),
     (113, .mp 2 3 .u .s)],
    [(8, .p 64 9), (13, .n 16 1), (24, .n 16 3), (29, .p 8 1), (110, .mp 1 1 .u .s),
     (112, .mp 2 3 .u .s)],
    [(11, .p 64 9), (14, .n 16 1), (27, .n 16 3), (30, .p 8 1), (111, .mp 1 1 .c .s),
     (113, .mp 2 3 .c .s)],
    [(10, .p 64 9), (15, .n 16 1), (26, .n 16 3), (31, .p 8 1), (110, .mp 1 1 .c .s),
     (112, .mp 2 3 .c .s)],
    [(0, .p 160 27), (16, .p 92 9), (110, .mn 1 6 .d .s), (112, .mn 4 9 .d .s)],
    [(1, .p 160 27), (17, .p 92 9), (111, .mn 1 6 .d .s), (113, .mn 4 9 .d .s)],
    [(2, .p 160 27), (18, .p 92 9), (110, .n 1 6), (112, .n 4 9)],
    [(3, .p 16 9), (4, .p 112 27), (19, .p 16 3), (20, .p 44 9)],
    [(3, .p 112 27), (4, .p 16 9), (19, .p 44 9), (20, .p 16 3), (110, .mn 1 6 .b .s),
     (112, .mn 4 9 .b .s)],
    [(5, .p 160 27), (21, .p 92 9), (111, .n 1 6), (113, .n 4 9)],
    [(6, .p 16 9), (7, .p 112 27), (22, .p 16 3), (23, .p 44 9)],
    [(6, .p 112 27), (7, .p 16 9), (22, .p 44 9), (23, .p 16 3), (111, .mn 1 6 .b .s),
     (113, .mn 4 9 .b .s)],
    [(8, .p 16 9), (13, .p 112 27), (24, .p 16 3), (29, .p 44 9)],
    [(9, .p 16 9), (12, .p 112 27), (25, .p 16 3), (28, .p 44 9)],
    [(10, .p 16 9), (15, .p 112 27), (26, .p 16 3), (31, .p 44 9)],
    [(11, .p 16 9), (14, .p 112 27), (27, .p 16 3), (30, .p 44 9)],
    [(9, .p 112 27), (12, .p 16 9), (25, .p 44 9), (28, .p 16 3), (111, .mn 1 6 .u .s),
     (113, .mp 8 9 .u .s)],
    [(8, .p 112 27), (13, .p 16 9), (24, .p 44 9), (29, .p 16 3), (110, .mn 1 6 .u .s),
     (112, .mp 8 9 .u .s)],
    [(11, .p 112 27), (14, .p 16 9), (27, .p 44 9), (30, .p 16 3), (111, .mn 1 6 .c .s),
     (113, .mp 8 9 .c .s)],
    [(10, .p 112 27), (15, .p 16 9), (26, .p 44 9), (31, .p 16 3), (110, .mn 1 6 .c .s),
     (112, .mp 8 9 .c .s)],
    [(32, .n 8 1)],
    [(33, .n 8 1)],
    [(34, .n 8 1)],
    [(35, .n 8 1)],
    [(36, .n 8 1)],
    [(37, .n 8 1)],
    [(38, .n 8 1)],
    [(39, .n 8 1)],
    [(40, .n 8 1)],
    [(41, .n 8 1)],
    [(42, .n 8 1)],
    [(43, .n 8 1)],
    [(44, .p 8 3), (112, .mp 8 1 .e .s)],
    [(45, .p 8 3), (113, .mp 8 1 .e .s)],
    [(46, .p 8 3), (112, .mp 8 1 .mu .s)],
    [(47, .p 8 3), (113, .mp 8 1 .mu .s)],
    [(48, .p 8 3), (112, .mp 8 1 .tau .s)],
    [(49, .p 8 3), (113, .mp 8 1 .tau .s)],
    [(70, .n 12 1)],
    [(71, .n 12 1)],
    [(72, .n 12 1)],
    [(73, .n 12 1)],
    [(74, .n 12 1)],
    [(75, .n 12 1)],
    [(76, .n 12 1)],
    [(77, .n 12 1)],
    [(78, .n 12 1)],
    [(79, .n 12 1)],
    [(80, .p 12 1)],
    [(81, .p 12 1)],
    [(82, .n 12 1)],
    [(83, .n 12 1)],
    [(84, .p 12 1)],
    [(85, .p 12 1)],
    [(86, .n 12 1)],
    [(87, .n 12 1)],
    [(88, .n 12 1)],
    [(89, .n 12 1)],
    [(50, .n 8 3), (70, .n 40 3), (75, .p 2 3), (77, .p 2 3), (82, .p 2 3), (83, .p 2 3),
     (84, .p 2 3), (85, .p 2 3), (94, .p 2 9), (95, .p 2 9), (96, .n 1 9), (97, .p 1 3)],
    [(51, .n 8 3), (71, .n 40 3), (72, .p 2 3), (73, .p 2 3), (78, .p 2 3), (79, .p 2 3),
     (80, .p 2 3), (81, .p 2 3), (90, .p 2 9), (91, .p 2 9), (92, .n 1 9), (93, .p 1 3)],
    [(52, .n 8 3), (71, .p 2 3), (72, .n 40 3), (73, .p 2 3), (78, .p 2 3), (79, .p 2 3),
     (80, .p 2 3), (81, .p 2 3), (90, .p 2 9), (91, .p 2 9), (92, .n 1 9), (93, .p 1 3)],
    [(53, .n 8 3), (71, .p 2 3), (72, .p 2 3), (73, .n 40 3), (78, .p 2 3), (79, .p 2 3),
     (80, .p 2 3), (81, .p 2 3), (90, .p 2 9), (91, .p 2 9), (92, .n 1 9), (93, .p 1 3)],
    [(54, .n 8 3), (74, .n 14 1)],
    [(55, .n 8 3), (70, .p 2 3), (75, .n 40 3), (77, .p 2 3), (82, .p 2 3), (83, .p 2 3),
     (84, .p 2 3), (85, .p 2 3), (94, .p 2 9), (95, .p 2 9), (96, .n 1 9), (97, .p 1 3)],
    [(56, .n 8 3), (76, .n 14 1)],
    [(57, .n 8 3), (70, .p 2 3), (75, .p 2 3), (77, .n 40 3), (82, .p 2 3), (83, .p 2 3),
     (84, .p 2 3), (85, .p 2 3), (94, .p 2 9), (95, .p 2 9), (96, .n 1 9), (97, .p 1 3)],
    [(58, .n 8 3), (71, .p 2 3), (72, .p 2 3), (73, .p 2 3), (78, .n 40 3), (79, .p 2 3),
     (80, .p 2 3), (81, .p 2 3), (90, .p 2 9), (91, .p 2 9), (92, .n 1 9), (93, .p 1 3)],
    [(59, .n 8 3), (71, .p 2 3), (72, .p 2 3), (73, .p 2 3), (78, .p 2 3), (79, .n 40 3),
     (80, .p 2 3), (81, .p 2 3), (90, .p 2 9), (91, .p 2 9), (92, .n 1 9), (93, .p 1 3)],
    [(60, .p 8 3), (71, .p 2 3), (72, .p 2 3), (73, .p 2 3), (78, .p 2 3), (79, .p 2 3),
     (80, .n 10 3), (81, .p 2 3), (90, .p 2 9), (91, .p 2 9), (92, .n 1 9), (93, .p 1 3)],
    [(61, .p 8 3), (71, .p 2 3), (72, .p 2 3), (73, .p 2 3), (78, .p 2 3), (79, .p 2 3),
     (80, .p 2 3), (81, .n 10 3), (90, .p 2 9), (91, .p 2 9), (92, .n 1 9), (93, .p 1 3)],
    [(62, .n 8 3), (70, .p 2 3), (75, .p 2 3), (77, .p 2 3), (82, .n 40 3), (83, .p 2 3),
     (84, .p 2 3), (85, .p 2 3), (94, .p 2 9), (95, .p 2 9), (96, .n 1 9), (97, .p 1 3)],
    [(63, .n 8 3), (70, .p 2 3), (75, .p 2 3), (77, .p 2 3), (82, .p 2 3), (83, .n 40 3),
     (84, .p 2 3), (85, .p 2 3), (94, .p 2 9), (95, .p 2 9), (96, .n 1 9), (97, .p 1 3)],
    [(64, .p 8 3), (70, .p 2 3), (75, .p 2 3), (77, .p 2 3), (82, .p 2 3), (83, .p 2 3),
     (84, .n 10 3), (85, .p 2 3), (94, .p 2 9), (95, .p 2 9), (96, .n 1 9), (97, .p 1 3)],
    [(65, .p 8 3), (70, .p 2 3), (75, .p 2 3), (77, .p 2 3), (82, .p 2 3), (83, .p 2 3),
     (84, .p 2 3), (85, .n 10 3), (94, .p 2 9), (95, .p 2 9), (96, .n 1 9), (97, .p 1 3)],
    [(66, .n 8 3), (86, .n 14 1)],
    [(67, .n 8 3), (87, .n 14 1)],
    [(68, .n 8 3), (88, .n 14 1)],
    [(69, .n 8 3), (89, .n 14 1)],
    [(71, .p 4 3), (72, .p 4 3), (73, .p 4 3), (78, .p 4 3), (79, .p 4 3), (80, .p 4 3),
     (81, .p 4 3), (90, .p 40 9), (91, .p 4 9), (92, .n 2 9), (93, .p 2 3)],
    [(71, .p 4 3), (72, .p 4 3), (73, .p 4 3), (78, .p 4 3), (79, .p 4 3), (80, .p 4 3),
     (81, .p 4 3), (90, .p 4 9), (91, .p 40 9), (92, .n 2 9), (93, .p 2 3)],
    [(92, .n 2 1), (93, .p 6 1)],
    [(71, .p 4 3), (72, .p 4 3), (73, .p 4 3), (78, .p 4 3), (79, .p 4 3), (80, .p 4 3),
     (81, .p 4 3), (90, .p 4 9), (91, .p 4 9), (92, .p 52 9), (93, .n 4 3)],
    [(70, .p 4 3), (75, .p 4 3), (77, .p 4 3), (82, .p 4 3), (83, .p 4 3), (84, .p 4 3),
     (85, .p 4 3), (94, .p 40 9), (95, .p 4 9), (96, .n 2 9), (97, .p 2 3)],
    [(70, .p 4 3), (75, .p 4 3), (77, .p 4 3), (82, .p 4 3), (83, .p 4 3), (84, .p 4 3),
     (85, .p 4 3), (94, .p 4 9), (95, .p 40 9), (96, .n 2 9), (97, .p 2 3)],
    [(96, .n 2 1), (97, .p 6 1)],
    [(70, .p 4 3), (75, .p 4 3), (77, .p 4 3), (82, .p 4 3), (83, .p 4 3), (84, .p 4 3),
     (85, .p 4 3), (94, .p 4 9), (95, .p 4 9), (96, .p 52 9), (97, .n 4 3)],
    [],
    [],
    [],
    [],
    [],
    [],
    [],
    [],
    [],
    [],
    [],
    [],
    [(110, .b 2 1 28 3), (112, .n 32 9)],
    [(111, .b 2 1 28 3), (113, .n 32 9)],
    [(112, .b 2 1 32 3)],
    [(113, .b 2 1 32 3)]]

/-- adm.py line 1236 `adm_e_mue` -/
def adm_e_mue : Rows :=
  [
    [(0, .n 20 3)],
    [(1, .n 20 3)],
    [(2, .n 20 3)],
    [(3, .n 20 3)],
    [(4, .n 20 3)],
    [(5, .n 20 3)],
    [(6, .n 20 3), (28, .n 2 3)],
    [(7, .n 20 3), (29, .n 2 3)],
    [(8, .n 20 3), (30, .n 2 3)],
    [(9, .n 20 3), (31, .n 2 3)],
    [(10, .n 20 3), (32, .n 2 3)],
    [(11, .n 20 3), (33, .n 2 3)],
    [(12, .p 12 1)],
    [(13, .p 12 1)],
    [(14, .p 12 1)],
    [(15, .n 4 1), (16, .p 16 1)],
    [(15, .p 16 1), (16, .n 4 1)],
    [(17, .p 12 1)],
    [(18, .n 4 1), (19, .p 16 1)],
    [(18, .p 16 1), (19, .n 4 1)],
    [(20, .n 26 3)],
    [(21, .n 26 3)],
    [(22, .n 26 3)],
    [(23, .n 26 3)],
    [(24, .n 26 3), (34, .p 4 3)],
    [(25, .n 26 3), (35, .p 4 3)],
    [(26, .n 26 3), (36, .p 4 3)],
    [(27, .n 26 3), (37, .p 4 3)],
    [(6, .n 32 1), (28, .p 20 9)],
    [(7, .n 32 1), (29, .p 20 9)],
    [(8, .n 32 1), (30, .p 20 9)],
    [(9, .n 32 1), (31, .p 20 9)],
    [(10, .n 32 1), (32, .p 20 9)],
    [(11, .n 32 1), (33, .p 20 9)],
    [(24, .p 64 1), (34, .p 26 9)],
    [(25, .p 64 1), (35, .p 26 9)],
    [(26, .p 64 1), (36, .p 26 9)],
    [(27, .p 64 1), (37, .p 26 9)],
    [(38, .n 32 9), (39, .p 4 9), (40, .p 4 9), (47, .p 4 9), (48, .p 4 9), (49, .p 4 9),
     (53, .p 4 3), (58, .p 4 3), (60, .p 4 3), (61, .p 4 3), (62, .p 4 3), (63, .p 4 3),
     (68, .n 8 9), (69, .n 8 9), (70, .n 8 9), (71, .n 8 9)],
    [(38, .p 4 9), (39, .n 32 9), (40, .p 4 9), (47, .p 4 9), (48, .p 4 9), (49, .p 4 9),
     (53, .p 4 3), (58, .p 4 3), (60, .p 4 3), (61, .p 4 3), (62, .p 4 3), (63, .p 4 3),
     (68, .n 8 9), (69, .n 8 9), (70, .n 8 9), (71, .n 8 9)],
    [(38, .p 4 9), (39, .p 4 9), (40, .n 32 9), (47, .p 4 9), (48, .p 4 9), (49, .p 4 9),
     (53, .p 4 3), (58, .p 4 3), (60, .p 4 3), (61, .p 4 3), (62, .p 4 3), (63, .p 4 3),
     (68, .n 8 9), (69, .n 8 9), (70, .n 8 9), (71, .n 8 9)],
    [(41, .p 40 9), (42, .p 4 9), (43, .p 4 9), (44, .p 4 9), (45, .p 4 9), (46, .p 4 9),
     (50, .p 4 3), (51, .p 4 3), (52, .p 4 3), (54, .p 4 3), (55, .p 4 3), (56, .p 4 3),
     (64, .n 8 9), (65, .n 8 9), (66, .n 8 9), (67, .n 8 9)],
    [(41, .p 4 9), (42, .p 40 9), (43, .p 4 9), (44, .p 4 9), (45, .p 4 9), (46, .p 4 9),
     (50, .p 4 3), (51, .p 4 3), (52, .p 4 3), (54, .p 4 3), (55, .p 4 3), (56, .p 4 3),
     (64, .n 8 9), (65, .n 8 9), (66, .n 8 9), (67, .n 8 9)],
    [(41, .p 4 9), (42, .p 4 9), (43, .p 40 9), (44, .p 4 9), (45, .p 4 9), (46, .p 4 9),
     (50, .p 4 3), (51, .p 4 3), (52, .p 4 3), (54, .p 4 3), (55, .p 4 3), (56, .p 4 3),
     (64, .n 8 9), (65, .n 8 9), (66, .n 8 9), (67, .n 8 9)],
    [(41, .p 4 9), (42, .p 4 9), (43, .p 4 9), (44, .n 32 9), (45, .p 4 9), (46, .p 4 9),
     (50, .p 4 3), (51, .p 4 3), (52, .p 4 3), (54, .p 4 3), (55, .p 4 3), (56, .p 4 3),
     (64, .n 8 9), (65, .n 8 9), (66, .n 8 9), (67, .n 8 9)],
    [(41, .p 4 9), (42, .p 4 9), (43, .p 4 9), (44, .p 4 9), (45, .n 32 9), (46, .p 4 9),
     (50, .p 4 3), (51, .p 4 3), (52, .p 4 3), (54, .p 4 3), (55, .p 4 3), (56, .p 4 3),
     (64, .n 8 9), (65, .n 8 9), (66, .n 8 9), (67, .n 8 9)],
    [(41, .p 4 9), (42, .p 4 9), (43, .p 4 9), (44, .p 4 9), (45, .p 4 9), (46, .n 32 9),
     (50, .p 4 3), (51, .p 4 3), (52, .p 4 3), (54, .p 4 3), (55, .p 4 3), (56, .p 4 3),
     (64, .n 8 9), (65, .n 8 9), (66, .n 8 9), (67, .n 8 9)],
    [(38, .p 4 9), (39, .p 4 9), (40, .p 4 9), (47, .p 40 9), (48, .p 4 9), (49, .p 4 9),
     (53, .p 4 3), (58, .p 4 3), (60, .p 4 3), (61, .p 4 3), (62, .p 4 3), (63, .p 4 3),
     (68, .n 8 9), (69, .n 8 9), (70, .n 8 9), (71, .n 8 9)],
    [(38, .p 4 9), (39, .p 4 9), (40, .p 4 9), (47, .p 4 9), (48, .p 40 9), (49, .p 4 9),
     (53, .p 4 3), (58, .p 4 3), (60, .p 4 3), (61, .p 4 3), (62, .p 4 3), (63, .p 4 3),
     (68, .n 8 9), (69, .n 8 9), (70, .n 8 9), (71, .n 8 9)],
    [(38, .p 4 9), (39, .p 4 9), (40, .p 4 9), (47, .p 4 9), (48, .p 4 9), (49, .p 40 9),
     (53, .p 4 3), (58, .p 4 3), (60, .p 4 3), (61, .p 4 3), (62, .p 4 3), (63, .p 4 3),
     (68, .n 8 9), (69, .n 8 9), (70, .n 8 9), (71, .n 8 9)],
    [(41, .p 8 9), (42, .p 8 9), (43, .p 8 9), (44, .p 8 9), (45, .p 8 9), (46, .p 8 9),
     (50, .p 44 3), (51, .p 8 3), (52, .p 8 3), (54, .p 8 3), (55, .p 8 3), (56, .p 8 3),
     (64, .n 16 9), (65, .n 16 9), (66, .n 16 9), (67, .n 16 9)],
    [(41, .p 8 9), (42, .p 8 9), (43, .p 8 9), (44, .p 8 9), (45, .p 8 9), (46, .p 8 9),
     (50, .p 8 3), (51, .p 44 3), (52, .p 8 3), (54, .p 8 3), (55, .p 8 3), (56, .p 8 3),
     (64, .n 16 9), (65, .n 16 9), (66, .n 16 9), (67, .n 16 9)],
    [(41, .p 4 9), (42, .p 4 9), (43, .p 4 9), (44, .p 4 9), (45, .p 4 9), (46, .p 4 9),
     (50, .p 4 3), (51, .p 4 3), (52, .p 40 3), (54, .p 4 3), (55, .p 4 3), (56, .p 4 3),
     (64, .n 8 9), (65, .n 8 9), (66, .n 8 9), (67, .n 8 9)],
    [(38, .p 4 9), (39, .p 4 9), (40, .p 4 9), (47, .p 4 9), (48, .p 4 9), (49, .p 4 9),
     (53, .n 32 3), (58, .p 4 3), (60, .p 4 3), (61, .p 4 3), (62, .p 4 3), (63, .p 4 3),
     (68, .n 8 9), (69, .n 8 9), (70, .n 8 9), (71, .n 8 9)],
    [(41, .p 4 9), (42, .p 4 9), (43, .p 4 9), (44, .p 4 9), (45, .p 4 9), (46, .p 4 9),
     (50, .p 4 3), (51, .p 4 3), (52, .p 4 3), (54, .n 32 3), (55, .p 4 3), (56, .p 4 3),
     (64, .n 8 9), (65, .n 8 9), (66, .n 8 9), (67, .n 8 9)],
    [(41, .p 4 9), (42, .p 4 9), (43, .p 4 9), (44, .p 4 9), (45, .p 4 9), (46, .p 4 9),
     (50, .p 4 3), (51, .p 4 3), (52, .p 4 3), (54, .p 4 3), (55, .n 32 3), (56, .p 4 3),
     (64, .n 8 9), (65, .n 8 9), (66, .n 8 9), (67, .n 8 9)],
    [(41, .p 4 9), (42, .p 4 9), (43, .p 4 9), (44, .p 4 9), (45, .p 4 9), (46, .p 4 9),
     (50, .p 4 3), (51, .p 4 3), (52, .p 4 3), (54, .p 4 3), (55, .p 4 3), (56, .n 32 3),
     (64, .n 8 9), (65, .n 8 9), (66, .n 8 9), (67, .n 8 9)],
    [(57, .n 12 1)],
    [(38, .p 4 9), (39, .p 4 9), (40, .p 4 9), (47, .p 4 9), (48, .p 4 9), (49, .p 4 9),
     (53, .p 4 3), (58, .n 32 3), (60, .p 4 3), (61, .p 4 3), (62, .p 4 3), (63, .p 4 3),
     (68, .n 8 9), (69, .n 8 9), (70, .n 8 9), (71, .n 8 9)],
    [(59, .n 12 1)],
    [(38, .p 4 9), (39, .p 4 9), (40, .p 4 9), (47, .p 4 9), (48, .p 4 9), (49, .p 4 9),
     (53, .p 4 3), (58, .p 4 3), (60, .n 32 3), (61, .p 4 3), (62, .p 4 3), (63, .p 4 3),
     (68, .n 8 9), (69, .n 8 9), (70, .n 8 9), (71, .n 8 9)],
    [(38, .p 8 9), (39, .p 8 9), (40, .p 8 9), (47, .p 8 9), (48, .p 8 9), (49, .p 8 9),
     (53, .p 8 3), (58, .p 8 3), (60, .p 8 3), (61, .p 44 3), (62, .p 8 3), (63, .p 8 3),
     (68, .n 16 9), (69, .n 16 9), (70, .n 16 9), (71, .n 16 9)],
    [(38, .p 8 9), (39, .p 8 9), (40, .p 8 9), (47, .p 8 9), (48, .p 8 9), (49, .p 8 9),
     (53, .p 8 3), (58, .p 8 3), (60, .p 8 3), (61, .p 8 3), (62, .p 44 3), (63, .p 8 3),
     (68, .n 16 9), (69, .n 16 9), (70, .n 16 9), (71, .n 16 9)],
    [(38, .p 4 9), (39, .p 4 9), (40, .p 4 9), (47, .p 4 9), (48, .p 4 9), (49, .p 4 9),
     (53, .p 4 3), (58, .p 4 3), (60, .p 4 3), (61, .p 4 3), (62, .p 4 3), (63, .p 40 3),
     (68, .n 8 9), (69, .n 8 9), (70, .n 8 9), (71, .n 8 9)],
    [(41, .n 8 9), (42, .n 8 9), (43, .n 8 9), (44, .n 8 9), (45, .n 8 9), (46, .n 8 9),
     (50, .n 8 3), (51, .n 8 3), (52, .n 8 3), (54, .n 8 3), (55, .n 8 3), (56, .n 8 3),
     (64, .n 56 9), (65, .p 16 9), (66, .p 16 9), (67, .p 16 9)],
    [(41, .n 8 9), (42, .n 8 9), (43, .n 8 9), (44, .n 8 9), (45, .n 8 9), (46, .n 8 9),
     (50, .n 8 3), (51, .n 8 3), (52, .n 8 3), (54, .n 8 3), (55, .n 8 3), (56, .n 8 3),
     (64, .p 16 9), (65, .n 56 9), (66, .p 16 9), (67, .p 16 9)],
    [(41, .n 8 9), (42, .n 8 9), (43, .n 8 9), (44, .n 8 9), (45, .n 8 9), (46, .n 8 9),
     (50, .n 8 3), (51, .n 8 3), (52, .n 8 3), (54, .n 8 3), (55, .n 8 3), (56, .n 8 3),
     (64, .p 16 9), (65, .p 16 9), (66, .p 88 9), (67, .p 16 9)],
    [(41, .n 8 9), (42, .n 8 9), (43, .n 8 9), (44, .n 8 9), (45, .n 8 9), (46, .n 8 9),
     (50, .n 8 3), (51, .n 8 3), (52, .n 8 3), (54, .n 8 3), (55, .n 8 3), (56, .n 8 3),
     (64, .p 16 9), (65, .p 16 9), (66, .p 16 9), (67, .p 88 9)],
    [(38, .n 8 9), (39, .n 8 9), (40, .n 8 9), (47, .n 8 9), (48, .n 8 9), (49, .n 8 9),
     (53, .n 8 3), (58, .n 8 3), (60, .n 8 3), (61, .n 8 3), (62, .n 8 3), (63, .n 8 3),
     (68, .n 56 9), (69, .p 16 9), (70, .p 16 9), (71, .p 16 9)],
    [(38, .n 8 9), (39, .n 8 9), (40, .n 8 9), (47, .n 8 9), (48, .n 8 9), (49, .n 8 9),
     (53, .n 8 3), (58, .n 8 3), (60, .n 8 3), (61, .n 8 3), (62, .n 8 3), (63, .n 8 3),
     (68, .p 16 9), (69, .n 56 9), (70, .p 16 9), (71, .p 16 9)],
    [(38, .n 8 9), (39, .n 8 9), (40, .n 8 9), (47, .n 8 9), (48, .n 8 9), (49, .n 8 9),
     (53, .n 8 3), (58, .n 8 3), (60, .n 8 3), (61, .n 8 3), (62, .n 8 3), (63, .n 8 3),
     (68, .p 16 9), (69, .p 16 9), (70, .p 88 9), (71, .p 16 9)],
    [(38, .n 8 9), (39, .n 8 9), (40, .n 8 9), (47, .n 8 9), (48, .n 8 9), (49, .n 8 9),
     (53, .n 8 3), (58, .n 8 3), (60, .n 8 3), (61, .n 8 3), (62, .n 8 3), (63, .n 8 3),
     (68, .p 16 9), (69, .p 16 9), (70, .p 16 9), (71, .p 88 9)],
    [(72, .p 16 1)],
    [(73, .p 16 1)]]

/-- adm.py line 1313 `adm_s_mue` -/
def adm_s_mue : Rows :=
  [
    [(0, .n 8 1)],
    [(1, .n 8 1)],
    [(2, .n 8 1)],
    [(3, .n 8 1)],
    [(4, .n 8 1)],
    [(5, .n 8 1)],
    [(6, .n 8 1)],
    [(7, .n 8 1)],
    [(8, .n 8 1)],
    [(9, .n 8 1)],
    [(10, .n 8 1)],
    [(11, .n 8 1)],
    [(72, .mn 1 1 .e .mu)],
    [(73, .mn 1 1 .e .mu)],
    [(72, .n 1 1)],
    [],
    [(72, .mn 1 1 .tau .mu)],
    [(73, .n 1 1)],
    [],
    [(73, .mn 1 1 .tau .mu)],
    [(20, .n 8 1)],
    [(21, .n 8 1)],
    [(22, .n 8 1)],
    [(23, .n 8 1)],
    [(24, .n 8 1)],
    [(25, .n 8 1)],
    [(26, .n 8 1)],
    [(27, .n 8 1)],
    [(28, .p 8 3), (72, .mp 8 1 .d .mu)],
    [(29, .p 8 3), (72, .mp 8 1 .s .mu)],
    [(30, .p 8 3), (72, .mp 8 1 .b .mu)],
    [(31, .p 8 3), (73, .mp 8 1 .d .mu)],
    [(32, .p 8 3), (73, .mp 8 1 .s .mu)],
    [(33, .p 8 3), (73, .mp 8 1 .b .mu)],
    [(34, .p 8 3), (72, .mn 16 1 .u .mu)],
    [(35, .p 8 3), (72, .mn 16 1 .c .mu)],
    [(36, .p 8 3), (73, .mn 16 1 .u .mu)],
    [(37, .p 8 3), (73, .mn 16 1 .c .mu)],
    [],
    [],
    [],
    [],
    [],
    [],
    [],
    [],
    [],
    [],
    [],
    [],
    [],
    [],
    [],
    [],
    [],
    [],
    [],
    [],
    [],
    [],
    [],
    [],
    [],
    [],
    [],
    [],
    [],
    [],
    [],
    [],
    [],
    [],
    [(72, .b 2 1 0 1)],
    [(73, .b 2 1 0 1)]]

/-- adm.py line 1391 `adm_e_mutau` -/
def adm_e_mutau : Rows :=
  [
    [(0, .n 20 3)],
    [(1, .n 20 3)],
    [(2, .n 20 3)],
    [(3, .n 20 3)],
    [(4, .n 20 3)],
    [(5, .n 20 3)],
    [(6, .n 20 3), (28, .n 2 3)],
    [(7, .n 20 3), (29, .n 2 3)],
    [(8, .n 20 3), (30, .n 2 3)],
    [(9, .n 20 3), (31, .n 2 3)],
    [(10, .n 20 3), (32, .n 2 3)],
    [(11, .n 20 3), (33, .n 2 3)],
    [(12, .n 4 1), (15, .p 16 1)],
    [(13, .n 4 1), (14, .p 16 1)],
    [(13, .p 16 1), (14, .n 4 1)],
    [(12, .p 16 1), (15, .n 4 1)],
    [(16, .p 12 1)],
    [(17, .p 12 1)],
    [(18, .p 12 1)],
    [(19, .p 12 1)],
    [(20, .n 26 3)],
    [(21, .n 26 3)],
    [(22, .n 26 3)],
    [(23, .n 26 3)],
    [(24, .n 26 3), (34, .p 4 3)],
    [(25, .n 26 3), (35, .p 4 3)],
    [(26, .n 26 3), (36, .p 4 3)],
    [(27, .n 26 3), (37, .p 4 3)],
    [(6, .n 32 1), (28, .p 20 9)],
    [(7, .n 32 1), (29, .p 20 9)],
    [(8, .n 32 1), (30, .p 20 9)],
    [(9, .n 32 1), (31, .p 20 9)],
    [(10, .n 32 1), (32, .p 20 9)],
    [(11, .n 32 1), (33, .p 20 9)],
    [(24, .p 64 1), (34, .p 26 9)],
    [(25, .p 64 1), (35, .p 26 9)],
    [(26, .p 64 1), (36, .p 26 9)],
    [(27, .p 64 1), (37, .p 26 9)],
    [(38, .n 32 9), (39, .p 4 9), (40, .p 4 9), (47, .p 4 9), (48, .p 4 9), (49, .p 4 9),
     (53, .p 4 3), (56, .p 4 3), (60, .p 4 3), (61, .p 4 3), (62, .p 4 3), (63, .p 4 3),
     (68, .n 8 9), (69, .n 8 9), (70, .n 8 9), (71, .n 8 9)],
    [(38, .p 4 9), (39, .n 32 9), (40, .p 4 9), (47, .p 4 9), (48, .p 4 9), (49, .p 4 9),
     (53, .p 4 3), (56, .p 4 3), (60, .p 4 3), (61, .p 4 3), (62, .p 4 3), (63, .p 4 3),
     (68, .n 8 9), (69, .n 8 9), (70, .n 8 9), (71, .n 8 9)],
    [(38, .p 4 9), (39, .p 4 9), (40, .n 32 9), (47, .p 4 9), (48, .p 4 9), (49, .p 4 9),
     (53, .p 4 3), (56, .p 4 3), (60, .p 4 3), (61, .p 4 3), (62, .p 4 3), (63, .p 4 3),
     (68, .n 8 9), (69, .n 8 9), (70, .n 8 9), (71, .n 8 9)],
    [(41, .p 40 9), (42, .p 4 9), (43, .p 4 9), (44, .p 4 9), (45, .p 4 9), (46, .p 4 9),
     (50, .p 4 3), (51, .p 4 3), (52, .p 4 3), (57, .p 4 3), (58, .p 4 3), (59, .p 4 3),
     (64, .n 8 9), (65, .n 8 9), (66, .n 8 9), (67, .n 8 9)],
    [(41, .p 4 9), (42, .p 40 9), (43, .p 4 9), (44, .p 4 9), (45, .p 4 9), (46, .p 4 9),
     (50, .p 4 3), (51, .p 4 3), (52, .p 4 3), (57, .p 4 3), (58, .p 4 3), (59, .p 4 3),
     (64, .n 8 9), (65, .n 8 9), (66, .n 8 9), (67, .n 8 9)],
    [(41, .p 4 9), (42, .p 4 9), (43, .p 40 9), (44, .p 4 9), (45, .p 4 9), (46, .p 4 9),
     (50, .p 4 3), (51, .p 4 3), (52, .p 4 3), (57, .p 4 3), (58, .p 4 3), (59, .p 4 3),
     (64, .n 8 9), (65, .n 8 9), (66, .n 8 9), (67, .n 8 9)],
    [(41, .p 4 9), (42, .p 4 9), (43, .p 4 9), (44, .n 32 9), (45, .p 4 9), (46, .p 4 9),
     (50, .p 4 3), (51, .p 4 3), (52, .p 4 3), (57, .p 4 3), (58, .p 4 3), (59, .p 4 3),
     (64, .n 8 9), (65, .n 8 9), (66, .n 8 9), (67, .n 8 9)],
    [(41, .p 4 9), (42, .p 4 9), (43, .p 4 9), (44, .p 4 9), (45, .n 32 9), (46, .p 4 9),
     (50, .p 4 3), (51, .p 4 3), (52, .p 4 3), (57, .p 4 3), (58, .p 4 3), (59, .p 4 3),
     (64, .n 8 9), (65, .n 8 9), (66, .n 8 9), (67, .n 8 9)],
    [(41, .p 4 9), (42, .p 4 9), (43, .p 4 9), (44, .p 4 9), (45, .p 4 9), (46, .n 32 9),
     (50, .p 4 3), (51, .p 4 3), (52, .p 4 3), (57, .p 4 3), (58, .p 4 3), (59, .p 4 3),
     (64, .n 8 9), (65, .n 8 9), (66, .n 8 9), (67, .n 8 9)],
    [(38, .p 4 9), (39, .p 4 9), (40, .p 4 9), (47, .p 40 9), (48, .p 4 9), (49, .p 4 9),
     (53, .p 4 3), (56, .p 4 3), (60, .p 4 3), (61, .p 4 3), (62, .p 4 3), (63, .p 4 3),
     (68, .n 8 9), (69, .n 8 9), (70, .n 8 9), (71, .n 8 9)],
    [(38, .p 4 9), (39, .p 4 9), (40, .p 4 9), (47, .p 4 9), (48, .p 40 9), (49, .p 4 9),
     (53, .p 4 3), (56, .p 4 3), (60, .p 4 3), (61, .p 4 3), (62, .p 4 3), (63, .p 4 3),
     (68, .n 8 9), (69, .n 8 9), (70, .n 8 9), (71, .n 8 9)],
    [(38, .p 4 9), (39, .p 4 9), (40, .p 4 9), (47, .p 4 9), (48, .p 4 9), (49, .p 40 9),
     (53, .p 4 3), (56, .p 4 3), (60, .p 4 3), (61, .p 4 3), (62, .p 4 3), (63, .p 4 3),
     (68, .n 8 9), (69, .n 8 9), (70, .n 8 9), (71, .n 8 9)],
    [(41, .p 4 9), (42, .p 4 9), (43, .p 4 9), (44, .p 4 9), (45, .p 4 9), (46, .p 4 9),
     (50, .p 40 3), (51, .p 4 3), (52, .p 4 3), (57, .p 4 3), (58, .p 4 3), (59, .p 4 3),
     (64, .n 8 9), (65, .n 8 9), (66, .n 8 9), (67, .n 8 9)],
    [(41, .p 8 9), (42, .p 8 9), (43, .p 8 9), (44, .p 8 9), (45, .p 8 9), (46, .p 8 9),
     (50, .p 8 3), (51, .p 44 3), (52, .p 8 3), (57, .p 8 3), (58, .p 8 3), (59, .p 8 3),
     (64, .n 16 9), (65, .n 16 9), (66, .n 16 9), (67, .n 16 9)],
    [(41, .p 8 9), (42, .p 8 9), (43, .p 8 9), (44, .p 8 9), (45, .p 8 9), (46, .p 8 9),
     (50, .p 8 3), (51, .p 8 3), (52, .p 44 3), (57, .p 8 3), (58, .p 8 3), (59, .p 8 3),
     (64, .n 16 9), (65, .n 16 9), (66, .n 16 9), (67, .n 16 9)],
    [(38, .p 4 9), (39, .p 4 9), (40, .p 4 9), (47, .p 4 9), (48, .p 4 9), (49, .p 4 9),
     (53, .n 32 3), (56, .p 4 3), (60, .p 4 3), (61, .p 4 3), (62, .p 4 3), (63, .p 4 3),
     (68, .n 8 9), (69, .n 8 9), (70, .n 8 9), (71, .n 8 9)],
    [(54, .n 12 1)],
    [(55, .n 12 1)],
    [(38, .p 4 9), (39, .p 4 9), (40, .p 4 9), (47, .p 4 9), (48, .p 4 9), (49, .p 4 9),
     (53, .p 4 3), (56, .n 32 3), (60, .p 4 3), (61, .p 4 3), (62, .p 4 3), (63, .p 4 3),
     (68, .n 8 9), (69, .n 8 9), (70, .n 8 9), (71, .n 8 9)],
    [(41, .p 4 9), (42, .p 4 9), (43, .p 4 9), (44, .p 4 9), (45, .p 4 9), (46, .p 4 9),
     (50, .p 4 3), (51, .p 4 3), (52, .p 4 3), (57, .n 32 3), (58, .p 4 3), (59, .p 4 3),
     (64, .n 8 9), (65, .n 8 9), (66, .n 8 9), (67, .n 8 9)],
    [(41, .p 4 9), (42, .p 4 9), (43, .p 4 9), (44, .p 4 9), (45, .p 4 9), (46, .p 4 9),
     (50, .p 4 3), (51, .p 4 3), (52, .p 4 3), (57, .p 4 3), (58, .n 32 3), (59, .p 4 3),
     (64, .n 8 9), (65, .n 8 9), (66, .n 8 9), (67, .n 8 9)],
    [(41, .p 4 9), (42, .p 4 9), (43, .p 4 9), (44, .p 4 9), (45, .p 4 9), (46, .p 4 9),
     (50, .p 4 3), (51, .p 4 3), (52, .p 4 3), (57, .p 4 3), (58, .p 4 3), (59, .n 32 3),
     (64, .n 8 9), (65, .n 8 9), (66, .n 8 9), (67, .n 8 9)],
    [(38, .p 4 9), (39, .p 4 9), (40, .p 4 9), (47, .p 4 9), (48, .p 4 9), (49, .p 4 9),
     (53, .p 4 3), (56, .p 4 3), (60, .n 32 3), (61, .p 4 3), (62, .p 4 3), (63, .p 4 3),
     (68, .n 8 9), (69, .n 8 9), (70, .n 8 9), (71, .n 8 9)],
    [(38, .p 4 9), (39, .p 4 9), (40, .p 4 9), (47, .p 4 9), (48, .p 4 9), (49, .p 4 9),
     (53, .p 4 3), (56, .p 4 3), (60, .p 4 3), (61, .p 40 3), (62, .p 4 3), (63, .p 4 3),
     (68, .n 8 9), (69, .n 8 9), (70, .n 8 9), (71, .n 8 9)],
    [(38, .p 8 9), (39, .p 8 9), (40, .p 8 9), (47, .p 8 9), (48, .p 8 9), (49, .p 8 9),
     (53, .p 8 3), (56, .p 8 3), (60, .p 8 3), (61, .p 8 3), (62, .p 44 3), (63, .p 8 3),
     (68, .n 16 9), (69, .n 16 9), (70, .n 16 9), (71, .n 16 9)],
    [(38, .p 8 9), (39, .p 8 9), (40, .p 8 9), (47, .p 8 9), (48, .p 8 9), (49, .p 8 9),
     (53, .p 8 3), (56, .p 8 3), (60, .p 8 3), (61, .p 8 3), (62, .p 8 3), (63, .p 44 3),
     (68, .n 16 9), (69, .n 16 9), (70, .n 16 9), (71, .n 16 9)],
    [(41, .n 8 9), (42, .n 8 9), (43, .n 8 9), (44, .n 8 9), (45, .n 8 9), (46, .n 8 9),
     (50, .n 8 3), (51, .n 8 3), (52, .n 8 3), (57, .n 8 3), (58, .n 8 3), (59, .n 8 3),
     (64, .n 56 9), (65, .p 16 9), (66, .p 16 9), (67, .p 16 9)],
    [(41, .n 8 9), (42, .n 8 9), (43, .n 8 9), (44, .n 8 9), (45, .n 8 9), (46, .n 8 9),
     (50, .n 8 3), (51, .n 8 3), (52, .n 8 3), (57, .n 8 3), (58, .n 8 3), (59, .n 8 3),
     (64, .p 16 9), (65, .n 56 9), (66, .p 16 9), (67, .p 16 9)],
    [(41, .n 8 9), (42, .n 8 9), (43, .n 8 9), (44, .n 8 9), (45, .n 8 9), (46, .n 8 9),
     (50, .n 8 3), (51, .n 8 3), (52, .n 8 3), (57, .n 8 3), (58, .n 8 3), (59, .n 8 3),
     (64, .p 16 9), (65, .p 16 9), (66, .p 88 9), (67, .p 16 9)],
    [(41, .n 8 9), (42, .n 8 9), (43, .n 8 9), (44, .n 8 9), (45, .n 8 9), (46, .n 8 9),
     (50, .n 8 3), (51, .n 8 3), (52, .n 8 3), (57, .n 8 3), (58, .n 8 3), (59, .n 8 3),
     (64, .p 16 9), (65, .p 16 9), (66, .p 16 9), (67, .p 88 9)],
    [(38, .n 8 9), (39, .n 8 9), (40, .n 8 9), (47, .n 8 9), (48, .n 8 9), (49, .n 8 9),
     (53, .n 8 3), (56, .n 8 3), (60, .n 8 3), (61, .n 8 3), (62, .n 8 3), (63, .n 8 3),
     (68, .n 56 9), (69, .p 16 9), (70, .p 16 9), (71, .p 16 9)],
    [(38, .n 8 9), (39, .n 8 9), (40, .n 8 9), (47, .n 8 9), (48, .n 8 9), (49, .n 8 9),
     (53, .n 8 3), (56, .n 8 3), (60, .n 8 3), (61, .n 8 3), (62, .n 8 3), (63, .n 8 3),
     (68, .p 16 9), (69, .n 56 9), (70, .p 16 9), (71, .p 16 9)],
    [(38, .n 8 9), (39, .n 8 9), (40, .n 8 9), (47, .n 8 9), (48, .n 8 9), (49, .n 8 9),
     (53, .n 8 3), (56, .n 8 3), (60, .n 8 3), (61, .n 8 3), (62, .n 8 3), (63, .n 8 3),
     (68, .p 16 9), (69, .p 16 9), (70, .p 88 9), (71, .p 16 9)],
    [(38, .n 8 9), (39, .n 8 9), (40, .n 8 9), (47, .n 8 9), (48, .n 8 9), (49, .n 8 9),
     (53, .n 8 3), (56, .n 8 3), (60, .n 8 3), (61, .n 8 3), (62, .n 8 3), (63, .n 8 3),
     (68, .p 16 9), (69, .p 16 9), (70, .p 16 9), (71, .p 88 9)],
    [(72, .p 16 1)],
    [(73, .p 16 1)]]

/-- adm.py line 1468 `adm_s_mutau` -/
def adm_s_mutau : Rows :=
  [
    [(0, .n 8 1)],
    [(1, .n 8 1)],
    [(2, .n 8 1)],
    [(3, .n 8 1)],
    [(4, .n 8 1)],
    [(5, .n 8 1)],
    [(6, .n 8 1)],
    [(7, .n 8 1)],
    [(8, .n 8 1)],
    [(9, .n 8 1)],
    [(10, .n 8 1)],
    [(11, .n 8 1)],
    [],
    [],
    [(73, .mn 1 1 .e .tau)],
    [(72, .mn 1 1 .e .tau)],
    [(72, .mn 1 1 .mu .tau)],
    [(73, .mn 1 1 .mu .tau)],
    [(72, .n 1 1)],
    [(73, .n 1 1)],
    [(20, .n 8 1)],
    [(21, .n 8 1)],
    [(22, .n 8 1)],
    [(23, .n 8 1)],
    [(24, .n 8 1)],
    [(25, .n 8 1)],
    [(26, .n 8 1)],
    [(27, .n 8 1)],
    [(28, .p 8 3), (72, .mp 8 1 .d .tau)],
    [(29, .p 8 3), (72, .mp 8 1 .s .tau)],
    [(30, .p 8 3), (72, .mp 8 1 .b .tau)],
    [(31, .p 8 3), (73, .mp 8 1 .d .tau)],
    [(32, .p 8 3), (73, .mp 8 1 .s .tau)],
    [(33, .p 8 3), (73, .mp 8 1 .b .tau)],
    [(34, .p 8 3), (72, .mn 16 1 .u .tau)],
    [(35, .p 8 3), (72, .mn 16 1 .c .tau)],
    [(36, .p 8 3), (73, .mn 16 1 .u .tau)],
    [(37, .p 8 3), (73, .mn 16 1 .c .tau)],
    [],
    [],
    [],
    [],
    [],
    [],
    [],
    [],
    [],
    [],
    [],
    [],
    [],
    [],
    [],
    [],
    [],
    [],
    [],
    [],
    [],
    [],
    [],
    [],
    [],
    [],
    [],
    [],
    [],
    [],
    [],
    [],
    [],
    [],
    [(72, .b 2 1 0 1)],
    [(73, .b 2 1 0 1)]]

/-- adm.py line 1546 `adm_e_taue` -/
def adm_e_taue : Rows :=
  [
    [(0, .n 20 3)],
    [(1, .n 20 3)],
    [(2, .n 20 3)],
    [(3, .n 20 3)],
    [(4, .n 20 3)],
    [(5, .n 20 3)],
    [(6, .n 20 3), (28, .n 2 3)],
    [(7, .n 20 3), (29, .n 2 3)],
    [(8, .n 20 3), (30, .n 2 3)],
    [(9, .n 20 3), (31, .n 2 3)],
    [(10, .n 20 3), (32, .n 2 3)],
    [(11, .n 20 3), (33, .n 2 3)],
    [(12, .p 12 1)],
    [(13, .p 12 1)],
    [(14, .n 4 1), (15, .p 16 1)],
    [(14, .p 16 1), (15, .n 4 1)],
    [(16, .p 12 1)],
    [(17, .n 4 1), (18, .p 16 1)],
    [(17, .p 16 1), (18, .n 4 1)],
    [(19, .p 12 1)],
    [(20, .n 26 3)],
    [(21, .n 26 3)],
    [(22, .n 26 3)],
    [(23, .n 26 3)],
    [(24, .n 26 3), (34, .p 4 3)],
    [(25, .n 26 3), (35, .p 4 3)],
    [(26, .n 26 3), (36, .p 4 3)],
    [(27, .n 26 3), (37, .p 4 3)],
    [(6, .n 32 1), (28, .p 20 9)],
    [(7, .n 32 1), (29, .p 20 9)],
    [(8, .n 32 1), (30, .p 20 9)],
    [(9, .n 32 1), (31, .p 20 9)],
    [(10, .n 32 1), (32, .p 20 9)],
    [(11, .n 32 1), (33, .p 20 9)],
    [(24, .p 64 1), (34, .p 26 9)],
    [(25, .p 64 1), (35, .p 26 9)],
    [(26, .p 64 1), (36, .p 26 9)],
    [(27, .p 64 1), (37, .p 26 9)],
    [(38, .n 32 9), (39, .p 4 9), (40, .p 4 9), (47, .p 4 9), (48, .p 4 9), (49, .p 4 9),
     (53, .p 4 3), (58, .p 4 3), (60, .p 4 3), (61, .p 4 3), (62, .p 4 3), (63, .p 4 3),
     (68, .n 8 9), (69, .n 8 9), (70, .n 8 9), (71, .n 8 9)],
    [(38, .p 4 9), (39, .n 32 9), (40, .p 4 9), (47, .p 4 9), (48, .p 4 9), (49, .p 4 9),
     (53, .p 4 3), (58, .p 4 3), (60, .p 4 3), (61, .p 4 3), (62, .p 4 3), (63, .p 4 3),
     (68, .n 8 9), (69, .n 8 9), (70, .n 8 9), (71, .n 8 9)],
    [(38, .p 4 9), (39, .p 4 9), (40, .n 32 9), (47, .p 4 9), (48, .p 4 9), (49, .p 4 9),
     (53, .p 4 3), (58, .p 4 3), (60, .p 4 3), (61, .p 4 3), (62, .p 4 3), (63, .p 4 3),
     (68, .n 8 9), (69, .n 8 9), (70, .n 8 9), (71, .n 8 9)],
    [(41, .p 40 9), (42, .p 4 9), (43, .p 4 9), (44, .p 4 9), (45, .p 4 9), (46, .p 4 9),
     (50, .p 4 3), (51, .p 4 3), (52, .p 4 3), (55, .p 4 3), (56, .p 4 3), (57, .p 4 3),
     (64, .n 8 9), (65, .n 8 9), (66, .n 8 9), (67, .n 8 9)],
    [(41, .p 4 9), (42, .p 40 9), (43, .p 4 9), (44, .p 4 9), (45, .p 4 9), (46, .p 4 9),
     (50, .p 4 3), (51, .p 4 3), (52, .p 4 3), (55, .p 4 3), (56, .p 4 3), (57, .p 4 3),
     (64, .n 8 9), (65, .n 8 9), (66, .n 8 9), (67, .n 8 9)],
    [(41, .p 4 9), (42, .p 4 9), (43, .p 40 9), (44, .p 4 9), (45, .p 4 9), (46, .p 4 9),
     (50, .p 4 3), (51, .p 4 3), (52, .p 4 3), (55, .p 4 3), (56, .p 4 3), (57, .p 4 3),
     (64, .n 8 9), (65, .n 8 9), (66, .n 8 9), (67, .n 8 9)],
    [(41, .p 4 9), (42, .p 4 9), (43, .p 4 9), (44, .n 32 9), (45, .p 4 9), (46, .p 4 9),
     (50, .p 4 3), (51, .p 4 3), (52, .p 4 3), (55, .p 4 3), (56, .p 4 3), (57, .p 4 3),
     (64, .n 8 9), (65, .n 8 9), (66, .n 8 9), (67, .n 8 9)],
    [(41, .p 4 9), (42, .p 4 9), (43, .p 4 9), (44, .p 4 9), (45, .n 32 9), (46, .p 4 9),
     (50, .p 4 3), (51, .p 4 3), (52, .p 4 3), (55, .p 4 3), (56, .p 4 3), (57, .p 4 3),
     (64, .n 8 9), (65, .n 8 9), (66, .n 8 9), (67, .n 8 9)],
    [(41, .p 4 9), (42, .p 4 9), (43, .p 4 9), (44, .p 4 9), (45, .p 4 9), (46, .n 32 9),
     (50, .p 4 3), (51, .p 4 3), (52, .p 4 3), (55, .p 4 3), (56, .p 4 3), (57, .p 4 3),
     (64, .n 8 9), (65, .n 8 9), (66, .n 8 9), (67, .n 8 9)],
    [(38, .p 4 9), (39, .p 4 9), (40, .p 4 9), (47, .p 40 9), (48, .p 4 9), (49, .p 4 9),
     (53, .p 4 3), (58, .p 4 3), (60, .p 4 3), (61, .p 4 3), (62, .p 4 3), (63, .p 4 3),
     (68, .n 8 9), (69, .n 8 9), (70, .n 8 9), (71, .n 8 9)],
    [(38, .p 4 9), (39, .p 4 9), (40, .p 4 9), (47, .p 4 9), (48, .p 40 9), (49, .p 4 9),
     (53, .p 4 3), (58, .p 4 3), (60, .p 4 3), (61, .p 4 3), (62, .p 4 3), (63, .p 4 3),
     (68, .n 8 9), (69, .n 8 9), (70, .n 8 9), (71, .n 8 9)],
    [(38, .p 4 9), (39, .p 4 9), (40, .p 4 9), (47, .p 4 9), (48, .p 4 9), (49, .p 40 9),
     (53, .p 4 3), (58, .p 4 3), (60, .p 4 3), (61, .p 4 3), (62, .p 4 3), (63, .p 4 3),
     (68, .n 8 9), (69, .n 8 9), (70, .n 8 9), (71, .n 8 9)],
    [(41, .p 8 9), (42, .p 8 9), (43, .p 8 9), (44, .p 8 9), (45, .p 8 9), (46, .p 8 9),
     (50, .p 44 3), (51, .p 8 3), (52, .p 8 3), (55, .p 8 3), (56, .p 8 3), (57, .p 8 3),
     (64, .n 16 9), (65, .n 16 9), (66, .n 16 9), (67, .n 16 9)],
    [(41, .p 4 9), (42, .p 4 9), (43, .p 4 9), (44, .p 4 9), (45, .p 4 9), (46, .p 4 9),
     (50, .p 4 3), (51, .p 40 3), (52, .p 4 3), (55, .p 4 3), (56, .p 4 3), (57, .p 4 3),
     (64, .n 8 9), (65, .n 8 9), (66, .n 8 9), (67, .n 8 9)],
    [(41, .p 8 9), (42, .p 8 9), (43, .p 8 9), (44, .p 8 9), (45, .p 8 9), (46, .p 8 9),
     (50, .p 8 3), (51, .p 8 3), (52, .p 44 3), (55, .p 8 3), (56, .p 8 3), (57, .p 8 3),
     (64, .n 16 9), (65, .n 16 9), (66, .n 16 9), (67, .n 16 9)],
    [(38, .p 4 9), (39, .p 4 9), (40, .p 4 9), (47, .p 4 9), (48, .p 4 9), (49, .p 4 9),
     (53, .n 32 3), (58, .p 4 3), (60, .p 4 3), (61, .p 4 3), (62, .p 4 3), (63, .p 4 3),
     (68, .n 8 9), (69, .n 8 9), (70, .n 8 9), (71, .n 8 9)],
    [(54, .n 12 1)],
    [(41, .p 4 9), (42, .p 4 9), (43, .p 4 9), (44, .p 4 9), (45, .p 4 9), (46, .p 4 9),
     (50, .p 4 3), (51, .p 4 3), (52, .p 4 3), (55, .n 32 3), (56, .p 4 3), (57, .p 4 3),
     (64, .n 8 9), (65, .n 8 9), (66, .n 8 9), (67, .n 8 9)],
    [(41, .p 4 9), (42, .p 4 9), (43, .p 4 9), (44, .p 4 9), (45, .p 4 9), (46, .p 4 9),
     (50, .p 4 3), (51, .p 4 3), (52, .p 4 3), (55, .p 4 3), (56, .n 32 3), (57, .p 4 3),
     (64, .n 8 9), (65, .n 8 9), (66, .n 8 9), (67, .n 8 9)],
    [(41, .p 4 9), (42, .p 4 9), (43, .p 4 9), (44, .p 4 9), (45, .p 4 9), (46, .p 4 9),
     (50, .p 4 3), (51, .p 4 3), (52, .p 4 3), (55, .p 4 3), (56, .p 4 3), (57, .n 32 3),
     (64, .n 8 9), (65, .n 8 9), (66, .n 8 9), (67, .n 8 9)],
    [(38, .p 4 9), (39, .p 4 9), (40, .p 4 9), (47, .p 4 9), (48, .p 4 9), (49, .p 4 9),
     (53, .p 4 3), (58, .n 32 3), (60, .p 4 3), (61, .p 4 3), (62, .p 4 3), (63, .p 4 3),
     (68, .n 8 9), (69, .n 8 9), (70, .n 8 9), (71, .n 8 9)],
    [(59, .n 12 1)],
    [(38, .p 4 9), (39, .p 4 9), (40, .p 4 9), (47, .p 4 9), (48, .p 4 9), (49, .p 4 9),
     (53, .p 4 3), (58, .p 4 3), (60, .n 32 3), (61, .p 4 3), (62, .p 4 3), (63, .p 4 3),
     (68, .n 8 9), (69, .n 8 9), (70, .n 8 9), (71, .n 8 9)],
    [(38, .p 8 9), (39, .p 8 9), (40, .p 8 9), (47, .p 8 9), (48, .p 8 9), (49, .p 8 9),
     (53, .p 8 3), (58, .p 8 3), (60, .p 8 3), (61, .p 44 3), (62, .p 8 3), (63, .p 8 3),
     (68, .n 16 9), (69, .n 16 9), (70, .n 16 9), (71, .n 16 9)],
    [(38, .p 4 9), (39, .p 4 9), (40, .p 4 9), (47, .p 4 9), (48, .p 4 9), (49, .p 4 9),
     (53, .p 4 3), (58, .p 4 3), (60, .p 4 3), (61, .p 4 3), (62, .p 40 3), (63, .p 4 3),
     (68, .n 8 9), (69, .n 8 9), (70, .n 8 9), (71, .n 8 9)],
    [(38, .p 8 9), (39, .p 8 9), (40, .p 8 9), (47, .p 8 9), (48, .p 8 9), (49, .p 8 9),
     (53, .p 8 3), (58, .p 8 3), (60, .p 8 3), (61, .p 8 3), (62, .p 8 3), (63, .p 44 3),
     (68, .n 16 9), (69, .n 16 9), (70, .n 16 9), (71, .n 16 9)],
    [(41, .n 8 9), (42, .n 8 9), (43, .n 8 9), (44, .n 8 9), (45, .n 8 9), (46, .n 8 9),
     (50, .n 8 3), (51, .n 8 3), (52, .n 8 3), (55, .n 8 3), (56, .n 8 3), (57, .n 8 3),
     (64, .n 56 9), (65, .p 16 9), (66, .p 16 9), (67, .p 16 9)],
    [(41, .n 8 9), (42, .n 8 9), (43, .n 8 9), (44, .n 8 9), (45, .n 8 9), (46, .n 8 9),
     (50, .n 8 3), (51, .n 8 3), (52, .n 8 3), (55, .n 8 3), (56, .n 8 3), (57, .n 8 3),
     (64, .p 16 9), (65, .n 56 9), (66, .p 16 9), (67, .p 16 9)],
    [(41, .n 8 9), (42, .n 8 9), (43, .n 8 9), (44, .n 8 9), (45, .n 8 9), (46, .n 8 9),
     (50, .n 8 3), (51, .n 8 3), (52, .n 8 3), (55, .n 8 3), (56, .n 8 3), (57, .n 8 3),
     (64, .p 16 9), (65, .p 16 9), (66, .p 88 9), (67, .p 16 9)],
    [(41, .n 8 9), (42, .n 8 9), (43, .n 8 9), (44, .n 8 9), (45, .n 8 9), (46, .n 8 9),
     (50, .n 8 3), (51, .n 8 3), (52, .n 8 3), (55, .n 8 3), (56, .n 8 3), (57, .n 8 3),
     (64, .p 16 9), (65, .p 16 9), (66, .p 16 9), (67, .p 88 9)],
    [(38, .n 8 9), (39, .n 8 9), (40, .n 8 9), (47, .n 8 9), (48, .n 8 9), (49, .n 8 9),
     (53, .n 8 3), (58, .n 8 3), (60, .n 8 3), (61, .n 8 3), (62, .n 8 3), (63, .n 8 3),
     (68, .n 56 9), (69, .p 16 9), (70, .p 16 9), (71, .p 16 9)],
    [(38, .n 8 9), (39, .n 8 9), (40, .n 8 9), (47, .n 8 9), (48, .n 8 9), (49, .n 8 9),
     (53, .n 8 3), (58, .n 8 3), (60, .n 8 3), (61, .n 8 3), (62, .n 8 3), (63, .n 8 3),
     (68, .p 16 9), (69, .n 56 9), (70, .p 16 9), (71, .p 16 9)],
    [(38, .n 8 9), (39, .n 8 9), (40, .n 8 9), (47, .n 8 9), (48, .n 8 9), (49, .n 8 9),
     (53, .n 8 3), (58, .n 8 3), (60, .n 8 3), (61, .n 8 3), (62, .n 8 3), (63, .n 8 3),
     (68, .p 16 9), (69, .p 16 9), (70, .p 88 9), (71, .p 16 9)],
    [(38, .n 8 9), (39, .n 8 9), (40, .n 8 9), (47, .n 8 9), (48, .n 8 9), (49, .n 8 9),
     (53, .n 8 3), (58, .n 8 3), (60, .n 8 3), (61, .n 8 3), (62, .n 8 3), (63, .n 8 3),
     (68, .p 16 9), (69, .p 16 9), (70, .p 16 9), (71, .p 88 9)],
    [(72, .p 16 1)],
    [(73, .p 16 1)]]

/-- adm.py line 1623 `adm_s_taue` -/
def adm_s_taue : Rows :=
  [
    [(0, .n 8 1)],
    [(1, .n 8 1)],
    [(2, .n 8 1)],
    [(3, .n 8 1)],
    [(4, .n 8 1)],
    [(5, .n 8 1)],
    [(6, .n 8 1)],
    [(7, .n 8 1)],
    [(8, .n 8 1)],
    [(9, .n 8 1)],
    [(10, .n 8 1)],
    [(11, .n 8 1)],
    [(72, .mn 1 1 .e .tau)],
    [(73, .mn 1 1 .e .tau)],
    [(72, .mn 1 1 .mu .tau)],
    [],
    [(72, .n 1 1)],
    [(73, .mn 1 1 .mu .tau)],
    [],
    [(73, .n 1 1)],
    [(20, .n 8 1)],
    [(21, .n 8 1)],
    [(22, .n 8 1)],
    [(23, .n 8 1)],
    [(24, .n 8 1)],
    [(25, .n 8 1)],
    [(26, .n 8 1)],
    [(27, .n 8 1)],
    [(28, .p 8 3), (72, .mp 8 1 .d .tau)],
    [(29, .p 8 3), (72, .mp 8 1 .s .tau)],
    [(30, .p 8 3), (72, .mp 8 1 .b .tau)],
    [(31, .p 8 3), (73, .mp 8 1 .d .tau)],
    [(32, .p 8 3), (73, .mp 8 1 .s .tau)],
    [(33, .p 8 3), (73, .mp 8 1 .b .tau)],
    [(34, .p 8 3), (72, .mn 16 1 .u .tau)],
    [(35, .p 8 3), (72, .mn 16 1 .c .tau)],
    [(36, .p 8 3), (73, .mn 16 1 .u .tau)],
    [(37, .p 8 3), (73, .mn 16 1 .c .tau)],
    [],
    [],
    [],
    [],
    [],
    [],
    [],
    [],
    [],
    [],
    [],
    [],
    [],
    [],
    [],
    [],
    [],
    [],
    [],
    [],
    [],
    [],
    [],
    [],
    [],
    [],
    [],
    [],
    [],
    [],
    [],
    [],
    [],
    [],
    [(72, .b 2 1 0 1)],
    [(73, .b 2 1 0 1)]]

/-- adm.py line 1701 `adm_e_dF0` -/
def adm_e_dF0 : Rows :=
  [
    [],
    [],
    [(2, .p 4 27), (27, .p 32 9)],
    [(3, .n 4 9), (5, .p 16 27), (30, .p 32 9)],
    [(4, .n 4 9), (6, .p 16 27), (31, .p 32 9)],
    [(3, .p 16 27), (5, .n 4 9), (28, .p 32 9)],
    [(4, .p 16 27), (6, .n 4 9), (29, .p 32 9)],
    [(7, .p 4 27), (32, .p 32 9)],
    [(8, .n 4 9), (9, .p 16 27), (34, .p 32 9)],
    [(8, .p 16 27), (9, .n 4 9), (33, .p 32 9)],
    [(10, .p 4 27), (35, .p 32 9)],
    [(11, .n 46 9), (17, .n 32 27), (42, .n 64 9)],
    [(12, .n 46 9), (18, .n 32 27), (43, .n 64 9)],
    [(13, .n 46 9), (19, .n 32 27), (44, .n 64 9)],
    [(14, .n 46 9), (20, .n 32 27), (45, .n 64 9)],
    [(15, .n 46 9), (21, .n 32 27), (46, .n 64 9)],
    [(16, .n 46 9), (22, .n 32 27), (47, .n 64 9)],
    [(11, .p 4 27), (17, .p 26 9), (36, .p 8 9)],
    [(12, .p 4 27), (18, .p 26 9), (37, .p 8 9)],
    [(13, .p 4 27), (19, .p 26 9), (38, .p 8 9)],
    [(14, .p 4 27), (20, .p 26 9), (39, .p 8 9)],
    [(15, .p 4 27), (21, .p 26 9), (40, .p 8 9)],
    [(16, .p 4 27), (22, .p 26 9), (41, .p 8 9)],
    [(23, .p 16 27), (48, .p 128 9)],
    [(24, .n 16 9), (25, .p 64 27), (50, .p 128 9)],
    [(24, .p 64 27), (25, .n 16 9), (49, .p 128 9)],
    [(26, .p 16 27), (51, .p 128 9)],
    [(2, .p 64 81), (27, .n 28 27)],
    [(5, .p 64 81), (28, .n 4 9), (30, .n 16 27)],
    [(6, .p 64 81), (29, .n 4 9), (31, .n 16 27)],
    [(3, .p 64 81), (28, .n 16 27), (30, .n 4 9)],
    [(4, .p 64 81), (29, .n 16 27), (31, .n 4 9)],
    [(7, .p 64 81), (32, .n 28 27)],
    [(9, .p 64 81), (33, .n 4 9), (34, .n 16 27)],
    [(8, .p 64 81), (33, .n 16 27), (34, .n 4 9)],
    [(10, .p 64 81), (35, .n 28 27)],
    [(17, .n 128 81), (36, .n 46 9), (42, .p 32 27)],
    [(18, .n 128 81), (37, .n 46 9), (43, .p 32 27)],
    [(19, .n 128 81), (38, .n 46 9), (44, .p 32 27)],
    [(20, .n 128 81), (39, .n 46 9), (45, .p 32 27)],
    [(21, .n 128 81), (40, .n 46 9), (46, .p 32 27)],
    [(22, .n 128 81), (41, .n 46 9), (47, .p 32 27)],
    [(11, .p 16 81), (36, .n 4 27), (42, .p 26 9)],
    [(12, .p 16 81), (37, .n 4 27), (43, .p 26 9)],
    [(13, .p 16 81), (38, .n 4 27), (44, .p 26 9)],
    [(14, .p 16 81), (39, .n 4 27), (45, .p 26 9)],
    [(15, .p 16 81), (40, .n 4 27), (46, .p 26 9)],
    [(16, .p 16 81), (41, .n 4 27), (47, .p 26 9)],
    [(23, .p 256 81), (48, .n 112 27)],
    [(25, .p 256 81), (49, .n 16 9), (50, .n 64 27)],
    [(24, .p 256 81), (49, .n 64 27), (50, .n 16 9)],
    [(26, .p 256 81), (51, .n 112 27)],
    [(52, .n 20 3)],
    [(53, .n 20 3)],
    [(54, .n 20 3)],
    [(55, .n 20 3)],
    [(56, .n 20 3)],
    [(57, .n 20 3)],
    [(58, .n 20 3)],
    [(59, .n 20 3)],
    [(60, .n 20 3)],
    [(61, .n 20 3), (91, .n 2 3)],
    [(62, .n 20 3), (92, .n 2 3)],
    [(63, .n 20 3), (93, .n 2 3)],
    [(64, .n 20 3), (94, .n 2 3)],
    [(65, .n 20 3), (95, .n 2 3)],
    [(66, .n 20 3), (96, .n 2 3)],
    [(67, .n 20 3), (97, .n 2 3)],
    [(68, .n 20 3), (98, .n 2 3)],
    [(69, .n 20 3), (99, .n 2 3)],
    [(70, .p 12 1)],
    [(71, .n 4 1), (73, .p 16 1)],
    [(72, .n 4 1), (74, .p 16 1)],
    [(71, .p 16 1), (73, .n 4 1)],
    [(72, .p 16 1), (74, .n 4 1)],
    [(75, .p 12 1)],
    [(76, .n 4 1), (77, .p 16 1)],
    [(76, .p 16 1), (77, .n 4 1)],
    [(78, .p 12 1)],
    [(79, .n 26 3)],
    [(80, .n 26 3)],
    [(81, .n 26 3)],
    [(82, .n 26 3)],
    [(83, .n 26 3)],
    [(84, .n 26 3)],
    [(85, .n 26 3), (100, .p 4 3)],
    [(86, .n 26 3), (101, .p 4 3)],
    [(87, .n 26 3), (102, .p 4 3)],
    [(88, .n 26 3), (103, .p 4 3)],
    [(89, .n 26 3), (104, .p 4 3)],
    [(90, .n 26 3), (105, .p 4 3)],
    [(61, .n 32 1), (91, .p 20 9)],
    [(62, .n 32 1), (92, .p 20 9)],
    [(63, .n 32 1), (93, .p 20 9)],
    [(64, .n 32 1), (94, .p 20 9)],
    [(65, .n 32 1), (95, .p 20 9)],
    [(66, .n 32 1), (96, .p 20 9)],
    [(67, .n 32 1), (97, .p 20 9)],
    [(68, .n 32 1), (98, .p 20 9)],
    [(69, .n 32 1), (99, .p 20 9)],
    [(85, .p 64 1), (100, .p 26 9)],
    [(86, .p 64 1), (101, .p 26 9)],
    [(87, .p 64 1), (102, .p 26 9)],
    [(88, .p 64 1), (103, .p 26 9)],
    [(89, .p 64 1), (104, .p 26 9)],
    [(90, .p 64 1), (105, .p 26 9)],
    [(106, .n 4 9), (107, .p 4 9), (108, .p 4 9), (111, .p 4 9), (115, .p 4 9), (118, .n 8 9),
     (119, .n 8 9), (124, .n 8 9), (127, .n 8 9), (130, .n 8 9), (133, .n 8 9), (136, .n 8 9),
     (139, .n 8 9), (200, .p 4 9), (201, .p 4 9), (202, .p 4 9), (209, .p 4 9), (210, .p 4 9),
     (211, .p 4 9), (218, .p 4 3), (219, .p 4 3), (220, .p 4 3), (227, .p 4 3), (230, .p 4 3),
     (233, .p 4 3), (236, .p 4 3), (239, .p 4 3), (242, .p 4 3), (245, .p 4 3), (248, .p 4 3),
     (251, .p 4 3)],
    [(106, .p 4 9), (107, .n 4 9), (108, .p 4 9), (112, .p 4 9), (116, .p 4 9), (118, .n 8 9),
     (119, .n 8 9), (124, .n 8 9), (127, .n 8 9), (131, .n 8 9), (134, .n 8 9), (137, .n 8 9),
     (140, .n 8 9), (200, .p 4 9), (201, .p 4 9), (202, .p 4 9), (210, .p 4 9), (214, .p 4 9),
     (215, .p 4 9), (218, .p 4 3), (219, .p 4 3), (220, .p 4 3), (227, .p 4 3), (230, .p 4 3),
     (233, .p 4 3), (237, .p 4 3), (240, .p 4 3), (243, .p 4 3), (246, .p 4 3), (249, .p 4 3),
     (252, .p 4 3)],
    [(106, .p 4 9), (107, .p 4 9), (108, .n 4 9), (113, .p 4 9), (117, .p 4 9), (118, .n 8 9),
     (119, .n 8 9), (124, .n 8 9), (127, .n 8 9), (132, .n 8 9), (135, .n 8 9), (138, .n 8 9),
     (141, .n 8 9), (200, .p 4 9), (201, .p 4 9), (202, .p 4 9), (211, .p 4 9), (215, .p 4 9),
     (217, .p 4 9), (218, .p 4 3), (219, .p 4 3), (220, .p 4 3), (227, .p 4 3), (230, .p 4 3),
     (233, .p 4 3), (238, .p 4 3), (241, .p 4 3), (244, .p 4 3), (247, .p 4 3), (250, .p 4 3),
     (253, .p 4 3)],
    [(109, .n 4 3)],
    [(110, .n 4 3)],
    [(106, .p 4 9), (111, .n 4 9), (112, .p 4 9), (113, .p 4 9), (115, .p 4 9), (120, .n 8 9),
     (121, .n 8 9), (125, .n 8 9), (128, .n 8 9), (130, .n 8 9), (133, .n 8 9), (136, .n 8 9),
     (139, .n 8 9), (201, .p 4 9), (205, .p 4 9), (206, .p 4 9), (209, .p 4 9), (210, .p 4 9),
     (211, .p 4 9), (221, .p 4 3), (222, .p 4 3), (223, .p 4 3), (228, .p 4 3), (231, .p 4 3),
     (234, .p 4 3), (236, .p 4 3), (239, .p 4 3), (242, .p 4 3), (245, .p 4 3), (248, .p 4 3),
     (251, .p 4 3)],
    [(107, .p 4 9), (111, .p 4 9), (112, .n 4 9), (113, .p 4 9), (116, .p 4 9), (120, .n 8 9),
     (121, .n 8 9), (125, .n 8 9), (128, .n 8 9), (131, .n 8 9), (134, .n 8 9), (137, .n 8 9),
     (140, .n 8 9), (201, .p 4 9), (205, .p 4 9), (206, .p 4 9), (210, .p 4 9), (214, .p 4 9),
     (215, .p 4 9), (221, .p 4 3), (222, .p 4 3), (223, .p 4 3), (228, .p 4 3), (231, .p 4 3),
     (234, .p 4 3), (237, .p 4 3), (240, .p 4 3), (243, .p 4 3), (246, .p 4 3), (249, .p 4 3),
     (252, .p 4 3)],
    [(108, .p 4 9), (111, .p 4 9), (112, .p 4 9), (113, .n 4 9), (117, .p 4 9), (120, .n 8 9),
     (121, .n 8 9), (125, .n 8 9), (128, .n 8 9), (132, .n 8 9), (135, .n 8 9), (138, .n 8 9),
     (141, .n 8 9), (201, .p 4 9), (205, .p 4 9), (206, .p 4 9), (211, .p 4 9), (215, .p 4 9),
     (217, .p 4 9), (221, .p 4 3), (222, .p 4 3), (223, .p 4 3), (228, .p 4 3), (231, .p 4 3),
     (234, .p 4 3), (238, .p 4 3), (241, .p 4 3), (244, .p 4 3), (247, .p 4 3), (250, .p 4 3),
     (253, .p 4 3)],
    [(114, .n 4 3)],
    [(106, .p 4 9), (111, .p 4 9), (115, .n 4 9), (116, .p 4 9), (117, .p 4 9), (122, .n 8 9),
     (123, .n 8 9), (126, .n 8 9), (129, .n 8 9), (130, .n 8 9), (133, .n 8 9), (136, .n 8 9),
     (139, .n 8 9), (202, .p 4 9), (206, .p 4 9), (208, .p 4 9), (209, .p 4 9), (210, .p 4 9),
     (211, .p 4 9), (224, .p 4 3), (225, .p 4 3), (226, .p 4 3), (229, .p 4 3), (232, .p 4 3),
     (235, .p 4 3), (236, .p 4 3), (239, .p 4 3), (242, .p 4 3), (245, .p 4 3), (248, .p 4 3),
     (251, .p 4 3)],
    [(107, .p 4 9), (112, .p 4 9), (115, .p 4 9), (116, .n 4 9), (117, .p 4 9), (122, .n 8 9),
     (123, .n 8 9), (126, .n 8 9), (129, .n 8 9), (131, .n 8 9), (134, .n 8 9), (137, .n 8 9),
     (140, .n 8 9), (202, .p 4 9), (206, .p 4 9), (208, .p 4 9), (210, .p 4 9), (214, .p 4 9),
     (215, .p 4 9), (224, .p 4 3), (225, .p 4 3), (226, .p 4 3), (229, .p 4 3), (232, .p 4 3),
     (235, .p 4 3), (237, .p 4 3), (240, .p 4 3), (243, .p 4 3), (246, .p 4 3), (249, .p 4 3),
     (252, .p 4 3)],
    [(108, .p 4 9), (113, .p 4 9), (115, .p 4 9), (116, .p 4 9), (117, .n 4 9), (122, .n 8 9),
     (123, .n 8 9), (126, .n 8 9), (129, .n 8 9), (132, .n 8 9), (135, .n 8 9), (138, .n 8 9),
     (141, .n 8 9), (202, .p 4 9), (206, .p 4 9), (208, .p 4 9), (211, .p 4 9), (215, .p 4 9),
     (217, .p 4 9), (224, .p 4 3), (225, .p 4 3), (226, .p 4 3), (229, .p 4 3), (232, .p 4 3),
     (235, .p 4 3), (238, .p 4 3), (241, .p 4 3), (244, .p 4 3), (247, .p 4 3), (250, .p 4 3),
     (253, .p 4 3)],
    [(106, .n 8 9), (107, .n 8 9), (108, .n 8 9), (118, .p 44 9), (119, .p 16 9), (120, .p 4 9),
     (122, .p 4 9), (124, .p 16 9), (127, .p 16 9), (136, .p 4 9), (137, .p 4 9), (138, .p 4 9),
     (148, .n 8 9), (151, .n 8 9), (200, .n 8 9), (201, .n 8 9), (202, .n 8 9), (218, .n 8 3),
     (219, .n 8 3), (220, .n 8 3), (227, .n 8 3), (230, .n 8 3), (233, .n 8 3), (284, .p 4 3),
     (286, .p 4 3), (288, .p 4 3), (290, .p 4 3), (292, .p 4 3), (294, .p 4 3), (306, .n 8 9),
     (307, .n 8 9)],
    [(106, .n 8 9), (107, .n 8 9), (108, .n 8 9), (118, .p 16 9), (119, .p 44 9), (121, .p 4 9),
     (123, .p 4 9), (124, .p 16 9), (127, .p 16 9), (139, .p 4 9), (140, .p 4 9), (141, .p 4 9),
     (149, .n 8 9), (152, .n 8 9), (200, .n 8 9), (201, .n 8 9), (202, .n 8 9), (218, .n 8 3),
     (219, .n 8 3), (220, .n 8 3), (227, .n 8 3), (230, .n 8 3), (233, .n 8 3), (285, .p 4 3),
     (287, .p 4 3), (289, .p 4 3), (291, .p 4 3), (293, .p 4 3), (295, .p 4 3), (307, .n 8 9),
     (309, .n 8 9)],
    [(111, .n 8 9), (112, .n 8 9), (113, .n 8 9), (118, .p 4 9), (120, .p 44 9), (121, .p 16 9),
     (122, .p 4 9), (125, .p 16 9), (128, .p 16 9), (136, .p 4 9), (137, .p 4 9), (138, .p 4 9),
     (148, .n 8 9), (151, .n 8 9), (201, .n 8 9), (205, .n 8 9), (206, .n 8 9), (221, .n 8 3),
     (222, .n 8 3), (223, .n 8 3), (228, .n 8 3), (231, .n 8 3), (234, .n 8 3), (284, .p 4 3),
     (286, .p 4 3), (288, .p 4 3), (290, .p 4 3), (292, .p 4 3), (294, .p 4 3), (306, .n 8 9),
     (307, .n 8 9)],
    [(111, .n 8 9), (112, .n 8 9), (113, .n 8 9), (119, .p 4 9), (120, .p 16 9), (121, .p 44 9),
     (123, .p 4 9), (125, .p 16 9), (128, .p 16 9), (139, .p 4 9), (140, .p 4 9), (141, .p 4 9),
     (149, .n 8 9), (152, .n 8 9), (201, .n 8 9), (205, .n 8 9), (206, .n 8 9), (221, .n 8 3),
     (222, .n 8 3), (223, .n 8 3), (228, .n 8 3), (231, .n 8 3), (234, .n 8 3), (285, .p 4 3),
     (287, .p 4 3), (289, .p 4 3), (291, .p 4 3), (293, .p 4 3), (295, .p 4 3), (307, .n 8 9),
     (309, .n 8 9)],
    [(115, .n 8 9), (116, .n 8 9), (117, .n 8 9), (118, .p 4 9), (120, .p 4 9), (122, .p 44 9),
     (123, .p 16 9), (126, .p 16 9), (129, .p 16 9), (136, .p 4 9), (137, .p 4 9), (138, .p 4 9),
     (148, .n 8 9), (151, .n 8 9), (202, .n 8 9), (206, .n 8 9), (208, .n 8 9), (224, .n 8 3),
     (225, .n 8 3), (226, .n 8 3), (229, .n 8 3), (232, .n 8 3), (235, .n 8 3), (284, .p 4 3),
     (286, .p 4 3), (288, .p 4 3), (290, .p 4 3), (292, .p 4 3), (294, .p 4 3), (306, .n 8 9),
     (307, .n 8 9)],
    [(115, .n 8 9), (116, .n 8 9), (117, .n 8 9), (119, .p 4 9), (121, .p 4 9), (122, .p 16 9),
     (123, .p 44 9), (126, .p 16 9), (129, .p 16 9), (139, .p 4 9), (140, .p 4 9), (141, .p 4 9),
     (149, .n 8 9), (152, .n 8 9), (202, .n 8 9), (206, .n 8 9), (208, .n 8 9), (224, .n 8 3),
     (225, .n 8 3), (226, .n 8 3), (229, .n 8 3), (232, .n 8 3), (235, .n 8 3), (285, .p 4 3),
     (287, .p 4 3), (289, .p 4 3), (291, .p 4 3), (293, .p 4 3), (295, .p 4 3), (307, .n 8 9),
     (309, .n 8 9)],
    [(106, .n 8 9), (107, .n 8 9), (108, .n 8 9), (118, .p 16 9), (119, .p 16 9), (124, .n 4 9),
     (125, .p 4 9), (126, .p 4 9), (127, .p 16 9), (130, .p 4 9), (131, .p 4 9), (132, .p 4 9),
     (148, .n 8 9), (149, .n 8 9), (200, .n 8 9), (201, .n 8 9), (202, .n 8 9), (218, .n 8 3),
     (219, .n 8 3), (220, .n 8 3), (227, .n 8 3), (230, .n 8 3), (233, .n 8 3), (278, .p 4 3),
     (280, .p 4 3), (282, .p 4 3), (296, .p 4 3), (297, .p 4 3), (298, .p 4 3), (302, .n 8 9),
     (303, .n 8 9)],
    [(111, .n 8 9), (112, .n 8 9), (113, .n 8 9), (120, .p 16 9), (121, .p 16 9), (124, .p 4 9),
     (125, .n 4 9), (126, .p 4 9), (128, .p 16 9), (130, .p 4 9), (131, .p 4 9), (132, .p 4 9),
     (148, .n 8 9), (149, .n 8 9), (201, .n 8 9), (205, .n 8 9), (206, .n 8 9), (221, .n 8 3),
     (222, .n 8 3), (223, .n 8 3), (228, .n 8 3), (231, .n 8 3), (234, .n 8 3), (278, .p 4 3),
     (280, .p 4 3), (282, .p 4 3), (296, .p 4 3), (297, .p 4 3), (298, .p 4 3), (302, .n 8 9),
     (303, .n 8 9)],
    [(115, .n 8 9), (116, .n 8 9), (117, .n 8 9), (122, .p 16 9), (123, .p 16 9), (124, .p 4 9),
     (125, .p 4 9), (126, .n 4 9), (129, .p 16 9), (130, .p 4 9), (131, .p 4 9), (132, .p 4 9),
     (148, .n 8 9), (149, .n 8 9), (202, .n 8 9), (206, .n 8 9), (208, .n 8 9), (224, .n 8 3),
     (225, .n 8 3), (226, .n 8 3), (229, .n 8 3), (232, .n 8 3), (235, .n 8 3), (278, .p 4 3),
     (280, .p 4 3), (282, .p 4 3), (296, .p 4 3), (297, .p 4 3), (298, .p 4 3), (302, .n 8 9),
     (303, .n 8 9)],
    [(106, .n 8 9), (107, .n 8 9), (108, .n 8 9), (118, .p 16 9), (119, .p 16 9), (124, .p 16 9),
     (127, .n 4 9), (128, .p 4 9), (129, .p 4 9), (133, .p 4 9), (134, .p 4 9), (135, .p 4 9),
     (151, .n 8 9), (152, .n 8 9), (200, .n 8 9), (201, .n 8 9), (202, .n 8 9), (218, .n 8 3),
     (219, .n 8 3), (220, .n 8 3), (227, .n 8 3), (230, .n 8 3), (233, .n 8 3), (279, .p 4 3),
     (281, .p 4 3), (283, .p 4 3), (299, .p 4 3), (300, .p 4 3), (301, .p 4 3), (303, .n 8 9),
     (305, .n 8 9)],
    [(111, .n 8 9), (112, .n 8 9), (113, .n 8 9), (120, .p 16 9), (121, .p 16 9), (125, .p 16 9),
     (127, .p 4 9), (128, .n 4 9), (129, .p 4 9), (133, .p 4 9), (134, .p 4 9), (135, .p 4 9),
     (151, .n 8 9), (152, .n 8 9), (201, .n 8 9), (205, .n 8 9), (206, .n 8 9), (221, .n 8 3),
     (222, .n 8 3), (223, .n 8 3), (228, .n 8 3), (231, .n 8 3), (234, .n 8 3), (279, .p 4 3),
     (281, .p 4 3), (283, .p 4 3), (299, .p 4 3), (300, .p 4 3), (301, .p 4 3), (303, .n 8 9),
     (305, .n 8 9)],
    [(115, .n 8 9), (116, .n 8 9), (117, .n 8 9), (122, .p 16 9), (123, .p 16 9), (126, .p 16 9),
     (127, .p 4 9), (128, .p 4 9), (129, .n 4 9), (133, .p 4 9), (134, .p 4 9), (135, .p 4 9),
     (151, .n 8 9), (152, .n 8 9), (202, .n 8 9), (206, .n 8 9), (208, .n 8 9), (224, .n 8 3),
     (225, .n 8 3), (226, .n 8 3), (229, .n 8 3), (232, .n 8 3), (235, .n 8 3), (279, .p 4 3),
     (281, .p 4 3), (283, .p 4 3), (299, .p 4 3), (300, .p 4 3), (301, .p 4 3), (303, .n 8 9),
     (305, .n 8 9)],
    [(106, .n 8 9), (111, .n 8 9), (115, .n 8 9), (124, .p 4 9), (125, .p 4 9), (126, .p 4 9),
     (130, .p 44 9), (131, .p 4 9), (132, .p 4 9), (133, .p 16 9), (136, .p 16 9),
     (139, .p 16 9), (148, .n 8 9), (149, .n 8 9), (209, .n 8 9), (210, .n 8 9), (211, .n 8 9),
     (236, .n 8 3), (239, .n 8 3), (242, .n 8 3), (245, .n 8 3), (248, .n 8 3), (251, .n 8 3),
     (278, .p 4 3), (280, .p 4 3), (282, .p 4 3), (296, .p 4 3), (297, .p 4 3), (298, .p 4 3),
     (302, .n 8 9), (303, .n 8 9)],
    [(107, .n 8 9), (112, .n 8 9), (116, .n 8 9), (124, .p 4 9), (125, .p 4 9), (126, .p 4 9),
     (130, .p 4 9), (131, .p 44 9), (132, .p 4 9), (134, .p 16 9), (137, .p 16 9),
     (140, .p 16 9), (148, .n 8 9), (149, .n 8 9), (210, .n 8 9), (214, .n 8 9), (215, .n 8 9),
     (237, .n 8 3), (240, .n 8 3), (243, .n 8 3), (246, .n 8 3), (249, .n 8 3), (252, .n 8 3),
     (278, .p 4 3), (280, .p 4 3), (282, .p 4 3), (296, .p 4 3), (297, .p 4 3), (298, .p 4 3),
     (302, .n 8 9), (303, .n 8 9)],
    [(108, .n 8 9), (113, .n 8 9), (117, .n 8 9), (124, .p 4 9), (125, .p 4 9), (126, .p 4 9),
     (130, .p 4 9), (131, .p 4 9), (132, .p 44 9), (135, .p 16 9), (138, .p 16 9),
     (141, .p 16 9), (148, .n 8 9), (149, .n 8 9), (211, .n 8 9), (215, .n 8 9), (217, .n 8 9),
     (238, .n 8 3), (241, .n 8 3), (244, .n 8 3), (247, .n 8 3), (250, .n 8 3), (253, .n 8 3),
     (278, .p 4 3), (280, .p 4 3), (282, .p 4 3), (296, .p 4 3), (297, .p 4 3), (298, .p 4 3),
     (302, .n 8 9), (303, .n 8 9)],
    [(106, .n 8 9), (111, .n 8 9), (115, .n 8 9), (127, .p 4 9), (128, .p 4 9), (129, .p 4 9),
     (130, .p 16 9), (133, .p 44 9), (134, .p 4 9), (135, .p 4 9), (136, .p 16 9),
     (139, .p 16 9), (151, .n 8 9), (152, .n 8 9), (209, .n 8 9), (210, .n 8 9), (211, .n 8 9),
     (236, .n 8 3), (239, .n 8 3), (242, .n 8 3), (245, .n 8 3), (248, .n 8 3), (251, .n 8 3),
     (279, .p 4 3), (281, .p 4 3), (283, .p 4 3), (299, .p 4 3), (300, .p 4 3), (301, .p 4 3),
     (303, .n 8 9), (305, .n 8 9)],
    [(107, .n 8 9), (112, .n 8 9), (116, .n 8 9), (127, .p 4 9), (128, .p 4 9), (129, .p 4 9),
     (131, .p 16 9), (133, .p 4 9), (134, .p 44 9), (135, .p 4 9), (137, .p 16 9),
     (140, .p 16 9), (151, .n 8 9), (152, .n 8 9), (210, .n 8 9), (214, .n 8 9), (215, .n 8 9),
     (237, .n 8 3), (240, .n 8 3), (243, .n 8 3), (246, .n 8 3), (249, .n 8 3), (252, .n 8 3),
     (279, .p 4 3), (281, .p 4 3), (283, .p 4 3), (299, .p 4 3), (300, .p 4 3), (301, .p 4 3),
     (303, .n 8 9), (305, .n 8 9)],
    [(108, .n 8 9), (113, .n 8 9), (117, .n 8 9), (127, .p 4 9), (128, .p 4 9), (129, .p 4 9),
     (132, .p 16 9), (133, .p 4 9), (134, .p 4 9), (135, .p 44 9), (138, .p 16 9),
     (141, .p 16 9), (151, .n 8 9), (152, .n 8 9), (211, .n 8 9), (215, .n 8 9), (217, .n 8 9),
     (238, .n 8 3), (241, .n 8 3), (244, .n 8 3), (247, .n 8 3), (250, .n 8 3), (253, .n 8 3),
     (279, .p 4 3), (281, .p 4 3), (283, .p 4 3), (299, .p 4 3), (300, .p 4 3), (301, .p 4 3),
     (303, .n 8 9), (305, .n 8 9)],
    [(106, .n 8 9), (111, .n 8 9), (115, .n 8 9), (118, .p 4 9), (120, .p 4 9), (122, .p 4 9),
     (130, .p 16 9), (133, .p 16 9), (136, .n 4 9), (137, .p 4 9), (138, .p 4 9), (139, .p 16 9),
     (148, .n 8 9), (151, .n 8 9), (209, .n 8 9), (210, .n 8 9), (211, .n 8 9), (236, .n 8 3),
     (239, .n 8 3), (242, .n 8 3), (245, .n 8 3), (248, .n 8 3), (251, .n 8 3), (284, .p 4 3),
     (286, .p 4 3), (288, .p 4 3), (290, .p 4 3), (292, .p 4 3), (294, .p 4 3), (306, .n 8 9),
     (307, .n 8 9)],
    [(107, .n 8 9), (112, .n 8 9), (116, .n 8 9), (118, .p 4 9), (120, .p 4 9), (122, .p 4 9),
     (131, .p 16 9), (134, .p 16 9), (136, .p 4 9), (137, .n 4 9), (138, .p 4 9), (140, .p 16 9),
     (148, .n 8 9), (151, .n 8 9), (210, .n 8 9), (214, .n 8 9), (215, .n 8 9), (237, .n 8 3),
     (240, .n 8 3), (243, .n 8 3), (246, .n 8 3), (249, .n 8 3), (252, .n 8 3), (284, .p 4 3),
     (286, .p 4 3), (288, .p 4 3), (290, .p 4 3), (292, .p 4 3), (294, .p 4 3), (306, .n 8 9),
     (307, .n 8 9)],
    [(108, .n 8 9), (113, .n 8 9), (117, .n 8 9), (118, .p 4 9), (120, .p 4 9), (122, .p 4 9),
     (132, .p 16 9), (135, .p 16 9), (136, .p 4 9), (137, .p 4 9), (138, .n 4 9), (141, .p 16 9),
     (148, .n 8 9), (151, .n 8 9), (211, .n 8 9), (215, .n 8 9), (217, .n 8 9), (238, .n 8 3),
     (241, .n 8 3), (244, .n 8 3), (247, .n 8 3), (250, .n 8 3), (253, .n 8 3), (284, .p 4 3),
     (286, .p 4 3), (288, .p 4 3), (290, .p 4 3), (292, .p 4 3), (294, .p 4 3), (306, .n 8 9),
     (307, .n 8 9)],
    [(106, .n 8 9), (111, .n 8 9), (115, .n 8 9), (119, .p 4 9), (121, .p 4 9), (123, .p 4 9),
     (130, .p 16 9), (133, .p 16 9), (136, .p 16 9), (139, .n 4 9), (140, .p 4 9), (141, .p 4 9),
     (149, .n 8 9), (152, .n 8 9), (209, .n 8 9), (210, .n 8 9), (211, .n 8 9), (236, .n 8 3),
     (239, .n 8 3), (242, .n 8 3), (245, .n 8 3), (248, .n 8 3), (251, .n 8 3), (285, .p 4 3),
     (287, .p 4 3), (289, .p 4 3), (291, .p 4 3), (293, .p 4 3), (295, .p 4 3), (307, .n 8 9),
     (309, .n 8 9)],
    [(107, .n 8 9), (112, .n 8 9), (116, .n 8 9), (119, .p 4 9), (121, .p 4 9), (123, .p 4 9),
     (131, .p 16 9), (134, .p 16 9), (137, .p 16 9), (139, .p 4 9), (140, .n 4 9), (141, .p 4 9),
     (149, .n 8 9), (152, .n 8 9), (210, .n 8 9), (214, .n 8 9), (215, .n 8 9), (237, .n 8 3),
     (240, .n 8 3), (243, .n 8 3), (246, .n 8 3), (249, .n 8 3), (252, .n 8 3), (285, .p 4 3),
     (287, .p 4 3), (289, .p 4 3), (291, .p 4 3), (293, .p 4 3), (295, .p 4 3), (307, .n 8 9),
     (309, .n 8 9)],
    [(108, .n 8 9), (113, .n 8 9), (117, .n 8 9), (119, .p 4 9), (121, .p 4 9), (123, .p 4 9),
     (132, .p 16 9), (135, .p 16 9), (138, .p 16 9), (139, .p 4 9), (140, .p 4 9), (141, .n 4 9),
     (149, .n 8 9), (152, .n 8 9), (211, .n 8 9), (215, .n 8 9), (217, .n 8 9), (238, .n 8 3),
     (241, .n 8 3), (244, .n 8 3), (247, .n 8 3), (250, .n 8 3), (253, .n 8 3), (285, .p 4 3),
     (287, .p 4 3), (289, .p 4 3), (291, .p 4 3), (293, .p 4 3), (295, .p 4 3), (307, .n 8 9),
     (309, .n 8 9)],
    [(142, .n 10 3)],
    [(143, .n 10 3)],
    [(144, .n 10 3)],
    [(145, .n 10 3)],
    [(146, .n 10 3)],
    [(147, .n 10 3)],
    [(118, .n 8 9), (120, .n 8 9), (122, .n 8 9), (124, .n 8 9), (125, .n 8 9), (126, .n 8 9),
     (130, .n 8 9), (131, .n 8 9), (132, .n 8 9), (136, .n 8 9), (137, .n 8 9), (138, .n 8 9),
     (148, .n 16 9), (149, .p 16 9), (151, .p 16 9), (278, .n 8 3), (280, .n 8 3), (282, .n 8 3),
     (284, .n 8 3), (286, .n 8 3), (288, .n 8 3), (290, .n 8 3), (292, .n 8 3), (294, .n 8 3),
     (296, .n 8 3), (297, .n 8 3), (298, .n 8 3), (302, .p 16 9), (303, .p 16 9), (306, .p 16 9),
     (307, .p 16 9)],
    [(119, .n 8 9), (121, .n 8 9), (123, .n 8 9), (124, .n 8 9), (125, .n 8 9), (126, .n 8 9),
     (130, .n 8 9), (131, .n 8 9), (132, .n 8 9), (139, .n 8 9), (140, .n 8 9), (141, .n 8 9),
     (148, .p 16 9), (149, .n 16 9), (152, .p 16 9), (278, .n 8 3), (280, .n 8 3), (282, .n 8 3),
     (285, .n 8 3), (287, .n 8 3), (289, .n 8 3), (291, .n 8 3), (293, .n 8 3), (295, .n 8 3),
     (296, .n 8 3), (297, .n 8 3), (298, .n 8 3), (302, .p 16 9), (303, .p 16 9), (307, .p 16 9),
     (309, .p 16 9)],
    [(150, .n 16 3)],
    [(118, .n 8 9), (120, .n 8 9), (122, .n 8 9), (127, .n 8 9), (128, .n 8 9), (129, .n 8 9),
     (133, .n 8 9), (134, .n 8 9), (135, .n 8 9), (136, .n 8 9), (137, .n 8 9), (138, .n 8 9),
     (148, .p 16 9), (151, .n 16 9), (152, .p 16 9), (279, .n 8 3), (281, .n 8 3), (283, .n 8 3),
     (284, .n 8 3), (286, .n 8 3), (288, .n 8 3), (290, .n 8 3), (292, .n 8 3), (294, .n 8 3),
     (299, .n 8 3), (300, .n 8 3), (301, .n 8 3), (303, .p 16 9), (305, .p 16 9), (306, .p 16 9),
     (307, .p 16 9)],
    [(119, .n 8 9), (121, .n 8 9), (123, .n 8 9), (127, .n 8 9), (128, .n 8 9), (129, .n 8 9),
     (133, .n 8 9), (134, .n 8 9), (135, .n 8 9), (139, .n 8 9), (140, .n 8 9), (141, .n 8 9),
     (149, .p 16 9), (151, .p 16 9), (152, .n 16 9), (279, .n 8 3), (281, .n 8 3), (283, .n 8 3),
     (285, .n 8 3), (287, .n 8 3), (289, .n 8 3), (291, .n 8 3), (293, .n 8 3), (295, .n 8 3),
     (299, .n 8 3), (300, .n 8 3), (301, .n 8 3), (303, .p 16 9), (305, .p 16 9), (307, .p 16 9),
     (309, .p 16 9)],
    [(153, .n 4 3)],
    [(154, .n 4 3)],
    [(155, .n 4 3)],
    [(156, .n 4 3)],
    [(157, .n 4 3)],
    [(158, .n 4 3)],
    [(159, .n 4 3)],
    [(160, .n 4 3)],
    [(161, .n 4 3)],
    [(162, .n 4 3)],
    [(163, .n 4 3)],
    [(164, .n 4 3)],
    [(165, .p 8 3)],
    [(166, .p 8 3)],
    [(167, .p 8 3)],
    [(168, .p 8 3)],
    [(169, .p 8 3)],
    [(170, .p 8 3)],
    [(171, .n 8 3)],
    [(172, .n 8 3)],
    [(173, .n 8 3)],
    [(174, .n 8 3)],
    [(175, .n 8 3)],
    [(176, .n 8 3)],
    [(177, .p 8 3)],
    [(178, .p 8 3)],
    [(179, .p 8 3)],
    [(180, .p 8 3)],
    [(181, .p 8 3)],
    [(182, .p 8 3)],
    [(183, .n 8 3)],
    [(184, .n 8 3)],
    [(185, .n 8 3)],
    [(186, .n 8 3)],
    [(187, .n 8 3)],
    [(188, .n 8 3)],
    [(189, .n 10 3)],
    [(190, .n 10 3)],
    [(191, .n 10 3)],
    [(192, .n 10 3)],
    [(193, .n 10 3)],
    [(194, .n 10 3)],
    [(195, .n 16 3)],
    [(196, .n 16 3)],
    [(197, .n 16 3)],
    [(198, .n 16 3)],
    [(199, .n 16 3)],
    [(106, .p 32 27), (107, .p 32 27), (108, .p 32 27), (118, .n 64 27), (119, .n 64 27),
     (124, .n 64 27), (127, .n 64 27), (200, .p 68 27), (201, .p 32 27), (202, .p 32 27),
     (218, .p 32 9), (219, .p 32 9), (220, .p 32 9), (227, .p 32 9), (230, .p 32 9),
     (233, .p 32 9)],
    [(106, .p 4 9), (107, .p 4 9), (108, .p 4 9), (111, .p 4 9), (112, .p 4 9), (113, .p 4 9),
     (118, .n 8 9), (119, .n 8 9), (120, .n 8 9), (121, .n 8 9), (124, .n 8 9), (125, .n 8 9),
     (127, .n 8 9), (128, .n 8 9), (200, .p 4 9), (201, .p 20 9), (202, .p 4 9), (205, .p 4 9),
     (206, .p 4 9), (218, .p 4 3), (219, .p 4 3), (220, .p 4 3), (221, .p 4 3), (222, .p 4 3),
     (223, .p 4 3), (227, .p 4 3), (228, .p 4 3), (230, .p 4 3), (231, .p 4 3), (233, .p 4 3),
     (234, .p 4 3)],
    [(106, .p 4 9), (107, .p 4 9), (108, .p 4 9), (115, .p 4 9), (116, .p 4 9), (117, .p 4 9),
     (118, .n 8 9), (119, .n 8 9), (122, .n 8 9), (123, .n 8 9), (124, .n 8 9), (126, .n 8 9),
     (127, .n 8 9), (129, .n 8 9), (200, .p 4 9), (201, .p 4 9), (202, .p 20 9), (206, .p 4 9),
     (208, .p 4 9), (218, .p 4 3), (219, .p 4 3), (220, .p 4 3), (224, .p 4 3), (225, .p 4 3),
     (226, .p 4 3), (227, .p 4 3), (229, .p 4 3), (230, .p 4 3), (232, .p 4 3), (233, .p 4 3),
     (235, .p 4 3)],
    [(106, .p 4 27), (107, .p 4 27), (108, .p 4 27), (111, .p 4 27), (112, .p 4 27),
     (113, .p 4 27), (118, .n 8 27), (119, .n 8 27), (120, .n 8 27), (121, .n 8 27),
     (124, .n 8 27), (125, .n 8 27), (127, .n 8 27), (128, .n 8 27), (200, .p 4 27),
     (201, .p 8 27), (202, .p 4 27), (203, .p 4 3), (205, .p 4 27), (206, .p 4 27),
     (218, .p 4 9), (219, .p 4 9), (220, .p 4 9), (221, .p 4 9), (222, .p 4 9), (223, .p 4 9),
     (227, .p 4 9), (228, .p 4 9), (230, .p 4 9), (231, .p 4 9), (233, .p 4 9), (234, .p 4 9)],
    [(106, .p 4 27), (107, .p 4 27), (108, .p 4 27), (115, .p 4 27), (116, .p 4 27),
     (117, .p 4 27), (118, .n 8 27), (119, .n 8 27), (122, .n 8 27), (123, .n 8 27),
     (124, .n 8 27), (126, .n 8 27), (127, .n 8 27), (129, .n 8 27), (200, .p 4 27),
     (201, .p 4 27), (202, .p 8 27), (204, .p 4 3), (206, .p 4 27), (208, .p 4 27),
     (218, .p 4 9), (219, .p 4 9), (220, .p 4 9), (224, .p 4 9), (225, .p 4 9), (226, .p 4 9),
     (227, .p 4 9), (229, .p 4 9), (230, .p 4 9), (232, .p 4 9), (233, .p 4 9), (235, .p 4 9)],
    [(111, .p 32 27), (112, .p 32 27), (113, .p 32 27), (120, .n 64 27), (121, .n 64 27),
     (125, .n 64 27), (128, .n 64 27), (201, .p 32 27), (205, .p 68 27), (206, .p 32 27),
     (221, .p 32 9), (222, .p 32 9), (223, .p 32 9), (228, .p 32 9), (231, .p 32 9),
     (234, .p 32 9)],
    [(111, .p 4 9), (112, .p 4 9), (113, .p 4 9), (115, .p 4 9), (116, .p 4 9), (117, .p 4 9),
     (120, .n 8 9), (121, .n 8 9), (122, .n 8 9), (123, .n 8 9), (125, .n 8 9), (126, .n 8 9),
     (128, .n 8 9), (129, .n 8 9), (201, .p 4 9), (202, .p 4 9), (205, .p 4 9), (206, .p 20 9),
     (208, .p 4 9), (221, .p 4 3), (222, .p 4 3), (223, .p 4 3), (224, .p 4 3), (225, .p 4 3),
     (226, .p 4 3), (228, .p 4 3), (229, .p 4 3), (231, .p 4 3), (232, .p 4 3), (234, .p 4 3),
     (235, .p 4 3)],
    [(111, .p 4 27), (112, .p 4 27), (113, .p 4 27), (115, .p 4 27), (116, .p 4 27),
     (117, .p 4 27), (120, .n 8 27), (121, .n 8 27), (122, .n 8 27), (123, .n 8 27),
     (125, .n 8 27), (126, .n 8 27), (128, .n 8 27), (129, .n 8 27), (201, .p 4 27),
     (202, .p 4 27), (205, .p 4 27), (206, .p 8 27), (207, .p 4 3), (208, .p 4 27),
     (221, .p 4 9), (222, .p 4 9), (223, .p 4 9), (224, .p 4 9), (225, .p 4 9), (226, .p 4 9),
     (228, .p 4 9), (229, .p 4 9), (231, .p 4 9), (232, .p 4 9), (234, .p 4 9), (235, .p 4 9)],
    [(115, .p 32 27), (116, .p 32 27), (117, .p 32 27), (122, .n 64 27), (123, .n 64 27),
     (126, .n 64 27), (129, .n 64 27), (202, .p 32 27), (206, .p 32 27), (208, .p 68 27),
     (224, .p 32 9), (225, .p 32 9), (226, .p 32 9), (229, .p 32 9), (232, .p 32 9),
     (235, .p 32 9)],
    [(106, .p 32 27), (111, .p 32 27), (115, .p 32 27), (130, .n 64 27), (133, .n 64 27),
     (136, .n 64 27), (139, .n 64 27), (209, .p 68 27), (210, .p 32 27), (211, .p 32 27),
     (236, .p 32 9), (239, .p 32 9), (242, .p 32 9), (245, .p 32 9), (248, .p 32 9),
     (251, .p 32 9)],
    [(106, .p 4 9), (107, .p 4 9), (111, .p 4 9), (112, .p 4 9), (115, .p 4 9), (116, .p 4 9),
     (130, .n 8 9), (131, .n 8 9), (133, .n 8 9), (134, .n 8 9), (136, .n 8 9), (137, .n 8 9),
     (139, .n 8 9), (140, .n 8 9), (209, .p 4 9), (210, .p 20 9), (211, .p 4 9), (214, .p 4 9),
     (215, .p 4 9), (236, .p 4 3), (237, .p 4 3), (239, .p 4 3), (240, .p 4 3), (242, .p 4 3),
     (243, .p 4 3), (245, .p 4 3), (246, .p 4 3), (248, .p 4 3), (249, .p 4 3), (251, .p 4 3),
     (252, .p 4 3)],
    [(106, .p 4 9), (108, .p 4 9), (111, .p 4 9), (113, .p 4 9), (115, .p 4 9), (117, .p 4 9),
     (130, .n 8 9), (132, .n 8 9), (133, .n 8 9), (135, .n 8 9), (136, .n 8 9), (138, .n 8 9),
     (139, .n 8 9), (141, .n 8 9), (209, .p 4 9), (210, .p 4 9), (211, .p 20 9), (215, .p 4 9),
     (217, .p 4 9), (236, .p 4 3), (238, .p 4 3), (239, .p 4 3), (241, .p 4 3), (242, .p 4 3),
     (244, .p 4 3), (245, .p 4 3), (247, .p 4 3), (248, .p 4 3), (250, .p 4 3), (251, .p 4 3),
     (253, .p 4 3)],
    [(106, .p 4 27), (107, .p 4 27), (111, .p 4 27), (112, .p 4 27), (115, .p 4 27),
     (116, .p 4 27), (130, .n 8 27), (131, .n 8 27), (133, .n 8 27), (134, .n 8 27),
     (136, .n 8 27), (137, .n 8 27), (139, .n 8 27), (140, .n 8 27), (209, .p 4 27),
     (210, .p 8 27), (211, .p 4 27), (212, .p 4 3), (214, .p 4 27), (215, .p 4 27),
     (236, .p 4 9), (237, .p 4 9), (239, .p 4 9), (240, .p 4 9), (242, .p 4 9), (243, .p 4 9),
     (245, .p 4 9), (246, .p 4 9), (248, .p 4 9), (249, .p 4 9), (251, .p 4 9), (252, .p 4 9)],
    [(106, .p 4 27), (108, .p 4 27), (111, .p 4 27), (113, .p 4 27), (115, .p 4 27),
     (117, .p 4 27), (130, .n 8 27), (132, .n 8 27), (133, .n 8 27), (135, .n 8 27),
     (136, .n 8 27), (138, .n 8 27), (139, .n 8 27), (141, .n 8 27), (209, .p 4 27),
     (210, .p 4 27), (211, .p 8 27), (213, .p 4 3), (215, .p 4 27), (217, .p 4 27),
     (236, .p 4 9), (238, .p 4 9), (239, .p 4 9), (241, .p 4 9), (242, .p 4 9), (244, .p 4 9),
     (245, .p 4 9), (247, .p 4 9), (248, .p 4 9), (250, .p 4 9), (251, .p 4 9), (253, .p 4 9)],
    [(107, .p 32 27), (112, .p 32 27), (116, .p 32 27), (131, .n 64 27), (134, .n 64 27),
     (137, .n 64 27), (140, .n 64 27), (210, .p 32 27), (214, .p 68 27), (215, .p 32 27),
     (237, .p 32 9), (240, .p 32 9), (243, .p 32 9), (246, .p 32 9), (249, .p 32 9),
     (252, .p 32 9)],
    [(107, .p 4 9), (108, .p 4 9), (112, .p 4 9), (113, .p 4 9), (116, .p 4 9), (117, .p 4 9),
     (131, .n 8 9), (132, .n 8 9), (134, .n 8 9), (135, .n 8 9), (137, .n 8 9), (138, .n 8 9),
     (140, .n 8 9), (141, .n 8 9), (210, .p 4 9), (211, .p 4 9), (214, .p 4 9), (215, .p 20 9),
     (217, .p 4 9), (237, .p 4 3), (238, .p 4 3), (240, .p 4 3), (241, .p 4 3), (243, .p 4 3),
     (244, .p 4 3), (246, .p 4 3), (247, .p 4 3), (249, .p 4 3), (250, .p 4 3), (252, .p 4 3),
     (253, .p 4 3)],
    [(107, .p 4 27), (108, .p 4 27), (112, .p 4 27), (113, .p 4 27), (116, .p 4 27),
     (117, .p 4 27), (131, .n 8 27), (132, .n 8 27), (134, .n 8 27), (135, .n 8 27),
     (137, .n 8 27), (138, .n 8 27), (140, .n 8 27), (141, .n 8 27), (210, .p 4 27),
     (211, .p 4 27), (214, .p 4 27), (215, .p 8 27), (216, .p 4 3), (217, .p 4 27),
     (237, .p 4 9), (238, .p 4 9), (240, .p 4 9), (241, .p 4 9), (243, .p 4 9), (244, .p 4 9),
     (246, .p 4 9), (247, .p 4 9), (249, .p 4 9), (250, .p 4 9), (252, .p 4 9), (253, .p 4 9)],
    [(108, .p 32 27), (113, .p 32 27), (117, .p 32 27), (132, .n 64 27), (135, .n 64 27),
     (138, .n 64 27), (141, .n 64 27), (211, .p 32 27), (215, .p 32 27), (217, .p 68 27),
     (238, .p 32 9), (241, .p 32 9), (244, .p 32 9), (247, .p 32 9), (250, .p 32 9),
     (253, .p 32 9)],
    [(106, .p 4 9), (107, .p 4 9), (108, .p 4 9), (118, .n 8 9), (119, .n 8 9), (124, .n 8 9),
     (127, .n 8 9), (200, .p 4 9), (201, .p 4 9), (202, .p 4 9), (218, .n 20 9), (219, .p 4 3),
     (220, .p 4 3), (221, .p 4 9), (224, .p 4 9), (227, .p 4 3), (230, .p 4 3), (233, .p 4 3),
     (245, .p 4 9), (246, .p 4 9), (247, .p 4 9), (260, .p 4 3), (265, .p 4 3), (269, .p 4 3),
     (272, .p 4 3), (273, .p 4 3), (274, .p 4 3), (290, .n 8 9), (291, .n 8 9), (296, .n 8 9),
     (299, .n 8 9)],
    [(106, .p 4 9), (107, .p 4 9), (108, .p 4 9), (118, .n 8 9), (119, .n 8 9), (124, .n 8 9),
     (127, .n 8 9), (200, .p 4 9), (201, .p 4 9), (202, .p 4 9), (218, .p 4 3), (219, .n 20 9),
     (220, .p 4 3), (222, .p 4 9), (225, .p 4 9), (227, .p 4 3), (230, .p 4 3), (233, .p 4 3),
     (248, .p 4 9), (249, .p 4 9), (250, .p 4 9), (261, .p 4 3), (266, .p 4 3), (270, .p 4 3),
     (273, .p 4 3), (275, .p 4 3), (276, .p 4 3), (292, .n 8 9), (293, .n 8 9), (297, .n 8 9),
     (300, .n 8 9)],
    [(106, .p 4 9), (107, .p 4 9), (108, .p 4 9), (118, .n 8 9), (119, .n 8 9), (124, .n 8 9),
     (127, .n 8 9), (200, .p 4 9), (201, .p 4 9), (202, .p 4 9), (218, .p 4 3), (219, .p 4 3),
     (220, .n 20 9), (223, .p 4 9), (226, .p 4 9), (227, .p 4 3), (230, .p 4 3), (233, .p 4 3),
     (251, .p 4 9), (252, .p 4 9), (253, .p 4 9), (262, .p 4 3), (267, .p 4 3), (271, .p 4 3),
     (274, .p 4 3), (276, .p 4 3), (277, .p 4 3), (294, .n 8 9), (295, .n 8 9), (298, .n 8 9),
     (301, .n 8 9)],
    [(111, .p 4 9), (112, .p 4 9), (113, .p 4 9), (120, .n 8 9), (121, .n 8 9), (125, .n 8 9),
     (128, .n 8 9), (201, .p 4 9), (205, .p 4 9), (206, .p 4 9), (218, .p 4 9), (221, .n 20 9),
     (222, .p 4 3), (223, .p 4 3), (224, .p 4 9), (228, .p 4 3), (231, .p 4 3), (234, .p 4 3),
     (245, .p 4 9), (246, .p 4 9), (247, .p 4 9), (260, .p 4 3), (265, .p 4 3), (269, .p 4 3),
     (272, .p 4 3), (273, .p 4 3), (274, .p 4 3), (290, .n 8 9), (291, .n 8 9), (296, .n 8 9),
     (299, .n 8 9)],
    [(111, .p 4 9), (112, .p 4 9), (113, .p 4 9), (120, .n 8 9), (121, .n 8 9), (125, .n 8 9),
     (128, .n 8 9), (201, .p 4 9), (205, .p 4 9), (206, .p 4 9), (219, .p 4 9), (221, .p 4 3),
     (222, .n 20 9), (223, .p 4 3), (225, .p 4 9), (228, .p 4 3), (231, .p 4 3), (234, .p 4 3),
     (248, .p 4 9), (249, .p 4 9), (250, .p 4 9), (261, .p 4 3), (266, .p 4 3), (270, .p 4 3),
     (273, .p 4 3), (275, .p 4 3), (276, .p 4 3), (292, .n 8 9), (293, .n 8 9), (297, .n 8 9),
     (300, .n 8 9)],
    [(111, .p 4 9), (112, .p 4 9), (113, .p 4 9), (120, .n 8 9), (121, .n 8 9), (125, .n 8 9),
     (128, .n 8 9), (201, .p 4 9), (205, .p 4 9), (206, .p 4 9), (220, .p 4 9), (221, .p 4 3),
     (222, .p 4 3), (223, .n 20 9), (226, .p 4 9), (228, .p 4 3), (231, .p 4 3), (234, .p 4 3),
     (251, .p 4 9), (252, .p 4 9), (253, .p 4 9), (262, .p 4 3), (267, .p 4 3), (271, .p 4 3),
     (274, .p 4 3), (276, .p 4 3), (277, .p 4 3), (294, .n 8 9), (295, .n 8 9), (298, .n 8 9),
     (301, .n 8 9)],
    [(115, .p 4 9), (116, .p 4 9), (117, .p 4 9), (122, .n 8 9), (123, .n 8 9), (126, .n 8 9),
     (129, .n 8 9), (202, .p 4 9), (206, .p 4 9), (208, .p 4 9), (218, .p 4 9), (221, .p 4 9),
     (224, .n 20 9), (225, .p 4 3), (226, .p 4 3), (229, .p 4 3), (232, .p 4 3), (235, .p 4 3),
     (245, .p 4 9), (246, .p 4 9), (247, .p 4 9), (260, .p 4 3), (265, .p 4 3), (269, .p 4 3),
     (272, .p 4 3), (273, .p 4 3), (274, .p 4 3), (290, .n 8 9), (291, .n 8 9), (296, .n 8 9),
     (299, .n 8 9)],
    [(115, .p 4 9), (116, .p 4 9), (117, .p 4 9), (122, .n 8 9), (123, .n 8 9), (126, .n 8 9),
     (129, .n 8 9), (202, .p 4 9), (206, .p 4 9), (208, .p 4 9), (219, .p 4 9), (222, .p 4 9),
     (224, .p 4 3), (225, .n 20 9), (226, .p 4 3), (229, .p 4 3), (232, .p 4 3), (235, .p 4 3),
     (248, .p 4 9), (249, .p 4 9), (250, .p 4 9), (261, .p 4 3), (266, .p 4 3), (270, .p 4 3),
     (273, .p 4 3), (275, .p 4 3), (276, .p 4 3), (292, .n 8 9), (293, .n 8 9), (297, .n 8 9),
     (300, .n 8 9)],
    [(115, .p 4 9), (116, .p 4 9), (117, .p 4 9), (122, .n 8 9), (123, .n 8 9), (126, .n 8 9),
     (129, .n 8 9), (202, .p 4 9), (206, .p 4 9), (208, .p 4 9), (220, .p 4 9), (223, .p 4 9),
     (224, .p 4 3), (225, .p 4 3), (226, .n 20 9), (229, .p 4 3), (232, .p 4 3), (235, .p 4 3),
     (251, .p 4 9), (252, .p 4 9), (253, .p 4 9), (262, .p 4 3), (267, .p 4 3), (271, .p 4 3),
     (274, .p 4 3), (276, .p 4 3), (277, .p 4 3), (294, .n 8 9), (295, .n 8 9), (298, .n 8 9),
     (301, .n 8 9)],
    [(106, .p 4 9), (107, .p 4 9), (108, .p 4 9), (118, .n 8 9), (119, .n 8 9), (124, .n 8 9),
     (127, .n 8 9), (200, .p 4 9), (201, .p 4 9), (202, .p 4 9), (218, .p 4 3), (219, .p 4 3),
     (220, .p 4 3), (227, .p 52 9), (228, .p 4 9), (229, .p 4 9), (230, .p 4 3), (233, .p 4 3),
     (236, .p 4 9), (237, .p 4 9), (238, .p 4 9), (254, .p 4 3), (255, .p 4 3), (256, .p 4 3),
     (260, .p 4 3), (261, .p 4 3), (262, .p 4 3), (278, .n 8 9), (279, .n 8 9), (284, .n 8 9),
     (285, .n 8 9)],
    [(111, .p 4 9), (112, .p 4 9), (113, .p 4 9), (120, .n 8 9), (121, .n 8 9), (125, .n 8 9),
     (128, .n 8 9), (201, .p 4 9), (205, .p 4 9), (206, .p 4 9), (221, .p 4 3), (222, .p 4 3),
     (223, .p 4 3), (227, .p 4 9), (228, .p 52 9), (229, .p 4 9), (231, .p 4 3), (234, .p 4 3),
     (236, .p 4 9), (237, .p 4 9), (238, .p 4 9), (254, .p 4 3), (255, .p 4 3), (256, .p 4 3),
     (260, .p 4 3), (261, .p 4 3), (262, .p 4 3), (278, .n 8 9), (279, .n 8 9), (284, .n 8 9),
     (285, .n 8 9)],
    [(115, .p 4 9), (116, .p 4 9), (117, .p 4 9), (122, .n 8 9), (123, .n 8 9), (126, .n 8 9),
     (129, .n 8 9), (202, .p 4 9), (206, .p 4 9), (208, .p 4 9), (224, .p 4 3), (225, .p 4 3),
     (226, .p 4 3), (227, .p 4 9), (228, .p 4 9), (229, .p 52 9), (232, .p 4 3), (235, .p 4 3),
     (236, .p 4 9), (237, .p 4 9), (238, .p 4 9), (254, .p 4 3), (255, .p 4 3), (256, .p 4 3),
     (260, .p 4 3), (261, .p 4 3), (262, .p 4 3), (278, .n 8 9), (279, .n 8 9), (284, .n 8 9),
     (285, .n 8 9)],
    [(106, .p 4 9), (107, .p 4 9), (108, .p 4 9), (118, .n 8 9), (119, .n 8 9), (124, .n 8 9),
     (127, .n 8 9), (200, .p 4 9), (201, .p 4 9), (202, .p 4 9), (218, .p 4 3), (219, .p 4 3),
     (220, .p 4 3), (227, .p 4 3), (230, .p 52 9), (231, .p 4 9), (232, .p 4 9), (233, .p 4 3),
     (239, .p 4 9), (240, .p 4 9), (241, .p 4 9), (255, .p 4 3), (257, .p 4 3), (258, .p 4 3),
     (265, .p 4 3), (266, .p 4 3), (267, .p 4 3), (280, .n 8 9), (281, .n 8 9), (286, .n 8 9),
     (287, .n 8 9)],
    [(111, .p 4 9), (112, .p 4 9), (113, .p 4 9), (120, .n 8 9), (121, .n 8 9), (125, .n 8 9),
     (128, .n 8 9), (201, .p 4 9), (205, .p 4 9), (206, .p 4 9), (221, .p 4 3), (222, .p 4 3),
     (223, .p 4 3), (228, .p 4 3), (230, .p 4 9), (231, .p 52 9), (232, .p 4 9), (234, .p 4 3),
     (239, .p 4 9), (240, .p 4 9), (241, .p 4 9), (255, .p 4 3), (257, .p 4 3), (258, .p 4 3),
     (265, .p 4 3), (266, .p 4 3), (267, .p 4 3), (280, .n 8 9), (281, .n 8 9), (286, .n 8 9),
     (287, .n 8 9)],
    [(115, .p 4 9), (116, .p 4 9), (117, .p 4 9), (122, .n 8 9), (123, .n 8 9), (126, .n 8 9),
     (129, .n 8 9), (202, .p 4 9), (206, .p 4 9), (208, .p 4 9), (224, .p 4 3), (225, .p 4 3),
     (226, .p 4 3), (229, .p 4 3), (230, .p 4 9), (231, .p 4 9), (232, .p 52 9), (235, .p 4 3),
     (239, .p 4 9), (240, .p 4 9), (241, .p 4 9), (255, .p 4 3), (257, .p 4 3), (258, .p 4 3),
     (265, .p 4 3), (266, .p 4 3), (267, .p 4 3), (280, .n 8 9), (281, .n 8 9), (286, .n 8 9),
     (287, .n 8 9)],
    [(106, .p 4 9), (107, .p 4 9), (108, .p 4 9), (118, .n 8 9), (119, .n 8 9), (124, .n 8 9),
     (127, .n 8 9), (200, .p 4 9), (201, .p 4 9), (202, .p 4 9), (218, .p 4 3), (219, .p 4 3),
     (220, .p 4 3), (227, .p 4 3), (230, .p 4 3), (233, .p 52 9), (234, .p 4 9), (235, .p 4 9),
     (242, .p 4 9), (243, .p 4 9), (244, .p 4 9), (256, .p 4 3), (258, .p 4 3), (259, .p 4 3),
     (269, .p 4 3), (270, .p 4 3), (271, .p 4 3), (282, .n 8 9), (283, .n 8 9), (288, .n 8 9),
     (289, .n 8 9)],
    [(111, .p 4 9), (112, .p 4 9), (113, .p 4 9), (120, .n 8 9), (121, .n 8 9), (125, .n 8 9),
     (128, .n 8 9), (201, .p 4 9), (205, .p 4 9), (206, .p 4 9), (221, .p 4 3), (222, .p 4 3),
     (223, .p 4 3), (228, .p 4 3), (231, .p 4 3), (233, .p 4 9), (234, .p 52 9), (235, .p 4 9),
     (242, .p 4 9), (243, .p 4 9), (244, .p 4 9), (256, .p 4 3), (258, .p 4 3), (259, .p 4 3),
     (269, .p 4 3), (270, .p 4 3), (271, .p 4 3), (282, .n 8 9), (283, .n 8 9), (288, .n 8 9),
     (289, .n 8 9)],
    [(115, .p 4 9), (116, .p 4 9), (117, .p 4 9), (122, .n 8 9), (123, .n 8 9), (126, .n 8 9),
     (129, .n 8 9), (202, .p 4 9), (206, .p 4 9), (208, .p 4 9), (224, .p 4 3), (225, .p 4 3),
     (226, .p 4 3), (229, .p 4 3), (232, .p 4 3), (233, .p 4 9), (234, .p 4 9), (235, .p 52 9),
     (242, .p 4 9), (243, .p 4 9), (244, .p 4 9), (256, .p 4 3), (258, .p 4 3), (259, .p 4 3),
     (269, .p 4 3), (270, .p 4 3), (271, .p 4 3), (282, .n 8 9), (283, .n 8 9), (288, .n 8 9),
     (289, .n 8 9)],
    [(106, .p 4 9), (111, .p 4 9), (115, .p 4 9), (130, .n 8 9), (133, .n 8 9), (136, .n 8 9),
     (139, .n 8 9), (209, .p 4 9), (210, .p 4 9), (211, .p 4 9), (227, .p 4 9), (228, .p 4 9),
     (229, .p 4 9), (236, .n 20 9), (237, .p 4 9), (238, .p 4 9), (239, .p 4 3), (242, .p 4 3),
     (245, .p 4 3), (248, .p 4 3), (251, .p 4 3), (254, .p 4 3), (255, .p 4 3), (256, .p 4 3),
     (260, .p 4 3), (261, .p 4 3), (262, .p 4 3), (278, .n 8 9), (279, .n 8 9), (284, .n 8 9),
     (285, .n 8 9)],
    [(107, .p 4 9), (112, .p 4 9), (116, .p 4 9), (131, .n 8 9), (134, .n 8 9), (137, .n 8 9),
     (140, .n 8 9), (210, .p 4 9), (214, .p 4 9), (215, .p 4 9), (227, .p 4 9), (228, .p 4 9),
     (229, .p 4 9), (236, .p 4 9), (237, .n 20 9), (238, .p 4 9), (240, .p 4 3), (243, .p 4 3),
     (246, .p 4 3), (249, .p 4 3), (252, .p 4 3), (254, .p 4 3), (255, .p 4 3), (256, .p 4 3),
     (260, .p 4 3), (261, .p 4 3), (262, .p 4 3), (278, .n 8 9), (279, .n 8 9), (284, .n 8 9),
     (285, .n 8 9)],
    [(108, .p 4 9), (113, .p 4 9), (117, .p 4 9), (132, .n 8 9), (135, .n 8 9), (138, .n 8 9),
     (141, .n 8 9), (211, .p 4 9), (215, .p 4 9), (217, .p 4 9), (227, .p 4 9), (228, .p 4 9),
     (229, .p 4 9), (236, .p 4 9), (237, .p 4 9), (238, .n 20 9), (241, .p 4 3), (244, .p 4 3),
     (247, .p 4 3), (250, .p 4 3), (253, .p 4 3), (254, .p 4 3), (255, .p 4 3), (256, .p 4 3),
     (260, .p 4 3), (261, .p 4 3), (262, .p 4 3), (278, .n 8 9), (279, .n 8 9), (284, .n 8 9),
     (285, .n 8 9)],
    [(106, .p 4 9), (111, .p 4 9), (115, .p 4 9), (130, .n 8 9), (133, .n 8 9), (136, .n 8 9),
     (139, .n 8 9), (209, .p 4 9), (210, .p 4 9), (211, .p 4 9), (230, .p 4 9), (231, .p 4 9),
     (232, .p 4 9), (236, .p 4 3), (239, .n 20 9), (240, .p 4 9), (241, .p 4 9), (242, .p 4 3),
     (245, .p 4 3), (248, .p 4 3), (251, .p 4 3), (255, .p 4 3), (257, .p 4 3), (258, .p 4 3),
     (265, .p 4 3), (266, .p 4 3), (267, .p 4 3), (280, .n 8 9), (281, .n 8 9), (286, .n 8 9),
     (287, .n 8 9)],
    [(107, .p 4 9), (112, .p 4 9), (116, .p 4 9), (131, .n 8 9), (134, .n 8 9), (137, .n 8 9),
     (140, .n 8 9), (210, .p 4 9), (214, .p 4 9), (215, .p 4 9), (230, .p 4 9), (231, .p 4 9),
     (232, .p 4 9), (237, .p 4 3), (239, .p 4 9), (240, .n 20 9), (241, .p 4 9), (243, .p 4 3),
     (246, .p 4 3), (249, .p 4 3), (252, .p 4 3), (255, .p 4 3), (257, .p 4 3), (258, .p 4 3),
     (265, .p 4 3), (266, .p 4 3), (267, .p 4 3), (280, .n 8 9), (281, .n 8 9), (286, .n 8 9),
     (287, .n 8 9)],
    [(108, .p 4 9), (113, .p 4 9), (117, .p 4 9), (132, .n 8 9), (135, .n 8 9), (138, .n 8 9),
     (141, .n 8 9), (211, .p 4 9), (215, .p 4 9), (217, .p 4 9), (230, .p 4 9), (231, .p 4 9),
     (232, .p 4 9), (238, .p 4 3), (239, .p 4 9), (240, .p 4 9), (241, .n 20 9), (244, .p 4 3),
     (247, .p 4 3), (250, .p 4 3), (253, .p 4 3), (255, .p 4 3), (257, .p 4 3), (258, .p 4 3),
     (265, .p 4 3), (266, .p 4 3), (267, .p 4 3), (280, .n 8 9), (281, .n 8 9), (286, .n 8 9),
     (287, .n 8 9)],
    [(106, .p 4 9), (111, .p 4 9), (115, .p 4 9), (130, .n 8 9), (133, .n 8 9), (136, .n 8 9),
     (139, .n 8 9), (209, .p 4 9), (210, .p 4 9), (211, .p 4 9), (233, .p 4 9), (234, .p 4 9),
     (235, .p 4 9), (236, .p 4 3), (239, .p 4 3), (242, .n 20 9), (243, .p 4 9), (244, .p 4 9),
     (245, .p 4 3), (248, .p 4 3), (251, .p 4 3), (256, .p 4 3), (258, .p 4 3), (259, .p 4 3),
     (269, .p 4 3), (270, .p 4 3), (271, .p 4 3), (282, .n 8 9), (283, .n 8 9), (288, .n 8 9),
     (289, .n 8 9)],
    [(107, .p 4 9), (112, .p 4 9), (116, .p 4 9), (131, .n 8 9), (134, .n 8 9), (137, .n 8 9),
     (140, .n 8 9), (210, .p 4 9), (214, .p 4 9), (215, .p 4 9), (233, .p 4 9), (234, .p 4 9),
     (235, .p 4 9), (237, .p 4 3), (240, .p 4 3), (242, .p 4 9), (243, .n 20 9), (244, .p 4 9),
     (246, .p 4 3), (249, .p 4 3), (252, .p 4 3), (256, .p 4 3), (258, .p 4 3), (259, .p 4 3),
     (269, .p 4 3), (270, .p 4 3), (271, .p 4 3), (282, .n 8 9), (283, .n 8 9), (288, .n 8 9),
     (289, .n 8 9)],
    [(108, .p 4 9), (113, .p 4 9), (117, .p 4 9), (132, .n 8 9), (135, .n 8 9), (138, .n 8 9),
     (141, .n 8 9), (211, .p 4 9), (215, .p 4 9), (217, .p 4 9), (233, .p 4 9), (234, .p 4 9),
     (235, .p 4 9), (238, .p 4 3), (241, .p 4 3), (242, .p 4 9), (243, .p 4 9), (244, .n 20 9),
     (247, .p 4 3), (250, .p 4 3), (253, .p 4 3), (256, .p 4 3), (258, .p 4 3), (259, .p 4 3),
     (269, .p 4 3), (270, .p 4 3), (271, .p 4 3), (282, .n 8 9), (283, .n 8 9), (288, .n 8 9),
     (289, .n 8 9)],
    [(106, .p 4 9), (111, .p 4 9), (115, .p 4 9), (130, .n 8 9), (133, .n 8 9), (136, .n 8 9),
     (139, .n 8 9), (209, .p 4 9), (210, .p 4 9), (211, .p 4 9), (218, .p 4 9), (221, .p 4 9),
     (224, .p 4 9), (236, .p 4 3), (239, .p 4 3), (242, .p 4 3), (245, .p 52 9), (246, .p 4 9),
     (247, .p 4 9), (248, .p 4 3), (251, .p 4 3), (260, .p 4 3), (265, .p 4 3), (269, .p 4 3),
     (272, .p 4 3), (273, .p 4 3), (274, .p 4 3), (290, .n 8 9), (291, .n 8 9), (296, .n 8 9),
     (299, .n 8 9)],
    [(107, .p 4 9), (112, .p 4 9), (116, .p 4 9), (131, .n 8 9), (134, .n 8 9), (137, .n 8 9),
     (140, .n 8 9), (210, .p 4 9), (214, .p 4 9), (215, .p 4 9), (218, .p 4 9), (221, .p 4 9),
     (224, .p 4 9), (237, .p 4 3), (240, .p 4 3), (243, .p 4 3), (245, .p 4 9), (246, .p 52 9),
     (247, .p 4 9), (249, .p 4 3), (252, .p 4 3), (260, .p 4 3), (265, .p 4 3), (269, .p 4 3),
     (272, .p 4 3), (273, .p 4 3), (274, .p 4 3), (290, .n 8 9), (291, .n 8 9), (296, .n 8 9),
     (299, .n 8 9)],
    [(108, .p 4 9), (113, .p 4 9), (117, .p 4 9), (132, .n 8 9), (135, .n 8 9), (138, .n 8 9),
     (141, .n 8 9), (211, .p 4 9), (215, .p 4 9), (217, .p 4 9), (218, .p 4 9), (221, .p 4 9),
     (224, .p 4 9), (238, .p 4 3), (241, .p 4 3), (244, .p 4 3), (245, .p 4 9), (246, .p 4 9),
     (247, .p 52 9), (250, .p 4 3), (253, .p 4 3), (260, .p 4 3), (265, .p 4 3), (269, .p 4 3),
     (272, .p 4 3), (273, .p 4 3), (274, .p 4 3), (290, .n 8 9), (291, .n 8 9), (296, .n 8 9),
     (299, .n 8 9)],
    [(106, .p 4 9), (111, .p 4 9), (115, .p 4 9), (130, .n 8 9), (133, .n 8 9), (136, .n 8 9),
     (139, .n 8 9), (209, .p 4 9), (210, .p 4 9), (211, .p 4 9), (219, .p 4 9), (222, .p 4 9),
     (225, .p 4 9), (236, .p 4 3), (239, .p 4 3), (242, .p 4 3), (245, .p 4 3), (248, .p 52 9),
     (249, .p 4 9), (250, .p 4 9), (251, .p 4 3), (261, .p 4 3), (266, .p 4 3), (270, .p 4 3),
     (273, .p 4 3), (275, .p 4 3), (276, .p 4 3), (292, .n 8 9), (293, .n 8 9), (297, .n 8 9),
     (300, .n 8 9)],
    [(107, .p 4 9), (112, .p 4 9), (116, .p 4 9), (131, .n 8 9), (134, .n 8 9), (137, .n 8 9),
     (140, .n 8 9), (210, .p 4 9), (214, .p 4 9), (215, .p 4 9), (219, .p 4 9), (222, .p 4 9),
     (225, .p 4 9), (237, .p 4 3), (240, .p 4 3), (243, .p 4 3), (246, .p 4 3), (248, .p 4 9),
     (249, .p 52 9), (250, .p 4 9), (252, .p 4 3), (261, .p 4 3), (266, .p 4 3), (270, .p 4 3),
     (273, .p 4 3), (275, .p 4 3), (276, .p 4 3), (292, .n 8 9), (293, .n 8 9), (297, .n 8 9),
     (300, .n 8 9)],
    [(108, .p 4 9), (113, .p 4 9), (117, .p 4 9), (132, .n 8 9), (135, .n 8 9), (138, .n 8 9),
     (141, .n 8 9), (211, .p 4 9), (215, .p 4 9), (217, .p 4 9), (219, .p 4 9), (222, .p 4 9),
     (225, .p 4 9), (238, .p 4 3), (241, .p 4 3), (244, .p 4 3), (247, .p 4 3), (248, .p 4 9),
     (249, .p 4 9), (250, .p 52 9), (253, .p 4 3), (261, .p 4 3), (266, .p 4 3), (270, .p 4 3),
     (273, .p 4 3), (275, .p 4 3), (276, .p 4 3), (292, .n 8 9), (293, .n 8 9), (297, .n 8 9),
     (300, .n 8 9)],
    [(106, .p 4 9), (111, .p 4 9), (115, .p 4 9), (130, .n 8 9), (133, .n 8 9), (136, .n 8 9),
     (139, .n 8 9), (209, .p 4 9), (210, .p 4 9), (211, .p 4 9), (220, .p 4 9), (223, .p 4 9),
     (226, .p 4 9), (236, .p 4 3), (239, .p 4 3), (242, .p 4 3), (245, .p 4 3), (248, .p 4 3),
     (251, .p 52 9), (252, .p 4 9), (253, .p 4 9), (262, .p 4 3), (267, .p 4 3), (271, .p 4 3),
     (274, .p 4 3), (276, .p 4 3), (277, .p 4 3), (294, .n 8 9), (295, .n 8 9), (298, .n 8 9),
     (301, .n 8 9)],
    [(107, .p 4 9), (112, .p 4 9), (116, .p 4 9), (131, .n 8 9), (134, .n 8 9), (137, .n 8 9),
     (140, .n 8 9), (210, .p 4 9), (214, .p 4 9), (215, .p 4 9), (220, .p 4 9), (223, .p 4 9),
     (226, .p 4 9), (237, .p 4 3), (240, .p 4 3), (243, .p 4 3), (246, .p 4 3), (249, .p 4 3),
     (251, .p 4 9), (252, .p 52 9), (253, .p 4 9), (262, .p 4 3), (267, .p 4 3), (271, .p 4 3),
     (274, .p 4 3), (276, .p 4 3), (277, .p 4 3), (294, .n 8 9), (295, .n 8 9), (298, .n 8 9),
     (301, .n 8 9)],
    [(108, .p 4 9), (113, .p 4 9), (117, .p 4 9), (132, .n 8 9), (135, .n 8 9), (138, .n 8 9),
     (141, .n 8 9), (211, .p 4 9), (215, .p 4 9), (217, .p 4 9), (220, .p 4 9), (223, .p 4 9),
     (226, .p 4 9), (238, .p 4 3), (241, .p 4 3), (244, .p 4 3), (247, .p 4 3), (250, .p 4 3),
     (251, .p 4 9), (252, .p 4 9), (253, .p 52 9), (262, .p 4 3), (267, .p 4 3), (271, .p 4 3),
     (274, .p 4 3), (276, .p 4 3), (277, .p 4 3), (294, .n 8 9), (295, .n 8 9), (298, .n 8 9),
     (301, .n 8 9)],
    [(227, .p 16 9), (228, .p 16 9), (229, .p 16 9), (236, .p 16 9), (237, .p 16 9),
     (238, .p 16 9), (254, .p 52 3), (255, .p 16 3), (256, .p 16 3), (260, .p 16 3),
     (261, .p 16 3), (262, .p 16 3), (278, .n 32 9), (279, .n 32 9), (284, .n 32 9),
     (285, .n 32 9)],
    [(227, .p 4 9), (228, .p 4 9), (229, .p 4 9), (230, .p 4 9), (231, .p 4 9), (232, .p 4 9),
     (236, .p 4 9), (237, .p 4 9), (238, .p 4 9), (239, .p 4 9), (240, .p 4 9), (241, .p 4 9),
     (254, .p 4 3), (255, .p 44 3), (256, .p 4 3), (257, .p 4 3), (258, .p 4 3), (260, .p 4 3),
     (261, .p 4 3), (262, .p 4 3), (265, .p 4 3), (266, .p 4 3), (267, .p 4 3), (278, .n 8 9),
     (279, .n 8 9), (280, .n 8 9), (281, .n 8 9), (284, .n 8 9), (285, .n 8 9), (286, .n 8 9),
     (287, .n 8 9)],
    [(227, .p 4 9), (228, .p 4 9), (229, .p 4 9), (233, .p 4 9), (234, .p 4 9), (235, .p 4 9),
     (236, .p 4 9), (237, .p 4 9), (238, .p 4 9), (242, .p 4 9), (243, .p 4 9), (244, .p 4 9),
     (254, .p 4 3), (255, .p 4 3), (256, .p 44 3), (258, .p 4 3), (259, .p 4 3), (260, .p 4 3),
     (261, .p 4 3), (262, .p 4 3), (269, .p 4 3), (270, .p 4 3), (271, .p 4 3), (278, .n 8 9),
     (279, .n 8 9), (282, .n 8 9), (283, .n 8 9), (284, .n 8 9), (285, .n 8 9), (288, .n 8 9),
     (289, .n 8 9)],
    [(230, .p 16 9), (231, .p 16 9), (232, .p 16 9), (239, .p 16 9), (240, .p 16 9),
     (241, .p 16 9), (255, .p 16 3), (257, .p 52 3), (258, .p 16 3), (265, .p 16 3),
     (266, .p 16 3), (267, .p 16 3), (280, .n 32 9), (281, .n 32 9), (286, .n 32 9),
     (287, .n 32 9)],
    [(230, .p 4 9), (231, .p 4 9), (232, .p 4 9), (233, .p 4 9), (234, .p 4 9), (235, .p 4 9),
     (239, .p 4 9), (240, .p 4 9), (241, .p 4 9), (242, .p 4 9), (243, .p 4 9), (244, .p 4 9),
     (255, .p 4 3), (256, .p 4 3), (257, .p 4 3), (258, .p 44 3), (259, .p 4 3), (265, .p 4 3),
     (266, .p 4 3), (267, .p 4 3), (269, .p 4 3), (270, .p 4 3), (271, .p 4 3), (280, .n 8 9),
     (281, .n 8 9), (282, .n 8 9), (283, .n 8 9), (286, .n 8 9), (287, .n 8 9), (288, .n 8 9),
     (289, .n 8 9)],
    [(233, .p 16 9), (234, .p 16 9), (235, .p 16 9), (242, .p 16 9), (243, .p 16 9),
     (244, .p 16 9), (256, .p 16 3), (258, .p 16 3), (259, .p 52 3), (269, .p 16 3),
     (270, .p 16 3), (271, .p 16 3), (282, .n 32 9), (283, .n 32 9), (288, .n 32 9),
     (289, .n 32 9)],
    [(218, .p 4 9), (221, .p 4 9), (224, .p 4 9), (227, .p 4 9), (228, .p 4 9), (229, .p 4 9),
     (236, .p 4 9), (237, .p 4 9), (238, .p 4 9), (245, .p 4 9), (246, .p 4 9), (247, .p 4 9),
     (254, .p 4 3), (255, .p 4 3), (256, .p 4 3), (260, .n 28 3), (261, .p 4 3), (262, .p 4 3),
     (265, .p 4 3), (269, .p 4 3), (272, .p 4 3), (273, .p 4 3), (274, .p 4 3), (278, .n 8 9),
     (279, .n 8 9), (284, .n 8 9), (285, .n 8 9), (290, .n 8 9), (291, .n 8 9), (296, .n 8 9),
     (299, .n 8 9)],
    [(219, .p 4 9), (222, .p 4 9), (225, .p 4 9), (227, .p 4 9), (228, .p 4 9), (229, .p 4 9),
     (236, .p 4 9), (237, .p 4 9), (238, .p 4 9), (248, .p 4 9), (249, .p 4 9), (250, .p 4 9),
     (254, .p 4 3), (255, .p 4 3), (256, .p 4 3), (260, .p 4 3), (261, .n 28 3), (262, .p 4 3),
     (266, .p 4 3), (270, .p 4 3), (273, .p 4 3), (275, .p 4 3), (276, .p 4 3), (278, .n 8 9),
     (279, .n 8 9), (284, .n 8 9), (285, .n 8 9), (292, .n 8 9), (293, .n 8 9), (297, .n 8 9),
     (300, .n 8 9)],
    [(220, .p 4 9), (223, .p 4 9), (226, .p 4 9), (227, .p 4 9), (228, .p 4 9), (229, .p 4 9),
     (236, .p 4 9), (237, .p 4 9), (238, .p 4 9), (251, .p 4 9), (252, .p 4 9), (253, .p 4 9),
     (254, .p 4 3), (255, .p 4 3), (256, .p 4 3), (260, .p 4 3), (261, .p 4 3), (262, .n 28 3),
     (267, .p 4 3), (271, .p 4 3), (274, .p 4 3), (276, .p 4 3), (277, .p 4 3), (278, .n 8 9),
     (279, .n 8 9), (284, .n 8 9), (285, .n 8 9), (294, .n 8 9), (295, .n 8 9), (298, .n 8 9),
     (301, .n 8 9)],
    [(263, .n 12 1)],
    [(264, .n 12 1)],
    [(218, .p 4 9), (221, .p 4 9), (224, .p 4 9), (230, .p 4 9), (231, .p 4 9), (232, .p 4 9),
     (239, .p 4 9), (240, .p 4 9), (241, .p 4 9), (245, .p 4 9), (246, .p 4 9), (247, .p 4 9),
     (255, .p 4 3), (257, .p 4 3), (258, .p 4 3), (260, .p 4 3), (265, .n 28 3), (266, .p 4 3),
     (267, .p 4 3), (269, .p 4 3), (272, .p 4 3), (273, .p 4 3), (274, .p 4 3), (280, .n 8 9),
     (281, .n 8 9), (286, .n 8 9), (287, .n 8 9), (290, .n 8 9), (291, .n 8 9), (296, .n 8 9),
     (299, .n 8 9)],
    [(219, .p 4 9), (222, .p 4 9), (225, .p 4 9), (230, .p 4 9), (231, .p 4 9), (232, .p 4 9),
     (239, .p 4 9), (240, .p 4 9), (241, .p 4 9), (248, .p 4 9), (249, .p 4 9), (250, .p 4 9),
     (255, .p 4 3), (257, .p 4 3), (258, .p 4 3), (261, .p 4 3), (265, .p 4 3), (266, .n 28 3),
     (267, .p 4 3), (270, .p 4 3), (273, .p 4 3), (275, .p 4 3), (276, .p 4 3), (280, .n 8 9),
     (281, .n 8 9), (286, .n 8 9), (287, .n 8 9), (292, .n 8 9), (293, .n 8 9), (297, .n 8 9),
     (300, .n 8 9)],
    [(220, .p 4 9), (223, .p 4 9), (226, .p 4 9), (230, .p 4 9), (231, .p 4 9), (232, .p 4 9),
     (239, .p 4 9), (240, .p 4 9), (241, .p 4 9), (251, .p 4 9), (252, .p 4 9), (253, .p 4 9),
     (255, .p 4 3), (257, .p 4 3), (258, .p 4 3), (262, .p 4 3), (265, .p 4 3), (266, .p 4 3),
     (267, .n 28 3), (271, .p 4 3), (274, .p 4 3), (276, .p 4 3), (277, .p 4 3), (280, .n 8 9),
     (281, .n 8 9), (286, .n 8 9), (287, .n 8 9), (294, .n 8 9), (295, .n 8 9), (298, .n 8 9),
     (301, .n 8 9)],
    [(268, .n 12 1)],
    [(218, .p 4 9), (221, .p 4 9), (224, .p 4 9), (233, .p 4 9), (234, .p 4 9), (235, .p 4 9),
     (242, .p 4 9), (243, .p 4 9), (244, .p 4 9), (245, .p 4 9), (246, .p 4 9), (247, .p 4 9),
     (256, .p 4 3), (258, .p 4 3), (259, .p 4 3), (260, .p 4 3), (265, .p 4 3), (269, .n 28 3),
     (270, .p 4 3), (271, .p 4 3), (272, .p 4 3), (273, .p 4 3), (274, .p 4 3), (282, .n 8 9),
     (283, .n 8 9), (288, .n 8 9), (289, .n 8 9), (290, .n 8 9), (291, .n 8 9), (296, .n 8 9),
     (299, .n 8 9)],
    [(219, .p 4 9), (222, .p 4 9), (225, .p 4 9), (233, .p 4 9), (234, .p 4 9), (235, .p 4 9),
     (242, .p 4 9), (243, .p 4 9), (244, .p 4 9), (248, .p 4 9), (249, .p 4 9), (250, .p 4 9),
     (256, .p 4 3), (258, .p 4 3), (259, .p 4 3), (261, .p 4 3), (266, .p 4 3), (269, .p 4 3),
     (270, .n 28 3), (271, .p 4 3), (273, .p 4 3), (275, .p 4 3), (276, .p 4 3), (282, .n 8 9),
     (283, .n 8 9), (288, .n 8 9), (289, .n 8 9), (292, .n 8 9), (293, .n 8 9), (297, .n 8 9),
     (300, .n 8 9)],
    [(220, .p 4 9), (223, .p 4 9), (226, .p 4 9), (233, .p 4 9), (234, .p 4 9), (235, .p 4 9),
     (242, .p 4 9), (243, .p 4 9), (244, .p 4 9), (251, .p 4 9), (252, .p 4 9), (253, .p 4 9),
     (256, .p 4 3), (258, .p 4 3), (259, .p 4 3), (262, .p 4 3), (267, .p 4 3), (269, .p 4 3),
     (270, .p 4 3), (271, .n 28 3), (274, .p 4 3), (276, .p 4 3), (277, .p 4 3), (282, .n 8 9),
     (283, .n 8 9), (288, .n 8 9), (289, .n 8 9), (294, .n 8 9), (295, .n 8 9), (298, .n 8 9),
     (301, .n 8 9)],
    [(218, .p 16 9), (221, .p 16 9), (224, .p 16 9), (245, .p 16 9), (246, .p 16 9),
     (247, .p 16 9), (260, .p 16 3), (265, .p 16 3), (269, .p 16 3), (272, .p 52 3),
     (273, .p 16 3), (274, .p 16 3), (290, .n 32 9), (291, .n 32 9), (296, .n 32 9),
     (299, .n 32 9)],
    [(218, .p 4 9), (219, .p 4 9), (221, .p 4 9), (222, .p 4 9), (224, .p 4 9), (225, .p 4 9),
     (245, .p 4 9), (246, .p 4 9), (247, .p 4 9), (248, .p 4 9), (249, .p 4 9), (250, .p 4 9),
     (260, .p 4 3), (261, .p 4 3), (265, .p 4 3), (266, .p 4 3), (269, .p 4 3), (270, .p 4 3),
     (272, .p 4 3), (273, .p 44 3), (274, .p 4 3), (275, .p 4 3), (276, .p 4 3), (290, .n 8 9),
     (291, .n 8 9), (292, .n 8 9), (293, .n 8 9), (296, .n 8 9), (297, .n 8 9), (299, .n 8 9),
     (300, .n 8 9)],
    [(218, .p 4 9), (220, .p 4 9), (221, .p 4 9), (223, .p 4 9), (224, .p 4 9), (226, .p 4 9),
     (245, .p 4 9), (246, .p 4 9), (247, .p 4 9), (251, .p 4 9), (252, .p 4 9), (253, .p 4 9),
     (260, .p 4 3), (262, .p 4 3), (265, .p 4 3), (267, .p 4 3), (269, .p 4 3), (271, .p 4 3),
     (272, .p 4 3), (273, .p 4 3), (274, .p 44 3), (276, .p 4 3), (277, .p 4 3), (290, .n 8 9),
     (291, .n 8 9), (294, .n 8 9), (295, .n 8 9), (296, .n 8 9), (298, .n 8 9), (299, .n 8 9),
     (301, .n 8 9)],
    [(219, .p 16 9), (222, .p 16 9), (225, .p 16 9), (248, .p 16 9), (249, .p 16 9),
     (250, .p 16 9), (261, .p 16 3), (266, .p 16 3), (270, .p 16 3), (273, .p 16 3),
     (275, .p 52 3), (276, .p 16 3), (292, .n 32 9), (293, .n 32 9), (297, .n 32 9),
     (300, .n 32 9)],
    [(219, .p 4 9), (220, .p 4 9), (222, .p 4 9), (223, .p 4 9), (225, .p 4 9), (226, .p 4 9),
     (248, .p 4 9), (249, .p 4 9), (250, .p 4 9), (251, .p 4 9), (252, .p 4 9), (253, .p 4 9),
     (261, .p 4 3), (262, .p 4 3), (266, .p 4 3), (267, .p 4 3), (270, .p 4 3), (271, .p 4 3),
     (273, .p 4 3), (274, .p 4 3), (275, .p 4 3), (276, .p 44 3), (277, .p 4 3), (292, .n 8 9),
     (293, .n 8 9), (294, .n 8 9), (295, .n 8 9), (297, .n 8 9), (298, .n 8 9), (300, .n 8 9),
     (301, .n 8 9)],
    [(220, .p 16 9), (223, .p 16 9), (226, .p 16 9), (251, .p 16 9), (252, .p 16 9),
     (253, .p 16 9), (262, .p 16 3), (267, .p 16 3), (271, .p 16 3), (274, .p 16 3),
     (276, .p 16 3), (277, .p 52 3), (294, .n 32 9), (295, .n 32 9), (298, .n 32 9),
     (301, .n 32 9)],
    [(124, .p 4 9), (125, .p 4 9), (126, .p 4 9), (130, .p 4 9), (131, .p 4 9), (132, .p 4 9),
     (148, .n 8 9), (149, .n 8 9), (227, .n 8 9), (228, .n 8 9), (229, .n 8 9), (236, .n 8 9),
     (237, .n 8 9), (238, .n 8 9), (254, .n 8 3), (255, .n 8 3), (256, .n 8 3), (260, .n 8 3),
     (261, .n 8 3), (262, .n 8 3), (278, .n 44 9), (279, .p 16 9), (280, .p 4 3), (282, .p 4 3),
     (284, .p 16 9), (285, .p 16 9), (296, .p 4 3), (297, .p 4 3), (298, .p 4 3), (302, .n 8 9),
     (303, .n 8 9)],
    [(127, .p 4 9), (128, .p 4 9), (129, .p 4 9), (133, .p 4 9), (134, .p 4 9), (135, .p 4 9),
     (151, .n 8 9), (152, .n 8 9), (227, .n 8 9), (228, .n 8 9), (229, .n 8 9), (236, .n 8 9),
     (237, .n 8 9), (238, .n 8 9), (254, .n 8 3), (255, .n 8 3), (256, .n 8 3), (260, .n 8 3),
     (261, .n 8 3), (262, .n 8 3), (278, .p 16 9), (279, .n 44 9), (281, .p 4 3), (283, .p 4 3),
     (284, .p 16 9), (285, .p 16 9), (299, .p 4 3), (300, .p 4 3), (301, .p 4 3), (303, .n 8 9),
     (305, .n 8 9)],
    [(124, .p 4 9), (125, .p 4 9), (126, .p 4 9), (130, .p 4 9), (131, .p 4 9), (132, .p 4 9),
     (148, .n 8 9), (149, .n 8 9), (230, .n 8 9), (231, .n 8 9), (232, .n 8 9), (239, .n 8 9),
     (240, .n 8 9), (241, .n 8 9), (255, .n 8 3), (257, .n 8 3), (258, .n 8 3), (265, .n 8 3),
     (266, .n 8 3), (267, .n 8 3), (278, .p 4 3), (280, .n 44 9), (281, .p 16 9), (282, .p 4 3),
     (286, .p 16 9), (287, .p 16 9), (296, .p 4 3), (297, .p 4 3), (298, .p 4 3), (302, .n 8 9),
     (303, .n 8 9)],
    [(127, .p 4 9), (128, .p 4 9), (129, .p 4 9), (133, .p 4 9), (134, .p 4 9), (135, .p 4 9),
     (151, .n 8 9), (152, .n 8 9), (230, .n 8 9), (231, .n 8 9), (232, .n 8 9), (239, .n 8 9),
     (240, .n 8 9), (241, .n 8 9), (255, .n 8 3), (257, .n 8 3), (258, .n 8 3), (265, .n 8 3),
     (266, .n 8 3), (267, .n 8 3), (279, .p 4 3), (280, .p 16 9), (281, .n 44 9), (283, .p 4 3),
     (286, .p 16 9), (287, .p 16 9), (299, .p 4 3), (300, .p 4 3), (301, .p 4 3), (303, .n 8 9),
     (305, .n 8 9)],
    [(124, .p 4 9), (125, .p 4 9), (126, .p 4 9), (130, .p 4 9), (131, .p 4 9), (132, .p 4 9),
     (148, .n 8 9), (149, .n 8 9), (233, .n 8 9), (234, .n 8 9), (235, .n 8 9), (242, .n 8 9),
     (243, .n 8 9), (244, .n 8 9), (256, .n 8 3), (258, .n 8 3), (259, .n 8 3), (269, .n 8 3),
     (270, .n 8 3), (271, .n 8 3), (278, .p 4 3), (280, .p 4 3), (282, .n 44 9), (283, .p 16 9),
     (288, .p 16 9), (289, .p 16 9), (296, .p 4 3), (297, .p 4 3), (298, .p 4 3), (302, .n 8 9),
     (303, .n 8 9)],
    [(127, .p 4 9), (128, .p 4 9), (129, .p 4 9), (133, .p 4 9), (134, .p 4 9), (135, .p 4 9),
     (151, .n 8 9), (152, .n 8 9), (233, .n 8 9), (234, .n 8 9), (235, .n 8 9), (242, .n 8 9),
     (243, .n 8 9), (244, .n 8 9), (256, .n 8 3), (258, .n 8 3), (259, .n 8 3), (269, .n 8 3),
     (270, .n 8 3), (271, .n 8 3), (279, .p 4 3), (281, .p 4 3), (282, .p 16 9), (283, .n 44 9),
     (288, .p 16 9), (289, .p 16 9), (299, .p 4 3), (300, .p 4 3), (301, .p 4 3), (303, .n 8 9),
     (305, .n 8 9)],
    [(118, .p 4 9), (120, .p 4 9), (122, .p 4 9), (136, .p 4 9), (137, .p 4 9), (138, .p 4 9),
     (148, .n 8 9), (151, .n 8 9), (227, .n 8 9), (228, .n 8 9), (229, .n 8 9), (236, .n 8 9),
     (237, .n 8 9), (238, .n 8 9), (254, .n 8 3), (255, .n 8 3), (256, .n 8 3), (260, .n 8 3),
     (261, .n 8 3), (262, .n 8 3), (278, .p 16 9), (279, .p 16 9), (284, .p 100 9),
     (285, .p 16 9), (286, .p 4 3), (288, .p 4 3), (290, .p 4 3), (292, .p 4 3), (294, .p 4 3),
     (306, .n 8 9), (307, .n 8 9)],
    [(119, .p 4 9), (121, .p 4 9), (123, .p 4 9), (139, .p 4 9), (140, .p 4 9), (141, .p 4 9),
     (149, .n 8 9), (152, .n 8 9), (227, .n 8 9), (228, .n 8 9), (229, .n 8 9), (236, .n 8 9),
     (237, .n 8 9), (238, .n 8 9), (254, .n 8 3), (255, .n 8 3), (256, .n 8 3), (260, .n 8 3),
     (261, .n 8 3), (262, .n 8 3), (278, .p 16 9), (279, .p 16 9), (284, .p 16 9),
     (285, .p 100 9), (287, .p 4 3), (289, .p 4 3), (291, .p 4 3), (293, .p 4 3), (295, .p 4 3),
     (307, .n 8 9), (309, .n 8 9)],
    [(118, .p 4 9), (120, .p 4 9), (122, .p 4 9), (136, .p 4 9), (137, .p 4 9), (138, .p 4 9),
     (148, .n 8 9), (151, .n 8 9), (230, .n 8 9), (231, .n 8 9), (232, .n 8 9), (239, .n 8 9),
     (240, .n 8 9), (241, .n 8 9), (255, .n 8 3), (257, .n 8 3), (258, .n 8 3), (265, .n 8 3),
     (266, .n 8 3), (267, .n 8 3), (280, .p 16 9), (281, .p 16 9), (284, .p 4 3),
     (286, .p 100 9), (287, .p 16 9), (288, .p 4 3), (290, .p 4 3), (292, .p 4 3), (294, .p 4 3),
     (306, .n 8 9), (307, .n 8 9)],
    [(119, .p 4 9), (121, .p 4 9), (123, .p 4 9), (139, .p 4 9), (140, .p 4 9), (141, .p 4 9),
     (149, .n 8 9), (152, .n 8 9), (230, .n 8 9), (231, .n 8 9), (232, .n 8 9), (239, .n 8 9),
     (240, .n 8 9), (241, .n 8 9), (255, .n 8 3), (257, .n 8 3), (258, .n 8 3), (265, .n 8 3),
     (266, .n 8 3), (267, .n 8 3), (280, .p 16 9), (281, .p 16 9), (285, .p 4 3), (286, .p 16 9),
     (287, .p 100 9), (289, .p 4 3), (291, .p 4 3), (293, .p 4 3), (295, .p 4 3), (307, .n 8 9),
     (309, .n 8 9)],
    [(118, .p 4 9), (120, .p 4 9), (122, .p 4 9), (136, .p 4 9), (137, .p 4 9), (138, .p 4 9),
     (148, .n 8 9), (151, .n 8 9), (233, .n 8 9), (234, .n 8 9), (235, .n 8 9), (242, .n 8 9),
     (243, .n 8 9), (244, .n 8 9), (256, .n 8 3), (258, .n 8 3), (259, .n 8 3), (269, .n 8 3),
     (270, .n 8 3), (271, .n 8 3), (282, .p 16 9), (283, .p 16 9), (284, .p 4 3), (286, .p 4 3),
     (288, .p 100 9), (289, .p 16 9), (290, .p 4 3), (292, .p 4 3), (294, .p 4 3), (306, .n 8 9),
     (307, .n 8 9)],
    [(119, .p 4 9), (121, .p 4 9), (123, .p 4 9), (139, .p 4 9), (140, .p 4 9), (141, .p 4 9),
     (149, .n 8 9), (152, .n 8 9), (233, .n 8 9), (234, .n 8 9), (235, .n 8 9), (242, .n 8 9),
     (243, .n 8 9), (244, .n 8 9), (256, .n 8 3), (258, .n 8 3), (259, .n 8 3), (269, .n 8 3),
     (270, .n 8 3), (271, .n 8 3), (282, .p 16 9), (283, .p 16 9), (285, .p 4 3), (287, .p 4 3),
     (288, .p 16 9), (289, .p 100 9), (291, .p 4 3), (293, .p 4 3), (295, .p 4 3), (307, .n 8 9),
     (309, .n 8 9)],
    [(118, .p 4 9), (120, .p 4 9), (122, .p 4 9), (136, .p 4 9), (137, .p 4 9), (138, .p 4 9),
     (148, .n 8 9), (151, .n 8 9), (218, .n 8 9), (221, .n 8 9), (224, .n 8 9), (245, .n 8 9),
     (246, .n 8 9), (247, .n 8 9), (260, .n 8 3), (265, .n 8 3), (269, .n 8 3), (272, .n 8 3),
     (273, .n 8 3), (274, .n 8 3), (284, .p 4 3), (286, .p 4 3), (288, .p 4 3), (290, .n 44 9),
     (291, .p 16 9), (292, .p 4 3), (294, .p 4 3), (296, .p 16 9), (299, .p 16 9), (306, .n 8 9),
     (307, .n 8 9)],
    [(119, .p 4 9), (121, .p 4 9), (123, .p 4 9), (139, .p 4 9), (140, .p 4 9), (141, .p 4 9),
     (149, .n 8 9), (152, .n 8 9), (218, .n 8 9), (221, .n 8 9), (224, .n 8 9), (245, .n 8 9),
     (246, .n 8 9), (247, .n 8 9), (260, .n 8 3), (265, .n 8 3), (269, .n 8 3), (272, .n 8 3),
     (273, .n 8 3), (274, .n 8 3), (285, .p 4 3), (287, .p 4 3), (289, .p 4 3), (290, .p 16 9),
     (291, .n 44 9), (293, .p 4 3), (295, .p 4 3), (296, .p 16 9), (299, .p 16 9), (307, .n 8 9),
     (309, .n 8 9)],
    [(118, .p 4 9), (120, .p 4 9), (122, .p 4 9), (136, .p 4 9), (137, .p 4 9), (138, .p 4 9),
     (148, .n 8 9), (151, .n 8 9), (219, .n 8 9), (222, .n 8 9), (225, .n 8 9), (248, .n 8 9),
     (249, .n 8 9), (250, .n 8 9), (261, .n 8 3), (266, .n 8 3), (270, .n 8 3), (273, .n 8 3),
     (275, .n 8 3), (276, .n 8 3), (284, .p 4 3), (286, .p 4 3), (288, .p 4 3), (290, .p 4 3),
     (292, .n 44 9), (293, .p 16 9), (294, .p 4 3), (297, .p 16 9), (300, .p 16 9),
     (306, .n 8 9), (307, .n 8 9)],
    [(119, .p 4 9), (121, .p 4 9), (123, .p 4 9), (139, .p 4 9), (140, .p 4 9), (141, .p 4 9),
     (149, .n 8 9), (152, .n 8 9), (219, .n 8 9), (222, .n 8 9), (225, .n 8 9), (248, .n 8 9),
     (249, .n 8 9), (250, .n 8 9), (261, .n 8 3), (266, .n 8 3), (270, .n 8 3), (273, .n 8 3),
     (275, .n 8 3), (276, .n 8 3), (285, .p 4 3), (287, .p 4 3), (289, .p 4 3), (291, .p 4 3),
     (292, .p 16 9), (293, .n 44 9), (295, .p 4 3), (297, .p 16 9), (300, .p 16 9),
     (307, .n 8 9), (309, .n 8 9)],
    [(118, .p 4 9), (120, .p 4 9), (122, .p 4 9), (136, .p 4 9), (137, .p 4 9), (138, .p 4 9),
     (148, .n 8 9), (151, .n 8 9), (220, .n 8 9), (223, .n 8 9), (226, .n 8 9), (251, .n 8 9),
     (252, .n 8 9), (253, .n 8 9), (262, .n 8 3), (267, .n 8 3), (271, .n 8 3), (274, .n 8 3),
     (276, .n 8 3), (277, .n 8 3), (284, .p 4 3), (286, .p 4 3), (288, .p 4 3), (290, .p 4 3),
     (292, .p 4 3), (294, .n 44 9), (295, .p 16 9), (298, .p 16 9), (301, .p 16 9),
     (306, .n 8 9), (307, .n 8 9)],
    [(119, .p 4 9), (121, .p 4 9), (123, .p 4 9), (139, .p 4 9), (140, .p 4 9), (141, .p 4 9),
     (149, .n 8 9), (152, .n 8 9), (220, .n 8 9), (223, .n 8 9), (226, .n 8 9), (251, .n 8 9),
     (252, .n 8 9), (253, .n 8 9), (262, .n 8 3), (267, .n 8 3), (271, .n 8 3), (274, .n 8 3),
     (276, .n 8 3), (277, .n 8 3), (285, .p 4 3), (287, .p 4 3), (289, .p 4 3), (291, .p 4 3),
     (293, .p 4 3), (294, .p 16 9), (295, .n 44 9), (298, .p 16 9), (301, .p 16 9),
     (307, .n 8 9), (309, .n 8 9)],
    [(124, .p 4 9), (125, .p 4 9), (126, .p 4 9), (130, .p 4 9), (131, .p 4 9), (132, .p 4 9),
     (148, .n 8 9), (149, .n 8 9), (218, .n 8 9), (221, .n 8 9), (224, .n 8 9), (245, .n 8 9),
     (246, .n 8 9), (247, .n 8 9), (260, .n 8 3), (265, .n 8 3), (269, .n 8 3), (272, .n 8 3),
     (273, .n 8 3), (274, .n 8 3), (278, .p 4 3), (280, .p 4 3), (282, .p 4 3), (290, .p 16 9),
     (291, .p 16 9), (296, .p 100 9), (297, .p 4 3), (298, .p 4 3), (299, .p 16 9),
     (302, .n 8 9), (303, .n 8 9)],
    [(124, .p 4 9), (125, .p 4 9), (126, .p 4 9), (130, .p 4 9), (131, .p 4 9), (132, .p 4 9),
     (148, .n 8 9), (149, .n 8 9), (219, .n 8 9), (222, .n 8 9), (225, .n 8 9), (248, .n 8 9),
     (249, .n 8 9), (250, .n 8 9), (261, .n 8 3), (266, .n 8 3), (270, .n 8 3), (273, .n 8 3),
     (275, .n 8 3), (276, .n 8 3), (278, .p 4 3), (280, .p 4 3), (282, .p 4 3), (292, .p 16 9),
     (293, .p 16 9), (296, .p 4 3), (297, .p 100 9), (298, .p 4 3), (300, .p 16 9),
     (302, .n 8 9), (303, .n 8 9)],
    [(124, .p 4 9), (125, .p 4 9), (126, .p 4 9), (130, .p 4 9), (131, .p 4 9), (132, .p 4 9),
     (148, .n 8 9), (149, .n 8 9), (220, .n 8 9), (223, .n 8 9), (226, .n 8 9), (251, .n 8 9),
     (252, .n 8 9), (253, .n 8 9), (262, .n 8 3), (267, .n 8 3), (271, .n 8 3), (274, .n 8 3),
     (276, .n 8 3), (277, .n 8 3), (278, .p 4 3), (280, .p 4 3), (282, .p 4 3), (294, .p 16 9),
     (295, .p 16 9), (296, .p 4 3), (297, .p 4 3), (298, .p 100 9), (301, .p 16 9),
     (302, .n 8 9), (303, .n 8 9)],
    [(127, .p 4 9), (128, .p 4 9), (129, .p 4 9), (133, .p 4 9), (134, .p 4 9), (135, .p 4 9),
     (151, .n 8 9), (152, .n 8 9), (218, .n 8 9), (221, .n 8 9), (224, .n 8 9), (245, .n 8 9),
     (246, .n 8 9), (247, .n 8 9), (260, .n 8 3), (265, .n 8 3), (269, .n 8 3), (272, .n 8 3),
     (273, .n 8 3), (274, .n 8 3), (279, .p 4 3), (281, .p 4 3), (283, .p 4 3), (290, .p 16 9),
     (291, .p 16 9), (296, .p 16 9), (299, .p 100 9), (300, .p 4 3), (301, .p 4 3),
     (303, .n 8 9), (305, .n 8 9)],
    [(127, .p 4 9), (128, .p 4 9), (129, .p 4 9), (133, .p 4 9), (134, .p 4 9), (135, .p 4 9),
     (151, .n 8 9), (152, .n 8 9), (219, .n 8 9), (222, .n 8 9), (225, .n 8 9), (248, .n 8 9),
     (249, .n 8 9), (250, .n 8 9), (261, .n 8 3), (266, .n 8 3), (270, .n 8 3), (273, .n 8 3),
     (275, .n 8 3), (276, .n 8 3), (279, .p 4 3), (281, .p 4 3), (283, .p 4 3), (292, .p 16 9),
     (293, .p 16 9), (297, .p 16 9), (299, .p 4 3), (300, .p 100 9), (301, .p 4 3),
     (303, .n 8 9), (305, .n 8 9)],
    [(127, .p 4 9), (128, .p 4 9), (129, .p 4 9), (133, .p 4 9), (134, .p 4 9), (135, .p 4 9),
     (151, .n 8 9), (152, .n 8 9), (220, .n 8 9), (223, .n 8 9), (226, .n 8 9), (251, .n 8 9),
     (252, .n 8 9), (253, .n 8 9), (262, .n 8 3), (267, .n 8 3), (271, .n 8 3), (274, .n 8 3),
     (276, .n 8 3), (277, .n 8 3), (279, .p 4 3), (281, .p 4 3), (283, .p 4 3), (294, .p 16 9),
     (295, .p 16 9), (298, .p 16 9), (299, .p 4 3), (300, .p 4 3), (301, .p 100 9),
     (303, .n 8 9), (305, .n 8 9)],
    [(124, .n 64 27), (125, .n 64 27), (126, .n 64 27), (130, .n 64 27), (131, .n 64 27),
     (132, .n 64 27), (148, .p 128 27), (149, .p 128 27), (278, .n 64 9), (280, .n 64 9),
     (282, .n 64 9), (296, .n 64 9), (297, .n 64 9), (298, .n 64 9), (302, .p 272 27),
     (303, .p 128 27)],
    [(124, .n 8 9), (125, .n 8 9), (126, .n 8 9), (127, .n 8 9), (128, .n 8 9), (129, .n 8 9),
     (130, .n 8 9), (131, .n 8 9), (132, .n 8 9), (133, .n 8 9), (134, .n 8 9), (135, .n 8 9),
     (148, .p 16 9), (149, .p 16 9), (151, .p 16 9), (152, .p 16 9), (278, .n 8 3),
     (279, .n 8 3), (280, .n 8 3), (281, .n 8 3), (282, .n 8 3), (283, .n 8 3), (296, .n 8 3),
     (297, .n 8 3), (298, .n 8 3), (299, .n 8 3), (300, .n 8 3), (301, .n 8 3), (302, .p 16 9),
     (303, .p 80 9), (305, .p 16 9)],
    [(124, .n 8 27), (125, .n 8 27), (126, .n 8 27), (127, .n 8 27), (128, .n 8 27),
     (129, .n 8 27), (130, .n 8 27), (131, .n 8 27), (132, .n 8 27), (133, .n 8 27),
     (134, .n 8 27), (135, .n 8 27), (148, .p 16 27), (149, .p 16 27), (151, .p 16 27),
     (152, .p 16 27), (278, .n 8 9), (279, .n 8 9), (280, .n 8 9), (281, .n 8 9), (282, .n 8 9),
     (283, .n 8 9), (296, .n 8 9), (297, .n 8 9), (298, .n 8 9), (299, .n 8 9), (300, .n 8 9),
     (301, .n 8 9), (302, .p 16 27), (303, .p 32 27), (304, .p 16 3), (305, .p 16 27)],
    [(127, .n 64 27), (128, .n 64 27), (129, .n 64 27), (133, .n 64 27), (134, .n 64 27),
     (135, .n 64 27), (151, .p 128 27), (152, .p 128 27), (279, .n 64 9), (281, .n 64 9),
     (283, .n 64 9), (299, .n 64 9), (300, .n 64 9), (301, .n 64 9), (303, .p 128 27),
     (305, .p 272 27)],
    [(118, .n 64 27), (120, .n 64 27), (122, .n 64 27), (136, .n 64 27), (137, .n 64 27),
     (138, .n 64 27), (148, .p 128 27), (151, .p 128 27), (284, .n 64 9), (286, .n 64 9),
     (288, .n 64 9), (290, .n 64 9), (292, .n 64 9), (294, .n 64 9), (306, .p 272 27),
     (307, .p 128 27)],
    [(118, .n 8 9), (119, .n 8 9), (120, .n 8 9), (121, .n 8 9), (122, .n 8 9), (123, .n 8 9),
     (136, .n 8 9), (137, .n 8 9), (138, .n 8 9), (139, .n 8 9), (140, .n 8 9), (141, .n 8 9),
     (148, .p 16 9), (149, .p 16 9), (151, .p 16 9), (152, .p 16 9), (284, .n 8 3),
     (285, .n 8 3), (286, .n 8 3), (287, .n 8 3), (288, .n 8 3), (289, .n 8 3), (290, .n 8 3),
     (291, .n 8 3), (292, .n 8 3), (293, .n 8 3), (294, .n 8 3), (295, .n 8 3), (306, .p 16 9),
     (307, .p 80 9), (309, .p 16 9)],
    [(118, .n 8 27), (119, .n 8 27), (120, .n 8 27), (121, .n 8 27), (122, .n 8 27),
     (123, .n 8 27), (136, .n 8 27), (137, .n 8 27), (138, .n 8 27), (139, .n 8 27),
     (140, .n 8 27), (141, .n 8 27), (148, .p 16 27), (149, .p 16 27), (151, .p 16 27),
     (152, .p 16 27), (284, .n 8 9), (285, .n 8 9), (286, .n 8 9), (287, .n 8 9), (288, .n 8 9),
     (289, .n 8 9), (290, .n 8 9), (291, .n 8 9), (292, .n 8 9), (293, .n 8 9), (294, .n 8 9),
     (295, .n 8 9), (306, .p 16 27), (307, .p 32 27), (308, .p 16 3), (309, .p 16 27)],
    [(119, .n 64 27), (121, .n 64 27), (123, .n 64 27), (139, .n 64 27), (140, .n 64 27),
     (141, .n 64 27), (149, .p 128 27), (152, .p 128 27), (285, .n 64 9), (287, .n 64 9),
     (289, .n 64 9), (291, .n 64 9), (293, .n 64 9), (295, .n 64 9), (307, .p 128 27),
     (309, .p 272 27)],
    [(310, .p 8 9)],
    [(311, .p 8 9)],
    [(312, .p 8 9)],
    [(310, .n 8 3), (313, .p 88888888888889 50000000000000)],
    [(311, .n 8 3), (314, .p 88888888888889 50000000000000)],
    [(312, .n 8 3), (315, .p 88888888888889 50000000000000)],
    [(316, .p 16 1)],
    [(317, .p 16 1)],
    [(318, .p 16 1)],
    [(319, .p 32 9)],
    [(320, .p 32 9)],
    [(319, .p 16 3), (321, .p 711111111111111 100000000000000)],
    [(320, .p 16 3), (322, .p 711111111111111 100000000000000)]]

/-- adm.py line 2027 `adm_s_dF0` -/
def adm_s_dF0 : Rows :=
  [
    [(0, .b 3 1 36 1), (310, .p 9 1), (311, .p 9 1), (312, .p 9 1), (319, .p 9 1), (320, .p 9 1)],
    [(1, .b 3 1 36 1), (310, .i 9 1), (311, .i 9 1), (312, .i 9 1), (319, .i 9 1), (320, .i 9 1)],
    [(2, .n 80 9), (27, .p 8 3), (310, .p 2 1), (313, .n 2 3)],
    [(3, .n 16 1), (5, .p 64 9), (28, .p 8 1), (30, .n 16 3)],
    [(4, .n 16 1), (6, .p 64 9), (29, .p 8 1), (31, .n 16 3)],
    [(3, .p 64 9), (5, .n 16 1), (28, .n 16 3), (30, .p 8 1), (310, .mp 1 1 .s .d),
     (311, .mp 1 1 .d .s), (313, .mn 1 3 .s .d), (314, .mn 1 3 .d .s)],
    [(4, .p 64 9), (6, .n 16 1), (29, .n 16 3), (31, .p 8 1), (310, .mp 1 1 .b .d),
     (312, .mp 1 1 .d .b), (313, .mn 1 3 .b .d), (315, .mn 1 3 .d .b)],
    [(7, .n 80 9), (32, .p 8 3), (311, .p 2 1), (314, .n 2 3)],
    [(8, .n 16 1), (9, .p 64 9), (33, .p 8 1), (34, .n 16 3)],
    [(8, .p 64 9), (9, .n 16 1), (33, .n 16 3), (34, .p 8 1), (311, .mp 1 1 .b .s),
     (312, .mp 1 1 .s .b), (314, .mn 1 3 .b .s), (315, .mn 1 3 .s .b)],
    [(10, .n 80 9), (35, .p 8 3), (312, .p 2 1), (315, .n 2 3)],
    [(11, .n 16 1), (17, .p 64 9), (36, .p 8 1), (42, .n 16 3)],
    [(12, .n 16 1), (18, .p 64 9), (37, .p 8 1), (43, .n 16 3)],
    [(13, .n 16 1), (19, .p 64 9), (38, .p 8 1), (44, .n 16 3)],
    [(14, .n 16 1), (20, .p 64 9), (39, .p 8 1), (45, .n 16 3)],
    [(15, .n 16 1), (21, .p 64 9), (40, .p 8 1), (46, .n 16 3)],
    [(16, .n 16 1), (22, .p 64 9), (41, .p 8 1), (47, .n 16 3)],
    [(11, .p 64 9), (17, .n 16 1), (36, .n 16 3), (42, .p 8 1), (310, .mp 1 1 .u .d),
     (313, .mp 2 3 .u .d), (319, .mp 1 1 .d .u), (321, .mn 1 3 .d .u)],
    [(12, .p 64 9), (18, .n 16 1), (37, .n 16 3), (43, .p 8 1), (311, .mp 1 1 .u .s),
     (314, .mp 2 3 .u .s), (319, .mp 1 1 .s .u), (321, .mn 1 3 .s .u)],
    [(13, .p 64 9), (19, .n 16 1), (38, .n 16 3), (44, .p 8 1), (312, .mp 1 1 .u .b),
     (315, .mp 2 3 .u .b), (319, .mp 1 1 .b .u), (321, .mn 1 3 .b .u)],
    [(14, .p 64 9), (20, .n 16 1), (39, .n 16 3), (45, .p 8 1), (310, .mp 1 1 .c .d),
     (313, .mp 2 3 .c .d), (320, .mp 1 1 .d .c), (322, .mn 1 3 .d .c)],
    [(15, .p 64 9), (21, .n 16 1), (40, .n 16 3), (46, .p 8 1), (311, .mp 1 1 .c .s),
     (314, .mp 2 3 .c .s), (320, .mp 1 1 .s .c), (322, .mn 1 3 .s .c)],
    [(16, .p 64 9), (22, .n 16 1), (41, .n 16 3), (47, .p 8 1), (312, .mp 1 1 .c .b),
     (315, .mp 2 3 .c .b), (320, .mp 1 1 .b .c), (322, .mn 1 3 .b .c)],
    [(23, .n 80 9), (48, .p 8 3), (319, .p 2 1), (321, .p 4 3)],
    [(24, .n 16 1), (25, .p 64 9), (49, .p 8 1), (50, .n 16 3)],
    [(24, .p 64 9), (25, .n 16 1), (49, .n 16 3), (50, .p 8 1), (319, .mp 1 1 .c .u),
     (320, .mp 1 1 .u .c), (321, .mp 2 3 .c .u), (322, .mp 2 3 .u .c)],
    [(26, .n 80 9), (51, .p 8 3), (320, .p 2 1), (322, .p 4 3)],
    [(2, .p 160 27), (27, .p 92 9), (310, .n 1 3), (313, .n 8 9)],
    [(3, .p 16 9), (5, .p 112 27), (28, .p 16 3), (30, .p 44 9)],
    [(4, .p 16 9), (6, .p 112 27), (29, .p 16 3), (31, .p 44 9)],
    [(3, .p 112 27), (5, .p 16 9), (28, .p 44 9), (30, .p 16 3), (310, .mn 1 6 .s .d),
     (311, .mn 1 6 .d .s), (313, .mn 4 9 .s .d), (314, .mn 4 9 .d .s)],
    [(4, .p 112 27), (6, .p 16 9), (29, .p 44 9), (31, .p 16 3), (310, .mn 1 6 .b .d),
     (312, .mn 1 6 .d .b), (313, .mn 4 9 .b .d), (315, .mn 4 9 .d .b)],
    [(7, .p 160 27), (32, .p 92 9), (311, .n 1 3), (314, .n 8 9)],
    [(8, .p 16 9), (9, .p 112 27), (33, .p 16 3), (34, .p 44 9)],
    [(8, .p 112 27), (9, .p 16 9), (33, .p 44 9), (34, .p 16 3), (311, .mn 1 6 .b .s),
     (312, .mn 1 6 .s .b), (314, .mn 4 9 .b .s), (315, .mn 4 9 .s .b)],
    [(10, .p 160 27), (35, .p 92 9), (312, .n 1 3), (315, .n 8 9)],
    [(11, .p 16 9), (17, .p 112 27), (36, .p 16 3), (42, .p 44 9)],
    [(12, .p 16 9), (18, .p 112 27), (37, .p 16 3), (43, .p 44 9)],
    [(13, .p 16 9), (19, .p 112 27), (38, .p 16 3), (44, .p 44 9)],
    [(14, .p 16 9), (20, .p 112 27), (39, .p 16 3), (45, .p 44 9)],
    [(15, .p 16 9), (21, .p 112 27), (40, .p 16 3), (46, .p 44 9)],
    [(16, .p 16 9), (22, .p 112 27), (41, .p 16 3), (47, .p 44 9)],
    [(11, .p 112 27), (17, .p 16 9), (36, .p 44 9), (42, .p 16 3), (310, .mn 1 6 .u .d),
     (313, .mp 8 9 .u .d), (319, .mn 1 6 .d .u), (321, .mn 4 9 .d .u)],
    [(12, .p 112 27), (18, .p 16 9), (37, .p 44 9), (43, .p 16 3), (311, .mn 1 6 .u .s),
     (314, .mp 8 9 .u .s), (319, .mn 1 6 .s .u), (321, .mn 4 9 .s .u)],
    [(13, .p 112 27), (19, .p 16 9), (38, .p 44 9), (44, .p 16 3), (312, .mn 1 6 .u .b),
     (315, .mp 8 9 .u .b), (319, .mn 1 6 .b .u), (321, .mn 4 9 .b .u)],
    [(14, .p 112 27), (20, .p 16 9), (39, .p 44 9), (45, .p 16 3), (310, .mn 1 6 .c .d),
     (313, .mp 8 9 .c .d), (320, .mn 1 6 .d .c), (322, .mn 4 9 .d .c)],
    [(15, .p 112 27), (21, .p 16 9), (40, .p 44 9), (46, .p 16 3), (311, .mn 1 6 .c .s),
     (314, .mp 8 9 .c .s), (320, .mn 1 6 .s .c), (322, .mn 4 9 .s .c)],
    [(16, .p 112 27), (22, .p 16 9), (41, .p 44 9), (47, .p 16 3), (312, .mn 1 6 .c .b),
     (315, .mp 8 9 .c .b), (320, .mn 1 6 .b .c), (322, .mn 4 9 .b .c)],
    [(23, .p 160 27), (48, .p 92 9), (319, .n 1 3), (321, .p 16 9)],
    [(24, .p 16 9), (25, .p 112 27), (49, .p 16 3), (50, .p 44 9)],
    [(24, .p 112 27), (25, .p 16 9), (49, .p 44 9), (50, .p 16 3), (319, .mn 1 6 .c .u),
     (320, .mn 1 6 .u .c), (321, .mp 8 9 .c .u), (322, .mp 8 9 .u .c)],
    [(26, .p 160 27), (51, .p 92 9), (320, .n 1 3), (322, .p 16 9)],
    [(52, .n 8 1)],
    [(53, .n 8 1)],
    [(54, .n 8 1)],
    [(55, .n 8 1)],
    [(56, .n 8 1)],
    [(57, .n 8 1)],
    [(58, .n 8 1)],
    [(59, .n 8 1)],
    [(60, .n 8 1)],
    [(61, .n 8 1)],
    [(62, .n 8 1)],
    [(63, .n 8 1)],
    [(64, .n 8 1)],
    [(65, .n 8 1)],
    [(66, .n 8 1)],
    [(67, .n 8 1)],
    [(68, .n 8 1)],
    [(69, .n 8 1)],
    [(316, .n 2 1)],
    [],
    [],
    [(316, .mn 1 1 .mu .e), (317, .mn 1 1 .e .mu)],
    [(316, .mn 1 1 .tau .e), (318, .mn 1 1 .e .tau)],
    [(317, .n 2 1)],
    [],
    [(317, .mn 1 1 .tau .mu), (318, .mn 1 1 .mu .tau)],
    [(318, .n 2 1)],
    [(79, .n 8 1)],
    [(80, .n 8 1)],
    [(81, .n 8 1)],
    [(82, .n 8 1)],
    [(83, .n 8 1)],
    [(84, .n 8 1)],
    [(85, .n 8 1)],
    [(86, .n 8 1)],
    [(87, .n 8 1)],
    [(88, .n 8 1)],
    [(89, .n 8 1)],
    [(90, .n 8 1)],
    [(91, .p 8 3), (313, .mp 8 1 .e .d), (316, .mp 8 1 .d .e)],
    [(92, .p 8 3), (314, .mp 8 1 .e .s), (316, .mp 8 1 .s .e)],
    [(93, .p 8 3), (315, .mp 8 1 .e .b), (316, .mp 8 1 .b .e)],
    [(94, .p 8 3), (313, .mp 8 1 .mu .d), (317, .mp 8 1 .d .mu)],
    [(95, .p 8 3), (314, .mp 8 1 .mu .s), (317, .mp 8 1 .s .mu)],
    [(96, .p 8 3), (315, .mp 8 1 .mu .b), (317, .mp 8 1 .b .mu)],
    [(97, .p 8 3), (313, .mp 8 1 .tau .d), (318, .mp 8 1 .d .tau)],
    [(98, .p 8 3), (314, .mp 8 1 .tau .s), (318, .mp 8 1 .s .tau)],
    [(99, .p 8 3), (315, .mp 8 1 .tau .b), (318, .mp 8 1 .b .tau)],
    [(100, .p 8 3), (316, .mn 16 1 .u .e), (321, .mp 8 1 .e .u)],
    [(101, .p 8 3), (316, .mn 16 1 .c .e), (322, .mp 8 1 .e .c)],
    [(102, .p 8 3), (317, .mn 16 1 .u .mu), (321, .mp 8 1 .mu .u)],
    [(103, .p 8 3), (317, .mn 16 1 .c .mu), (322, .mp 8 1 .mu .c)],
    [(104, .p 8 3), (318, .mn 16 1 .u .tau), (321, .mp 8 1 .tau .u)],
    [(105, .p 8 3), (318, .mn 16 1 .c .tau), (322, .mp 8 1 .tau .c)],
    [(153, .n 12 1)],
    [(154, .n 12 1)],
    [(155, .n 12 1)],
    [(156, .n 12 1)],
    [(157, .n 12 1)],
    [(158, .n 12 1)],
    [(159, .n 12 1)],
    [(160, .n 12 1)],
    [(161, .n 12 1)],
    [(162, .n 12 1)],
    [(163, .n 12 1)],
    [(164, .n 12 1)],
    [(165, .n 12 1)],
    [(166, .n 12 1)],
    [(167, .n 12 1)],
    [(168, .n 12 1)],
    [(169, .n 12 1)],
    [(170, .n 12 1)],
    [(171, .p 12 1)],
    [(172, .p 12 1)],
    [(173, .p 12 1)],
    [(174, .p 12 1)],
    [(175, .p 12 1)],
    [(176, .p 12 1)],
    [(177, .n 12 1)],
    [(178, .n 12 1)],
    [(179, .n 12 1)],
    [(180, .n 12 1)],
    [(181, .n 12 1)],
    [(182, .n 12 1)],
    [(183, .p 12 1)],
    [(184, .p 12 1)],
    [(185, .p 12 1)],
    [(186, .p 12 1)],
    [(187, .p 12 1)],
    [(188, .p 12 1)],
    [(189, .n 12 1)],
    [(190, .n 12 1)],
    [(191, .n 12 1)],
    [(192, .n 12 1)],
    [(193, .n 12 1)],
    [(194, .n 12 1)],
    [(195, .n 12 1)],
    [(196, .n 12 1)],
    [(197, .n 12 1)],
    [(198, .n 12 1)],
    [(199, .n 12 1)],
    [(106, .n 8 3), (153, .n 38 3), (154, .p 2 3), (155, .p 2 3), (158, .p 2 3), (162, .p 2 3),
     (165, .p 2 3), (166, .p 2 3), (171, .p 2 3), (174, .p 2 3), (177, .p 2 3), (180, .p 2 3),
     (183, .p 2 3), (186, .p 2 3), (200, .p 2 9), (201, .n 1 9), (202, .n 1 9), (203, .p 1 3),
     (204, .p 1 3), (209, .p 2 9), (210, .n 1 9), (211, .n 1 9), (212, .p 1 3), (213, .p 1 3)],
    [(107, .n 8 3), (153, .p 2 3), (154, .n 38 3), (155, .p 2 3), (159, .p 2 3), (163, .p 2 3),
     (165, .p 2 3), (166, .p 2 3), (171, .p 2 3), (174, .p 2 3), (178, .p 2 3), (181, .p 2 3),
     (184, .p 2 3), (187, .p 2 3), (200, .p 2 9), (201, .n 1 9), (202, .n 1 9), (203, .p 1 3),
     (204, .p 1 3), (210, .n 1 9), (212, .p 1 3), (214, .p 2 9), (215, .n 1 9), (216, .p 1 3)],
    [(108, .n 8 3), (153, .p 2 3), (154, .p 2 3), (155, .n 38 3), (160, .p 2 3), (164, .p 2 3),
     (165, .p 2 3), (166, .p 2 3), (171, .p 2 3), (174, .p 2 3), (179, .p 2 3), (182, .p 2 3),
     (185, .p 2 3), (188, .p 2 3), (200, .p 2 9), (201, .n 1 9), (202, .n 1 9), (203, .p 1 3),
     (204, .p 1 3), (211, .n 1 9), (213, .p 1 3), (215, .n 1 9), (216, .p 1 3), (217, .p 2 9)],
    [(109, .n 8 3), (156, .n 14 1)],
    [(110, .n 8 3), (157, .n 14 1)],
    [(111, .n 8 3), (153, .p 2 3), (158, .n 38 3), (159, .p 2 3), (160, .p 2 3), (162, .p 2 3),
     (167, .p 2 3), (168, .p 2 3), (172, .p 2 3), (175, .p 2 3), (177, .p 2 3), (180, .p 2 3),
     (183, .p 2 3), (186, .p 2 3), (201, .n 1 9), (203, .p 1 3), (205, .p 2 9), (206, .n 1 9),
     (207, .p 1 3), (209, .p 2 9), (210, .n 1 9), (211, .n 1 9), (212, .p 1 3), (213, .p 1 3)],
    [(112, .n 8 3), (154, .p 2 3), (158, .p 2 3), (159, .n 38 3), (160, .p 2 3), (163, .p 2 3),
     (167, .p 2 3), (168, .p 2 3), (172, .p 2 3), (175, .p 2 3), (178, .p 2 3), (181, .p 2 3),
     (184, .p 2 3), (187, .p 2 3), (201, .n 1 9), (203, .p 1 3), (205, .p 2 9), (206, .n 1 9),
     (207, .p 1 3), (210, .n 1 9), (212, .p 1 3), (214, .p 2 9), (215, .n 1 9), (216, .p 1 3)],
    [(113, .n 8 3), (155, .p 2 3), (158, .p 2 3), (159, .p 2 3), (160, .n 38 3), (164, .p 2 3),
     (167, .p 2 3), (168, .p 2 3), (172, .p 2 3), (175, .p 2 3), (179, .p 2 3), (182, .p 2 3),
     (185, .p 2 3), (188, .p 2 3), (201, .n 1 9), (203, .p 1 3), (205, .p 2 9), (206, .n 1 9),
     (207, .p 1 3), (211, .n 1 9), (213, .p 1 3), (215, .n 1 9), (216, .p 1 3), (217, .p 2 9)],
    [(114, .n 8 3), (161, .n 14 1)],
    [(115, .n 8 3), (153, .p 2 3), (158, .p 2 3), (162, .n 38 3), (163, .p 2 3), (164, .p 2 3),
     (169, .p 2 3), (170, .p 2 3), (173, .p 2 3), (176, .p 2 3), (177, .p 2 3), (180, .p 2 3),
     (183, .p 2 3), (186, .p 2 3), (202, .n 1 9), (204, .p 1 3), (206, .n 1 9), (207, .p 1 3),
     (208, .p 2 9), (209, .p 2 9), (210, .n 1 9), (211, .n 1 9), (212, .p 1 3), (213, .p 1 3)],
    [(116, .n 8 3), (154, .p 2 3), (159, .p 2 3), (162, .p 2 3), (163, .n 38 3), (164, .p 2 3),
     (169, .p 2 3), (170, .p 2 3), (173, .p 2 3), (176, .p 2 3), (178, .p 2 3), (181, .p 2 3),
     (184, .p 2 3), (187, .p 2 3), (202, .n 1 9), (204, .p 1 3), (206, .n 1 9), (207, .p 1 3),
     (208, .p 2 9), (210, .n 1 9), (212, .p 1 3), (214, .p 2 9), (215, .n 1 9), (216, .p 1 3)],
    [(117, .n 8 3), (155, .p 2 3), (160, .p 2 3), (162, .p 2 3), (163, .p 2 3), (164, .n 38 3),
     (169, .p 2 3), (170, .p 2 3), (173, .p 2 3), (176, .p 2 3), (179, .p 2 3), (182, .p 2 3),
     (185, .p 2 3), (188, .p 2 3), (202, .n 1 9), (204, .p 1 3), (206, .n 1 9), (207, .p 1 3),
     (208, .p 2 9), (211, .n 1 9), (213, .p 1 3), (215, .n 1 9), (216, .p 1 3), (217, .p 2 9)],
    [(118, .n 8 3), (153, .p 2 3), (154, .p 2 3), (155, .p 2 3), (165, .n 38 3), (166, .p 2 3),
     (167, .p 2 3), (169, .p 2 3), (171, .p 2 3), (174, .p 2 3), (183, .p 2 3), (184, .p 2 3),
     (185, .p 2 3), (195, .p 2 3), (198, .p 2 3), (200, .p 2 9), (201, .n 1 9), (202, .n 1 9),
     (203, .p 1 3), (204, .p 1 3), (306, .p 2 9), (307, .n 1 9), (308, .p 1 3)],
    [(119, .n 8 3), (153, .p 2 3), (154, .p 2 3), (155, .p 2 3), (165, .p 2 3), (166, .n 38 3),
     (168, .p 2 3), (170, .p 2 3), (171, .p 2 3), (174, .p 2 3), (186, .p 2 3), (187, .p 2 3),
     (188, .p 2 3), (196, .p 2 3), (199, .p 2 3), (200, .p 2 9), (201, .n 1 9), (202, .n 1 9),
     (203, .p 1 3), (204, .p 1 3), (307, .n 1 9), (308, .p 1 3), (309, .p 2 9)],
    [(120, .n 8 3), (158, .p 2 3), (159, .p 2 3), (160, .p 2 3), (165, .p 2 3), (167, .n 38 3),
     (168, .p 2 3), (169, .p 2 3), (172, .p 2 3), (175, .p 2 3), (183, .p 2 3), (184, .p 2 3),
     (185, .p 2 3), (195, .p 2 3), (198, .p 2 3), (201, .n 1 9), (203, .p 1 3), (205, .p 2 9),
     (206, .n 1 9), (207, .p 1 3), (306, .p 2 9), (307, .n 1 9), (308, .p 1 3)],
    [(121, .n 8 3), (158, .p 2 3), (159, .p 2 3), (160, .p 2 3), (166, .p 2 3), (167, .p 2 3),
     (168, .n 38 3), (170, .p 2 3), (172, .p 2 3), (175, .p 2 3), (186, .p 2 3), (187, .p 2 3),
     (188, .p 2 3), (196, .p 2 3), (199, .p 2 3), (201, .n 1 9), (203, .p 1 3), (205, .p 2 9),
     (206, .n 1 9), (207, .p 1 3), (307, .n 1 9), (308, .p 1 3), (309, .p 2 9)],
    [(122, .n 8 3), (162, .p 2 3), (163, .p 2 3), (164, .p 2 3), (165, .p 2 3), (167, .p 2 3),
     (169, .n 38 3), (170, .p 2 3), (173, .p 2 3), (176, .p 2 3), (183, .p 2 3), (184, .p 2 3),
     (185, .p 2 3), (195, .p 2 3), (198, .p 2 3), (202, .n 1 9), (204, .p 1 3), (206, .n 1 9),
     (207, .p 1 3), (208, .p 2 9), (306, .p 2 9), (307, .n 1 9), (308, .p 1 3)],
    [(123, .n 8 3), (162, .p 2 3), (163, .p 2 3), (164, .p 2 3), (166, .p 2 3), (168, .p 2 3),
     (169, .p 2 3), (170, .n 38 3), (173, .p 2 3), (176, .p 2 3), (186, .p 2 3), (187, .p 2 3),
     (188, .p 2 3), (196, .p 2 3), (199, .p 2 3), (202, .n 1 9), (204, .p 1 3), (206, .n 1 9),
     (207, .p 1 3), (208, .p 2 9), (307, .n 1 9), (308, .p 1 3), (309, .p 2 9)],
    [(124, .p 8 3), (153, .p 2 3), (154, .p 2 3), (155, .p 2 3), (165, .p 2 3), (166, .p 2 3),
     (171, .n 8 3), (172, .p 2 3), (173, .p 2 3), (174, .p 2 3), (177, .p 2 3), (178, .p 2 3),
     (179, .p 2 3), (195, .p 2 3), (196, .p 2 3), (200, .p 2 9), (201, .n 1 9), (202, .n 1 9),
     (203, .p 1 3), (204, .p 1 3), (302, .p 2 9), (303, .n 1 9), (304, .p 1 3)],
    [(125, .p 8 3), (158, .p 2 3), (159, .p 2 3), (160, .p 2 3), (167, .p 2 3), (168, .p 2 3),
     (171, .p 2 3), (172, .n 8 3), (173, .p 2 3), (175, .p 2 3), (177, .p 2 3), (178, .p 2 3),
     (179, .p 2 3), (195, .p 2 3), (196, .p 2 3), (201, .n 1 9), (203, .p 1 3), (205, .p 2 9),
     (206, .n 1 9), (207, .p 1 3), (302, .p 2 9), (303, .n 1 9), (304, .p 1 3)],
    [(126, .p 8 3), (162, .p 2 3), (163, .p 2 3), (164, .p 2 3), (169, .p 2 3), (170, .p 2 3),
     (171, .p 2 3), (172, .p 2 3), (173, .n 8 3), (176, .p 2 3), (177, .p 2 3), (178, .p 2 3),
     (179, .p 2 3), (195, .p 2 3), (196, .p 2 3), (202, .n 1 9), (204, .p 1 3), (206, .n 1 9),
     (207, .p 1 3), (208, .p 2 9), (302, .p 2 9), (303, .n 1 9), (304, .p 1 3)],
    [(127, .p 8 3), (153, .p 2 3), (154, .p 2 3), (155, .p 2 3), (165, .p 2 3), (166, .p 2 3),
     (171, .p 2 3), (174, .n 8 3), (175, .p 2 3), (176, .p 2 3), (180, .p 2 3), (181, .p 2 3),
     (182, .p 2 3), (198, .p 2 3), (199, .p 2 3), (200, .p 2 9), (201, .n 1 9), (202, .n 1 9),
     (203, .p 1 3), (204, .p 1 3), (303, .n 1 9), (304, .p 1 3), (305, .p 2 9)],
    [(128, .p 8 3), (158, .p 2 3), (159, .p 2 3), (160, .p 2 3), (167, .p 2 3), (168, .p 2 3),
     (172, .p 2 3), (174, .p 2 3), (175, .n 8 3), (176, .p 2 3), (180, .p 2 3), (181, .p 2 3),
     (182, .p 2 3), (198, .p 2 3), (199, .p 2 3), (201, .n 1 9), (203, .p 1 3), (205, .p 2 9),
     (206, .n 1 9), (207, .p 1 3), (303, .n 1 9), (304, .p 1 3), (305, .p 2 9)],
    [(129, .p 8 3), (162, .p 2 3), (163, .p 2 3), (164, .p 2 3), (169, .p 2 3), (170, .p 2 3),
     (173, .p 2 3), (174, .p 2 3), (175, .p 2 3), (176, .n 8 3), (180, .p 2 3), (181, .p 2 3),
     (182, .p 2 3), (198, .p 2 3), (199, .p 2 3), (202, .n 1 9), (204, .p 1 3), (206, .n 1 9),
     (207, .p 1 3), (208, .p 2 9), (303, .n 1 9), (304, .p 1 3), (305, .p 2 9)],
    [(130, .n 8 3), (153, .p 2 3), (158, .p 2 3), (162, .p 2 3), (171, .p 2 3), (172, .p 2 3),
     (173, .p 2 3), (177, .n 38 3), (178, .p 2 3), (179, .p 2 3), (180, .p 2 3), (183, .p 2 3),
     (186, .p 2 3), (195, .p 2 3), (196, .p 2 3), (209, .p 2 9), (210, .n 1 9), (211, .n 1 9),
     (212, .p 1 3), (213, .p 1 3), (302, .p 2 9), (303, .n 1 9), (304, .p 1 3)],
    [(131, .n 8 3), (154, .p 2 3), (159, .p 2 3), (163, .p 2 3), (171, .p 2 3), (172, .p 2 3),
     (173, .p 2 3), (177, .p 2 3), (178, .n 38 3), (179, .p 2 3), (181, .p 2 3), (184, .p 2 3),
     (187, .p 2 3), (195, .p 2 3), (196, .p 2 3), (210, .n 1 9), (212, .p 1 3), (214, .p 2 9),
     (215, .n 1 9), (216, .p 1 3), (302, .p 2 9), (303, .n 1 9), (304, .p 1 3)],
    [(132, .n 8 3), (155, .p 2 3), (160, .p 2 3), (164, .p 2 3), (171, .p 2 3), (172, .p 2 3),
     (173, .p 2 3), (177, .p 2 3), (178, .p 2 3), (179, .n 38 3), (182, .p 2 3), (185, .p 2 3),
     (188, .p 2 3), (195, .p 2 3), (196, .p 2 3), (211, .n 1 9), (213, .p 1 3), (215, .n 1 9),
     (216, .p 1 3), (217, .p 2 9), (302, .p 2 9), (303, .n 1 9), (304, .p 1 3)],
    [(133, .n 8 3), (153, .p 2 3), (158, .p 2 3), (162, .p 2 3), (174, .p 2 3), (175, .p 2 3),
     (176, .p 2 3), (177, .p 2 3), (180, .n 38 3), (181, .p 2 3), (182, .p 2 3), (183, .p 2 3),
     (186, .p 2 3), (198, .p 2 3), (199, .p 2 3), (209, .p 2 9), (210, .n 1 9), (211, .n 1 9),
     (212, .p 1 3), (213, .p 1 3), (303, .n 1 9), (304, .p 1 3), (305, .p 2 9)],
    [(134, .n 8 3), (154, .p 2 3), (159, .p 2 3), (163, .p 2 3), (174, .p 2 3), (175, .p 2 3),
     (176, .p 2 3), (178, .p 2 3), (180, .p 2 3), (181, .n 38 3), (182, .p 2 3), (184, .p 2 3),
     (187, .p 2 3), (198, .p 2 3), (199, .p 2 3), (210, .n 1 9), (212, .p 1 3), (214, .p 2 9),
     (215, .n 1 9), (216, .p 1 3), (303, .n 1 9), (304, .p 1 3), (305, .p 2 9)],
    [(135, .n 8 3), (155, .p 2 3), (160, .p 2 3), (164, .p 2 3), (174, .p 2 3), (175, .p 2 3),
     (176, .p 2 3), (179, .p 2 3), (180, .p 2 3), (181, .p 2 3), (182, .n 38 3), (185, .p 2 3),
     (188, .p 2 3), (198, .p 2 3), (199, .p 2 3), (211, .n 1 9), (213, .p 1 3), (215, .n 1 9),
     (216, .p 1 3), (217, .p 2 9), (303, .n 1 9), (304, .p 1 3), (305, .p 2 9)],
    [(136, .p 8 3), (153, .p 2 3), (158, .p 2 3), (162, .p 2 3), (165, .p 2 3), (167, .p 2 3),
     (169, .p 2 3), (177, .p 2 3), (180, .p 2 3), (183, .n 8 3), (184, .p 2 3), (185, .p 2 3),
     (186, .p 2 3), (195, .p 2 3), (198, .p 2 3), (209, .p 2 9), (210, .n 1 9), (211, .n 1 9),
     (212, .p 1 3), (213, .p 1 3), (306, .p 2 9), (307, .n 1 9), (308, .p 1 3)],
    [(137, .p 8 3), (154, .p 2 3), (159, .p 2 3), (163, .p 2 3), (165, .p 2 3), (167, .p 2 3),
     (169, .p 2 3), (178, .p 2 3), (181, .p 2 3), (183, .p 2 3), (184, .n 8 3), (185, .p 2 3),
     (187, .p 2 3), (195, .p 2 3), (198, .p 2 3), (210, .n 1 9), (212, .p 1 3), (214, .p 2 9),
     (215, .n 1 9), (216, .p 1 3), (306, .p 2 9), (307, .n 1 9), (308, .p 1 3)],
    [(138, .p 8 3), (155, .p 2 3), (160, .p 2 3), (164, .p 2 3), (165, .p 2 3), (167, .p 2 3),
     (169, .p 2 3), (179, .p 2 3), (182, .p 2 3), (183, .p 2 3), (184, .p 2 3), (185, .n 8 3),
     (188, .p 2 3), (195, .p 2 3), (198, .p 2 3), (211, .n 1 9), (213, .p 1 3), (215, .n 1 9),
     (216, .p 1 3), (217, .p 2 9), (306, .p 2 9), (307, .n 1 9), (308, .p 1 3)],
    [(139, .p 8 3), (153, .p 2 3), (158, .p 2 3), (162, .p 2 3), (166, .p 2 3), (168, .p 2 3),
     (170, .p 2 3), (177, .p 2 3), (180, .p 2 3), (183, .p 2 3), (186, .n 8 3), (187, .p 2 3),
     (188, .p 2 3), (196, .p 2 3), (199, .p 2 3), (209, .p 2 9), (210, .n 1 9), (211, .n 1 9),
     (212, .p 1 3), (213, .p 1 3), (307, .n 1 9), (308, .p 1 3), (309, .p 2 9)],
    [(140, .p 8 3), (154, .p 2 3), (159, .p 2 3), (163, .p 2 3), (166, .p 2 3), (168, .p 2 3),
     (170, .p 2 3), (178, .p 2 3), (181, .p 2 3), (184, .p 2 3), (186, .p 2 3), (187, .n 8 3),
     (188, .p 2 3), (196, .p 2 3), (199, .p 2 3), (210, .n 1 9), (212, .p 1 3), (214, .p 2 9),
     (215, .n 1 9), (216, .p 1 3), (307, .n 1 9), (308, .p 1 3), (309, .p 2 9)],
    [(141, .p 8 3), (155, .p 2 3), (160, .p 2 3), (164, .p 2 3), (166, .p 2 3), (168, .p 2 3),
     (170, .p 2 3), (179, .p 2 3), (182, .p 2 3), (185, .p 2 3), (186, .p 2 3), (187, .p 2 3),
     (188, .n 8 3), (196, .p 2 3), (199, .p 2 3), (211, .n 1 9), (213, .p 1 3), (215, .n 1 9),
     (216, .p 1 3), (217, .p 2 9), (307, .n 1 9), (308, .p 1 3), (309, .p 2 9)],
    [(142, .n 8 3), (189, .n 14 1)],
    [(143, .n 8 3), (190, .n 14 1)],
    [(144, .n 8 3), (191, .n 14 1)],
    [(145, .n 8 3), (192, .n 14 1)],
    [(146, .n 8 3), (193, .n 14 1)],
    [(147, .n 8 3), (194, .n 14 1)],
    [(148, .n 8 3), (165, .p 2 3), (167, .p 2 3), (169, .p 2 3), (171, .p 2 3), (172, .p 2 3),
     (173, .p 2 3), (177, .p 2 3), (178, .p 2 3), (179, .p 2 3), (183, .p 2 3), (184, .p 2 3),
     (185, .p 2 3), (195, .n 38 3), (196, .p 2 3), (198, .p 2 3), (302, .p 2 9), (303, .n 1 9),
     (304, .p 1 3), (306, .p 2 9), (307, .n 1 9), (308, .p 1 3)],
    [(149, .n 8 3), (166, .p 2 3), (168, .p 2 3), (170, .p 2 3), (171, .p 2 3), (172, .p 2 3),
     (173, .p 2 3), (177, .p 2 3), (178, .p 2 3), (179, .p 2 3), (186, .p 2 3), (187, .p 2 3),
     (188, .p 2 3), (195, .p 2 3), (196, .n 38 3), (199, .p 2 3), (302, .p 2 9), (303, .n 1 9),
     (304, .p 1 3), (307, .n 1 9), (308, .p 1 3), (309, .p 2 9)],
    [(150, .n 8 3), (197, .n 14 1)],
    [(151, .n 8 3), (165, .p 2 3), (167, .p 2 3), (169, .p 2 3), (174, .p 2 3), (175, .p 2 3),
     (176, .p 2 3), (180, .p 2 3), (181, .p 2 3), (182, .p 2 3), (183, .p 2 3), (184, .p 2 3),
     (185, .p 2 3), (195, .p 2 3), (198, .n 38 3), (199, .p 2 3), (303, .n 1 9), (304, .p 1 3),
     (305, .p 2 9), (306, .p 2 9), (307, .n 1 9), (308, .p 1 3)],
    [(152, .n 8 3), (166, .p 2 3), (168, .p 2 3), (170, .p 2 3), (174, .p 2 3), (175, .p 2 3),
     (176, .p 2 3), (180, .p 2 3), (181, .p 2 3), (182, .p 2 3), (186, .p 2 3), (187, .p 2 3),
     (188, .p 2 3), (196, .p 2 3), (198, .p 2 3), (199, .n 38 3), (303, .n 1 9), (304, .p 1 3),
     (305, .p 2 9), (307, .n 1 9), (308, .p 1 3), (309, .p 2 9)],
    [(153, .p 8 3), (154, .p 8 3), (155, .p 8 3), (165, .p 8 3), (166, .p 8 3), (171, .p 8 3),
     (174, .p 8 3), (200, .p 44 9), (201, .n 4 9), (202, .n 4 9), (203, .p 4 3), (204, .p 4 3)],
    [(201, .n 2 1), (203, .p 6 1)],
    [(202, .n 2 1), (204, .p 6 1)],
    [(153, .p 4 3), (154, .p 4 3), (155, .p 4 3), (158, .p 4 3), (159, .p 4 3), (160, .p 4 3),
     (165, .p 4 3), (166, .p 4 3), (167, .p 4 3), (168, .p 4 3), (171, .p 4 3), (172, .p 4 3),
     (174, .p 4 3), (175, .p 4 3), (200, .p 4 9), (201, .p 50 9), (202, .n 2 9), (203, .n 2 3),
     (204, .p 2 3), (205, .p 4 9), (206, .n 2 9), (207, .p 2 3)],
    [(153, .p 4 3), (154, .p 4 3), (155, .p 4 3), (162, .p 4 3), (163, .p 4 3), (164, .p 4 3),
     (165, .p 4 3), (166, .p 4 3), (169, .p 4 3), (170, .p 4 3), (171, .p 4 3), (173, .p 4 3),
     (174, .p 4 3), (176, .p 4 3), (200, .p 4 9), (201, .n 2 9), (202, .p 50 9), (203, .p 2 3),
     (204, .n 2 3), (206, .n 2 9), (207, .p 2 3), (208, .p 4 9)],
    [(158, .p 8 3), (159, .p 8 3), (160, .p 8 3), (167, .p 8 3), (168, .p 8 3), (172, .p 8 3),
     (175, .p 8 3), (201, .n 4 9), (203, .p 4 3), (205, .p 44 9), (206, .n 4 9), (207, .p 4 3)],
    [(206, .n 2 1), (207, .p 6 1)],
    [(158, .p 4 3), (159, .p 4 3), (160, .p 4 3), (162, .p 4 3), (163, .p 4 3), (164, .p 4 3),
     (167, .p 4 3), (168, .p 4 3), (169, .p 4 3), (170, .p 4 3), (172, .p 4 3), (173, .p 4 3),
     (175, .p 4 3), (176, .p 4 3), (201, .n 2 9), (202, .n 2 9), (203, .p 2 3), (204, .p 2 3),
     (205, .p 4 9), (206, .p 50 9), (207, .n 2 3), (208, .p 4 9)],
    [(162, .p 8 3), (163, .p 8 3), (164, .p 8 3), (169, .p 8 3), (170, .p 8 3), (173, .p 8 3),
     (176, .p 8 3), (202, .n 4 9), (204, .p 4 3), (206, .n 4 9), (207, .p 4 3), (208, .p 44 9)],
    [(153, .p 8 3), (158, .p 8 3), (162, .p 8 3), (177, .p 8 3), (180, .p 8 3), (183, .p 8 3),
     (186, .p 8 3), (209, .p 44 9), (210, .n 4 9), (211, .n 4 9), (212, .p 4 3), (213, .p 4 3)],
    [(210, .n 2 1), (212, .p 6 1)],
    [(211, .n 2 1), (213, .p 6 1)],
    [(153, .p 4 3), (154, .p 4 3), (158, .p 4 3), (159, .p 4 3), (162, .p 4 3), (163, .p 4 3),
     (177, .p 4 3), (178, .p 4 3), (180, .p 4 3), (181, .p 4 3), (183, .p 4 3), (184, .p 4 3),
     (186, .p 4 3), (187, .p 4 3), (209, .p 4 9), (210, .p 50 9), (211, .n 2 9), (212, .n 2 3),
     (213, .p 2 3), (214, .p 4 9), (215, .n 2 9), (216, .p 2 3)],
    [(153, .p 4 3), (155, .p 4 3), (158, .p 4 3), (160, .p 4 3), (162, .p 4 3), (164, .p 4 3),
     (177, .p 4 3), (179, .p 4 3), (180, .p 4 3), (182, .p 4 3), (183, .p 4 3), (185, .p 4 3),
     (186, .p 4 3), (188, .p 4 3), (209, .p 4 9), (210, .n 2 9), (211, .p 50 9), (212, .p 2 3),
     (213, .n 2 3), (215, .n 2 9), (216, .p 2 3), (217, .p 4 9)],
    [(154, .p 8 3), (159, .p 8 3), (163, .p 8 3), (178, .p 8 3), (181, .p 8 3), (184, .p 8 3),
     (187, .p 8 3), (210, .n 4 9), (212, .p 4 3), (214, .p 44 9), (215, .n 4 9), (216, .p 4 3)],
    [(215, .n 2 1), (216, .p 6 1)],
    [(154, .p 4 3), (155, .p 4 3), (159, .p 4 3), (160, .p 4 3), (163, .p 4 3), (164, .p 4 3),
     (178, .p 4 3), (179, .p 4 3), (181, .p 4 3), (182, .p 4 3), (184, .p 4 3), (185, .p 4 3),
     (187, .p 4 3), (188, .p 4 3), (210, .n 2 9), (211, .n 2 9), (212, .p 2 3), (213, .p 2 3),
     (214, .p 4 9), (215, .p 50 9), (216, .n 2 3), (217, .p 4 9)],
    [(155, .p 8 3), (160, .p 8 3), (164, .p 8 3), (179, .p 8 3), (182, .p 8 3), (185, .p 8 3),
     (188, .p 8 3), (211, .n 4 9), (213, .p 4 3), (215, .n 4 9), (216, .p 4 3), (217, .p 44 9)],
    [],
    [],
    [],
    [],
    [],
    [],
    [],
    [],
    [],
    [],
    [],
    [],
    [],
    [],
    [],
    [],
    [],
    [],
    [],
    [],
    [],
    [],
    [],
    [],
    [],
    [],
    [],
    [],
    [],
    [],
    [],
    [],
    [],
    [],
    [],
    [],
    [],
    [],
    [],
    [],
    [],
    [],
    [],
    [],
    [],
    [],
    [],
    [],
    [],
    [],
    [],
    [],
    [],
    [],
    [],
    [],
    [],
    [],
    [],
    [],
    [],
    [],
    [],
    [],
    [],
    [],
    [],
    [],
    [],
    [],
    [],
    [],
    [],
    [],
    [],
    [],
    [],
    [],
    [],
    [],
    [],
    [],
    [],
    [],
    [(171, .p 8 3), (172, .p 8 3), (173, .p 8 3), (177, .p 8 3), (178, .p 8 3), (179, .p 8 3),
     (195, .p 8 3), (196, .p 8 3), (302, .p 44 9), (303, .n 4 9), (304, .p 4 3)],
    [(303, .n 2 1), (304, .p 6 1)],
    [(171, .p 4 3), (172, .p 4 3), (173, .p 4 3), (174, .p 4 3), (175, .p 4 3), (176, .p 4 3),
     (177, .p 4 3), (178, .p 4 3), (179, .p 4 3), (180, .p 4 3), (181, .p 4 3), (182, .p 4 3),
     (195, .p 4 3), (196, .p 4 3), (198, .p 4 3), (199, .p 4 3), (302, .p 4 9), (303, .p 50 9),
     (304, .n 2 3), (305, .p 4 9)],
    [(174, .p 8 3), (175, .p 8 3), (176, .p 8 3), (180, .p 8 3), (181, .p 8 3), (182, .p 8 3),
     (198, .p 8 3), (199, .p 8 3), (303, .n 4 9), (304, .p 4 3), (305, .p 44 9)],
    [(165, .p 8 3), (167, .p 8 3), (169, .p 8 3), (183, .p 8 3), (184, .p 8 3), (185, .p 8 3),
     (195, .p 8 3), (198, .p 8 3), (306, .p 44 9), (307, .n 4 9), (308, .p 4 3)],
    [(307, .n 2 1), (308, .p 6 1)],
    [(165, .p 4 3), (166, .p 4 3), (167, .p 4 3), (168, .p 4 3), (169, .p 4 3), (170, .p 4 3),
     (183, .p 4 3), (184, .p 4 3), (185, .p 4 3), (186, .p 4 3), (187, .p 4 3), (188, .p 4 3),
     (195, .p 4 3), (196, .p 4 3), (198, .p 4 3), (199, .p 4 3), (306, .p 4 9), (307, .p 50 9),
     (308, .n 2 3), (309, .p 4 9)],
    [(166, .p 8 3), (168, .p 8 3), (170, .p 8 3), (186, .p 8 3), (187, .p 8 3), (188, .p 8 3),
     (196, .p 8 3), (199, .p 8 3), (307, .n 4 9), (308, .p 4 3), (309, .p 44 9)],
    [(310, .b 2 1 28 3), (313, .n 32 9)],
    [(311, .b 2 1 28 3), (314, .n 32 9)],
    [(312, .b 2 1 28 3), (315, .n 32 9)],
    [(313, .b 2 1 32 3)],
    [(314, .b 2 1 32 3)],
    [(315, .b 2 1 32 3)],
    [(316, .b 2 1 0 1)],
    [(317, .b 2 1 0 1)],
    [(318, .b 2 1 0 1)],
    [(319, .b 2 1 28 3), (321, .p 64 9)],
    [(320, .b 2 1 28 3), (322, .p 64 9)],
    [(321, .b 2 1 32 3)],
    [(322, .b 2 1 32 3)]]

/-- adm.py line 2354 `adm_e_ffnunu` -/
def adm_e_ffnunu : Rows :=
  [
    [(0, .p 4 9), (1, .p 4 9), (2, .p 4 9), (18, .p 4 9), (19, .p 4 9), (20, .p 4 9),
     (36, .p 4 3), (37, .p 4 3), (38, .p 4 3), (54, .p 4 3), (55, .p 4 3), (56, .p 4 3),
     (72, .n 8 9), (73, .n 8 9), (84, .n 8 9), (85, .n 8 9)],
    [(0, .p 4 9), (1, .p 4 9), (2, .p 4 9), (18, .p 4 9), (19, .p 4 9), (20, .p 4 9),
     (36, .p 4 3), (37, .p 4 3), (38, .p 4 3), (54, .p 4 3), (55, .p 4 3), (56, .p 4 3),
     (72, .n 8 9), (73, .n 8 9), (84, .n 8 9), (85, .n 8 9)],
    [(0, .p 4 9), (1, .p 4 9), (2, .p 4 9), (18, .p 4 9), (19, .p 4 9), (20, .p 4 9),
     (36, .p 4 3), (37, .p 4 3), (38, .p 4 3), (54, .p 4 3), (55, .p 4 3), (56, .p 4 3),
     (72, .n 8 9), (73, .n 8 9), (84, .n 8 9), (85, .n 8 9)],
    [(3, .p 4 9), (4, .p 4 9), (5, .p 4 9), (21, .p 4 9), (22, .p 4 9), (23, .p 4 9),
     (39, .p 4 3), (40, .p 4 3), (41, .p 4 3), (57, .p 4 3), (58, .p 4 3), (59, .p 4 3),
     (74, .n 8 9), (75, .n 8 9), (86, .n 8 9), (87, .n 8 9)],
    [(3, .p 4 9), (4, .p 4 9), (5, .p 4 9), (21, .p 4 9), (22, .p 4 9), (23, .p 4 9),
     (39, .p 4 3), (40, .p 4 3), (41, .p 4 3), (57, .p 4 3), (58, .p 4 3), (59, .p 4 3),
     (74, .n 8 9), (75, .n 8 9), (86, .n 8 9), (87, .n 8 9)],
    [(3, .p 4 9), (4, .p 4 9), (5, .p 4 9), (21, .p 4 9), (22, .p 4 9), (23, .p 4 9),
     (39, .p 4 3), (40, .p 4 3), (41, .p 4 3), (57, .p 4 3), (58, .p 4 3), (59, .p 4 3),
     (74, .n 8 9), (75, .n 8 9), (86, .n 8 9), (87, .n 8 9)],
    [(6, .p 4 9), (7, .p 4 9), (8, .p 4 9), (24, .p 4 9), (25, .p 4 9), (26, .p 4 9),
     (42, .p 4 3), (43, .p 4 3), (44, .p 4 3), (60, .p 4 3), (61, .p 4 3), (62, .p 4 3),
     (76, .n 8 9), (77, .n 8 9), (88, .n 8 9), (89, .n 8 9)],
    [(6, .p 4 9), (7, .p 4 9), (8, .p 4 9), (24, .p 4 9), (25, .p 4 9), (26, .p 4 9),
     (42, .p 4 3), (43, .p 4 3), (44, .p 4 3), (60, .p 4 3), (61, .p 4 3), (62, .p 4 3),
     (76, .n 8 9), (77, .n 8 9), (88, .n 8 9), (89, .n 8 9)],
    [(6, .p 4 9), (7, .p 4 9), (8, .p 4 9), (24, .p 4 9), (25, .p 4 9), (26, .p 4 9),
     (42, .p 4 3), (43, .p 4 3), (44, .p 4 3), (60, .p 4 3), (61, .p 4 3), (62, .p 4 3),
     (76, .n 8 9), (77, .n 8 9), (88, .n 8 9), (89, .n 8 9)],
    [(9, .p 4 9), (10, .p 4 9), (11, .p 4 9), (27, .p 4 9), (28, .p 4 9), (29, .p 4 9),
     (45, .p 4 3), (46, .p 4 3), (47, .p 4 3), (63, .p 4 3), (64, .p 4 3), (65, .p 4 3),
     (78, .n 8 9), (79, .n 8 9), (90, .n 8 9), (91, .n 8 9)],
    [(9, .p 4 9), (10, .p 4 9), (11, .p 4 9), (27, .p 4 9), (28, .p 4 9), (29, .p 4 9),
     (45, .p 4 3), (46, .p 4 3), (47, .p 4 3), (63, .p 4 3), (64, .p 4 3), (65, .p 4 3),
     (78, .n 8 9), (79, .n 8 9), (90, .n 8 9), (91, .n 8 9)],
    [(9, .p 4 9), (10, .p 4 9), (11, .p 4 9), (27, .p 4 9), (28, .p 4 9), (29, .p 4 9),
     (45, .p 4 3), (46, .p 4 3), (47, .p 4 3), (63, .p 4 3), (64, .p 4 3), (65, .p 4 3),
     (78, .n 8 9), (79, .n 8 9), (90, .n 8 9), (91, .n 8 9)],
    [(12, .p 4 9), (13, .p 4 9), (14, .p 4 9), (30, .p 4 9), (31, .p 4 9), (32, .p 4 9),
     (48, .p 4 3), (49, .p 4 3), (50, .p 4 3), (66, .p 4 3), (67, .p 4 3), (68, .p 4 3),
     (80, .n 8 9), (81, .n 8 9), (92, .n 8 9), (93, .n 8 9)],
    [(12, .p 4 9), (13, .p 4 9), (14, .p 4 9), (30, .p 4 9), (31, .p 4 9), (32, .p 4 9),
     (48, .p 4 3), (49, .p 4 3), (50, .p 4 3), (66, .p 4 3), (67, .p 4 3), (68, .p 4 3),
     (80, .n 8 9), (81, .n 8 9), (92, .n 8 9), (93, .n 8 9)],
    [(12, .p 4 9), (13, .p 4 9), (14, .p 4 9), (30, .p 4 9), (31, .p 4 9), (32, .p 4 9),
     (48, .p 4 3), (49, .p 4 3), (50, .p 4 3), (66, .p 4 3), (67, .p 4 3), (68, .p 4 3),
     (80, .n 8 9), (81, .n 8 9), (92, .n 8 9), (93, .n 8 9)],
    [(15, .p 4 9), (16, .p 4 9), (17, .p 4 9), (33, .p 4 9), (34, .p 4 9), (35, .p 4 9),
     (51, .p 4 3), (52, .p 4 3), (53, .p 4 3), (69, .p 4 3), (70, .p 4 3), (71, .p 4 3),
     (82, .n 8 9), (83, .n 8 9), (94, .n 8 9), (95, .n 8 9)],
    [(15, .p 4 9), (16, .p 4 9), (17, .p 4 9), (33, .p 4 9), (34, .p 4 9), (35, .p 4 9),
     (51, .p 4 3), (52, .p 4 3), (53, .p 4 3), (69, .p 4 3), (70, .p 4 3), (71, .p 4 3),
     (82, .n 8 9), (83, .n 8 9), (94, .n 8 9), (95, .n 8 9)],
    [(15, .p 4 9), (16, .p 4 9), (17, .p 4 9), (33, .p 4 9), (34, .p 4 9), (35, .p 4 9),
     (51, .p 4 3), (52, .p 4 3), (53, .p 4 3), (69, .p 4 3), (70, .p 4 3), (71, .p 4 3),
     (82, .n 8 9), (83, .n 8 9), (94, .n 8 9), (95, .n 8 9)],
    [(0, .p 4 9), (1, .p 4 9), (2, .p 4 9), (18, .p 4 9), (19, .p 4 9), (20, .p 4 9),
     (36, .p 4 3), (37, .p 4 3), (38, .p 4 3), (54, .p 4 3), (55, .p 4 3), (56, .p 4 3),
     (72, .n 8 9), (73, .n 8 9), (84, .n 8 9), (85, .n 8 9)],
    [(0, .p 4 9), (1, .p 4 9), (2, .p 4 9), (18, .p 4 9), (19, .p 4 9), (20, .p 4 9),
     (36, .p 4 3), (37, .p 4 3), (38, .p 4 3), (54, .p 4 3), (55, .p 4 3), (56, .p 4 3),
     (72, .n 8 9), (73, .n 8 9), (84, .n 8 9), (85, .n 8 9)],
    [(0, .p 4 9), (1, .p 4 9), (2, .p 4 9), (18, .p 4 9), (19, .p 4 9), (20, .p 4 9),
     (36, .p 4 3), (37, .p 4 3), (38, .p 4 3), (54, .p 4 3), (55, .p 4 3), (56, .p 4 3),
     (72, .n 8 9), (73, .n 8 9), (84, .n 8 9), (85, .n 8 9)],
    [(3, .p 4 9), (4, .p 4 9), (5, .p 4 9), (21, .p 4 9), (22, .p 4 9), (23, .p 4 9),
     (39, .p 4 3), (40, .p 4 3), (41, .p 4 3), (57, .p 4 3), (58, .p 4 3), (59, .p 4 3),
     (74, .n 8 9), (75, .n 8 9), (86, .n 8 9), (87, .n 8 9)],
    [(3, .p 4 9), (4, .p 4 9), (5, .p 4 9), (21, .p 4 9), (22, .p 4 9), (23, .p 4 9),
     (39, .p 4 3), (40, .p 4 3), (41, .p 4 3), (57, .p 4 3), (58, .p 4 3), (59, .p 4 3),
     (74, .n 8 9), (75, .n 8 9), (86, .n 8 9), (87, .n 8 9)],
    [(3, .p 4 9), (4, .p 4 9), (5, .p 4 9), (21, .p 4 9), (22, .p 4 9), (23, .p 4 9),
     (39, .p 4 3), (40, .p 4 3), (41, .p 4 3), (57, .p 4 3), (58, .p 4 3), (59, .p 4 3),
     (74, .n 8 9), (75, .n 8 9), (86, .n 8 9), (87, .n 8 9)],
    [(6, .p 4 9), (7, .p 4 9), (8, .p 4 9), (24, .p 4 9), (25, .p 4 9), (26, .p 4 9),
     (42, .p 4 3), (43, .p 4 3), (44, .p 4 3), (60, .p 4 3), (61, .p 4 3), (62, .p 4 3),
     (76, .n 8 9), (77, .n 8 9), (88, .n 8 9), (89, .n 8 9)],
    [(6, .p 4 9), (7, .p 4 9), (8, .p 4 9), (24, .p 4 9), (25, .p 4 9), (26, .p 4 9),
     (42, .p 4 3), (43, .p 4 3), (44, .p 4 3), (60, .p 4 3), (61, .p 4 3), (62, .p 4 3),
     (76, .n 8 9), (77, .n 8 9), (88, .n 8 9), (89, .n 8 9)],
    [(6, .p 4 9), (7, .p 4 9), (8, .p 4 9), (24, .p 4 9), (25, .p 4 9), (26, .p 4 9),
     (42, .p 4 3), (43, .p 4 3), (44, .p 4 3), (60, .p 4 3), (61, .p 4 3), (62, .p 4 3),
     (76, .n 8 9), (77, .n 8 9), (88, .n 8 9), (89, .n 8 9)],
    [(9, .p 4 9), (10, .p 4 9), (11, .p 4 9), (27, .p 4 9), (28, .p 4 9), (29, .p 4 9),
     (45, .p 4 3), (46, .p 4 3), (47, .p 4 3), (63, .p 4 3), (64, .p 4 3), (65, .p 4 3),
     (78, .n 8 9), (79, .n 8 9), (90, .n 8 9), (91, .n 8 9)],
    [(9, .p 4 9), (10, .p 4 9), (11, .p 4 9), (27, .p 4 9), (28, .p 4 9), (29, .p 4 9),
     (45, .p 4 3), (46, .p 4 3), (47, .p 4 3), (63, .p 4 3), (64, .p 4 3), (65, .p 4 3),
     (78, .n 8 9), (79, .n 8 9), (90, .n 8 9), (91, .n 8 9)],
    [(9, .p 4 9), (10, .p 4 9), (11, .p 4 9), (27, .p 4 9), (28, .p 4 9), (29, .p 4 9),
     (45, .p 4 3), (46, .p 4 3), (47, .p 4 3), (63, .p 4 3), (64, .p 4 3), (65, .p 4 3),
     (78, .n 8 9), (79, .n 8 9), (90, .n 8 9), (91, .n 8 9)],
    [(12, .p 4 9), (13, .p 4 9), (14, .p 4 9), (30, .p 4 9), (31, .p 4 9), (32, .p 4 9),
     (48, .p 4 3), (49, .p 4 3), (50, .p 4 3), (66, .p 4 3), (67, .p 4 3), (68, .p 4 3),
     (80, .n 8 9), (81, .n 8 9), (92, .n 8 9), (93, .n 8 9)],
    [(12, .p 4 9), (13, .p 4 9), (14, .p 4 9), (30, .p 4 9), (31, .p 4 9), (32, .p 4 9),
     (48, .p 4 3), (49, .p 4 3), (50, .p 4 3), (66, .p 4 3), (67, .p 4 3), (68, .p 4 3),
     (80, .n 8 9), (81, .n 8 9), (92, .n 8 9), (93, .n 8 9)],
    [(12, .p 4 9), (13, .p 4 9), (14, .p 4 9), (30, .p 4 9), (31, .p 4 9), (32, .p 4 9),
     (48, .p 4 3), (49, .p 4 3), (50, .p 4 3), (66, .p 4 3), (67, .p 4 3), (68, .p 4 3),
     (80, .n 8 9), (81, .n 8 9), (92, .n 8 9), (93, .n 8 9)],
    [(15, .p 4 9), (16, .p 4 9), (17, .p 4 9), (33, .p 4 9), (34, .p 4 9), (35, .p 4 9),
     (51, .p 4 3), (52, .p 4 3), (53, .p 4 3), (69, .p 4 3), (70, .p 4 3), (71, .p 4 3),
     (82, .n 8 9), (83, .n 8 9), (94, .n 8 9), (95, .n 8 9)],
    [(15, .p 4 9), (16, .p 4 9), (17, .p 4 9), (33, .p 4 9), (34, .p 4 9), (35, .p 4 9),
     (51, .p 4 3), (52, .p 4 3), (53, .p 4 3), (69, .p 4 3), (70, .p 4 3), (71, .p 4 3),
     (82, .n 8 9), (83, .n 8 9), (94, .n 8 9), (95, .n 8 9)],
    [(15, .p 4 9), (16, .p 4 9), (17, .p 4 9), (33, .p 4 9), (34, .p 4 9), (35, .p 4 9),
     (51, .p 4 3), (52, .p 4 3), (53, .p 4 3), (69, .p 4 3), (70, .p 4 3), (71, .p 4 3),
     (82, .n 8 9), (83, .n 8 9), (94, .n 8 9), (95, .n 8 9)],
    [(0, .p 4 9), (1, .p 4 9), (2, .p 4 9), (18, .p 4 9), (19, .p 4 9), (20, .p 4 9),
     (36, .p 4 3), (37, .p 4 3), (38, .p 4 3), (54, .p 4 3), (55, .p 4 3), (56, .p 4 3),
     (72, .n 8 9), (73, .n 8 9), (84, .n 8 9), (85, .n 8 9)],
    [(0, .p 4 9), (1, .p 4 9), (2, .p 4 9), (18, .p 4 9), (19, .p 4 9), (20, .p 4 9),
     (36, .p 4 3), (37, .p 4 3), (38, .p 4 3), (54, .p 4 3), (55, .p 4 3), (56, .p 4 3),
     (72, .n 8 9), (73, .n 8 9), (84, .n 8 9), (85, .n 8 9)],
    [(0, .p 4 9), (1, .p 4 9), (2, .p 4 9), (18, .p 4 9), (19, .p 4 9), (20, .p 4 9),
     (36, .p 4 3), (37, .p 4 3), (38, .p 4 3), (54, .p 4 3), (55, .p 4 3), (56, .p 4 3),
     (72, .n 8 9), (73, .n 8 9), (84, .n 8 9), (85, .n 8 9)],
    [(3, .p 4 9), (4, .p 4 9), (5, .p 4 9), (21, .p 4 9), (22, .p 4 9), (23, .p 4 9),
     (39, .p 4 3), (40, .p 4 3), (41, .p 4 3), (57, .p 4 3), (58, .p 4 3), (59, .p 4 3),
     (74, .n 8 9), (75, .n 8 9), (86, .n 8 9), (87, .n 8 9)],
    [(3, .p 4 9), (4, .p 4 9), (5, .p 4 9), (21, .p 4 9), (22, .p 4 9), (23, .p 4 9),
     (39, .p 4 3), (40, .p 4 3), (41, .p 4 3), (57, .p 4 3), (58, .p 4 3), (59, .p 4 3),
     (74, .n 8 9), (75, .n 8 9), (86, .n 8 9), (87, .n 8 9)],
    [(3, .p 4 9), (4, .p 4 9), (5, .p 4 9), (21, .p 4 9), (22, .p 4 9), (23, .p 4 9),
     (39, .p 4 3), (40, .p 4 3), (41, .p 4 3), (57, .p 4 3), (58, .p 4 3), (59, .p 4 3),
     (74, .n 8 9), (75, .n 8 9), (86, .n 8 9), (87, .n 8 9)],
    [(6, .p 4 9), (7, .p 4 9), (8, .p 4 9), (24, .p 4 9), (25, .p 4 9), (26, .p 4 9),
     (42, .p 4 3), (43, .p 4 3), (44, .p 4 3), (60, .p 4 3), (61, .p 4 3), (62, .p 4 3),
     (76, .n 8 9), (77, .n 8 9), (88, .n 8 9), (89, .n 8 9)],
    [(6, .p 4 9), (7, .p 4 9), (8, .p 4 9), (24, .p 4 9), (25, .p 4 9), (26, .p 4 9),
     (42, .p 4 3), (43, .p 4 3), (44, .p 4 3), (60, .p 4 3), (61, .p 4 3), (62, .p 4 3),
     (76, .n 8 9), (77, .n 8 9), (88, .n 8 9), (89, .n 8 9)],
    [(6, .p 4 9), (7, .p 4 9), (8, .p 4 9), (24, .p 4 9), (25, .p 4 9), (26, .p 4 9),
     (42, .p 4 3), (43, .p 4 3), (44, .p 4 3), (60, .p 4 3), (61, .p 4 3), (62, .p 4 3),
     (76, .n 8 9), (77, .n 8 9), (88, .n 8 9), (89, .n 8 9)],
    [(9, .p 4 9), (10, .p 4 9), (11, .p 4 9), (27, .p 4 9), (28, .p 4 9), (29, .p 4 9),
     (45, .p 4 3), (46, .p 4 3), (47, .p 4 3), (63, .p 4 3), (64, .p 4 3), (65, .p 4 3),
     (78, .n 8 9), (79, .n 8 9), (90, .n 8 9), (91, .n 8 9)],
    [(9, .p 4 9), (10, .p 4 9), (11, .p 4 9), (27, .p 4 9), (28, .p 4 9), (29, .p 4 9),
     (45, .p 4 3), (46, .p 4 3), (47, .p 4 3), (63, .p 4 3), (64, .p 4 3), (65, .p 4 3),
     (78, .n 8 9), (79, .n 8 9), (90, .n 8 9), (91, .n 8 9)],
    [(9, .p 4 9), (10, .p 4 9), (11, .p 4 9), (27, .p 4 9), (28, .p 4 9), (29, .p 4 9),
     (45, .p 4 3), (46, .p 4 3), (47, .p 4 3), (63, .p 4 3), (64, .p 4 3), (65, .p 4 3),
     (78, .n 8 9), (79, .n 8 9), (90, .n 8 9), (91, .n 8 9)],
    [(12, .p 4 9), (13, .p 4 9), (14, .p 4 9), (30, .p 4 9), (31, .p 4 9), (32, .p 4 9),
     (48, .p 4 3), (49, .p 4 3), (50, .p 4 3), (66, .p 4 3), (67, .p 4 3), (68, .p 4 3),
     (80, .n 8 9), (81, .n 8 9), (92, .n 8 9), (93, .n 8 9)],
    [(12, .p 4 9), (13, .p 4 9), (14, .p 4 9), (30, .p 4 9), (31, .p 4 9), (32, .p 4 9),
     (48, .p 4 3), (49, .p 4 3), (50, .p 4 3), (66, .p 4 3), (67, .p 4 3), (68, .p 4 3),
     (80, .n 8 9), (81, .n 8 9), (92, .n 8 9), (93, .n 8 9)],
    [(12, .p 4 9), (13, .p 4 9), (14, .p 4 9), (30, .p 4 9), (31, .p 4 9), (32, .p 4 9),
     (48, .p 4 3), (49, .p 4 3), (50, .p 4 3), (66, .p 4 3), (67, .p 4 3), (68, .p 4 3),
     (80, .n 8 9), (81, .n 8 9), (92, .n 8 9), (93, .n 8 9)],
    [(15, .p 4 9), (16, .p 4 9), (17, .p 4 9), (33, .p 4 9), (34, .p 4 9), (35, .p 4 9),
     (51, .p 4 3), (52, .p 4 3), (53, .p 4 3), (69, .p 4 3), (70, .p 4 3), (71, .p 4 3),
     (82, .n 8 9), (83, .n 8 9), (94, .n 8 9), (95, .n 8 9)],
    [(15, .p 4 9), (16, .p 4 9), (17, .p 4 9), (33, .p 4 9), (34, .p 4 9), (35, .p 4 9),
     (51, .p 4 3), (52, .p 4 3), (53, .p 4 3), (69, .p 4 3), (70, .p 4 3), (71, .p 4 3),
     (82, .n 8 9), (83, .n 8 9), (94, .n 8 9), (95, .n 8 9)],
    [(15, .p 4 9), (16, .p 4 9), (17, .p 4 9), (33, .p 4 9), (34, .p 4 9), (35, .p 4 9),
     (51, .p 4 3), (52, .p 4 3), (53, .p 4 3), (69, .p 4 3), (70, .p 4 3), (71, .p 4 3),
     (82, .n 8 9), (83, .n 8 9), (94, .n 8 9), (95, .n 8 9)],
    [(0, .p 4 9), (1, .p 4 9), (2, .p 4 9), (18, .p 4 9), (19, .p 4 9), (20, .p 4 9),
     (36, .p 4 3), (37, .p 4 3), (38, .p 4 3), (54, .p 4 3), (55, .p 4 3), (56, .p 4 3),
     (72, .n 8 9), (73, .n 8 9), (84, .n 8 9), (85, .n 8 9)],
    [(0, .p 4 9), (1, .p 4 9), (2, .p 4 9), (18, .p 4 9), (19, .p 4 9), (20, .p 4 9),
     (36, .p 4 3), (37, .p 4 3), (38, .p 4 3), (54, .p 4 3), (55, .p 4 3), (56, .p 4 3),
     (72, .n 8 9), (73, .n 8 9), (84, .n 8 9), (85, .n 8 9)],
    [(0, .p 4 9), (1, .p 4 9), (2, .p 4 9), (18, .p 4 9), (19, .p 4 9), (20, .p 4 9),
     (36, .p 4 3), (37, .p 4 3), (38, .p 4 3), (54, .p 4 3), (55, .p 4 3), (56, .p 4 3),
     (72, .n 8 9), (73, .n 8 9), (84, .n 8 9), (85, .n 8 9)],
    [(3, .p 4 9), (4, .p 4 9), (5, .p 4 9), (21, .p 4 9), (22, .p 4 9), (23, .p 4 9),
     (39, .p 4 3), (40, .p 4 3), (41, .p 4 3), (57, .p 4 3), (58, .p 4 3), (59, .p 4 3),
     (74, .n 8 9), (75, .n 8 9), (86, .n 8 9), (87, .n 8 9)],
    [(3, .p 4 9), (4, .p 4 9), (5, .p 4 9), (21, .p 4 9), (22, .p 4 9), (23, .p 4 9),
     (39, .p 4 3), (40, .p 4 3), (41, .p 4 3), (57, .p 4 3), (58, .p 4 3), (59, .p 4 3),
     (74, .n 8 9), (75, .n 8 9), (86, .n 8 9), (87, .n 8 9)],
    [(3, .p 4 9), (4, .p 4 9), (5, .p 4 9), (21, .p 4 9), (22, .p 4 9), (23, .p 4 9),
     (39, .p 4 3), (40, .p 4 3), (41, .p 4 3), (57, .p 4 3), (58, .p 4 3), (59, .p 4 3),
     (74, .n 8 9), (75, .n 8 9), (86, .n 8 9), (87, .n 8 9)],
    [(6, .p 4 9), (7, .p 4 9), (8, .p 4 9), (24, .p 4 9), (25, .p 4 9), (26, .p 4 9),
     (42, .p 4 3), (43, .p 4 3), (44, .p 4 3), (60, .p 4 3), (61, .p 4 3), (62, .p 4 3),
     (76, .n 8 9), (77, .n 8 9), (88, .n 8 9), (89, .n 8 9)],
    [(6, .p 4 9), (7, .p 4 9), (8, .p 4 9), (24, .p 4 9), (25, .p 4 9), (26, .p 4 9),
     (42, .p 4 3), (43, .p 4 3), (44, .p 4 3), (60, .p 4 3), (61, .p 4 3), (62, .p 4 3),
     (76, .n 8 9), (77, .n 8 9), (88, .n 8 9), (89, .n 8 9)],
    [(6, .p 4 9), (7, .p 4 9), (8, .p 4 9), (24, .p 4 9), (25, .p 4 9), (26, .p 4 9),
     (42, .p 4 3), (43, .p 4 3), (44, .p 4 3), (60, .p 4 3), (61, .p 4 3), (62, .p 4 3),
     (76, .n 8 9), (77, .n 8 9), (88, .n 8 9), (89, .n 8 9)],
    [(9, .p 4 9), (10, .p 4 9), (11, .p 4 9), (27, .p 4 9), (28, .p 4 9), (29, .p 4 9),
     (45, .p 4 3), (46, .p 4 3), (47, .p 4 3), (63, .p 4 3), (64, .p 4 3), (65, .p 4 3),
     (78, .n 8 9), (79, .n 8 9), (90, .n 8 9), (91, .n 8 9)],
    [(9, .p 4 9), (10, .p 4 9), (11, .p 4 9), (27, .p 4 9), (28, .p 4 9), (29, .p 4 9),
     (45, .p 4 3), (46, .p 4 3), (47, .p 4 3), (63, .p 4 3), (64, .p 4 3), (65, .p 4 3),
     (78, .n 8 9), (79, .n 8 9), (90, .n 8 9), (91, .n 8 9)],
    [(9, .p 4 9), (10, .p 4 9), (11, .p 4 9), (27, .p 4 9), (28, .p 4 9), (29, .p 4 9),
     (45, .p 4 3), (46, .p 4 3), (47, .p 4 3), (63, .p 4 3), (64, .p 4 3), (65, .p 4 3),
     (78, .n 8 9), (79, .n 8 9), (90, .n 8 9), (91, .n 8 9)],
    [(12, .p 4 9), (13, .p 4 9), (14, .p 4 9), (30, .p 4 9), (31, .p 4 9), (32, .p 4 9),
     (48, .p 4 3), (49, .p 4 3), (50, .p 4 3), (66, .p 4 3), (67, .p 4 3), (68, .p 4 3),
     (80, .n 8 9), (81, .n 8 9), (92, .n 8 9), (93, .n 8 9)],
    [(12, .p 4 9), (13, .p 4 9), (14, .p 4 9), (30, .p 4 9), (31, .p 4 9), (32, .p 4 9),
     (48, .p 4 3), (49, .p 4 3), (50, .p 4 3), (66, .p 4 3), (67, .p 4 3), (68, .p 4 3),
     (80, .n 8 9), (81, .n 8 9), (92, .n 8 9), (93, .n 8 9)],
    [(12, .p 4 9), (13, .p 4 9), (14, .p 4 9), (30, .p 4 9), (31, .p 4 9), (32, .p 4 9),
     (48, .p 4 3), (49, .p 4 3), (50, .p 4 3), (66, .p 4 3), (67, .p 4 3), (68, .p 4 3),
     (80, .n 8 9), (81, .n 8 9), (92, .n 8 9), (93, .n 8 9)],
    [(15, .p 4 9), (16, .p 4 9), (17, .p 4 9), (33, .p 4 9), (34, .p 4 9), (35, .p 4 9),
     (51, .p 4 3), (52, .p 4 3), (53, .p 4 3), (69, .p 4 3), (70, .p 4 3), (71, .p 4 3),
     (82, .n 8 9), (83, .n 8 9), (94, .n 8 9), (95, .n 8 9)],
    [(15, .p 4 9), (16, .p 4 9), (17, .p 4 9), (33, .p 4 9), (34, .p 4 9), (35, .p 4 9),
     (51, .p 4 3), (52, .p 4 3), (53, .p 4 3), (69, .p 4 3), (70, .p 4 3), (71, .p 4 3),
     (82, .n 8 9), (83, .n 8 9), (94, .n 8 9), (95, .n 8 9)],
    [(15, .p 4 9), (16, .p 4 9), (17, .p 4 9), (33, .p 4 9), (34, .p 4 9), (35, .p 4 9),
     (51, .p 4 3), (52, .p 4 3), (53, .p 4 3), (69, .p 4 3), (70, .p 4 3), (71, .p 4 3),
     (82, .n 8 9), (83, .n 8 9), (94, .n 8 9), (95, .n 8 9)],
    [(0, .n 8 9), (1, .n 8 9), (2, .n 8 9), (18, .n 8 9), (19, .n 8 9), (20, .n 8 9),
     (36, .n 8 3), (37, .n 8 3), (38, .n 8 3), (54, .n 8 3), (55, .n 8 3), (56, .n 8 3),
     (72, .p 16 9), (73, .p 16 9), (84, .p 16 9), (85, .p 16 9)],
    [(0, .n 8 9), (1, .n 8 9), (2, .n 8 9), (18, .n 8 9), (19, .n 8 9), (20, .n 8 9),
     (36, .n 8 3), (37, .n 8 3), (38, .n 8 3), (54, .n 8 3), (55, .n 8 3), (56, .n 8 3),
     (72, .p 16 9), (73, .p 16 9), (84, .p 16 9), (85, .p 16 9)],
    [(3, .n 8 9), (4, .n 8 9), (5, .n 8 9), (21, .n 8 9), (22, .n 8 9), (23, .n 8 9),
     (39, .n 8 3), (40, .n 8 3), (41, .n 8 3), (57, .n 8 3), (58, .n 8 3), (59, .n 8 3),
     (74, .p 16 9), (75, .p 16 9), (86, .p 16 9), (87, .p 16 9)],
    [(3, .n 8 9), (4, .n 8 9), (5, .n 8 9), (21, .n 8 9), (22, .n 8 9), (23, .n 8 9),
     (39, .n 8 3), (40, .n 8 3), (41, .n 8 3), (57, .n 8 3), (58, .n 8 3), (59, .n 8 3),
     (74, .p 16 9), (75, .p 16 9), (86, .p 16 9), (87, .p 16 9)],
    [(6, .n 8 9), (7, .n 8 9), (8, .n 8 9), (24, .n 8 9), (25, .n 8 9), (26, .n 8 9),
     (42, .n 8 3), (43, .n 8 3), (44, .n 8 3), (60, .n 8 3), (61, .n 8 3), (62, .n 8 3),
     (76, .p 16 9), (77, .p 16 9), (88, .p 16 9), (89, .p 16 9)],
    [(6, .n 8 9), (7, .n 8 9), (8, .n 8 9), (24, .n 8 9), (25, .n 8 9), (26, .n 8 9),
     (42, .n 8 3), (43, .n 8 3), (44, .n 8 3), (60, .n 8 3), (61, .n 8 3), (62, .n 8 3),
     (76, .p 16 9), (77, .p 16 9), (88, .p 16 9), (89, .p 16 9)],
    [(9, .n 8 9), (10, .n 8 9), (11, .n 8 9), (27, .n 8 9), (28, .n 8 9), (29, .n 8 9),
     (45, .n 8 3), (46, .n 8 3), (47, .n 8 3), (63, .n 8 3), (64, .n 8 3), (65, .n 8 3),
     (78, .p 16 9), (79, .p 16 9), (90, .p 16 9), (91, .p 16 9)],
    [(9, .n 8 9), (10, .n 8 9), (11, .n 8 9), (27, .n 8 9), (28, .n 8 9), (29, .n 8 9),
     (45, .n 8 3), (46, .n 8 3), (47, .n 8 3), (63, .n 8 3), (64, .n 8 3), (65, .n 8 3),
     (78, .p 16 9), (79, .p 16 9), (90, .p 16 9), (91, .p 16 9)],
    [(12, .n 8 9), (13, .n 8 9), (14, .n 8 9), (30, .n 8 9), (31, .n 8 9), (32, .n 8 9),
     (48, .n 8 3), (49, .n 8 3), (50, .n 8 3), (66, .n 8 3), (67, .n 8 3), (68, .n 8 3),
     (80, .p 16 9), (81, .p 16 9), (92, .p 16 9), (93, .p 16 9)],
    [(12, .n 8 9), (13, .n 8 9), (14, .n 8 9), (30, .n 8 9), (31, .n 8 9), (32, .n 8 9),
     (48, .n 8 3), (49, .n 8 3), (50, .n 8 3), (66, .n 8 3), (67, .n 8 3), (68, .n 8 3),
     (80, .p 16 9), (81, .p 16 9), (92, .p 16 9), (93, .p 16 9)],
    [(15, .n 8 9), (16, .n 8 9), (17, .n 8 9), (33, .n 8 9), (34, .n 8 9), (35, .n 8 9),
     (51, .n 8 3), (52, .n 8 3), (53, .n 8 3), (69, .n 8 3), (70, .n 8 3), (71, .n 8 3),
     (82, .p 16 9), (83, .p 16 9), (94, .p 16 9), (95, .p 16 9)],
    [(15, .n 8 9), (16, .n 8 9), (17, .n 8 9), (33, .n 8 9), (34, .n 8 9), (35, .n 8 9),
     (51, .n 8 3), (52, .n 8 3), (53, .n 8 3), (69, .n 8 3), (70, .n 8 3), (71, .n 8 3),
     (82, .p 16 9), (83, .p 16 9), (94, .p 16 9), (95, .p 16 9)],
    [(0, .n 8 9), (1, .n 8 9), (2, .n 8 9), (18, .n 8 9), (19, .n 8 9), (20, .n 8 9),
     (36, .n 8 3), (37, .n 8 3), (38, .n 8 3), (54, .n 8 3), (55, .n 8 3), (56, .n 8 3),
     (72, .p 16 9), (73, .p 16 9), (84, .p 16 9), (85, .p 16 9)],
    [(0, .n 8 9), (1, .n 8 9), (2, .n 8 9), (18, .n 8 9), (19, .n 8 9), (20, .n 8 9),
     (36, .n 8 3), (37, .n 8 3), (38, .n 8 3), (54, .n 8 3), (55, .n 8 3), (56, .n 8 3),
     (72, .p 16 9), (73, .p 16 9), (84, .p 16 9), (85, .p 16 9)],
    [(3, .n 8 9), (4, .n 8 9), (5, .n 8 9), (21, .n 8 9), (22, .n 8 9), (23, .n 8 9),
     (39, .n 8 3), (40, .n 8 3), (41, .n 8 3), (57, .n 8 3), (58, .n 8 3), (59, .n 8 3),
     (74, .p 16 9), (75, .p 16 9), (86, .p 16 9), (87, .p 16 9)],
    [(3, .n 8 9), (4, .n 8 9), (5, .n 8 9), (21, .n 8 9), (22, .n 8 9), (23, .n 8 9),
     (39, .n 8 3), (40, .n 8 3), (41, .n 8 3), (57, .n 8 3), (58, .n 8 3), (59, .n 8 3),
     (74, .p 16 9), (75, .p 16 9), (86, .p 16 9), (87, .p 16 9)],
    [(6, .n 8 9), (7, .n 8 9), (8, .n 8 9), (24, .n 8 9), (25, .n 8 9), (26, .n 8 9),
     (42, .n 8 3), (43, .n 8 3), (44, .n 8 3), (60, .n 8 3), (61, .n 8 3), (62, .n 8 3),
     (76, .p 16 9), (77, .p 16 9), (88, .p 16 9), (89, .p 16 9)],
    [(6, .n 8 9), (7, .n 8 9), (8, .n 8 9), (24, .n 8 9), (25, .n 8 9), (26, .n 8 9),
     (42, .n 8 3), (43, .n 8 3), (44, .n 8 3), (60, .n 8 3), (61, .n 8 3), (62, .n 8 3),
     (76, .p 16 9), (77, .p 16 9), (88, .p 16 9), (89, .p 16 9)],
    [(9, .n 8 9), (10, .n 8 9), (11, .n 8 9), (27, .n 8 9), (28, .n 8 9), (29, .n 8 9),
     (45, .n 8 3), (46, .n 8 3), (47, .n 8 3), (63, .n 8 3), (64, .n 8 3), (65, .n 8 3),
     (78, .p 16 9), (79, .p 16 9), (90, .p 16 9), (91, .p 16 9)],
    [(9, .n 8 9), (10, .n 8 9), (11, .n 8 9), (27, .n 8 9), (28, .n 8 9), (29, .n 8 9),
     (45, .n 8 3), (46, .n 8 3), (47, .n 8 3), (63, .n 8 3), (64, .n 8 3), (65, .n 8 3),
     (78, .p 16 9), (79, .p 16 9), (90, .p 16 9), (91, .p 16 9)],
    [(12, .n 8 9), (13, .n 8 9), (14, .n 8 9), (30, .n 8 9), (31, .n 8 9), (32, .n 8 9),
     (48, .n 8 3), (49, .n 8 3), (50, .n 8 3), (66, .n 8 3), (67, .n 8 3), (68, .n 8 3),
     (80, .p 16 9), (81, .p 16 9), (92, .p 16 9), (93, .p 16 9)],
    [(12, .n 8 9), (13, .n 8 9), (14, .n 8 9), (30, .n 8 9), (31, .n 8 9), (32, .n 8 9),
     (48, .n 8 3), (49, .n 8 3), (50, .n 8 3), (66, .n 8 3), (67, .n 8 3), (68, .n 8 3),
     (80, .p 16 9), (81, .p 16 9), (92, .p 16 9), (93, .p 16 9)],
    [(15, .n 8 9), (16, .n 8 9), (17, .n 8 9), (33, .n 8 9), (34, .n 8 9), (35, .n 8 9),
     (51, .n 8 3), (52, .n 8 3), (53, .n 8 3), (69, .n 8 3), (70, .n 8 3), (71, .n 8 3),
     (82, .p 16 9), (83, .p 16 9), (94, .p 16 9), (95, .p 16 9)],
    [(15, .n 8 9), (16, .n 8 9), (17, .n 8 9), (33, .n 8 9), (34, .n 8 9), (35, .n 8 9),
     (51, .n 8 3), (52, .n 8 3), (53, .n 8 3), (69, .n 8 3), (70, .n 8 3), (71, .n 8 3),
     (82, .p 16 9), (83, .p 16 9), (94, .p 16 9), (95, .p 16 9)]]

/-- adm.py line 2453 `adm_s_ffnunu` -/
def adm_s_ffnunu : Rows :=
  [
    [],
    [],
    [],
    [],
    [],
    [],
    [],
    [],
    [],
    [],
    [],
    [],
    [],
    [],
    [],
    [],
    [],
    [],
    [],
    [],
    [],
    [],
    [],
    [],
    [],
    [],
    [],
    [],
    [],
    [],
    [],
    [],
    [],
    [],
    [],
    [],
    [],
    [],
    [],
    [],
    [],
    [],
    [],
    [],
    [],
    [],
    [],
    [],
    [],
    [],
    [],
    [],
    [],
    [],
    [],
    [],
    [],
    [],
    [],
    [],
    [],
    [],
    [],
    [],
    [],
    [],
    [],
    [],
    [],
    [],
    [],
    [],
    [],
    [],
    [],
    [],
    [],
    [],
    [],
    [],
    [],
    [],
    [],
    [],
    [],
    [],
    [],
    [],
    [],
    [],
    [],
    [],
    [],
    [],
    [],
    []]

/-- adm.py line 2552 `adm_e_uddnu` -/
def adm_e_uddnu : Rows :=
  [
    [(0, .n 4 3)],
    [(1, .n 4 3)],
    [(2, .n 4 3)],
    [(3, .n 2 1)],
    [(4, .n 2 1)],
    [(5, .n 2 1)]]

/-- adm.py line 2561 `adm_s_uddnu` -/
def adm_s_uddnu : Rows :=
  [
    [(0, .n 4 1)],
    [(1, .n 4 1)],
    [(2, .n 4 1)],
    [(3, .n 4 1)],
    [(4, .n 4 1)],
    [(5, .n 4 1)]]

/-- adm.py line 2570 `adm_e_udsnu` -/
def adm_e_udsnu : Rows :=
  [
    [(0, .p 2 3)],
    [(1, .p 2 3)],
    [(2, .p 2 3)],
    [(3, .n 4 3)],
    [(4, .n 4 3)],
    [(5, .n 4 3)],
    [(6, .n 4 3)],
    [(7, .n 4 3)],
    [(8, .n 4 3)],
    [(9, .n 2 3), (12, .n 4 3)],
    [(10, .n 2 3), (13, .n 4 3)],
    [(11, .n 2 3), (14, .n 4 3)],
    [(9, .n 4 3), (12, .n 2 3)],
    [(10, .n 4 3), (13, .n 2 3)],
    [(11, .n 4 3), (14, .n 2 3)]]

/-- adm.py line 2588 `adm_s_udsnu` -/
def adm_s_udsnu : Rows :=
  [
    [(0, .n 4 1)],
    [(1, .n 4 1)],
    [(2, .n 4 1)],
    [(3, .n 4 1)],
    [(4, .n 4 1)],
    [(5, .n 4 1)],
    [(6, .n 4 1)],
    [(7, .n 4 1)],
    [(8, .n 4 1)],
    [(9, .n 4 1)],
    [(10, .n 4 1)],
    [(11, .n 4 1)],
    [(12, .n 4 1)],
    [(13, .n 4 1)],
    [(14, .n 4 1)]]

/-- adm.py line 2606 `adm_e_uude` -/
def adm_e_uude : Rows :=
  [
    [(0, .n 26 3)],
    [(1, .n 16 3)],
    [(2, .n 16 3)],
    [(3, .n 26 3)]]

/-- adm.py line 2613 `adm_s_uude` -/
def adm_s_uude : Rows :=
  [
    [(0, .n 4 1)],
    [(1, .n 4 1)],
    [(2, .n 4 1)],
    [(3, .n 4 1)]]

/-- adm.py line 2620 `adm_e_ucde` -/
def adm_e_ucde : Rows :=
  [
    [(0, .n 2 1), (1, .n 20 3)],
    [(0, .n 20 3), (1, .n 2 1)],
    [(2, .n 16 3)],
    [(3, .n 16 3)],
    [(4, .n 16 3)],
    [(5, .n 16 3)],
    [(6, .n 2 1), (7, .n 20 3)],
    [(6, .n 20 3), (7, .n 2 1)],
    [(8, .p 14 3)],
    [(9, .p 14 3)]]

/-- adm.py line 2633 `adm_s_ucde` -/
def adm_s_ucde : Rows :=
  [
    [(0, .n 4 1)],
    [(1, .n 4 1)],
    [(2, .n 4 1)],
    [(3, .n 4 1)],
    [(4, .n 4 1)],
    [(5, .n 4 1)],
    [(6, .n 4 1)],
    [(7, .n 4 1)],
    [(8, .n 4 1)],
    [(9, .n 4 1)]]

/-- the QED matrices by class name (`getattr(adm, 'adm_e_' + classname)`) -/
def admETable : List (String × Rows) :=
  [
    ("I", adm_e_I), ("Ie", adm_e_Ie), ("Iu", adm_e_Iu), ("II", adm_e_II), ("III", adm_e_III),
    ("IV", adm_e_IV), ("Vb", adm_e_Vb), ("Vb_c", adm_e_Vb_c), ("IVe", adm_e_IVe),
    ("inv", adm_e_inv), ("cu", adm_e_cu), ("db", adm_e_db), ("sb", adm_e_sb), ("sd", adm_e_sd),
    ("mue", adm_e_mue), ("mutau", adm_e_mutau), ("taue", adm_e_taue), ("dF0", adm_e_dF0),
    ("ffnunu", adm_e_ffnunu), ("uddnu", adm_e_uddnu), ("udsnu", adm_e_udsnu),
    ("uude", adm_e_uude), ("ucde", adm_e_ucde)]

/-- the QCD matrices by class name (`getattr(adm, 'adm_s_' + classname)`) -/
def admSTable : List (String × Rows) :=
  [
    ("I", adm_s_I), ("Ie", adm_s_Ie), ("Iu", adm_s_Iu), ("II", adm_s_II), ("III", adm_s_III),
    ("IV", adm_s_IV), ("Vb", adm_s_Vb), ("Vb_c", adm_s_Vb_c), ("IVe", adm_s_IVe),
    ("inv", adm_s_inv), ("cu", adm_s_cu), ("db", adm_s_db), ("sb", adm_s_sb), ("sd", adm_s_sd),
    ("mue", adm_s_mue), ("mutau", adm_s_mutau), ("taue", adm_s_taue), ("dF0", adm_s_dF0),
    ("ffnunu", adm_s_ffnunu), ("uddnu", adm_s_uddnu), ("udsnu", adm_s_udsnu),
    ("uude", adm_s_uude), ("ucde", adm_s_ucde)]

end Verif.WetTab
