import Verif.Model.ArrayProg

/-! Generated by `tools/gen_symmetrize.py` from `/repo/wilson/util/common.py`; do not edit. -/

set_option autoImplicit false

namespace Verif.Gen
open Verif

/-- `EFTutil.symmetrize_2`, `util/common.py:324-332`: the assignments between
`a = np.array(b, copy=True, dtype=complex)` and `return a`. -/
def symmetrize_2 : List (Instr I2) := [
  .cplx (1,0) [(1, true, (0,1))],
  .cplx (2,0) [(1, true, (0,2))],
  .cplx (2,1) [(1, true, (1,2))],
  .imag (0,0) [],
  .imag (1,1) [],
  .imag (2,2) []]

/-- `EFTutil.symmetrize_4`, `util/common.py:335-454`: the assignments between
`a = np.array(b, copy=True, dtype=complex)` and `return a`. -/
def symmetrize_4 : List (Instr I4) := [
  .real (0,0,1,0) [(1, (0,0,0,1))],
  .real (0,0,2,0) [(1, (0,0,0,2))],
  .real (0,0,2,1) [(1, (0,0,1,2))],
  .real (0,1,0,0) [(1, (0,0,0,1))],
  .real (0,2,0,0) [(1, (0,0,0,2))],
  .real (0,2,0,1) [(1, (0,1,0,2))],
  .real (0,2,1,0) [(1, (0,1,2,0))],
  .real (1,0,0,0) [(1, (0,0,0,1))],
  .real (1,0,0,1) [(1, (0,1,1,0))],
  .real (1,0,0,2) [(1, (0,1,2,0))],
  .real (1,0,1,0) [(1, (0,1,0,1))],
  .real (1,0,1,1) [(1, (0,1,1,1))],
  .real (1,0,1,2) [(1, (0,1,2,1))],
  .real (1,0,2,0) [(1, (0,1,0,2))],
  .real (1,0,2,1) [(1, (0,1,1,2))],
  .real (1,0,2,2) [(1, (0,1,2,2))],
  .real (1,1,0,0) [(1, (0,0,1,1))],
  .real (1,1,0,1) [(1, (0,1,1,1))],
  .real (1,1,0,2) [(1, (0,2,1,1))],
  .real (1,1,1,0) [(1, (0,1,1,1))],
  .real (1,1,2,0) [(1, (0,2,1,1))],
  .real (1,1,2,1) [(1, (1,1,1,2))],
  .real (1,2,0,0) [(1, (0,0,1,2))],
  .real (1,2,0,1) [(1, (0,1,1,2))],
  .real (1,2,0,2) [(1, (0,2,1,2))],
  .real (1,2,1,0) [(1, (0,1,2,1))],
  .real (1,2,1,1) [(1, (1,1,1,2))],
  .real (1,2,2,0) [(1, (0,2,2,1))],
  .real (2,0,0,0) [(1, (0,0,0,2))],
  .real (2,0,0,1) [(1, (0,1,2,0))],
  .real (2,0,0,2) [(1, (0,2,2,0))],
  .real (2,0,1,0) [(1, (0,1,0,2))],
  .real (2,0,1,1) [(1, (0,2,1,1))],
  .real (2,0,1,2) [(1, (0,2,2,1))],
  .real (2,0,2,0) [(1, (0,2,0,2))],
  .real (2,0,2,1) [(1, (0,2,1,2))],
  .real (2,0,2,2) [(1, (0,2,2,2))],
  .real (2,1,0,0) [(1, (0,0,1,2))],
  .real (2,1,0,1) [(1, (0,1,2,1))],
  .real (2,1,0,2) [(1, (0,2,2,1))],
  .real (2,1,1,0) [(1, (0,1,1,2))],
  .real (2,1,1,1) [(1, (1,1,1,2))],
  .real (2,1,1,2) [(1, (1,2,2,1))],
  .real (2,1,2,0) [(1, (0,2,1,2))],
  .real (2,1,2,1) [(1, (1,2,1,2))],
  .real (2,1,2,2) [(1, (1,2,2,2))],
  .real (2,2,0,0) [(1, (0,0,2,2))],
  .real (2,2,0,1) [(1, (0,1,2,2))],
  .real (2,2,0,2) [(1, (0,2,2,2))],
  .real (2,2,1,0) [(1, (0,1,2,2))],
  .real (2,2,1,1) [(1, (1,1,2,2))],
  .real (2,2,1,2) [(1, (1,2,2,2))],
  .real (2,2,2,0) [(1, (0,2,2,2))],
  .real (2,2,2,1) [(1, (1,2,2,2))],
  .imag (0,0,0,0) [],
  .imag (0,0,1,0) [((-1), (0,0,0,1))],
  .imag (0,0,1,1) [],
  .imag (0,0,2,0) [((-1), (0,0,0,2))],
  .imag (0,0,2,1) [((-1), (0,0,1,2))],
  .imag (0,0,2,2) [],
  .imag (0,1,0,0) [(1, (0,0,0,1))],
  .imag (0,1,1,0) [],
  .imag (0,2,0,0) [(1, (0,0,0,2))],
  .imag (0,2,0,1) [(1, (0,1,0,2))],
  .imag (0,2,1,0) [((-1), (0,1,2,0))],
  .imag (0,2,2,0) [],
  .imag (1,0,0,0) [((-1), (0,0,0,1))],
  .imag (1,0,0,1) [],
  .imag (1,0,0,2) [((-1), (0,1,2,0))],
  .imag (1,0,1,0) [((-1), (0,1,0,1))],
  .imag (1,0,1,1) [((-1), (0,1,1,1))],
  .imag (1,0,1,2) [((-1), (0,1,2,1))],
  .imag (1,0,2,0) [((-1), (0,1,0,2))],
  .imag (1,0,2,1) [((-1), (0,1,1,2))],
  .imag (1,0,2,2) [((-1), (0,1,2,2))],
  .imag (1,1,0,0) [],
  .imag (1,1,0,1) [(1, (0,1,1,1))],
  .imag (1,1,0,2) [(1, (0,2,1,1))],
  .imag (1,1,1,0) [((-1), (0,1,1,1))],
  .imag (1,1,1,1) [],
  .imag (1,1,2,0) [((-1), (0,2,1,1))],
  .imag (1,1,2,1) [((-1), (1,1,1,2))],
  .imag (1,1,2,2) [],
  .imag (1,2,0,0) [(1, (0,0,1,2))],
  .imag (1,2,0,1) [(1, (0,1,1,2))],
  .imag (1,2,0,2) [(1, (0,2,1,2))],
  .imag (1,2,1,0) [((-1), (0,1,2,1))],
  .imag (1,2,1,1) [(1, (1,1,1,2))],
  .imag (1,2,2,0) [((-1), (0,2,2,1))],
  .imag (1,2,2,1) [],
  .imag (2,0,0,0) [((-1), (0,0,0,2))],
  .imag (2,0,0,1) [(1, (0,1,2,0))],
  .imag (2,0,0,2) [],
  .imag (2,0,1,0) [((-1), (0,1,0,2))],
  .imag (2,0,1,1) [((-1), (0,2,1,1))],
  .imag (2,0,1,2) [((-1), (0,2,2,1))],
  .imag (2,0,2,0) [((-1), (0,2,0,2))],
  .imag (2,0,2,1) [((-1), (0,2,1,2))],
  .imag (2,0,2,2) [((-1), (0,2,2,2))],
  .imag (2,1,0,0) [((-1), (0,0,1,2))],
  .imag (2,1,0,1) [(1, (0,1,2,1))],
  .imag (2,1,0,2) [(1, (0,2,2,1))],
  .imag (2,1,1,0) [((-1), (0,1,1,2))],
  .imag (2,1,1,1) [((-1), (1,1,1,2))],
  .imag (2,1,1,2) [],
  .imag (2,1,2,0) [((-1), (0,2,1,2))],
  .imag (2,1,2,1) [((-1), (1,2,1,2))],
  .imag (2,1,2,2) [((-1), (1,2,2,2))],
  .imag (2,2,0,0) [],
  .imag (2,2,0,1) [(1, (0,1,2,2))],
  .imag (2,2,0,2) [(1, (0,2,2,2))],
  .imag (2,2,1,0) [((-1), (0,1,2,2))],
  .imag (2,2,1,1) [],
  .imag (2,2,1,2) [(1, (1,2,2,2))],
  .imag (2,2,2,0) [((-1), (0,2,2,2))],
  .imag (2,2,2,1) [((-1), (1,2,2,2))],
  .imag (2,2,2,2) []]

/-- `EFTutil.symmetrize_41`, `util/common.py:457-495`: the assignments between
`a = np.array(b, copy=True, dtype=complex)` and `return a`. -/
def symmetrize_41 : List (Instr I4) := [
  .cplx (0,1,0,0) [(1, false, (0,0,0,1))],
  .cplx (0,2,0,0) [(1, false, (0,0,0,2))],
  .cplx (0,2,0,1) [(1, false, (0,1,0,2))],
  .cplx (1,0,0,0) [(1, false, (0,0,1,0))],
  .cplx (1,0,0,1) [(1, false, (0,1,1,0))],
  .cplx (1,0,0,2) [(1, false, (0,2,1,0))],
  .cplx (1,1,0,0) [(1, false, (0,0,1,1))],
  .cplx (1,1,0,1) [(1, false, (0,1,1,1))],
  .cplx (1,1,0,2) [(1, false, (0,2,1,1))],
  .cplx (1,1,1,0) [(1, false, (1,0,1,1))],
  .cplx (1,2,0,0) [(1, false, (0,0,1,2))],
  .cplx (1,2,0,1) [(1, false, (0,1,1,2))],
  .cplx (1,2,0,2) [(1, false, (0,2,1,2))],
  .cplx (1,2,1,0) [(1, false, (1,0,1,2))],
  .cplx (1,2,1,1) [(1, false, (1,1,1,2))],
  .cplx (2,0,0,0) [(1, false, (0,0,2,0))],
  .cplx (2,0,0,1) [(1, false, (0,1,2,0))],
  .cplx (2,0,0,2) [(1, false, (0,2,2,0))],
  .cplx (2,0,1,0) [(1, false, (1,0,2,0))],
  .cplx (2,0,1,1) [(1, false, (1,1,2,0))],
  .cplx (2,0,1,2) [(1, false, (1,2,2,0))],
  .cplx (2,1,0,0) [(1, false, (0,0,2,1))],
  .cplx (2,1,0,1) [(1, false, (0,1,2,1))],
  .cplx (2,1,0,2) [(1, false, (0,2,2,1))],
  .cplx (2,1,1,0) [(1, false, (1,0,2,1))],
  .cplx (2,1,1,1) [(1, false, (1,1,2,1))],
  .cplx (2,1,1,2) [(1, false, (1,2,2,1))],
  .cplx (2,1,2,0) [(1, false, (2,0,2,1))],
  .cplx (2,2,0,0) [(1, false, (0,0,2,2))],
  .cplx (2,2,0,1) [(1, false, (0,1,2,2))],
  .cplx (2,2,0,2) [(1, false, (0,2,2,2))],
  .cplx (2,2,1,0) [(1, false, (1,0,2,2))],
  .cplx (2,2,1,1) [(1, false, (1,1,2,2))],
  .cplx (2,2,1,2) [(1, false, (1,2,2,2))],
  .cplx (2,2,2,0) [(1, false, (2,0,2,2))],
  .cplx (2,2,2,1) [(1, false, (2,1,2,2))]]

/-- `EFTutil.symmetrize_5`, `util/common.py:498-581`: the assignments between
`a = np.array(b, copy=True, dtype=complex)` and `return a`. -/
def symmetrize_5 : List (Instr I4) := [
  .real (0,0,1,0) [(1, (0,0,0,1))],
  .real (0,0,2,0) [(1, (0,0,0,2))],
  .real (0,0,2,1) [(1, (0,0,1,2))],
  .real (1,0,0,0) [(1, (0,1,0,0))],
  .real (1,0,0,1) [(1, (0,1,1,0))],
  .real (1,0,0,2) [(1, (0,1,2,0))],
  .real (1,0,1,0) [(1, (0,1,0,1))],
  .real (1,0,1,1) [(1, (0,1,1,1))],
  .real (1,0,1,2) [(1, (0,1,2,1))],
  .real (1,0,2,0) [(1, (0,1,0,2))],
  .real (1,0,2,1) [(1, (0,1,1,2))],
  .real (1,0,2,2) [(1, (0,1,2,2))],
  .real (1,1,1,0) [(1, (1,1,0,1))],
  .real (1,1,2,0) [(1, (1,1,0,2))],
  .real (1,1,2,1) [(1, (1,1,1,2))],
  .real (2,0,0,0) [(1, (0,2,0,0))],
  .real (2,0,0,1) [(1, (0,2,1,0))],
  .real (2,0,0,2) [(1, (0,2,2,0))],
  .real (2,0,1,0) [(1, (0,2,0,1))],
  .real (2,0,1,1) [(1, (0,2,1,1))],
  .real (2,0,1,2) [(1, (0,2,2,1))],
  .real (2,0,2,0) [(1, (0,2,0,2))],
  .real (2,0,2,1) [(1, (0,2,1,2))],
  .real (2,0,2,2) [(1, (0,2,2,2))],
  .real (2,1,0,0) [(1, (1,2,0,0))],
  .real (2,1,0,1) [(1, (1,2,1,0))],
  .real (2,1,0,2) [(1, (1,2,2,0))],
  .real (2,1,1,0) [(1, (1,2,0,1))],
  .real (2,1,1,1) [(1, (1,2,1,1))],
  .real (2,1,1,2) [(1, (1,2,2,1))],
  .real (2,1,2,0) [(1, (1,2,0,2))],
  .real (2,1,2,1) [(1, (1,2,1,2))],
  .real (2,1,2,2) [(1, (1,2,2,2))],
  .real (2,2,1,0) [(1, (2,2,0,1))],
  .real (2,2,2,0) [(1, (2,2,0,2))],
  .real (2,2,2,1) [(1, (2,2,1,2))],
  .imag (0,0,0,0) [],
  .imag (0,0,1,0) [((-1), (0,0,0,1))],
  .imag (0,0,1,1) [],
  .imag (0,0,2,0) [((-1), (0,0,0,2))],
  .imag (0,0,2,1) [((-1), (0,0,1,2))],
  .imag (0,0,2,2) [],
  .imag (1,0,0,0) [((-1), (0,1,0,0))],
  .imag (1,0,0,1) [((-1), (0,1,1,0))],
  .imag (1,0,0,2) [((-1), (0,1,2,0))],
  .imag (1,0,1,0) [((-1), (0,1,0,1))],
  .imag (1,0,1,1) [((-1), (0,1,1,1))],
  .imag (1,0,1,2) [((-1), (0,1,2,1))],
  .imag (1,0,2,0) [((-1), (0,1,0,2))],
  .imag (1,0,2,1) [((-1), (0,1,1,2))],
  .imag (1,0,2,2) [((-1), (0,1,2,2))],
  .imag (1,1,0,0) [],
  .imag (1,1,1,0) [((-1), (1,1,0,1))],
  .imag (1,1,1,1) [],
  .imag (1,1,2,0) [((-1), (1,1,0,2))],
  .imag (1,1,2,1) [((-1), (1,1,1,2))],
  .imag (1,1,2,2) [],
  .imag (2,0,0,0) [((-1), (0,2,0,0))],
  .imag (2,0,0,1) [((-1), (0,2,1,0))],
  .imag (2,0,0,2) [((-1), (0,2,2,0))],
  .imag (2,0,1,0) [((-1), (0,2,0,1))],
  .imag (2,0,1,1) [((-1), (0,2,1,1))],
  .imag (2,0,1,2) [((-1), (0,2,2,1))],
  .imag (2,0,2,0) [((-1), (0,2,0,2))],
  .imag (2,0,2,1) [((-1), (0,2,1,2))],
  .imag (2,0,2,2) [((-1), (0,2,2,2))],
  .imag (2,1,0,0) [((-1), (1,2,0,0))],
  .imag (2,1,0,1) [((-1), (1,2,1,0))],
  .imag (2,1,0,2) [((-1), (1,2,2,0))],
  .imag (2,1,1,0) [((-1), (1,2,0,1))],
  .imag (2,1,1,1) [((-1), (1,2,1,1))],
  .imag (2,1,1,2) [((-1), (1,2,2,1))],
  .imag (2,1,2,0) [((-1), (1,2,0,2))],
  .imag (2,1,2,1) [((-1), (1,2,1,2))],
  .imag (2,1,2,2) [((-1), (1,2,2,2))],
  .imag (2,2,0,0) [],
  .imag (2,2,1,0) [((-1), (2,2,0,1))],
  .imag (2,2,1,1) [],
  .imag (2,2,2,0) [((-1), (2,2,0,2))],
  .imag (2,2,2,1) [((-1), (2,2,1,2))],
  .imag (2,2,2,2) []]

/-- `EFTutil.symmetrize_6`, `util/common.py:584-712`: the assignments between
`a = np.array(b, copy=True, dtype=complex)` and `return a`. -/
def symmetrize_6 : List (Instr I4) := [
  .real (0,0,1,0) [(1, (0,0,0,1))],
  .real (0,0,2,0) [(1, (0,0,0,2))],
  .real (0,0,2,1) [(1, (0,0,1,2))],
  .real (0,1,0,0) [(1, (0,0,0,1))],
  .real (0,1,1,0) [(1, (0,0,1,1))],
  .real (0,1,2,0) [(1, (0,0,1,2))],
  .real (0,2,0,0) [(1, (0,0,0,2))],
  .real (0,2,0,1) [(1, (0,1,0,2))],
  .real (0,2,1,0) [(1, (0,0,1,2))],
  .real (0,2,1,1) [(1, (0,1,1,2))],
  .real (0,2,2,0) [(1, (0,0,2,2))],
  .real (0,2,2,1) [(1, (0,1,2,2))],
  .real (1,0,0,0) [(1, (0,0,0,1))],
  .real (1,0,0,1) [(1, (0,0,1,1))],
  .real (1,0,0,2) [(1, (0,0,1,2))],
  .real (1,0,1,0) [(1, (0,1,0,1))],
  .real (1,0,1,1) [(1, (0,1,1,1))],
  .real (1,0,1,2) [(1, (0,1,2,1))],
  .real (1,0,2,0) [(1, (0,1,0,2))],
  .real (1,0,2,1) [(1, (0,1,1,2))],
  .real (1,0,2,2) [(1, (0,1,2,2))],
  .real (1,1,0,0) [(1, (0,0,1,1))],
  .real (1,1,0,1) [(1, (0,1,1,1))],
  .real (1,1,0,2) [(1, (0,1,1,2))],
  .real (1,1,1,0) [(1, (0,1,1,1))],
  .real (1,1,2,0) [(1, (0,1,1,2))],
  .real (1,1,2,1) [(1, (1,1,1,2))],
  .real (1,2,0,0) [(1, (0,0,1,2))],
  .real (1,2,0,1) [(1, (0,1,1,2))],
  .real (1,2,0,2) [(1, (0,2,1,2))],
  .real (1,2,1,0) [(1, (0,1,2,1))],
  .real (1,2,1,1) [(1, (1,1,1,2))],
  .real (1,2,2,0) [(1, (0,1,2,2))],
  .real (1,2,2,1) [(1, (1,1,2,2))],
  .real (2,0,0,0) [(1, (0,0,0,2))],
  .real (2,0,0,1) [(1, (0,0,1,2))],
  .real (2,0,0,2) [(1, (0,0,2,2))],
  .real (2,0,1,0) [(1, (0,1,0,2))],
  .real (2,0,1,1) [(1, (0,1,1,2))],
  .real (2,0,1,2) [(1, (0,1,2,2))],
  .real (2,0,2,0) [(1, (0,2,0,2))],
  .real (2,0,2,1) [(1, (0,2,1,2))],
  .real (2,0,2,2) [(1, (0,2,2,2))],
  .real (2,1,0,0) [(1, (0,0,1,2))],
  .real (2,1,0,1) [(1, (0,1,2,1))],
  .real (2,1,0,2) [(1, (0,1,2,2))],
  .real (2,1,1,0) [(1, (0,1,1,2))],
  .real (2,1,1,1) [(1, (1,1,1,2))],
  .real (2,1,1,2) [(1, (1,1,2,2))],
  .real (2,1,2,0) [(1, (0,2,1,2))],
  .real (2,1,2,1) [(1, (1,2,1,2))],
  .real (2,1,2,2) [(1, (1,2,2,2))],
  .real (2,2,0,0) [(1, (0,0,2,2))],
  .real (2,2,0,1) [(1, (0,1,2,2))],
  .real (2,2,0,2) [(1, (0,2,2,2))],
  .real (2,2,1,0) [(1, (0,1,2,2))],
  .real (2,2,1,1) [(1, (1,1,2,2))],
  .real (2,2,1,2) [(1, (1,2,2,2))],
  .real (2,2,2,0) [(1, (0,2,2,2))],
  .real (2,2,2,1) [(1, (1,2,2,2))],
  .imag (0,0,0,0) [],
  .imag (0,0,1,0) [((-1), (0,0,0,1))],
  .imag (0,0,1,1) [],
  .imag (0,0,2,0) [((-1), (0,0,0,2))],
  .imag (0,0,2,1) [((-1), (0,0,1,2))],
  .imag (0,0,2,2) [],
  .imag (0,1,0,0) [(1, (0,0,0,1))],
  .imag (0,1,1,0) [],
  .imag (0,1,2,0) [((-1), (0,0,1,2))],
  .imag (0,2,0,0) [(1, (0,0,0,2))],
  .imag (0,2,0,1) [(1, (0,1,0,2))],
  .imag (0,2,1,0) [(1, (0,0,1,2))],
  .imag (0,2,1,1) [(1, (0,1,1,2))],
  .imag (0,2,2,0) [],
  .imag (0,2,2,1) [(1, (0,1,2,2))],
  .imag (1,0,0,0) [((-1), (0,0,0,1))],
  .imag (1,0,0,1) [],
  .imag (1,0,0,2) [(1, (0,0,1,2))],
  .imag (1,0,1,0) [((-1), (0,1,0,1))],
  .imag (1,0,1,1) [((-1), (0,1,1,1))],
  .imag (1,0,1,2) [((-1), (0,1,2,1))],
  .imag (1,0,2,0) [((-1), (0,1,0,2))],
  .imag (1,0,2,1) [((-1), (0,1,1,2))],
  .imag (1,0,2,2) [((-1), (0,1,2,2))],
  .imag (1,1,0,0) [],
  .imag (1,1,0,1) [(1, (0,1,1,1))],
  .imag (1,1,0,2) [(1, (0,1,1,2))],
  .imag (1,1,1,0) [((-1), (0,1,1,1))],
  .imag (1,1,1,1) [],
  .imag (1,1,2,0) [((-1), (0,1,1,2))],
  .imag (1,1,2,1) [((-1), (1,1,1,2))],
  .imag (1,1,2,2) [],
  .imag (1,2,0,0) [(1, (0,0,1,2))],
  .imag (1,2,0,1) [(1, (0,1,1,2))],
  .imag (1,2,0,2) [(1, (0,2,1,2))],
  .imag (1,2,1,0) [((-1), (0,1,2,1))],
  .imag (1,2,1,1) [(1, (1,1,1,2))],
  .imag (1,2,2,0) [((-1), (0,1,2,2))],
  .imag (1,2,2,1) [],
  .imag (2,0,0,0) [((-1), (0,0,0,2))],
  .imag (2,0,0,1) [((-1), (0,0,1,2))],
  .imag (2,0,0,2) [],
  .imag (2,0,1,0) [((-1), (0,1,0,2))],
  .imag (2,0,1,1) [((-1), (0,1,1,2))],
  .imag (2,0,1,2) [((-1), (0,1,2,2))],
  .imag (2,0,2,0) [((-1), (0,2,0,2))],
  .imag (2,0,2,1) [((-1), (0,2,1,2))],
  .imag (2,0,2,2) [((-1), (0,2,2,2))],
  .imag (2,1,0,0) [((-1), (0,0,1,2))],
  .imag (2,1,0,1) [(1, (0,1,2,1))],
  .imag (2,1,0,2) [(1, (0,1,2,2))],
  .imag (2,1,1,0) [((-1), (0,1,1,2))],
  .imag (2,1,1,1) [((-1), (1,1,1,2))],
  .imag (2,1,1,2) [],
  .imag (2,1,2,0) [((-1), (0,2,1,2))],
  .imag (2,1,2,1) [((-1), (1,2,1,2))],
  .imag (2,1,2,2) [((-1), (1,2,2,2))],
  .imag (2,2,0,0) [],
  .imag (2,2,0,1) [(1, (0,1,2,2))],
  .imag (2,2,0,2) [(1, (0,2,2,2))],
  .imag (2,2,1,0) [((-1), (0,1,2,2))],
  .imag (2,2,1,1) [],
  .imag (2,2,1,2) [(1, (1,2,2,2))],
  .imag (2,2,2,0) [((-1), (0,2,2,2))],
  .imag (2,2,2,1) [((-1), (1,2,2,2))],
  .imag (2,2,2,2) []]

/-- `EFTutil.symmetrize_7`, `util/common.py:715-744`: the assignments between
`a = np.array(b, copy=True, dtype=complex)` and `return a`. -/
def symmetrize_7 : List (Instr I4) := [
  .cplx (1,0,0,0) [(1, false, (0,1,0,0))],
  .cplx (1,0,0,1) [(1, false, (0,1,0,1))],
  .cplx (1,0,0,2) [(1, false, (0,1,0,2))],
  .cplx (1,0,1,0) [(1, false, (0,1,1,0))],
  .cplx (1,0,1,1) [(1, false, (0,1,1,1))],
  .cplx (1,0,1,2) [(1, false, (0,1,1,2))],
  .cplx (1,0,2,0) [(1, false, (0,1,2,0))],
  .cplx (1,0,2,1) [(1, false, (0,1,2,1))],
  .cplx (1,0,2,2) [(1, false, (0,1,2,2))],
  .cplx (2,0,0,0) [(1, false, (0,2,0,0))],
  .cplx (2,0,0,1) [(1, false, (0,2,0,1))],
  .cplx (2,0,0,2) [(1, false, (0,2,0,2))],
  .cplx (2,0,1,0) [(1, false, (0,2,1,0))],
  .cplx (2,0,1,1) [(1, false, (0,2,1,1))],
  .cplx (2,0,1,2) [(1, false, (0,2,1,2))],
  .cplx (2,0,2,0) [(1, false, (0,2,2,0))],
  .cplx (2,0,2,1) [(1, false, (0,2,2,1))],
  .cplx (2,0,2,2) [(1, false, (0,2,2,2))],
  .cplx (2,1,0,0) [(1, false, (1,2,0,0))],
  .cplx (2,1,0,1) [(1, false, (1,2,0,1))],
  .cplx (2,1,0,2) [(1, false, (1,2,0,2))],
  .cplx (2,1,1,0) [(1, false, (1,2,1,0))],
  .cplx (2,1,1,1) [(1, false, (1,2,1,1))],
  .cplx (2,1,1,2) [(1, false, (1,2,1,2))],
  .cplx (2,1,2,0) [(1, false, (1,2,2,0))],
  .cplx (2,1,2,1) [(1, false, (1,2,2,1))],
  .cplx (2,1,2,2) [(1, false, (1,2,2,2))]]

/-- `EFTutil.symmetrize_71`, `util/common.py:747-776`: the assignments between
`a = np.array(b, copy=True, dtype=complex)` and `return a`. -/
def symmetrize_71 : List (Instr I4) := [
  .cplx (1,0,0,0) [((-1), false, (0,1,0,0))],
  .cplx (1,0,0,1) [((-1), false, (0,1,0,1))],
  .cplx (1,0,0,2) [((-1), false, (0,1,0,2))],
  .cplx (1,0,1,0) [((-1), false, (0,1,1,0))],
  .cplx (1,0,1,1) [((-1), false, (0,1,1,1))],
  .cplx (1,0,1,2) [((-1), false, (0,1,1,2))],
  .cplx (1,0,2,0) [((-1), false, (0,1,2,0))],
  .cplx (1,0,2,1) [((-1), false, (0,1,2,1))],
  .cplx (1,0,2,2) [((-1), false, (0,1,2,2))],
  .cplx (2,0,0,0) [((-1), false, (0,2,0,0))],
  .cplx (2,0,0,1) [((-1), false, (0,2,0,1))],
  .cplx (2,0,0,2) [((-1), false, (0,2,0,2))],
  .cplx (2,0,1,0) [((-1), false, (0,2,1,0))],
  .cplx (2,0,1,1) [((-1), false, (0,2,1,1))],
  .cplx (2,0,1,2) [((-1), false, (0,2,1,2))],
  .cplx (2,0,2,0) [((-1), false, (0,2,2,0))],
  .cplx (2,0,2,1) [((-1), false, (0,2,2,1))],
  .cplx (2,0,2,2) [((-1), false, (0,2,2,2))],
  .cplx (2,1,0,0) [((-1), false, (1,2,0,0))],
  .cplx (2,1,0,1) [((-1), false, (1,2,0,1))],
  .cplx (2,1,0,2) [((-1), false, (1,2,0,2))],
  .cplx (2,1,1,0) [((-1), false, (1,2,1,0))],
  .cplx (2,1,1,1) [((-1), false, (1,2,1,1))],
  .cplx (2,1,1,2) [((-1), false, (1,2,1,2))],
  .cplx (2,1,2,0) [((-1), false, (1,2,2,0))],
  .cplx (2,1,2,1) [((-1), false, (1,2,2,1))],
  .cplx (2,1,2,2) [((-1), false, (1,2,2,2))]]

/-- `EFTutil.symmetrize_8`, `util/common.py:779-811`: the assignments between
`a = np.array(b, copy=True, dtype=complex)` and `return a`. -/
def symmetrize_8 : List (Instr I4) := [
  .cplx (1,0,0,0) [(1, false, (0,0,1,0))],
  .cplx (1,0,0,1) [(1, false, (0,0,1,1))],
  .cplx (1,0,0,2) [(1, false, (0,0,1,2))],
  .cplx (1,1,0,0) [(1, false, (0,1,1,0))],
  .cplx (1,1,0,1) [(1, false, (0,1,1,1))],
  .cplx (1,1,0,2) [(1, false, (0,1,1,2))],
  .cplx (2,0,0,0) [(1, false, (0,0,2,0))],
  .cplx (2,0,0,1) [(1, false, (0,0,2,1))],
  .cplx (2,0,0,2) [(1, false, (0,0,2,2))],
  .cplx (2,0,1,0) [(1, false, (1,2,0,0)), (1, false, (1,0,2,0)), ((-1), false, (0,2,1,0))],
  .cplx (2,0,1,1) [(1, false, (1,2,0,1)), (1, false, (1,0,2,1)), ((-1), false, (0,2,1,1))],
  .cplx (2,0,1,2) [(1, false, (1,2,0,2)), (1, false, (1,0,2,2)), ((-1), false, (0,2,1,2))],
  .cplx (2,1,0,0) [(1, false, (0,2,1,0)), (1, false, (0,1,2,0)), ((-1), false, (1,2,0,0))],
  .cplx (2,1,0,1) [(1, false, (0,2,1,1)), (1, false, (0,1,2,1)), ((-1), false, (1,2,0,1))],
  .cplx (2,1,0,2) [(1, false, (0,2,1,2)), (1, false, (0,1,2,2)), ((-1), false, (1,2,0,2))],
  .cplx (2,1,1,0) [(1, false, (1,1,2,0))],
  .cplx (2,1,1,1) [(1, false, (1,1,2,1))],
  .cplx (2,1,1,2) [(1, false, (1,1,2,2))],
  .cplx (2,2,0,0) [(1, false, (0,2,2,0))],
  .cplx (2,2,0,1) [(1, false, (0,2,2,1))],
  .cplx (2,2,0,2) [(1, false, (0,2,2,2))],
  .cplx (2,2,1,0) [(1, false, (1,2,2,0))],
  .cplx (2,2,1,1) [(1, false, (1,2,2,1))],
  .cplx (2,2,1,2) [(1, false, (1,2,2,2))]]

/-- `EFTutil.scale_8`, `util/common.py:814-851`: the assignments between
`a = np.array(b, copy=True, dtype=complex)` and `return a`. -/
def scale_8 : List (Instr I4) := [
  .cplxB (0,0,1,0) [((1/2), false, (0,0,1,0))],
  .cplxB (0,0,2,0) [((1/2), false, (0,0,2,0))],
  .cplxB (0,1,1,0) [((1/2), false, (0,1,1,0))],
  .cplxB (0,1,2,0) [((2/3), false, (0,1,2,0)), ((-1/6), false, (0,2,1,0)), ((-1/6), false, (1,0,2,0)), ((1/6), false, (1,2,0,0))],
  .cplxB (0,2,1,0) [((-1/6), false, (0,1,2,0)), ((2/3), false, (0,2,1,0)), ((1/6), false, (1,0,2,0)), ((1/3), false, (1,2,0,0))],
  .cplxB (0,2,2,0) [((1/2), false, (0,2,2,0))],
  .cplxB (1,0,2,0) [((-1/6), false, (0,1,2,0)), ((1/6), false, (0,2,1,0)), ((2/3), false, (1,0,2,0)), ((-1/6), false, (1,2,0,0))],
  .cplxB (1,1,2,0) [((1/2), false, (1,1,2,0))],
  .cplxB (1,2,0,0) [((1/6), false, (0,1,2,0)), ((1/3), false, (0,2,1,0)), ((-1/6), false, (1,0,2,0)), ((2/3), false, (1,2,0,0))],
  .cplxB (1,2,2,0) [((1/2), false, (1,2,2,0))],
  .cplxB (0,0,1,1) [((1/2), false, (0,0,1,1))],
  .cplxB (0,0,2,1) [((1/2), false, (0,0,2,1))],
  .cplxB (0,1,1,1) [((1/2), false, (0,1,1,1))],
  .cplxB (0,1,2,1) [((2/3), false, (0,1,2,1)), ((-1/6), false, (0,2,1,1)), ((-1/6), false, (1,0,2,1)), ((1/6), false, (1,2,0,1))],
  .cplxB (0,2,1,1) [((-1/6), false, (0,1,2,1)), ((2/3), false, (0,2,1,1)), ((1/6), false, (1,0,2,1)), ((1/3), false, (1,2,0,1))],
  .cplxB (0,2,2,1) [((1/2), false, (0,2,2,1))],
  .cplxB (1,0,2,1) [((-1/6), false, (0,1,2,1)), ((1/6), false, (0,2,1,1)), ((2/3), false, (1,0,2,1)), ((-1/6), false, (1,2,0,1))],
  .cplxB (1,1,2,1) [((1/2), false, (1,1,2,1))],
  .cplxB (1,2,0,1) [((1/6), false, (0,1,2,1)), ((1/3), false, (0,2,1,1)), ((-1/6), false, (1,0,2,1)), ((2/3), false, (1,2,0,1))],
  .cplxB (1,2,2,1) [((1/2), false, (1,2,2,1))],
  .cplxB (0,0,1,2) [((1/2), false, (0,0,1,2))],
  .cplxB (0,0,2,2) [((1/2), false, (0,0,2,2))],
  .cplxB (0,1,1,2) [((1/2), false, (0,1,1,2))],
  .cplxB (0,1,2,2) [((2/3), false, (0,1,2,2)), ((-1/6), false, (0,2,1,2)), ((-1/6), false, (1,0,2,2)), ((1/6), false, (1,2,0,2))],
  .cplxB (0,2,1,2) [((-1/6), false, (0,1,2,2)), ((2/3), false, (0,2,1,2)), ((1/6), false, (1,0,2,2)), ((1/3), false, (1,2,0,2))],
  .cplxB (0,2,2,2) [((1/2), false, (0,2,2,2))],
  .cplxB (1,0,2,2) [((-1/6), false, (0,1,2,2)), ((1/6), false, (0,2,1,2)), ((2/3), false, (1,0,2,2)), ((-1/6), false, (1,2,0,2))],
  .cplxB (1,1,2,2) [((1/2), false, (1,1,2,2))],
  .cplxB (1,2,0,2) [((1/6), false, (0,1,2,2)), ((1/3), false, (0,2,1,2)), ((-1/6), false, (1,0,2,2)), ((2/3), false, (1,2,0,2))],
  .cplxB (1,2,2,2) [((1/2), false, (1,2,2,2))]]

/-- `EFTutil.unscale_8`, `util/common.py:854-880`: the assignments between
`a = np.array(b, copy=True, dtype=complex)` and `return a`. -/
def unscale_8 : List (Instr I4) := [
  .cplxB (0,0,1,0) [(2, false, (0,0,1,0))],
  .cplxB (0,0,2,0) [(2, false, (0,0,2,0))],
  .cplxB (0,1,1,0) [(2, false, (0,1,1,0))],
  .cplxB (0,1,2,0) [(2, false, (0,1,2,0)), (1, false, (0,2,1,0)), ((-1), false, (1,2,0,0))],
  .cplxB (0,2,1,0) [(1, false, (0,1,2,0)), (3, false, (0,2,1,0)), ((-1), false, (1,0,2,0)), ((-2), false, (1,2,0,0))],
  .cplxB (0,2,2,0) [(2, false, (0,2,2,0))],
  .cplxB (1,0,2,0) [((-1), false, (0,2,1,0)), (2, false, (1,0,2,0)), (1, false, (1,2,0,0))],
  .cplxB (1,1,2,0) [(2, false, (1,1,2,0))],
  .cplxB (1,2,0,0) [((-1), false, (0,1,2,0)), ((-2), false, (0,2,1,0)), (1, false, (1,0,2,0)), (3, false, (1,2,0,0))],
  .cplxB (1,2,2,0) [(2, false, (1,2,2,0))],
  .cplxB (0,0,1,1) [(2, false, (0,0,1,1))],
  .cplxB (0,0,2,1) [(2, false, (0,0,2,1))],
  .cplxB (0,1,1,1) [(2, false, (0,1,1,1))],
  .cplxB (0,1,2,1) [(2, false, (0,1,2,1)), (1, false, (0,2,1,1)), ((-1), false, (1,2,0,1))],
  .cplxB (0,2,1,1) [(1, false, (0,1,2,1)), (3, false, (0,2,1,1)), ((-1), false, (1,0,2,1)), ((-2), false, (1,2,0,1))],
  .cplxB (0,2,2,1) [(2, false, (0,2,2,1))],
  .cplxB (1,0,2,1) [((-1), false, (0,2,1,1)), (2, false, (1,0,2,1)), (1, false, (1,2,0,1))],
  .cplxB (1,1,2,1) [(2, false, (1,1,2,1))],
  .cplxB (1,2,0,1) [((-1), false, (0,1,2,1)), ((-2), false, (0,2,1,1)), (1, false, (1,0,2,1)), (3, false, (1,2,0,1))],
  .cplxB (1,2,2,1) [(2, false, (1,2,2,1))],
  .cplxB (0,0,1,2) [(2, false, (0,0,1,2))],
  .cplxB (0,0,2,2) [(2, false, (0,0,2,2))],
  .cplxB (0,1,1,2) [(2, false, (0,1,1,2))],
  .cplxB (0,1,2,2) [(2, false, (0,1,2,2)), (1, false, (0,2,1,2)), ((-1), false, (1,2,0,2))],
  .cplxB (0,2,1,2) [(1, false, (0,1,2,2)), (3, false, (0,2,1,2)), ((-1), false, (1,0,2,2)), ((-2), false, (1,2,0,2))],
  .cplxB (0,2,2,2) [(2, false, (0,2,2,2))],
  .cplxB (1,0,2,2) [((-1), false, (0,2,1,2)), (2, false, (1,0,2,2)), (1, false, (1,2,0,2))],
  .cplxB (1,1,2,2) [(2, false, (1,1,2,2))],
  .cplxB (1,2,0,2) [((-1), false, (0,1,2,2)), ((-2), false, (0,2,1,2)), (1, false, (1,0,2,2)), (3, false, (1,2,0,2))],
  .cplxB (1,2,2,2) [(2, false, (1,2,2,2))]]

/-- `EFTutil.symmetrize_9`, `util/common.py:883-888`: the assignments between
`a = np.array(b, copy=True, dtype=complex)` and `return a`. -/
def symmetrize_9 : List (Instr I2) := [
  .cplx (1,0) [(1, false, (0,1))],
  .cplx (2,0) [(1, false, (0,2))],
  .cplx (2,1) [(1, false, (1,2))]]

/-- `EFTutil._symmetry_class_defintions`, `util/common.py:13-66`: non-redundant two-flavour index
strings (as digits) with the "real" flag, and the class id. -/
def symmetryClassDefinitions : List (List (List Nat × Bool) × Nat) := [
  ([], 0),
  ([([1, 1], false), ([1, 2], false), ([2, 1], false), ([2, 2], false)], 1),
  ([([1, 1], true), ([1, 2], false), ([2, 2], true)], 2),
  ([([1, 1], false), ([1, 2], false), ([2, 2], false)], 9),
  ([([1, 1, 1, 1], true), ([1, 1, 1, 2], false), ([1, 1, 2, 2], true), ([1, 2, 1, 2], false), ([1, 2, 2, 1], true), ([1, 2, 2, 2], false), ([2, 2, 2, 2], true)], 4),
  ([([1, 1, 1, 1], false), ([1, 1, 1, 2], false), ([1, 1, 2, 1], false), ([1, 1, 2, 2], false), ([1, 2, 1, 2], false), ([1, 2, 2, 1], false), ([1, 2, 2, 2], false), ([2, 1, 2, 1], false), ([2, 1, 2, 2], false), ([2, 2, 2, 2], false)], 41),
  ([([1, 1, 1, 1], true), ([1, 1, 1, 2], false), ([1, 1, 2, 2], true), ([1, 2, 1, 1], false), ([1, 2, 1, 2], false), ([1, 2, 2, 1], false), ([1, 2, 2, 2], false), ([2, 2, 1, 1], true), ([2, 2, 1, 2], false), ([2, 2, 2, 2], true)], 5),
  ([([1, 1, 1, 1], true), ([1, 1, 1, 2], false), ([1, 1, 2, 2], true), ([1, 2, 1, 2], false), ([1, 2, 2, 2], false), ([2, 2, 2, 2], true)], 6),
  ([([1, 1, 1, 1], false), ([1, 1, 1, 2], false), ([1, 1, 2, 1], false), ([1, 1, 2, 2], false), ([1, 2, 1, 1], false), ([1, 2, 1, 2], false), ([1, 2, 2, 1], false), ([1, 2, 2, 2], false), ([2, 1, 1, 1], false), ([2, 1, 1, 2], false), ([2, 1, 2, 1], false), ([2, 1, 2, 2], false), ([2, 2, 1, 1], false), ([2, 2, 1, 2], false), ([2, 2, 2, 1], false), ([2, 2, 2, 2], false)], 3),
  ([([1, 1, 1, 1], false), ([1, 1, 1, 2], false), ([1, 1, 2, 1], false), ([1, 1, 2, 2], false), ([1, 2, 1, 1], false), ([1, 2, 1, 2], false), ([1, 2, 2, 1], false), ([1, 2, 2, 2], false), ([2, 2, 1, 1], false), ([2, 2, 1, 2], false), ([2, 2, 2, 1], false), ([2, 2, 2, 2], false)], 7),
  ([([1, 2, 1, 1], false), ([1, 2, 1, 2], false), ([1, 2, 2, 1], false), ([1, 2, 2, 2], false)], 71),
  ([([1, 1, 1, 1], false), ([1, 1, 1, 2], false), ([1, 1, 2, 1], false), ([1, 1, 2, 2], false), ([1, 2, 1, 1], false), ([1, 2, 1, 2], false), ([1, 2, 2, 1], false), ([1, 2, 2, 2], false), ([2, 1, 2, 1], false), ([2, 1, 2, 2], false), ([2, 2, 2, 1], false), ([2, 2, 2, 2], false)], 8)]

end Verif.Gen
