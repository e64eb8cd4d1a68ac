import Verif.Gen.LoopCoef0
import Verif.Gen.LoopCoef1
import Verif.Gen.LoopCoef2
import Verif.Gen.LoopCoef3
import Verif.Gen.LoopCoef4
import Verif.Gen.LoopCoef5
import Verif.Gen.LoopCoef6
import Verif.Gen.LoopCoef7
import Verif.Gen.Beta
import Verif.Gen.Rotation
import Mathlib.Analysis.SpecialFunctions.Log.Basic
import Mathlib.Analysis.Real.Sqrt
import Mathlib.Analysis.SpecialFunctions.Trigonometric.Basic

/-! Generated by /verif/tools/gen_loop.py from /repo/wilson/match/smeft_loop.py. -/

set_option autoImplicit false
set_option maxRecDepth 20000

namespace Verif.Loop
open Verif.Beta Verif.Rotation

/-- all factors -/
def coefTab : List (List (List ℕ)) :=
  coefTab0 ++ coefTab1 ++ coefTab2 ++ coefTab3 ++ coefTab4 ++ coefTab5 ++ coefTab6 ++ coefTab7

/-- the real scalars of lines 7-43 and the scalar subexpressions of lines 57-153, by number -/
noncomputable def atomR (S : LEnv) : ℕ → ℝ
  | 1 => Real.pi
  | 2 => S.vT
  | 3 => S.mW
  | 4 => S.mZ
  | 5 => mt
  | 6 => mH
  | 7 => S.g2bar
  | 8 => S.g3bar
  | 9 => (Real.sqrt 2)
  | 10 => Nc
  | 11 => cf
  | 12 => aEvan
  | 13 => bEvan
  | 14 => cEvan
  | 15 => dEvan
  | 16 => eEvan
  | 17 => (Real.log ((S.scale ^ 2) / (mt ^ 2)))
  | 18 => (Real.log ((S.scale ^ 2) / (S.mZ ^ 2)))
  | 19 => (Real.log ((S.scale ^ 2) / (S.mW ^ 2)))
  | 20 => (Real.log ((S.scale ^ 2) / (mH ^ 2)))
  | 21 => (mt - S.mW)
  | 22 => (mt + S.mW)
  | 23 => ((4 * (mt ^ 2)) - (4 * (S.mW ^ 2)))
  | 24 => ((2 * (mt ^ 2)) - (2 * (S.mW ^ 2)))
  | 25 => ((mt ^ 2) - (S.mW ^ 2))
  | 26 => (mH - S.mZ)
  | 27 => (mH + S.mZ)
  | 28 => ((-mt) + S.mW)
  | 29 => ((32 * (mt ^ 2)) - (32 * (S.mW ^ 2)))
  | 30 => (((96 * (mt ^ 2)) * Nc) - ((96 * (S.mW ^ 2)) * Nc))
  | 31 => (((8 * (mH ^ 2)) * Nc) - ((8 * (S.mW ^ 2)) * Nc))
  | 32 => (((4 * (mH ^ 2)) * Nc) - ((4 * (S.mW ^ 2)) * Nc))
  | 33 => (((16 * (mH ^ 2)) * Nc) - ((16 * (S.mW ^ 2)) * Nc))
  | 34 => (mH - mt)
  | 35 => (mH + mt)
  | 36 => (mH - S.mW)
  | 37 => (mH + S.mW)
  | 38 => (((8 * (mt ^ 2)) * Nc) - ((8 * (S.mW ^ 2)) * Nc))
  | 39 => (mt - S.mZ)
  | 40 => (mt + S.mZ)
  | 41 => (S.mW - S.mZ)
  | 42 => (S.mW + S.mZ)
  | 43 => (((4 * (mH ^ 4)) * Nc) - (((4 * (mH ^ 2)) * (S.mW ^ 2)) * Nc))
  | 44 => ((((48 * (S.mW ^ 2)) * (S.mZ ^ 2)) * Nc) - ((48 * (S.mZ ^ 4)) * Nc))
  | 45 => ((-S.mW) + S.mZ)
  | 46 => ((mH ^ 2) - (S.mW ^ 2))
  | 47 => ((2 * (mH ^ 2)) - (2 * (S.mW ^ 2)))
  | 48 => ((2 * (mH ^ 4)) - ((2 * (mH ^ 2)) * (S.mW ^ 2)))
  | 49 => (((4 * (mt ^ 2)) * Nc) - ((4 * (S.mW ^ 2)) * Nc))
  | 50 => ((-(S.mW ^ 2)) + (S.mZ ^ 2))
  | 51 => ((64 * (mt ^ 2)) - (64 * (S.mW ^ 2)))
  | 52 => (((128 * (mt ^ 2)) * Nc) - ((128 * (S.mW ^ 2)) * Nc))
  | 53 => (((16 * (mt ^ 2)) * Nc) - ((16 * (S.mW ^ 2)) * Nc))
  | 54 => ((8 * (mt ^ 2)) - (8 * (S.mW ^ 2)))
  | 55 => ((4 * (mH ^ 2)) - (4 * (S.mW ^ 2)))
  | 56 => ((4 * (mH ^ 4)) - ((4 * (mH ^ 2)) * (S.mW ^ 2)))
  | 57 => ((mH ^ 2) - (S.mZ ^ 2))
  | 58 => ((32 * (mH ^ 2)) - (32 * (S.mZ ^ 2)))
  | 59 => ((64 * (mH ^ 4)) - ((64 * (mH ^ 2)) * (S.mZ ^ 2)))
  | 60 => ((32 * (mH ^ 4)) - ((32 * (mH ^ 2)) * (S.mZ ^ 2)))
  | 61 => ((S.mW ^ 2) - (S.mZ ^ 2))
  | 62 => (((8 * (S.mW ^ 2)) * (S.mZ ^ 2)) - (8 * (S.mZ ^ 4)))
  | 63 => ((-mH) + S.mZ)
  | 64 => ((-((mH ^ 2) * S.mZ)) + (S.mZ ^ 3))
  | 65 => (((32 * (mH ^ 2)) * S.mZ) - (32 * (S.mZ ^ 3)))
  | 66 => ((((32 * (mH ^ 2)) * S.mZ) * S.vT) - ((32 * (S.mZ ^ 3)) * S.vT))
  | 67 => (((96 * (mH ^ 2)) * S.mZ) - (96 * (S.mZ ^ 3)))
  | 68 => ((((96 * (mH ^ 2)) * S.mZ) * S.vT) - ((96 * (S.mZ ^ 3)) * S.vT))
  | _ => 1

/-- the scalars by which the code divides -/
def divAtoms : List ℕ := [1, 2, 4, 5, 6, 9, 10, 21, 22, 23, 24, 25, 26, 27, 28, 29, 30, 31, 32, 33, 34, 35, 36, 37, 38, 39, 40, 41, 42, 43, 44, 45, 46, 47, 48, 49, 50, 51, 52, 53, 54, 55, 56, 57, 58, 59, 60, 61, 62, 63, 64, 65, 66, 67, 68]

/-- the arrays occurring in lines 57-153: coefficients of bosonic operators, operands of `einsum` with their
subscripts (the letters Tabcprstuvz are numbered from 0), explicit output subscripts -/
def tens : List Tn := [
  ⟨[.Gtilde], [], none⟩,
  ⟨[], [([], .c22 .uG)], none⟩,
  ⟨[], [([], .dag22 .uG)], none⟩,
  ⟨[], [], none⟩,
  ⟨[.G], [], none⟩,
  ⟨[], [([4, 5, 6, 7], .c .qqql)], none⟩,
  ⟨[], [([4, 6, 5, 7], .c .qqql)], none⟩,
  ⟨[], [([5, 4, 6, 7], .c .qqql)], none⟩,
  ⟨[], [([5, 6, 4, 7], .c .qqql)], none⟩,
  ⟨[], [([6, 4, 5, 7], .c .qqql)], none⟩,
  ⟨[], [([6, 5, 4, 7], .c .qqql)], none⟩,
  ⟨[], [([5, 6, 0, 7], .c .qqql), ([4, 0], .kd), ([0, 0], .kdt)], none⟩,
  ⟨[], [([5, 0, 6, 7], .c .qqql), ([4, 0], .kd), ([0, 0], .kdt)], none⟩,
  ⟨[], [([6, 5, 0, 7], .c .qqql), ([4, 0], .kd), ([0, 0], .kdt)], none⟩,
  ⟨[], [([6, 0, 5, 7], .c .qqql), ([4, 0], .kd), ([0, 0], .kdt)], none⟩,
  ⟨[], [([0, 5, 6, 7], .c .qqql), ([4, 0], .kd), ([0, 0], .kdt)], none⟩,
  ⟨[], [([0, 6, 5, 7], .c .qqql), ([4, 0], .kd), ([0, 0], .kdt)], none⟩,
  ⟨[], [([5, 4, 0, 7], .c .qqql), ([6, 0], .kd), ([0, 0], .kdt)], none⟩,
  ⟨[], [([5, 0, 4, 7], .c .qqql), ([6, 0], .kd), ([0, 0], .kdt)], none⟩,
  ⟨[], [([6, 0, 4, 7], .c .qqql), ([5, 0], .kd), ([0, 0], .kdt)], none⟩,
  ⟨[], [([0, 4, 6, 7], .c .qqql), ([5, 0], .kd), ([0, 0], .kdt)], none⟩,
  ⟨[], [([0, 5, 4, 7], .c .qqql), ([6, 0], .kd), ([0, 0], .kdt)], none⟩,
  ⟨[], [([0, 6, 4, 7], .c .qqql), ([5, 0], .kd), ([0, 0], .kdt)], none⟩,
  ⟨[], [([4, 5, 0, 7], .c .qqql), ([6, 0], .kd), ([0, 0], .kdt)], none⟩,
  ⟨[], [([4, 6, 0, 7], .c .qqql), ([5, 0], .kd), ([0, 0], .kdt)], none⟩,
  ⟨[], [([4, 0, 5, 7], .c .qqql), ([6, 0], .kd), ([0, 0], .kdt)], none⟩,
  ⟨[], [([4, 0, 6, 7], .c .qqql), ([5, 0], .kd), ([0, 0], .kdt)], none⟩,
  ⟨[], [([6, 4, 0, 7], .c .qqql), ([5, 0], .kd), ([0, 0], .kdt)], none⟩,
  ⟨[], [([0, 4, 5, 7], .c .qqql), ([6, 0], .kd), ([0, 0], .kdt)], none⟩,
  ⟨[], [([4, 5, 6, 7], .c .qque)], none⟩,
  ⟨[], [([5, 4, 6, 7], .c .qque)], none⟩,
  ⟨[], [([5, 0, 6, 7], .c .qque), ([4, 0], .kd), ([0, 0], .kdt)], none⟩,
  ⟨[], [([0, 5, 6, 7], .c .qque), ([4, 0], .kd), ([0, 0], .kdt)], none⟩,
  ⟨[], [([4, 5, 6, 7], .c .duql)], none⟩,
  ⟨[], [([4, 5, 0, 7], .c .duql), ([6, 0], .kd), ([0, 0], .kdt)], none⟩,
  ⟨[], [([4, 5, 6, 7], .c .duue)], none⟩,
  ⟨[], [([4, 6, 5, 7], .c .duue)], none⟩,
  ⟨[], [([4, 5, 6, 7], .c .qq1)], none⟩,
  ⟨[], [([4, 5, 6, 7], .c .qq3)], none⟩,
  ⟨[], [([4, 7, 6, 5], .c .qq1)], none⟩,
  ⟨[], [([4, 7, 6, 5], .c .qq3)], none⟩,
  ⟨[], [([6, 5, 4, 7], .c .qq1)], none⟩,
  ⟨[], [([6, 5, 4, 7], .c .qq3)], none⟩,
  ⟨[], [([6, 7, 4, 5], .c .qq1)], none⟩,
  ⟨[], [([6, 7, 4, 5], .c .qq3)], none⟩,
  ⟨[], [([4, 5], .kd), ([6, 7], .kd)], none⟩,
  ⟨[.phi], [([4, 5], .kd), ([6, 7], .kd)], none⟩,
  ⟨[.phiB], [([4, 5], .kd), ([6, 7], .kd)], none⟩,
  ⟨[.phiBox], [([4, 5], .kd), ([6, 7], .kd)], none⟩,
  ⟨[.phiD], [([4, 5], .kd), ([6, 7], .kd)], none⟩,
  ⟨[.phiW], [([4, 5], .kd), ([6, 7], .kd)], none⟩,
  ⟨[.phiWB], [([4, 5], .kd), ([6, 7], .kd)], none⟩,
  ⟨[.W], [([4, 5], .kd), ([6, 7], .kd)], none⟩,
  ⟨[], [([4, 5], .c .phiq1), ([6, 7], .kd)], none⟩,
  ⟨[], [([4, 5], .c .phiq3), ([6, 7], .kd)], none⟩,
  ⟨[], [([4, 7], .kd), ([6, 5], .kd)], none⟩,
  ⟨[.phi], [([4, 7], .kd), ([6, 5], .kd)], none⟩,
  ⟨[.phiB], [([4, 7], .kd), ([6, 5], .kd)], none⟩,
  ⟨[.phiBox], [([4, 7], .kd), ([6, 5], .kd)], none⟩,
  ⟨[.phiD], [([4, 7], .kd), ([6, 5], .kd)], none⟩,
  ⟨[.phiW], [([4, 7], .kd), ([6, 5], .kd)], none⟩,
  ⟨[.phiWB], [([4, 7], .kd), ([6, 5], .kd)], none⟩,
  ⟨[], [([4, 7], .c .phiq3), ([6, 5], .kd)], none⟩,
  ⟨[], [([6, 5], .c .phiq3), ([4, 7], .kd)], none⟩,
  ⟨[], [([6, 7], .c .phiq1), ([4, 5], .kd)], none⟩,
  ⟨[], [([6, 7], .c .phiq3), ([4, 5], .kd)], none⟩,
  ⟨[], [([4, 5, 6, 0], .c .qq1), ([7, 0], .kd), ([0, 0], .kdt)], none⟩,
  ⟨[], [([4, 5, 6, 0], .c .qq3), ([7, 0], .kd), ([0, 0], .kdt)], none⟩,
  ⟨[], [([4, 5, 0, 7], .c .qq1), ([6, 0], .kd), ([0, 0], .kdt)], none⟩,
  ⟨[], [([4, 5, 0, 7], .c .qq3), ([6, 0], .kd), ([0, 0], .kdt)], none⟩,
  ⟨[], [([4, 0, 6, 5], .c .qq3), ([7, 0], .kd), ([0, 0], .kdt)], none⟩,
  ⟨[], [([4, 7, 0, 5], .c .qq3), ([6, 0], .kd), ([0, 0], .kdt)], none⟩,
  ⟨[], [([4, 0, 0, 5], .c .qq1), ([6, 7], .kd), ([0, 0], .kdt)], none⟩,
  ⟨[], [([4, 0, 0, 5], .c .qq3), ([6, 7], .kd), ([0, 0], .kdt)], none⟩,
  ⟨[], [([4, 7, 0, 0], .c .qq3), ([6, 5], .kd), ([0, 0], .kdt)], none⟩,
  ⟨[], [([4, 0, 0, 7], .c .qq1), ([6, 5], .kd), ([0, 0], .kdt)], none⟩,
  ⟨[], [([4, 0, 0, 7], .c .qq3), ([6, 5], .kd), ([0, 0], .kdt)], none⟩,
  ⟨[], [([6, 5, 4, 0], .c .qq3), ([7, 0], .kd), ([0, 0], .kdt)], none⟩,
  ⟨[], [([6, 5, 0, 0], .c .qq3), ([4, 7], .kd), ([0, 0], .kdt)], none⟩,
  ⟨[], [([6, 0, 4, 5], .c .qq1), ([7, 0], .kd), ([0, 0], .kdt)], none⟩,
  ⟨[], [([6, 0, 4, 5], .c .qq3), ([7, 0], .kd), ([0, 0], .kdt)], none⟩,
  ⟨[], [([6, 0, 0, 5], .c .qq1), ([4, 7], .kd), ([0, 0], .kdt)], none⟩,
  ⟨[], [([6, 0, 0, 5], .c .qq3), ([4, 7], .kd), ([0, 0], .kdt)], none⟩,
  ⟨[], [([6, 0, 0, 7], .c .qq3), ([4, 5], .kd), ([0, 0], .kdt)], none⟩,
  ⟨[], [([0, 5, 4, 7], .c .qq3), ([6, 0], .kd), ([0, 0], .kdt)], none⟩,
  ⟨[], [([0, 5, 4, 0], .c .qq1), ([6, 7], .kd), ([0, 0], .kdt)], none⟩,
  ⟨[], [([0, 5, 4, 0], .c .qq3), ([6, 7], .kd), ([0, 0], .kdt)], none⟩,
  ⟨[], [([0, 5, 6, 0], .c .qq1), ([4, 7], .kd), ([0, 0], .kdt)], none⟩,
  ⟨[], [([0, 5, 6, 0], .c .qq3), ([4, 7], .kd), ([0, 0], .kdt)], none⟩,
  ⟨[], [([0, 7, 4, 5], .c .qq1), ([6, 0], .kd), ([0, 0], .kdt)], none⟩,
  ⟨[], [([0, 7, 4, 5], .c .qq3), ([6, 0], .kd), ([0, 0], .kdt)], none⟩,
  ⟨[], [([0, 7, 4, 0], .c .qq1), ([6, 5], .kd), ([0, 0], .kdt)], none⟩,
  ⟨[], [([0, 7, 4, 0], .c .qq3), ([6, 5], .kd), ([0, 0], .kdt)], none⟩,
  ⟨[], [([0, 0, 4, 7], .c .qq3), ([6, 5], .kd), ([0, 0], .kdt)], none⟩,
  ⟨[], [([0, 0, 6, 5], .c .qq3), ([4, 7], .kd), ([0, 0], .kdt)], none⟩,
  ⟨[], [([0, 7, 6, 0], .c .qq3), ([4, 5], .kd), ([0, 0], .kdt)], none⟩,
  ⟨[], [([4, 5], .kd), ([6, 0], .kd), ([7, 0], .kd), ([0, 0], .kdt)], none⟩,
  ⟨[.phiD], [([4, 5], .kd), ([6, 0], .kd), ([7, 0], .kd), ([0, 0], .kdt)], none⟩,
  ⟨[.phiWB], [([4, 5], .kd), ([6, 0], .kd), ([7, 0], .kd), ([0, 0], .kdt)], none⟩,
  ⟨[.W], [([4, 5], .kd), ([6, 0], .kd), ([7, 0], .kd), ([0, 0], .kdt)], none⟩,
  ⟨[], [([4, 5], .c .phiq1), ([6, 0], .kd), ([7, 0], .kd), ([0, 0], .kdt)], none⟩,
  ⟨[], [([4, 5], .c .phiq3), ([6, 0], .kd), ([7, 0], .kd), ([0, 0], .kdt)], none⟩,
  ⟨[], [([4, 5, 0, 0], .c .qq1), ([6, 0], .kd), ([7, 0], .kd), ([0, 0], .kdt)], none⟩,
  ⟨[], [([4, 5, 0, 0], .c .qq3), ([6, 0], .kd), ([7, 0], .kd), ([0, 0], .kdt)], none⟩,
  ⟨[], [([4, 5, 0, 0], .c .qu1), ([6, 0], .kd), ([7, 0], .kd), ([0, 0], .kdt)], none⟩,
  ⟨[], [([4, 0], .c .phiq1), ([6, 5], .kd), ([7, 0], .kd), ([0, 0], .kdt)], none⟩,
  ⟨[], [([4, 0], .c .phiq3), ([6, 5], .kd), ([7, 0], .kd), ([0, 0], .kdt)], none⟩,
  ⟨[], [([4, 0], .c .uB), ([6, 5], .kd), ([7, 0], .kd), ([0, 0], .kdt)], none⟩,
  ⟨[], [([4, 0], .c .uG), ([6, 5], .kd), ([7, 0], .kd), ([0, 0], .kdt)], none⟩,
  ⟨[], [([4, 0], .c .uphi), ([6, 5], .kd), ([7, 0], .kd), ([0, 0], .kdt)], none⟩,
  ⟨[], [([4, 0], .c .uW), ([6, 5], .kd), ([7, 0], .kd), ([0, 0], .kdt)], none⟩,
  ⟨[], [([4, 0, 0, 5], .c .qq1), ([6, 0], .kd), ([7, 0], .kd), ([0, 0], .kdt)], none⟩,
  ⟨[], [([4, 0, 0, 5], .c .qq3), ([6, 0], .kd), ([7, 0], .kd), ([0, 0], .kdt)], none⟩,
  ⟨[], [([4, 0, 0, 0], .c .qu1), ([6, 5], .kd), ([7, 0], .kd), ([0, 0], .kdt)], none⟩,
  ⟨[], [([4, 0, 0, 0], .c .qu8), ([6, 5], .kd), ([7, 0], .kd), ([0, 0], .kdt)], none⟩,
  ⟨[], [([6, 0], .c .phiq1), ([4, 5], .kd), ([7, 0], .kd), ([0, 0], .kdt)], none⟩,
  ⟨[], [([6, 0], .c .phiq3), ([4, 5], .kd), ([7, 0], .kd), ([0, 0], .kdt)], none⟩,
  ⟨[], [([6, 0], .c .uW), ([4, 5], .kd), ([7, 0], .kd), ([0, 0], .kdt)], none⟩,
  ⟨[], [([0, 5], .c .phiq1), ([4, 7], .kd), ([6, 0], .kd), ([0, 0], .kdt)], none⟩,
  ⟨[], [([0, 5], .c .phiq3), ([4, 7], .kd), ([6, 0], .kd), ([0, 0], .kdt)], none⟩,
  ⟨[], [([0, 5], .dag .uB), ([4, 7], .kd), ([6, 0], .kd), ([0, 0], .kdt)], none⟩,
  ⟨[], [([0, 5], .dag .uG), ([4, 7], .kd), ([6, 0], .kd), ([0, 0], .kdt)], none⟩,
  ⟨[], [([0, 5], .dag .uphi), ([4, 7], .kd), ([6, 0], .kd), ([0, 0], .kdt)], none⟩,
  ⟨[], [([0, 5], .dag .uW), ([4, 7], .kd), ([6, 0], .kd), ([0, 0], .kdt)], none⟩,
  ⟨[], [([0, 5, 4, 0], .c .qq1), ([6, 0], .kd), ([7, 0], .kd), ([0, 0], .kdt)], none⟩,
  ⟨[], [([0, 5, 4, 0], .c .qq3), ([6, 0], .kd), ([7, 0], .kd), ([0, 0], .kdt)], none⟩,
  ⟨[], [([0, 5, 0, 0], .c .qu1), ([4, 7], .kd), ([6, 0], .kd), ([0, 0], .kdt)], none⟩,
  ⟨[], [([0, 5, 0, 0], .c .qu8), ([4, 7], .kd), ([6, 0], .kd), ([0, 0], .kdt)], none⟩,
  ⟨[], [([0, 7], .c .phiq1), ([4, 5], .kd), ([6, 0], .kd), ([0, 0], .kdt)], none⟩,
  ⟨[], [([0, 7], .c .phiq3), ([4, 5], .kd), ([6, 0], .kd), ([0, 0], .kdt)], none⟩,
  ⟨[], [([0, 7], .dag .uW), ([4, 5], .kd), ([6, 0], .kd), ([0, 0], .kdt)], none⟩,
  ⟨[], [([0, 0], .c .uphi), ([4, 5], .kd), ([6, 7], .kd), ([0, 0], .kdt)], none⟩,
  ⟨[], [([0, 0], .dag .uphi), ([4, 5], .kd), ([6, 7], .kd), ([0, 0], .kdt)], none⟩,
  ⟨[], [([0, 0, 4, 5], .c .qq1), ([6, 0], .kd), ([7, 0], .kd), ([0, 0], .kdt)], none⟩,
  ⟨[], [([0, 0, 4, 5], .c .qq3), ([6, 0], .kd), ([7, 0], .kd), ([0, 0], .kdt)], none⟩,
  ⟨[], [([0, 0], .c .phiq3), ([4, 7], .kd), ([6, 5], .kd), ([0, 0], .kdt)], none⟩,
  ⟨[], [([0, 0], .c .uphi), ([4, 7], .kd), ([6, 5], .kd), ([0, 0], .kdt)], none⟩,
  ⟨[], [([0, 0], .dag .uphi), ([4, 7], .kd), ([6, 5], .kd), ([0, 0], .kdt)], none⟩,
  ⟨[], [([4, 5], .kd), ([6, 0], .kd), ([7, 0], .kd), ([0, 0], .c .phiq1), ([0, 0], .kdt)], none⟩,
  ⟨[], [([4, 5], .kd), ([6, 0], .kd), ([7, 0], .kd), ([0, 0], .c .phiq3), ([0, 0], .kdt)], none⟩,
  ⟨[], [([4, 5], .kd), ([6, 0], .kd), ([7, 0], .kd), ([0, 0], .c .phiu), ([0, 0], .kdt)], none⟩,
  ⟨[], [([4, 5], .kd), ([6, 0], .kd), ([7, 0], .kd), ([0, 0], .c .uB), ([0, 0], .kdt)], none⟩,
  ⟨[], [([4, 5], .kd), ([6, 0], .kd), ([7, 0], .kd), ([0, 0], .dag .uB), ([0, 0], .kdt)], none⟩,
  ⟨[], [([4, 5], .kd), ([6, 0], .kd), ([7, 0], .kd), ([0, 0], .c .uW), ([0, 0], .kdt)], none⟩,
  ⟨[], [([4, 5], .kd), ([6, 0], .kd), ([7, 0], .kd), ([0, 0], .dag .uW), ([0, 0], .kdt)], none⟩,
  ⟨[], [([4, 5, 0, 0], .c .qq1), ([6, 7], .kd), ([0, 0], .kdt)], none⟩,
  ⟨[], [([4, 5, 0, 0], .c .qq3), ([6, 7], .kd), ([0, 0], .kdt)], none⟩,
  ⟨[], [([4, 5, 0, 0], .c .qu1), ([6, 7], .kd), ([0, 0], .kdt)], none⟩,
  ⟨[], [([4, 0, 6, 5], .c .qq1), ([7, 0], .kd), ([0, 0], .kdt)], none⟩,
  ⟨[], [([4, 7, 0, 5], .c .qq1), ([6, 0], .kd), ([0, 0], .kdt)], none⟩,
  ⟨[], [([6, 5, 4, 0], .c .qq1), ([7, 0], .kd), ([0, 0], .kdt)], none⟩,
  ⟨[], [([6, 7, 0, 0], .c .qq1), ([4, 5], .kd), ([0, 0], .kdt)], none⟩,
  ⟨[], [([6, 7, 0, 0], .c .qq3), ([4, 5], .kd), ([0, 0], .kdt)], none⟩,
  ⟨[], [([6, 7, 0, 0], .c .qu1), ([4, 5], .kd), ([0, 0], .kdt)], none⟩,
  ⟨[], [([0, 5, 4, 7], .c .qq1), ([6, 0], .kd), ([0, 0], .kdt)], none⟩,
  ⟨[], [([0, 0, 4, 5], .c .qq1), ([6, 7], .kd), ([0, 0], .kdt)], none⟩,
  ⟨[], [([0, 0, 4, 5], .c .qq3), ([6, 7], .kd), ([0, 0], .kdt)], none⟩,
  ⟨[], [([0, 0, 6, 7], .c .qq1), ([4, 5], .kd), ([0, 0], .kdt)], none⟩,
  ⟨[], [([0, 0, 6, 7], .c .qq3), ([4, 5], .kd), ([0, 0], .kdt)], none⟩,
  ⟨[], [([6, 0], .c .uB), ([4, 5], .kd), ([7, 0], .kd), ([0, 0], .kdt)], none⟩,
  ⟨[], [([0, 7], .dag .uB), ([4, 5], .kd), ([6, 0], .kd), ([0, 0], .kdt)], none⟩,
  ⟨[], [([0, 0], .c .phiq1), ([4, 5], .kd), ([6, 7], .kd), ([0, 0], .kdt)], none⟩,
  ⟨[], [([0, 0], .c .phiq3), ([4, 5], .kd), ([6, 7], .kd), ([0, 0], .kdt)], none⟩,
  ⟨[], [([0, 0], .c .phiu), ([4, 5], .kd), ([6, 7], .kd), ([0, 0], .kdt)], none⟩,
  ⟨[], [([0, 0], .c .uB), ([4, 5], .kd), ([6, 7], .kd), ([0, 0], .kdt)], none⟩,
  ⟨[], [([0, 0], .dag .uB), ([4, 5], .kd), ([6, 7], .kd), ([0, 0], .kdt)], none⟩,
  ⟨[], [([0, 0], .c .uW), ([4, 5], .kd), ([6, 7], .kd), ([0, 0], .kdt)], none⟩,
  ⟨[], [([0, 0], .dag .uW), ([4, 5], .kd), ([6, 7], .kd), ([0, 0], .kdt)], none⟩,
  ⟨[], [([4, 7], .c .phiq1), ([6, 5], .kd)], none⟩,
  ⟨[], [([6, 5], .c .phiq1), ([4, 7], .kd)], none⟩,
  ⟨[], [([4, 5, 0, 0], .c .qu8), ([6, 0], .kd), ([7, 0], .kd), ([0, 0], .kdt)], none⟩,
  ⟨[], [([0, 0], .c .uG), ([4, 5], .kd), ([6, 7], .kd), ([0, 0], .kdt)], none⟩,
  ⟨[], [([0, 0], .dag .uG), ([4, 5], .kd), ([6, 7], .kd), ([0, 0], .kdt)], none⟩,
  ⟨[], [([4, 5], .kd), ([6, 0], .kd), ([7, 0], .kd), ([0, 0], .c .uG), ([0, 0], .kdt)], none⟩,
  ⟨[], [([4, 5], .kd), ([6, 0], .kd), ([7, 0], .kd), ([0, 0], .dag .uG), ([0, 0], .kdt)], none⟩,
  ⟨[], [([4, 5, 0, 0], .c .qu8), ([6, 7], .kd), ([0, 0], .kdt)], none⟩,
  ⟨[], [([6, 7, 0, 0], .c .qu8), ([4, 5], .kd), ([0, 0], .kdt)], none⟩,
  ⟨[], [([6, 0], .c .uG), ([4, 5], .kd), ([7, 0], .kd), ([0, 0], .kdt)], none⟩,
  ⟨[], [([0, 7], .dag .uG), ([4, 5], .kd), ([6, 0], .kd), ([0, 0], .kdt)], none⟩,
  ⟨[], [([4, 0, 6, 7], .c .qq1), ([5, 0], .kd), ([0, 0], .kdt)], none⟩,
  ⟨[], [([4, 0, 6, 7], .c .qq3), ([5, 0], .kd), ([0, 0], .kdt)], none⟩,
  ⟨[], [([6, 7, 4, 0], .c .qq1), ([5, 0], .kd), ([0, 0], .kdt)], none⟩,
  ⟨[], [([6, 7, 4, 0], .c .qq3), ([5, 0], .kd), ([0, 0], .kdt)], none⟩,
  ⟨[], [([6, 7, 0, 5], .c .qq1), ([4, 0], .kd), ([0, 0], .kdt)], none⟩,
  ⟨[], [([6, 7, 0, 5], .c .qq3), ([4, 0], .kd), ([0, 0], .kdt)], none⟩,
  ⟨[], [([0, 5, 6, 7], .c .qq1), ([4, 0], .kd), ([0, 0], .kdt)], none⟩,
  ⟨[], [([0, 5, 6, 7], .c .qq3), ([4, 0], .kd), ([0, 0], .kdt)], none⟩,
  ⟨[], [([4, 7], .kd), ([5, 0], .kd), ([6, 0], .kd), ([0, 0], .kdt)], none⟩,
  ⟨[], [([4, 0], .c .phiq1), ([6, 7], .kd), ([5, 0], .kd), ([0, 0], .kdt)], none⟩,
  ⟨[], [([4, 0], .c .phiq3), ([6, 7], .kd), ([5, 0], .kd), ([0, 0], .kdt)], none⟩,
  ⟨[], [([4, 0], .c .uW), ([6, 7], .kd), ([5, 0], .kd), ([0, 0], .kdt)], none⟩,
  ⟨[], [([4, 7, 0, 0], .c .qu8), ([5, 0], .kd), ([6, 0], .kd), ([0, 0], .kdt)], none⟩,
  ⟨[], [([4, 0, 0, 7], .c .qq3), ([5, 0], .kd), ([6, 0], .kd), ([0, 0], .kdt)], none⟩,
  ⟨[], [([6, 5], .kd), ([4, 0], .kd), ([7, 0], .kd), ([0, 0], .kdt)], none⟩,
  ⟨[], [([6, 5, 0, 0], .c .qu8), ([4, 0], .kd), ([7, 0], .kd), ([0, 0], .kdt)], none⟩,
  ⟨[], [([6, 7], .kd), ([4, 0], .kd), ([5, 0], .kd), ([0, 0], .kdt)], none⟩,
  ⟨[.phiD], [([6, 7], .kd), ([4, 0], .kd), ([5, 0], .kd), ([0, 0], .kdt)], none⟩,
  ⟨[.phiWB], [([6, 7], .kd), ([4, 0], .kd), ([5, 0], .kd), ([0, 0], .kdt)], none⟩,
  ⟨[.W], [([6, 7], .kd), ([4, 0], .kd), ([5, 0], .kd), ([0, 0], .kdt)], none⟩,
  ⟨[], [([6, 7], .c .phiq1), ([4, 0], .kd), ([5, 0], .kd), ([0, 0], .kdt)], none⟩,
  ⟨[], [([6, 7], .c .phiq3), ([4, 0], .kd), ([5, 0], .kd), ([0, 0], .kdt)], none⟩,
  ⟨[], [([6, 0], .c .phiq3), ([4, 7], .kd), ([5, 0], .kd), ([0, 0], .kdt)], none⟩,
  ⟨[], [([6, 0], .c .uW), ([4, 7], .kd), ([5, 0], .kd), ([0, 0], .kdt)], none⟩,
  ⟨[], [([6, 0, 0, 5], .c .qq3), ([4, 0], .kd), ([7, 0], .kd), ([0, 0], .kdt)], none⟩,
  ⟨[], [([6, 7, 0, 0], .c .qq1), ([4, 0], .kd), ([5, 0], .kd), ([0, 0], .kdt)], none⟩,
  ⟨[], [([6, 7, 0, 0], .c .qq3), ([4, 0], .kd), ([5, 0], .kd), ([0, 0], .kdt)], none⟩,
  ⟨[], [([6, 7, 0, 0], .c .qu1), ([4, 0], .kd), ([5, 0], .kd), ([0, 0], .kdt)], none⟩,
  ⟨[], [([6, 7, 0, 0], .c .qu8), ([4, 0], .kd), ([5, 0], .kd), ([0, 0], .kdt)], none⟩,
  ⟨[], [([0, 5], .c .phiq1), ([6, 7], .kd), ([4, 0], .kd), ([0, 0], .kdt)], none⟩,
  ⟨[], [([0, 5], .c .phiq3), ([6, 7], .kd), ([4, 0], .kd), ([0, 0], .kdt)], none⟩,
  ⟨[], [([0, 5], .dag .uW), ([6, 7], .kd), ([4, 0], .kd), ([0, 0], .kdt)], none⟩,
  ⟨[], [([0, 5, 6, 0], .c .qq3), ([4, 0], .kd), ([7, 0], .kd), ([0, 0], .kdt)], none⟩,
  ⟨[], [([0, 7, 4, 0], .c .qq3), ([5, 0], .kd), ([6, 0], .kd), ([0, 0], .kdt)], none⟩,
  ⟨[], [([0, 0], .c .uG), ([4, 7], .kd), ([6, 5], .kd), ([0, 0], .kdt)], none⟩,
  ⟨[], [([0, 0], .dag .uG), ([4, 7], .kd), ([6, 5], .kd), ([0, 0], .kdt)], none⟩,
  ⟨[], [([0, 7], .c .phiq3), ([6, 5], .kd), ([4, 0], .kd), ([0, 0], .kdt)], none⟩,
  ⟨[], [([0, 7], .dag .uW), ([6, 5], .kd), ([4, 0], .kd), ([0, 0], .kdt)], none⟩,
  ⟨[], [([0, 0, 6, 7], .c .qq1), ([4, 0], .kd), ([5, 0], .kd), ([0, 0], .kdt)], none⟩,
  ⟨[], [([0, 0, 6, 7], .c .qq3), ([4, 0], .kd), ([5, 0], .kd), ([0, 0], .kdt)], none⟩,
  ⟨[], [([4, 7], .kd), ([5, 0], .kd), ([6, 0], .kd), ([0, 0], .c .uG), ([0, 0], .kdt)], none⟩,
  ⟨[], [([4, 7], .kd), ([5, 0], .kd), ([6, 0], .kd), ([0, 0], .dag .uG), ([0, 0], .kdt)], none⟩,
  ⟨[], [([4, 0], .kd), ([5, 0], .kd), ([6, 0], .kd), ([0, 7], .c .phiq3), ([0, 0], .kdt)], none⟩,
  ⟨[], [([4, 0], .kd), ([5, 0], .kd), ([6, 0], .kd), ([0, 7], .dag .uW), ([0, 0], .kdt)], none⟩,
  ⟨[], [([4, 0], .kd), ([5, 0], .kd), ([7, 0], .kd), ([6, 0], .c .phiq3), ([0, 0], .kdt)], none⟩,
  ⟨[], [([4, 0], .kd), ([5, 0], .kd), ([7, 0], .kd), ([6, 0], .c .uW), ([0, 0], .kdt)], none⟩,
  ⟨[], [([4, 0], .kd), ([6, 0], .kd), ([7, 0], .kd), ([0, 5], .c .phiq3), ([0, 0], .kdt)], none⟩,
  ⟨[], [([4, 0], .kd), ([6, 0], .kd), ([7, 0], .kd), ([0, 5], .dag .uW), ([0, 0], .kdt)], none⟩,
  ⟨[], [([5, 0], .kd), ([6, 0], .kd), ([7, 0], .kd), ([4, 0], .kd), ([0, 0], .kdt)], none⟩,
  ⟨[], [([5, 0], .kd), ([6, 0], .kd), ([7, 0], .kd), ([4, 0], .c .phiq3), ([0, 0], .kdt)], none⟩,
  ⟨[], [([5, 0], .kd), ([6, 0], .kd), ([7, 0], .kd), ([4, 0], .c .uW), ([0, 0], .kdt)], none⟩,
  ⟨[], [([6, 5], .kd), ([4, 0], .kd), ([7, 0], .kd), ([0, 0], .c .uG), ([0, 0], .kdt)], none⟩,
  ⟨[], [([6, 5], .kd), ([4, 0], .kd), ([7, 0], .kd), ([0, 0], .dag .uG), ([0, 0], .kdt)], none⟩,
  ⟨[], [([6, 7], .kd), ([4, 0], .kd), ([5, 0], .kd), ([0, 0], .c .phiq1), ([0, 0], .kdt)], none⟩,
  ⟨[], [([6, 7], .kd), ([4, 0], .kd), ([5, 0], .kd), ([0, 0], .c .phiq3), ([0, 0], .kdt)], none⟩,
  ⟨[], [([6, 7], .kd), ([4, 0], .kd), ([5, 0], .kd), ([0, 0], .c .phiu), ([0, 0], .kdt)], none⟩,
  ⟨[], [([6, 7], .kd), ([4, 0], .kd), ([5, 0], .kd), ([0, 0], .c .uB), ([0, 0], .kdt)], none⟩,
  ⟨[], [([6, 7], .kd), ([4, 0], .kd), ([5, 0], .kd), ([0, 0], .dag .uB), ([0, 0], .kdt)], none⟩,
  ⟨[], [([6, 7], .kd), ([4, 0], .kd), ([5, 0], .kd), ([0, 0], .c .uG), ([0, 0], .kdt)], none⟩,
  ⟨[], [([6, 7], .kd), ([4, 0], .kd), ([5, 0], .kd), ([0, 0], .dag .uG), ([0, 0], .kdt)], none⟩,
  ⟨[], [([6, 7], .kd), ([4, 0], .kd), ([5, 0], .kd), ([0, 0], .c .uW), ([0, 0], .kdt)], none⟩,
  ⟨[], [([6, 7], .kd), ([4, 0], .kd), ([5, 0], .kd), ([0, 0], .dag .uW), ([0, 0], .kdt)], none⟩,
  ⟨[], [([4, 7, 0, 0], .c .qu8), ([6, 5], .kd), ([0, 0], .kdt)], none⟩,
  ⟨[], [([6, 5, 0, 0], .c .qu8), ([4, 7], .kd), ([0, 0], .kdt)], none⟩,
  ⟨[], [([4, 0], .c .uB), ([6, 7], .kd), ([5, 0], .kd), ([0, 0], .kdt)], none⟩,
  ⟨[], [([4, 0], .c .uG), ([6, 7], .kd), ([5, 0], .kd), ([0, 0], .kdt)], none⟩,
  ⟨[], [([6, 0], .c .uG), ([4, 7], .kd), ([5, 0], .kd), ([0, 0], .kdt)], none⟩,
  ⟨[], [([0, 5], .dag .uB), ([6, 7], .kd), ([4, 0], .kd), ([0, 0], .kdt)], none⟩,
  ⟨[], [([0, 5], .dag .uG), ([6, 7], .kd), ([4, 0], .kd), ([0, 0], .kdt)], none⟩,
  ⟨[], [([0, 7], .dag .uG), ([6, 5], .kd), ([4, 0], .kd), ([0, 0], .kdt)], none⟩,
  ⟨[], [([4, 5, 6, 7], .c .lq1)], none⟩,
  ⟨[], [([4, 5, 6, 7], .c .lq3)], none⟩,
  ⟨[], [([4, 5], .c .phil1), ([6, 7], .kd)], none⟩,
  ⟨[], [([4, 5], .c .phil3), ([6, 7], .kd)], none⟩,
  ⟨[], [([4, 5, 6, 0], .c .lq1), ([7, 0], .kd), ([0, 0], .kdt)], none⟩,
  ⟨[], [([4, 5, 6, 0], .c .lq3), ([7, 0], .kd), ([0, 0], .kdt)], none⟩,
  ⟨[], [([4, 5, 0, 7], .c .lq1), ([6, 0], .kd), ([0, 0], .kdt)], none⟩,
  ⟨[], [([4, 5, 0, 7], .c .lq3), ([6, 0], .kd), ([0, 0], .kdt)], none⟩,
  ⟨[], [([4, 5], .c .phil1), ([6, 0], .kd), ([7, 0], .kd), ([0, 0], .kdt)], none⟩,
  ⟨[], [([4, 5], .c .phil3), ([6, 0], .kd), ([7, 0], .kd), ([0, 0], .kdt)], none⟩,
  ⟨[], [([4, 5, 0, 0], .c .lq1), ([6, 0], .kd), ([7, 0], .kd), ([0, 0], .kdt)], none⟩,
  ⟨[], [([4, 5, 0, 0], .c .lq3), ([6, 0], .kd), ([7, 0], .kd), ([0, 0], .kdt)], none⟩,
  ⟨[], [([4, 5, 0, 0], .c .lu), ([6, 0], .kd), ([7, 0], .kd), ([0, 0], .kdt)], none⟩,
  ⟨[], [([4, 5, 0, 0], .c .lq1), ([6, 7], .kd), ([0, 0], .kdt)], none⟩,
  ⟨[], [([4, 5, 0, 0], .c .lq3), ([6, 7], .kd), ([0, 0], .kdt)], none⟩,
  ⟨[], [([4, 5, 0, 0], .c .lu), ([6, 7], .kd), ([0, 0], .kdt)], none⟩,
  ⟨[], [([4, 5, 6, 7], .c .ll)], none⟩,
  ⟨[], [([4, 7, 6, 5], .c .ll)], none⟩,
  ⟨[], [([6, 5, 4, 7], .c .ll)], none⟩,
  ⟨[], [([6, 7, 4, 5], .c .ll)], none⟩,
  ⟨[.W], [([4, 7], .kd), ([6, 5], .kd)], none⟩,
  ⟨[], [([4, 7], .c .phil1), ([6, 5], .kd)], none⟩,
  ⟨[], [([4, 7], .c .phil3), ([6, 5], .kd)], none⟩,
  ⟨[], [([6, 5], .c .phil1), ([4, 7], .kd)], none⟩,
  ⟨[], [([6, 5], .c .phil3), ([4, 7], .kd)], none⟩,
  ⟨[], [([6, 7], .c .phil1), ([4, 5], .kd)], none⟩,
  ⟨[], [([6, 7], .c .phil3), ([4, 5], .kd)], none⟩,
  ⟨[], [([0, 0], .c .uB), ([4, 7], .kd), ([6, 5], .kd), ([0, 0], .kdt)], none⟩,
  ⟨[], [([0, 0], .dag .uB), ([4, 7], .kd), ([6, 5], .kd), ([0, 0], .kdt)], none⟩,
  ⟨[], [([0, 0], .c .uW), ([4, 7], .kd), ([6, 5], .kd), ([0, 0], .kdt)], none⟩,
  ⟨[], [([0, 0], .dag .uW), ([4, 7], .kd), ([6, 5], .kd), ([0, 0], .kdt)], none⟩,
  ⟨[], [([4, 7, 0, 0], .c .lq1), ([6, 5], .kd), ([0, 0], .kdt)], none⟩,
  ⟨[], [([4, 7, 0, 0], .c .lq3), ([6, 5], .kd), ([0, 0], .kdt)], none⟩,
  ⟨[], [([4, 7, 0, 0], .c .lu), ([6, 5], .kd), ([0, 0], .kdt)], none⟩,
  ⟨[], [([6, 5, 0, 0], .c .lq1), ([4, 7], .kd), ([0, 0], .kdt)], none⟩,
  ⟨[], [([6, 5, 0, 0], .c .lq3), ([4, 7], .kd), ([0, 0], .kdt)], none⟩,
  ⟨[], [([6, 5, 0, 0], .c .lu), ([4, 7], .kd), ([0, 0], .kdt)], none⟩,
  ⟨[], [([6, 7, 0, 0], .c .lq1), ([4, 5], .kd), ([0, 0], .kdt)], none⟩,
  ⟨[], [([6, 7, 0, 0], .c .lq3), ([4, 5], .kd), ([0, 0], .kdt)], none⟩,
  ⟨[], [([6, 7, 0, 0], .c .lu), ([4, 5], .kd), ([0, 0], .kdt)], none⟩,
  ⟨[], [([0, 0], .c .phiq1), ([4, 7], .kd), ([6, 5], .kd), ([0, 0], .kdt)], none⟩,
  ⟨[], [([0, 0], .c .phiu), ([4, 7], .kd), ([6, 5], .kd), ([0, 0], .kdt)], none⟩,
  ⟨[], [([6, 0, 0, 7], .c .qq1), ([4, 5], .kd), ([0, 0], .kdt)], none⟩,
  ⟨[], [([0, 7, 6, 0], .c .qq1), ([4, 5], .kd), ([0, 0], .kdt)], none⟩,
  ⟨[.phiWtildeB], [([4, 5], .kd), ([6, 7], .kd)], none⟩,
  ⟨[], [([0, 7], .dag .uphi), ([4, 5], .kd), ([6, 0], .kd), ([0, 0], .kdt)], none⟩,
  ⟨[], [([0, 7, 0, 0], .c .qu1), ([4, 5], .kd), ([6, 0], .kd), ([0, 0], .kdt)], none⟩,
  ⟨[], [([0, 7, 0, 0], .c .qu8), ([4, 5], .kd), ([6, 0], .kd), ([0, 0], .kdt)], none⟩,
  ⟨[], [([4, 5, 6, 7], .c .qd1)], none⟩,
  ⟨[], [([6, 7], .c .phid), ([4, 5], .kd)], none⟩,
  ⟨[], [([4, 0, 6, 7], .c .qd1), ([5, 0], .kd), ([0, 0], .kdt)], none⟩,
  ⟨[], [([0, 5, 6, 7], .c .qd1), ([4, 0], .kd), ([0, 0], .kdt)], none⟩,
  ⟨[], [([6, 7], .c .phid), ([4, 0], .kd), ([5, 0], .kd), ([0, 0], .kdt)], none⟩,
  ⟨[], [([0, 0, 6, 7], .c .qd1), ([4, 0], .kd), ([5, 0], .kd), ([0, 0], .kdt)], none⟩,
  ⟨[], [([0, 0, 6, 7], .c .ud1), ([4, 0], .kd), ([5, 0], .kd), ([0, 0], .kdt)], none⟩,
  ⟨[], [([0, 0, 6, 7], .c .qd1), ([4, 5], .kd), ([0, 0], .kdt)], none⟩,
  ⟨[], [([0, 0, 6, 7], .c .ud1), ([4, 5], .kd), ([0, 0], .kdt)], none⟩,
  ⟨[], [([4, 5, 6, 7], .c .qu1)], none⟩,
  ⟨[], [([6, 7], .c .phiu), ([4, 5], .kd)], none⟩,
  ⟨[], [([4, 0, 6, 7], .c .qu1), ([5, 0], .kd), ([0, 0], .kdt)], none⟩,
  ⟨[], [([6, 0, 0, 7], .c .uu), ([4, 5], .kd), ([0, 0], .kdt)], none⟩,
  ⟨[], [([0, 5, 6, 7], .c .qu1), ([4, 0], .kd), ([0, 0], .kdt)], none⟩,
  ⟨[], [([0, 7, 6, 0], .c .uu), ([4, 5], .kd), ([0, 0], .kdt)], none⟩,
  ⟨[], [([6, 7], .c .phiu), ([4, 0], .kd), ([5, 0], .kd), ([0, 0], .kdt)], none⟩,
  ⟨[], [([6, 7, 0, 0], .c .uu), ([4, 0], .kd), ([5, 0], .kd), ([0, 0], .kdt)], none⟩,
  ⟨[], [([6, 0, 0, 7], .c .uu), ([4, 0], .kd), ([5, 0], .kd), ([0, 0], .kdt)], none⟩,
  ⟨[], [([0, 7, 6, 0], .c .uu), ([4, 0], .kd), ([5, 0], .kd), ([0, 0], .kdt)], none⟩,
  ⟨[], [([0, 0, 6, 7], .c .qu1), ([4, 0], .kd), ([5, 0], .kd), ([0, 0], .kdt)], none⟩,
  ⟨[], [([0, 0, 6, 7], .c .uu), ([4, 0], .kd), ([5, 0], .kd), ([0, 0], .kdt)], none⟩,
  ⟨[], [([6, 7, 0, 0], .c .uu), ([4, 5], .kd), ([0, 0], .kdt)], none⟩,
  ⟨[], [([0, 0, 6, 7], .c .qu1), ([4, 5], .kd), ([0, 0], .kdt)], none⟩,
  ⟨[], [([0, 0, 6, 7], .c .uu), ([4, 5], .kd), ([0, 0], .kdt)], none⟩,
  ⟨[], [([6, 7], .dag .phiud), ([4, 5], .kd)], none⟩,
  ⟨[], [([4, 5, 6, 7], .c .qd8)], none⟩,
  ⟨[], [([4, 0, 6, 7], .c .qd8), ([5, 0], .kd), ([0, 0], .kdt)], none⟩,
  ⟨[], [([0, 5, 6, 7], .c .qd8), ([4, 0], .kd), ([0, 0], .kdt)], none⟩,
  ⟨[], [([0, 0, 6, 7], .c .qd8), ([4, 0], .kd), ([5, 0], .kd), ([0, 0], .kdt)], none⟩,
  ⟨[], [([0, 0, 6, 7], .c .ud8), ([4, 0], .kd), ([5, 0], .kd), ([0, 0], .kdt)], none⟩,
  ⟨[], [([0, 0, 6, 7], .c .qd8), ([4, 5], .kd), ([0, 0], .kdt)], none⟩,
  ⟨[], [([0, 0, 6, 7], .c .ud8), ([4, 5], .kd), ([0, 0], .kdt)], none⟩,
  ⟨[], [([4, 5, 6, 7], .c .qu8)], none⟩,
  ⟨[], [([4, 0, 6, 7], .c .qu8), ([5, 0], .kd), ([0, 0], .kdt)], none⟩,
  ⟨[], [([0, 5, 6, 7], .c .qu8), ([4, 0], .kd), ([0, 0], .kdt)], none⟩,
  ⟨[], [([0, 0, 6, 7], .c .qu8), ([4, 0], .kd), ([5, 0], .kd), ([0, 0], .kdt)], none⟩,
  ⟨[], [([0, 0, 6, 7], .c .qu8), ([4, 5], .kd), ([0, 0], .kdt)], none⟩,
  ⟨[], [([4, 5, 6, 7], .c .qe)], none⟩,
  ⟨[], [([6, 7], .c .phie), ([4, 5], .kd)], none⟩,
  ⟨[], [([4, 0, 6, 7], .c .qe), ([5, 0], .kd), ([0, 0], .kdt)], none⟩,
  ⟨[], [([0, 5, 6, 7], .c .qe), ([4, 0], .kd), ([0, 0], .kdt)], none⟩,
  ⟨[], [([6, 7], .c .phie), ([4, 0], .kd), ([5, 0], .kd), ([0, 0], .kdt)], none⟩,
  ⟨[], [([6, 7, 0, 0], .c .eu), ([4, 0], .kd), ([5, 0], .kd), ([0, 0], .kdt)], none⟩,
  ⟨[], [([0, 0, 6, 7], .c .qe), ([4, 0], .kd), ([5, 0], .kd), ([0, 0], .kdt)], none⟩,
  ⟨[], [([6, 7, 0, 0], .c .eu), ([4, 5], .kd), ([0, 0], .kdt)], none⟩,
  ⟨[], [([0, 0, 6, 7], .c .qe), ([4, 5], .kd), ([0, 0], .kdt)], none⟩,
  ⟨[], [([4, 5, 6, 7], .c .ld)], none⟩,
  ⟨[], [([4, 5, 6, 7], .c .le)], none⟩,
  ⟨[], [([4, 5, 6, 7], .c .lu)], none⟩,
  ⟨[], [([4, 7, 6, 5], .c .quqd1)], none⟩,
  ⟨[], [([4, 7, 6, 5], .c .quqd8)], none⟩,
  ⟨[], [([6, 7, 4, 5], .c .quqd1)], none⟩,
  ⟨[], [([0, 7, 4, 5], .c .quqd1), ([6, 0], .kd), ([0, 0], .kdt)], none⟩,
  ⟨[], [([4, 7, 0, 5], .c .quqd1), ([6, 0], .kd), ([0, 0], .kdt)], none⟩,
  ⟨[], [([4, 7, 0, 5], .c .quqd8), ([6, 0], .kd), ([0, 0], .kdt)], none⟩,
  ⟨[], [([4, 5, 6, 7], .c .quqd1)], none⟩,
  ⟨[], [([6, 5, 4, 7], .c .quqd1)], none⟩,
  ⟨[], [([6, 5, 4, 7], .c .quqd8)], none⟩,
  ⟨[], [([4, 5, 0, 7], .c .quqd1), ([6, 0], .kd), ([0, 0], .kdt)], none⟩,
  ⟨[], [([0, 5, 4, 7], .c .quqd1), ([6, 0], .kd), ([0, 0], .kdt)], none⟩,
  ⟨[], [([0, 5, 4, 7], .c .quqd8), ([6, 0], .kd), ([0, 0], .kdt)], none⟩,
  ⟨[], [([6, 7, 4, 5], .c .quqd8)], none⟩,
  ⟨[], [([0, 7, 4, 5], .c .quqd8), ([6, 0], .kd), ([0, 0], .kdt)], none⟩,
  ⟨[], [([4, 5, 6, 7], .c .quqd8)], none⟩,
  ⟨[], [([4, 5, 0, 7], .c .quqd8), ([6, 0], .kd), ([0, 0], .kdt)], none⟩,
  ⟨[], [([4, 5, 6, 7], .c .lequ1)], none⟩,
  ⟨[], [([4, 5, 6, 7], .c .lequ3)], none⟩,
  ⟨[], [([4, 5, 0, 7], .c .lequ1), ([6, 0], .kd), ([0, 0], .kdt)], none⟩,
  ⟨[], [([4, 5, 0, 7], .c .lequ3), ([6, 0], .kd), ([0, 0], .kdt)], none⟩,
  ⟨[], [([4, 5, 6, 7], .c .ledq)], none⟩,
  ⟨[], [([4, 5, 6, 0], .c .ledq), ([7, 0], .kd), ([0, 0], .kdt)], none⟩,
  ⟨[], [([4, 5, 6, 7], .c .ud1)], none⟩,
  ⟨[], [([4, 5], .c .phiu), ([6, 7], .kd)], none⟩,
  ⟨[], [([4, 0, 0, 5], .c .uu), ([6, 7], .kd), ([0, 0], .kdt)], none⟩,
  ⟨[], [([0, 5, 4, 0], .c .uu), ([6, 7], .kd), ([0, 0], .kdt)], none⟩,
  ⟨[], [([4, 5, 0, 0], .c .uu), ([6, 7], .kd), ([0, 0], .kdt)], none⟩,
  ⟨[], [([0, 0, 4, 5], .c .qu1), ([6, 7], .kd), ([0, 0], .kdt)], none⟩,
  ⟨[], [([0, 0, 4, 5], .c .uu), ([6, 7], .kd), ([0, 0], .kdt)], none⟩,
  ⟨[], [([4, 5, 6, 7], .c .ud8)], none⟩,
  ⟨[], [([0, 0, 4, 5], .c .qu8), ([6, 7], .kd), ([0, 0], .kdt)], none⟩,
  ⟨[], [([4, 5, 6, 7], .c .dd)], none⟩,
  ⟨[], [([6, 7, 4, 5], .c .dd)], none⟩,
  ⟨[], [([4, 5], .c .phid), ([6, 7], .kd)], none⟩,
  ⟨[], [([4, 7], .c .phid), ([6, 5], .kd)], none⟩,
  ⟨[], [([6, 5], .c .phid), ([4, 7], .kd)], none⟩,
  ⟨[], [([0, 0, 4, 5], .c .qd1), ([6, 7], .kd), ([0, 0], .kdt)], none⟩,
  ⟨[], [([0, 0, 4, 5], .c .qd8), ([6, 7], .kd), ([0, 0], .kdt)], none⟩,
  ⟨[], [([0, 0, 4, 5], .c .ud1), ([6, 7], .kd), ([0, 0], .kdt)], none⟩,
  ⟨[], [([0, 0, 4, 5], .c .ud8), ([6, 7], .kd), ([0, 0], .kdt)], none⟩,
  ⟨[], [([0, 0, 4, 7], .c .qd8), ([6, 5], .kd), ([0, 0], .kdt)], none⟩,
  ⟨[], [([0, 0, 4, 7], .c .ud8), ([6, 5], .kd), ([0, 0], .kdt)], none⟩,
  ⟨[], [([0, 0, 6, 5], .c .qd8), ([4, 7], .kd), ([0, 0], .kdt)], none⟩,
  ⟨[], [([0, 0, 6, 5], .c .ud8), ([4, 7], .kd), ([0, 0], .kdt)], none⟩,
  ⟨[], [([4, 5, 6, 7], .c .ed)], none⟩,
  ⟨[], [([4, 5], .c .phie), ([6, 7], .kd)], none⟩,
  ⟨[], [([4, 5, 0, 0], .c .eu), ([6, 7], .kd), ([0, 0], .kdt)], none⟩,
  ⟨[], [([0, 0, 4, 5], .c .qe), ([6, 7], .kd), ([0, 0], .kdt)], none⟩,
  ⟨[], [([4, 5, 6, 7], .c .ee)], none⟩,
  ⟨[], [([4, 7, 6, 5], .c .ee)], none⟩,
  ⟨[], [([6, 5, 4, 7], .c .ee)], none⟩,
  ⟨[], [([6, 7, 4, 5], .c .ee)], none⟩,
  ⟨[], [([4, 7], .c .phie), ([6, 5], .kd)], none⟩,
  ⟨[], [([6, 5], .c .phie), ([4, 7], .kd)], none⟩,
  ⟨[], [([4, 7, 0, 0], .c .eu), ([6, 5], .kd), ([0, 0], .kdt)], none⟩,
  ⟨[], [([6, 5, 0, 0], .c .eu), ([4, 7], .kd), ([0, 0], .kdt)], none⟩,
  ⟨[], [([0, 0, 4, 7], .c .qe), ([6, 5], .kd), ([0, 0], .kdt)], none⟩,
  ⟨[], [([0, 0, 6, 5], .c .qe), ([4, 7], .kd), ([0, 0], .kdt)], none⟩,
  ⟨[], [([4, 5, 6, 7], .c .eu)], none⟩,
  ⟨[], [([4, 5, 6, 7], .c .uu)], none⟩,
  ⟨[], [([6, 7, 4, 5], .c .uu)], none⟩,
  ⟨[], [([4, 7], .c .phiu), ([6, 5], .kd)], none⟩,
  ⟨[], [([6, 5], .c .phiu), ([4, 7], .kd)], none⟩,
  ⟨[], [([4, 0, 0, 7], .c .uu), ([6, 5], .kd), ([0, 0], .kdt)], none⟩,
  ⟨[], [([6, 0, 0, 5], .c .uu), ([4, 7], .kd), ([0, 0], .kdt)], none⟩,
  ⟨[], [([0, 5, 6, 0], .c .uu), ([4, 7], .kd), ([0, 0], .kdt)], none⟩,
  ⟨[], [([0, 7, 4, 0], .c .uu), ([6, 5], .kd), ([0, 0], .kdt)], none⟩,
  ⟨[], [([0, 0, 4, 7], .c .qu8), ([6, 5], .kd), ([0, 0], .kdt)], none⟩,
  ⟨[], [([0, 0, 6, 5], .c .qu8), ([4, 7], .kd), ([0, 0], .kdt)], none⟩,
  ⟨[], [([4, 5], .c .eB)], none⟩,
  ⟨[], [([4, 5], .c .eW)], none⟩,
  ⟨[], [([4, 5], .diagE)], none⟩,
  ⟨[.phiB], [([4, 5], .diagE)], none⟩,
  ⟨[.phiBtilde], [([4, 5], .diagE)], none⟩,
  ⟨[.phiD], [([4, 5], .diagE)], none⟩,
  ⟨[.phiW], [([4, 5], .diagE)], none⟩,
  ⟨[.phiWB], [([4, 5], .diagE)], none⟩,
  ⟨[.phiWtilde], [([4, 5], .diagE)], none⟩,
  ⟨[.phiWtildeB], [([4, 5], .diagE)], none⟩,
  ⟨[.W], [([4, 5], .diagE)], none⟩,
  ⟨[.Wtilde], [([4, 5], .diagE)], none⟩,
  ⟨[], [([4, 5], .c .phie), ([4], .me)], some [4, 5]⟩,
  ⟨[], [([4, 5], .c .phil1), ([5], .me)], some [4, 5]⟩,
  ⟨[], [([4, 5], .c .phil3), ([5], .me)], some [4, 5]⟩,
  ⟨[], [([4, 5, 0, 0], .c .lequ3), ([0, 0], .kdt)], none⟩,
  ⟨[], [([4, 5], .c .uB)], none⟩,
  ⟨[], [([4, 5], .c .uG)], none⟩,
  ⟨[], [([4, 5], .c .uW)], none⟩,
  ⟨[], [([4, 5], .diagU)], none⟩,
  ⟨[.phiD], [([4, 5], .diagU)], none⟩,
  ⟨[.phiG], [([4, 5], .diagU)], none⟩,
  ⟨[.phiGtilde], [([4, 5], .diagU)], none⟩,
  ⟨[.phiWB], [([4, 5], .diagU)], none⟩,
  ⟨[], [([4, 5], .c .phiu), ([4], .mu)], some [4, 5]⟩,
  ⟨[], [([4, 5], .c .phiq1), ([5], .mu)], some [4, 5]⟩,
  ⟨[], [([4, 5], .c .phiq3), ([5], .mu)], some [4, 5]⟩,
  ⟨[], [([4, 0, 0, 5], .c .qu1), ([0, 0], .kdt)], none⟩,
  ⟨[], [([4, 0, 0, 5], .c .qu8), ([0, 0], .kdt)], none⟩,
  ⟨[.phiB], [([4, 5], .diagU)], none⟩,
  ⟨[.phiBtilde], [([4, 5], .diagU)], none⟩,
  ⟨[.phiW], [([4, 5], .diagU)], none⟩,
  ⟨[.phiWtilde], [([4, 5], .diagU)], none⟩,
  ⟨[.phiWtildeB], [([4, 5], .diagU)], none⟩,
  ⟨[.W], [([4, 5], .diagU)], none⟩,
  ⟨[.Wtilde], [([4, 5], .diagU)], none⟩,
  ⟨[], [([4, 8], .V), ([8, 5], .dag .phiud), ([8], .md)], none⟩,
  ⟨[], [([4, 5], .diagD)], none⟩,
  ⟨[.phiB], [([4, 5], .diagD)], none⟩,
  ⟨[.phiBtilde], [([4, 5], .diagD)], none⟩,
  ⟨[.phiD], [([4, 5], .diagD)], none⟩,
  ⟨[.phiW], [([4, 5], .diagD)], none⟩,
  ⟨[.phiWB], [([4, 5], .diagD)], none⟩,
  ⟨[.phiWtilde], [([4, 5], .diagD)], none⟩,
  ⟨[.phiWtildeB], [([4, 5], .diagD)], none⟩,
  ⟨[.W], [([4, 5], .diagD)], none⟩,
  ⟨[.Wtilde], [([4, 5], .diagD)], none⟩,
  ⟨[], [([4, 1], .diagD), ([1, 5], .c .phid)], some [4, 5]⟩,
  ⟨[], [([10, 5], .c .dB), ([4, 10], .Vdag)], none⟩,
  ⟨[], [([10, 5], .c .dW), ([4, 10], .Vdag)], none⟩,
  ⟨[], [([0, 5], .c .dB), ([4, 0], .Vdag), ([0, 0], .kdt)], none⟩,
  ⟨[], [([0, 5], .c .dW), ([4, 0], .Vdag), ([0, 0], .kdt)], none⟩,
  ⟨[], [([0, 5], .c .phiud), ([4, 0], .Vdag), ([0, 0], .kdt)], none⟩,
  ⟨[], [([5, 1], .diagD), ([0, 1], .V), ([4, 0], .Vdag), ([0, 0], .kdt)], none⟩,
  ⟨[.phiD], [([5, 1], .diagD), ([0, 1], .V), ([4, 0], .Vdag), ([0, 0], .kdt)], none⟩,
  ⟨[.phiWB], [([5, 1], .diagD), ([0, 1], .V), ([4, 0], .Vdag), ([0, 0], .kdt)], none⟩,
  ⟨[.phiWtildeB], [([5, 1], .diagD), ([0, 1], .V), ([4, 0], .Vdag), ([0, 0], .kdt)], none⟩,
  ⟨[.W], [([5, 1], .diagD), ([0, 1], .V), ([4, 0], .Vdag), ([0, 0], .kdt)], none⟩,
  ⟨[.Wtilde], [([5, 1], .diagD), ([0, 1], .V), ([4, 0], .Vdag), ([0, 0], .kdt)], none⟩,
  ⟨[], [([5, 1], .diagD), ([2, 1], .V), ([3, 2], .c .phiq1), ([4, 3], .Vdag)], some [4, 5]⟩,
  ⟨[], [([5, 1], .diagD), ([2, 1], .V), ([3, 2], .c .phiq3), ([4, 3], .Vdag)], some [4, 5]⟩,
  ⟨[], [([5, 1], .diagD), ([0, 1], .V), ([4, 0], .Vdag), ([0, 0], .c .uB), ([0, 0], .kdt)], none⟩,
  ⟨[], [([5, 1], .diagD), ([0, 1], .V), ([4, 0], .Vdag), ([0, 0], .c .uW), ([0, 0], .kdt)], none⟩,
  ⟨[], [([5, 1], .diagD), ([0, 1], .V), ([4, 10], .Vdag), ([10, 0], .c .phiq3), ([0, 0], .kdt)], none⟩,
  ⟨[], [([5, 1], .diagD), ([0, 1], .V), ([4, 10], .Vdag), ([10, 0], .c .uB), ([0, 0], .kdt)], none⟩,
  ⟨[], [([5, 1], .diagD), ([0, 1], .V), ([4, 10], .Vdag), ([10, 0], .c .uW), ([0, 0], .kdt)], none⟩,
  ⟨[], [([5, 1], .diagD), ([9, 1], .V), ([4, 0], .Vdag), ([0, 9], .c .phiq3), ([0, 0], .kdt)], none⟩,
  ⟨[], [([5, 1], .diagD), ([9, 1], .V), ([4, 0], .Vdag), ([0, 9], .dag .uB), ([0, 0], .kdt)], none⟩,
  ⟨[], [([5, 1], .diagD), ([9, 1], .V), ([4, 0], .Vdag), ([0, 9], .dag .uW), ([0, 0], .kdt)], none⟩,
  ⟨[], [([10, 0, 0, 5], .c .quqd1), ([4, 10], .Vdag), ([0, 0], .kdt)], none⟩,
  ⟨[], [([10, 0, 0, 5], .c .quqd8), ([4, 10], .Vdag), ([0, 0], .kdt)], none⟩,
  ⟨[], [([8, 5], .c .phiud), ([8], .mu), ([4, 8], .Vdag)], none⟩,
  ⟨[.phiG], [([4, 5], .diagD)], none⟩,
  ⟨[.phiGtilde], [([4, 5], .diagD)], none⟩,
  ⟨[], [([10, 5], .c .dG), ([4, 10], .Vdag)], none⟩,
  ⟨[], [([0, 5], .c .dG), ([4, 0], .Vdag), ([0, 0], .kdt)], none⟩,
  ⟨[], [([5, 1], .diagD), ([0, 1], .V), ([4, 0], .Vdag), ([0, 0], .c .uG), ([0, 0], .kdt)], none⟩,
  ⟨[], [([5, 1], .diagD), ([0, 1], .V), ([4, 10], .Vdag), ([10, 0], .c .uG), ([0, 0], .kdt)], none⟩,
  ⟨[], [([5, 1], .diagD), ([9, 1], .V), ([4, 0], .Vdag), ([0, 9], .dag .uG), ([0, 0], .kdt)], none⟩]

/-- the matching conditions of lines 57-153: pairs (number of an array, number of its factor) -/
def loopProg : List (WKey × List (ℕ × ℕ)) := [
  -- line 60
  (.Gtilde, [(0, 0), (1, 1), (2, 2)]),
  -- line 61
  (.G, [(3, 3), (4, 0), (1, 4), (2, 4)]),
  -- line 64
  (.SduuLL, [(5, 5), (6, 6), (7, 7), (8, 8), (9, 9), (10, 10), (11, 11), (12, 12), (13, 13), (14, 14),
    (15, 15), (16, 16)]),
  -- line 65
  (.SuddLL, [(5, 5), (6, 6), (7, 17), (8, 18), (9, 19), (10, 20), (17, 12), (18, 11), (19, 13), (20, 12),
    (21, 13), (22, 11), (23, 15), (24, 16), (25, 16), (26, 15), (27, 14), (28, 14)]),
  -- line 66
  (.SduuLR, [(29, 21), (30, 21), (31, 22), (32, 22)]),
  -- line 67
  (.SdudRL, [(33, 23), (34, 22)]),
  -- line 68
  (.SduuRL, [(33, 24)]),
  -- line 69
  (.SduuRR, [(35, 25), (36, 26)]),
  -- line 70
  (.V1udLL, [(37, 27), (38, 28), (39, 29), (40, 30), (41, 29), (42, 30), (43, 27), (44, 28), (45, 31), (46, 32),
    (47, 33), (48, 34), (49, 35), (50, 36), (51, 37), (52, 38), (53, 39), (54, 40), (55, 41), (56, 42),
    (57, 43), (58, 44), (59, 45), (60, 46), (61, 47), (62, 48), (63, 48), (64, 49), (65, 50), (66, 51),
    (67, 52), (68, 51), (69, 52), (70, 53), (71, 53), (72, 54), (73, 54), (74, 55), (75, 56), (76, 57),
    (77, 53), (78, 55), (79, 51), (80, 52), (81, 56), (82, 57), (83, 58), (84, 53), (85, 54), (86, 54),
    (87, 56), (88, 57), (89, 51), (90, 52), (91, 56), (92, 57), (93, 55), (94, 55), (95, 58), (96, 59),
    (97, 60), (98, 61), (99, 62), (100, 63), (101, 64), (102, 65), (103, 65), (104, 66), (105, 67), (106, 68),
    (107, 69), (108, 70), (109, 71), (110, 72), (111, 73), (112, 73), (113, 74), (114, 75), (115, 76), (116, 77),
    (117, 78), (118, 67), (119, 68), (120, 69), (121, 70), (122, 71), (123, 72), (124, 73), (125, 73), (126, 74),
    (127, 75), (128, 76), (129, 77), (130, 78), (131, 79), (132, 79), (133, 65), (134, 65), (135, 80), (136, 81),
    (137, 81), (138, 82), (139, 83), (140, 84), (141, 85), (142, 85), (143, 86), (144, 86), (145, 87), (146, 87),
    (147, 88), (148, 89), (149, 89), (150, 89), (151, 90), (152, 91), (153, 92), (154, 89), (155, 87), (156, 87),
    (157, 90), (158, 91), (159, 93), (160, 93), (161, 94), (162, 95), (163, 96), (164, 97), (165, 97), (166, 98),
    (167, 98), (168, 99), (169, 99)]),
  -- line 71
  (.V8udLL, [(39, 100), (40, 101), (41, 100), (42, 101), (45, 102), (49, 103), (51, 104), (53, 105), (54, 106), (55, 107),
    (56, 108), (57, 109), (58, 110), (59, 111), (60, 112), (61, 113), (62, 114), (63, 114), (64, 115), (65, 116),
    (70, 117), (71, 117), (72, 118), (73, 118), (74, 119), (75, 120), (76, 121), (77, 117), (78, 119), (81, 120),
    (82, 121), (83, 122), (84, 117), (85, 118), (86, 118), (87, 120), (88, 121), (91, 120), (92, 121), (93, 119),
    (94, 119), (95, 122), (96, 123), (170, 66), (105, 124), (106, 125), (107, 126), (108, 127), (109, 128), (110, 129),
    (111, 130), (112, 130), (113, 131), (114, 132), (116, 133), (117, 134), (118, 124), (119, 125), (120, 126), (121, 127),
    (122, 128), (123, 129), (124, 130), (125, 130), (126, 131), (127, 132), (129, 133), (130, 134), (171, 135), (172, 135),
    (135, 136), (136, 137), (137, 137), (173, 138), (174, 138), (175, 139), (148, 140), (149, 140), (150, 140), (176, 139),
    (154, 140), (177, 141), (178, 141), (168, 142), (169, 142)]),
  -- line 72
  (.VddLL, [(37, 143), (38, 144), (43, 143), (44, 144), (45, 145), (46, 146), (47, 147), (48, 148), (49, 149), (50, 150),
    (51, 151), (52, 152), (53, 153), (54, 154), (55, 155), (59, 156), (61, 157), (168, 158), (62, 159), (169, 158),
    (63, 159), (64, 153), (65, 154), (66, 160), (67, 160), (68, 160), (69, 160), (179, 160), (180, 160), (73, 161),
    (76, 162), (79, 160), (80, 160), (181, 160), (182, 160), (183, 160), (184, 160), (82, 162), (83, 161), (86, 161),
    (185, 160), (186, 160), (88, 162), (89, 160), (90, 160), (92, 162), (95, 161), (96, 163), (97, 164), (98, 165),
    (99, 166), (100, 167), (101, 168), (102, 169), (103, 170), (104, 171), (170, 172), (187, 173), (106, 174), (110, 175),
    (188, 176), (189, 177), (190, 178), (191, 179), (192, 65), (193, 173), (194, 179), (115, 176), (116, 177), (117, 178),
    (195, 163), (196, 164), (197, 165), (198, 166), (199, 167), (200, 168), (201, 174), (202, 175), (203, 65), (204, 169),
    (205, 170), (206, 171), (207, 172), (119, 174), (123, 175), (208, 176), (209, 177), (210, 178), (211, 65), (128, 176),
    (129, 177), (130, 178), (164, 180), (165, 180), (171, 181), (172, 181), (131, 182), (132, 182), (133, 169), (134, 170),
    (212, 65), (213, 183), (214, 183), (215, 174), (216, 175), (217, 169), (218, 170), (138, 184), (139, 185), (140, 186),
    (141, 187), (142, 187), (173, 188), (174, 188), (143, 189), (144, 189), (219, 190), (220, 190), (221, 191), (222, 192),
    (223, 191), (224, 192), (225, 191), (226, 192), (227, 193), (228, 191), (229, 192), (230, 190), (231, 190), (232, 184),
    (233, 185), (234, 186), (235, 187), (236, 187), (237, 188), (238, 188), (239, 189), (240, 189), (145, 194), (146, 195),
    (147, 196), (175, 197), (241, 198), (242, 198), (151, 194), (152, 195), (153, 196), (176, 197), (155, 194), (156, 195),
    (157, 194), (158, 195), (108, 199), (243, 200), (244, 201), (159, 200), (177, 201), (245, 199), (121, 199), (246, 200),
    (247, 201), (160, 200), (178, 201), (161, 202), (162, 203), (163, 204), (166, 205), (167, 205), (248, 199)]),
  -- line 73
  (.VedLL, [(249, 206), (250, 207), (45, 208), (46, 209), (47, 210), (48, 211), (49, 212), (50, 213), (51, 214), (52, 215),
    (251, 216), (252, 217), (64, 218), (65, 219), (253, 51), (254, 51), (255, 51), (256, 51), (83, 220), (95, 220),
    (96, 221), (97, 222), (98, 223), (99, 224), (257, 63), (258, 225), (259, 65), (260, 226), (261, 66), (115, 227),
    (116, 228), (117, 229), (128, 227), (129, 228), (130, 229), (131, 230), (132, 230), (138, 231), (139, 232), (140, 233),
    (141, 234), (142, 234), (143, 235), (144, 235), (262, 87), (263, 236), (264, 88), (151, 237), (152, 238), (153, 239),
    (157, 237), (158, 238), (159, 240), (160, 240), (161, 241), (162, 242), (163, 243), (164, 244), (165, 244), (166, 245),
    (167, 245)]),
  -- line 74
  (.VeeLL, [(265, 246), (266, 246), (267, 246), (268, 246), (45, 247), (46, 248), (47, 249), (48, 250), (49, 251), (50, 252),
    (51, 253), (52, 254), (251, 255), (252, 256), (55, 247), (56, 248), (57, 249), (58, 250), (59, 251), (60, 252),
    (61, 253), (269, 254), (270, 255), (271, 256), (272, 255), (273, 256), (274, 255), (275, 256), (164, 257), (165, 257),
    (131, 258), (132, 258), (166, 259), (167, 259), (276, 257), (277, 257), (136, 258), (137, 258), (278, 259), (279, 259),
    (262, 260), (263, 261), (264, 262), (280, 260), (281, 261), (282, 262), (283, 260), (284, 261), (285, 262), (286, 260),
    (287, 261), (288, 262), (161, 263), (162, 264), (163, 265), (289, 263), (135, 264), (290, 265)]),
  -- line 75
  (.VeuLL, [(249, 266), (250, 267), (45, 268), (46, 269), (47, 270), (48, 271), (49, 272), (50, 273), (51, 274), (52, 275),
    (251, 276), (252, 277), (64, 278), (65, 279), (291, 280), (83, 280), (292, 280), (95, 280), (131, 281), (132, 281),
    (262, 90), (263, 91), (264, 92), (151, 237), (152, 237), (153, 239), (157, 237), (158, 237), (161, 282), (162, 283),
    (163, 284), (164, 285), (165, 285), (166, 286), (167, 286)]),
  -- line 76
  (.VnudLL, [(249, 287), (250, 288), (45, 289), (46, 290), (47, 291), (48, 292), (49, 293), (50, 294), (51, 295), (52, 296),
    (251, 297), (252, 298), (64, 299), (65, 300), (253, 51), (254, 52), (255, 51), (256, 52), (83, 301), (95, 301),
    (96, 302), (97, 167), (257, 63), (258, 64), (259, 65), (260, 65), (261, 66), (115, 51), (116, 303), (117, 304),
    (128, 51), (129, 303), (130, 304), (131, 305), (132, 305), (138, 65), (139, 226), (140, 66), (262, 87), (263, 87),
    (264, 88), (151, 306), (152, 307), (153, 307), (157, 306), (158, 307), (161, 308), (162, 309), (163, 310), (164, 311),
    (165, 311), (166, 312), (167, 312)]),
  -- line 77
  (.VnueduLL, [(249, 313), (250, 314), (45, 315), (46, 316), (47, 317), (48, 318), (49, 319), (50, 320), (51, 321), (293, 322),
    (252, 323), (65, 323), (256, 324), (263, 325), (152, 325), (291, 326), (83, 327), (292, 326), (95, 327), (158, 325),
    (128, 328), (129, 329), (160, 330), (178, 331), (294, 332), (130, 333), (162, 334), (131, 335), (132, 335), (295, 80),
    (296, 336), (255, 337), (251, 338), (64, 339)]),
  -- line 78
  (.VnueLL, [(265, 340), (266, 313), (267, 313), (268, 340), (45, 341), (46, 342), (47, 343), (48, 344), (49, 345), (50, 346),
    (51, 347), (52, 348), (251, 349), (252, 350), (55, 351), (56, 316), (57, 317), (58, 318), (59, 352), (60, 320),
    (61, 353), (271, 354), (273, 354), (274, 355), (275, 356), (281, 325), (284, 325), (131, 357), (132, 357), (135, 334),
    (136, 335), (137, 335), (262, 237), (263, 237), (264, 239), (286, 306), (287, 307), (288, 307), (161, 358), (162, 359),
    (163, 360), (164, 361), (165, 361), (166, 362), (167, 362), (270, 339), (272, 339)]),
  -- line 79
  (.VnunuLL, [(265, 363), (266, 363), (267, 363), (268, 363), (45, 364), (46, 365), (47, 366), (48, 367), (49, 368), (50, 369),
    (51, 370), (251, 371), (252, 372), (55, 364), (56, 365), (57, 366), (58, 367), (59, 368), (60, 369), (61, 370),
    (270, 371), (271, 372), (272, 371), (273, 372), (274, 371), (275, 372), (131, 373), (132, 373), (136, 373), (137, 373),
    (262, 374), (263, 374), (264, 375), (280, 374), (281, 374), (282, 375), (283, 374), (284, 374), (285, 375), (286, 374),
    (287, 374), (288, 375), (161, 376), (162, 377), (163, 377), (289, 376), (135, 377), (290, 377)]),
  -- line 80
  (.VnuuLL, [(249, 378), (250, 379), (45, 380), (46, 381), (47, 382), (48, 383), (49, 384), (50, 385), (51, 386), (52, 387),
    (251, 388), (252, 389), (64, 390), (65, 391), (291, 392), (83, 392), (292, 392), (95, 392), (131, 393), (132, 393),
    (262, 90), (263, 90), (264, 92), (151, 306), (152, 306), (153, 307), (157, 306), (158, 306), (161, 394), (162, 395),
    (163, 396), (164, 397), (165, 397), (166, 398), (167, 398)]),
  -- line 81
  (.VuuLL, [(37, 399), (38, 400), (43, 399), (44, 400), (45, 401), (46, 402), (47, 403), (48, 404), (49, 405), (50, 406),
    (51, 407), (52, 408), (53, 409), (54, 410), (55, 411), (59, 412), (61, 413), (168, 414), (62, 415), (169, 414),
    (63, 415), (64, 409), (65, 410), (72, 416), (73, 416), (75, 417), (76, 417), (81, 417), (82, 417), (291, 416),
    (83, 416), (85, 416), (86, 416), (87, 417), (88, 417), (91, 417), (92, 417), (292, 416), (95, 416), (171, 181),
    (172, 181), (131, 418), (132, 418), (213, 183), (214, 183), (145, 419), (146, 419), (147, 420), (175, 197), (241, 198),
    (242, 198), (151, 419), (152, 419), (153, 420), (176, 197), (155, 419), (156, 419), (157, 419), (158, 419), (161, 421),
    (162, 422), (163, 423), (164, 424), (165, 424), (166, 425), (167, 425)]),
  -- line 82
  (.V1ddLR, [(297, 426), (45, 427), (46, 428), (47, 429), (48, 430), (49, 431), (50, 432), (51, 433), (52, 434), (53, 435),
    (54, 436), (298, 437), (299, 51), (73, 438), (86, 438), (300, 51), (188, 439), (189, 440), (190, 441), (195, 442),
    (196, 443), (197, 444), (198, 445), (301, 63), (208, 439), (209, 440), (210, 441), (131, 446), (132, 446), (302, 65),
    (303, 66), (232, 447), (233, 448), (234, 449), (235, 450), (236, 450), (239, 451), (240, 451), (145, 452), (146, 453),
    (147, 454), (155, 452), (156, 453), (304, 87), (305, 88), (243, 455), (246, 455), (161, 456), (162, 457), (163, 458),
    (164, 459), (165, 459), (166, 460), (167, 460)]),
  -- line 83
  (.V1duLR, [(306, 461), (45, 462), (46, 463), (47, 464), (48, 465), (49, 466), (50, 467), (51, 468), (52, 469), (53, 470),
    (54, 471), (307, 472), (308, 51), (73, 473), (309, 474), (86, 473), (310, 51), (311, 474), (188, 475), (189, 476),
    (190, 477), (195, 478), (196, 479), (197, 61), (198, 62), (312, 63), (313, 66), (314, 480), (208, 475), (209, 476),
    (210, 477), (131, 481), (132, 481), (315, 480), (316, 65), (317, 66), (232, 482), (233, 483), (234, 484), (235, 85),
    (236, 85), (239, 86), (240, 86), (145, 485), (146, 486), (147, 487), (318, 88), (155, 485), (156, 486), (319, 87),
    (320, 88), (243, 93), (246, 93), (161, 488), (162, 489), (163, 490), (164, 491), (165, 491), (166, 492), (167, 492)]),
  -- line 84
  (.V1udduLR, [(321, 493)]),
  -- line 85
  (.V1udLR, [(297, 494), (45, 495), (46, 496), (47, 497), (48, 498), (49, 499), (50, 500), (51, 501), (52, 502), (53, 503),
    (54, 504), (298, 505), (72, 506), (73, 506), (85, 506), (86, 506), (131, 507), (132, 507), (145, 452), (146, 452),
    (147, 454), (155, 452), (156, 452), (304, 90), (305, 92), (161, 508), (162, 509), (163, 510), (164, 511), (165, 511),
    (166, 512), (167, 512)]),
  -- line 86
  (.V1uuLR, [(306, 513), (45, 514), (46, 515), (47, 516), (48, 517), (49, 518), (50, 519), (51, 520), (52, 521), (53, 522),
    (54, 523), (307, 524), (72, 525), (73, 525), (309, 526), (85, 525), (86, 525), (311, 526), (131, 527), (132, 527),
    (145, 485), (146, 485), (147, 487), (318, 92), (155, 485), (156, 485), (319, 90), (320, 92), (161, 528), (162, 529),
    (163, 530), (164, 531), (165, 531), (166, 532), (167, 532)]),
  -- line 87
  (.V8ddLR, [(322, 426), (45, 533), (49, 534), (51, 535), (53, 536), (54, 537), (298, 538), (323, 51), (73, 122), (86, 122),
    (324, 51), (189, 133), (190, 134), (195, 123), (209, 133), (210, 134), (171, 135), (172, 135), (325, 65), (326, 66),
    (237, 138), (238, 138), (175, 139), (327, 139), (328, 139), (244, 141), (247, 141)]),
  -- line 88
  (.V8duLR, [(329, 461), (45, 539), (49, 540), (51, 541), (53, 542), (54, 543), (307, 544), (330, 51), (73, 122), (309, 118),
    (86, 122), (331, 51), (311, 118), (189, 133), (190, 134), (195, 123), (314, 545), (209, 133), (210, 134), (171, 135),
    (172, 135), (315, 545), (332, 65), (237, 138), (238, 138), (175, 139), (333, 139), (244, 141), (247, 141)]),
  -- line 89
  (.V8udduLR, [(321, 546)]),
  -- line 90
  (.V8udLR, [(322, 494), (45, 547), (49, 548), (51, 549), (53, 550), (54, 551), (298, 552), (72, 118), (73, 118), (85, 118),
    (86, 118), (171, 135), (172, 135), (175, 139), (327, 139), (328, 139)]),
  -- line 91
  (.V8uuLR, [(329, 513), (45, 553), (49, 554), (51, 555), (53, 556), (54, 557), (307, 558), (72, 118), (73, 118), (309, 118),
    (85, 118), (86, 118), (311, 118), (171, 135), (172, 135), (175, 139), (333, 139)]),
  -- line 92
  (.VdeLR, [(334, 559), (45, 560), (46, 561), (47, 562), (48, 563), (49, 564), (50, 565), (51, 566), (52, 567), (53, 568),
    (54, 569), (335, 570), (336, 51), (73, 571), (86, 571), (337, 51), (188, 572), (189, 573), (190, 574), (195, 575),
    (196, 576), (197, 223), (198, 224), (338, 63), (339, 66), (208, 572), (209, 573), (210, 574), (131, 577), (132, 577),
    (340, 65), (232, 578), (233, 579), (234, 580), (235, 234), (236, 234), (239, 235), (240, 235), (145, 581), (146, 582),
    (147, 583), (341, 88), (155, 581), (156, 582), (342, 87), (243, 240), (246, 240), (161, 584), (162, 585), (163, 586),
    (164, 587), (165, 587), (166, 588), (167, 588)]),
  -- line 93
  (.VedLR, [(343, 589), (45, 590), (46, 591), (47, 592), (48, 593), (49, 594), (50, 595), (51, 596), (52, 597), (251, 598),
    (252, 599), (298, 600), (131, 601), (132, 601), (262, 452), (263, 453), (264, 454), (304, 237), (305, 239), (161, 602),
    (162, 603), (163, 604), (164, 605), (165, 605), (166, 606), (167, 606)]),
  -- line 94
  (.VeeLR, [(344, 607), (45, 608), (46, 609), (47, 610), (48, 611), (49, 612), (50, 613), (51, 614), (52, 615), (251, 616),
    (252, 617), (335, 618), (131, 619), (132, 619), (262, 581), (263, 582), (264, 583), (341, 239), (342, 237), (161, 620),
    (162, 621), (163, 622), (164, 623), (165, 623), (166, 624), (167, 624)]),
  -- line 95
  (.VeuLR, [(345, 625), (45, 626), (46, 627), (47, 628), (48, 629), (49, 630), (50, 631), (51, 632), (52, 633), (251, 634),
    (252, 635), (307, 636), (309, 637), (311, 637), (131, 638), (132, 638), (262, 485), (263, 486), (264, 487), (318, 239),
    (319, 237), (320, 239), (161, 639), (162, 640), (163, 641), (164, 642), (165, 642), (166, 643), (167, 643)]),
  -- line 96
  (.VnudLR, [(343, 644), (45, 645), (46, 646), (47, 647), (48, 648), (49, 649), (50, 650), (51, 651), (52, 296), (251, 652),
    (252, 653), (298, 654), (131, 655), (132, 655), (262, 452), (263, 452), (264, 454), (304, 306), (305, 307), (161, 656),
    (162, 657), (163, 658), (164, 311), (165, 311), (166, 312), (167, 312)]),
  -- line 97
  (.VnueduLR, [(321, 659)]),
  -- line 98
  (.VnueLR, [(344, 660), (45, 661), (46, 662), (47, 663), (48, 664), (49, 665), (50, 666), (51, 667), (52, 348), (251, 668),
    (252, 669), (335, 670), (131, 671), (132, 671), (262, 581), (263, 581), (264, 583), (341, 307), (342, 306), (161, 672),
    (162, 673), (163, 674), (164, 361), (165, 361), (166, 362), (167, 362)]),
  -- line 99
  (.VnuuLR, [(345, 675), (45, 676), (46, 677), (47, 678), (48, 679), (49, 680), (50, 681), (51, 682), (52, 387), (251, 683),
    (252, 684), (307, 685), (309, 686), (311, 686), (131, 687), (132, 687), (262, 485), (263, 485), (264, 487), (318, 307),
    (319, 306), (320, 307), (161, 688), (162, 689), (163, 690), (164, 397), (165, 397), (166, 398), (167, 398)]),
  -- line 100
  (.VueLR, [(334, 691), (45, 692), (46, 693), (47, 694), (48, 695), (49, 696), (50, 697), (51, 698), (52, 699), (53, 700),
    (54, 701), (335, 702), (72, 703), (73, 703), (85, 703), (86, 703), (131, 704), (132, 704), (145, 581), (146, 581),
    (147, 583), (341, 92), (155, 581), (156, 581), (342, 90), (161, 705), (162, 706), (163, 707), (164, 708), (165, 708),
    (166, 709), (167, 709)]),
  -- line 101
  (.S1udduRR, [(346, 710), (347, 711), (348, 712), (349, 713), (350, 714), (351, 715)]),
  -- line 102
  (.S1udRR, [(352, 716), (353, 717), (354, 718), (355, 13), (356, 719), (357, 720)]),
  -- line 103
  (.S8udduRR, [(346, 721), (347, 722), (358, 712), (359, 713), (350, 15), (351, 719)]),
  -- line 104
  (.S8udRR, [(360, 716), (353, 723), (354, 724), (361, 13), (356, 725), (357, 714)]),
  -- line 105
  (.SeuRR, [(362, 726), (363, 727)]),
  -- line 106
  (.SnueduRR, [(362, 728), (363, 729), (364, 51), (365, 730)]),
  -- line 107
  (.TeuRR, [(362, 731), (363, 732)]),
  -- line 108
  (.TnueduRR, [(362, 733), (363, 734), (365, 735), (364, 736)]),
  -- line 109
  (.SedRL, [(366, 737), (367, 51)]),
  -- line 110
  (.SnueduRL, [(366, 738)]),
  -- line 111
  (.V1udRR, [(368, 739), (45, 740), (46, 741), (47, 742), (48, 743), (49, 744), (50, 745), (51, 746), (52, 747), (369, 748),
    (298, 749), (370, 750), (371, 750), (372, 454), (373, 452), (374, 454), (304, 485), (305, 487), (161, 751), (162, 752),
    (163, 753), (164, 754), (165, 754), (131, 755), (132, 755), (166, 756), (167, 756)]),
  -- line 112
  (.V8udRR, [(375, 739), (45, 757), (49, 758), (51, 759), (369, 760), (298, 761), (370, 118), (371, 118), (171, 135), (172, 135),
    (376, 139), (327, 139), (328, 139)]),
  -- line 113
  (.VddRR, [(377, 762), (378, 762), (45, 763), (46, 764), (47, 765), (48, 766), (49, 767), (50, 768), (51, 769), (52, 770),
    (379, 771), (55, 772), (59, 773), (61, 774), (380, 775), (381, 775), (298, 771), (164, 776), (165, 776), (171, 181),
    (172, 181), (131, 777), (132, 777), (213, 183), (214, 183), (382, 778), (383, 197), (384, 779), (385, 197), (386, 198),
    (387, 198), (388, 198), (389, 198), (304, 778), (327, 197), (305, 779), (328, 197), (161, 780), (162, 781), (163, 782),
    (166, 783), (167, 783)]),
  -- line 114
  (.VedRR, [(390, 784), (45, 785), (46, 786), (47, 787), (48, 788), (49, 789), (50, 790), (51, 791), (52, 792), (391, 793),
    (298, 794), (131, 795), (132, 795), (392, 454), (393, 452), (304, 581), (305, 583), (161, 796), (162, 797), (163, 798),
    (164, 799), (165, 799), (166, 800), (167, 800)]),
  -- line 115
  (.VeeRR, [(394, 801), (395, 801), (396, 801), (397, 801), (45, 802), (46, 803), (47, 804), (48, 805), (49, 806), (50, 807),
    (51, 808), (52, 809), (391, 810), (55, 802), (56, 803), (57, 804), (58, 805), (59, 806), (60, 807), (61, 808),
    (269, 809), (398, 810), (399, 810), (335, 810), (164, 811), (165, 811), (131, 812), (132, 812), (166, 813), (167, 813),
    (276, 811), (277, 811), (136, 812), (137, 812), (278, 813), (279, 813), (392, 814), (400, 814), (401, 814), (341, 814),
    (393, 815), (402, 815), (403, 815), (342, 815), (161, 816), (162, 817), (163, 818), (289, 816), (135, 817), (290, 818)]),
  -- line 116
  (.VeuRR, [(404, 819), (45, 820), (46, 821), (47, 822), (48, 823), (49, 824), (50, 825), (51, 826), (52, 827), (391, 828),
    (307, 829), (309, 830), (311, 830), (392, 487), (318, 583), (393, 485), (319, 581), (320, 583), (161, 831), (162, 832),
    (163, 833), (164, 834), (165, 834), (131, 835), (132, 835), (166, 836), (167, 836)]),
  -- line 117
  (.VuuRR, [(405, 837), (406, 837), (45, 838), (46, 839), (47, 840), (48, 841), (49, 842), (50, 843), (51, 844), (52, 845),
    (369, 846), (55, 847), (59, 848), (61, 849), (407, 850), (408, 850), (307, 846), (370, 851), (409, 417), (410, 417),
    (309, 851), (371, 851), (411, 417), (412, 417), (311, 851), (171, 181), (172, 181), (213, 183), (214, 183), (372, 852),
    (318, 852), (373, 453), (376, 197), (374, 852), (413, 198), (414, 198), (319, 453), (333, 197), (320, 852), (161, 752),
    (162, 751), (163, 853), (164, 854), (165, 854), (131, 855), (132, 855), (166, 856), (167, 856)]),
  -- line 120
  (.SuudLR, []),
  -- line 121
  (.SdduRL, []),
  -- line 122
  (.SuudRL, []),
  -- line 123
  (.S1ddRR, []),
  -- line 124
  (.S1uuRR, []),
  -- line 125
  (.S8ddRR, []),
  -- line 126
  (.S8uuRR, []),
  -- line 127
  (.SedRR, []),
  -- line 128
  (.SeeRR, []),
  -- line 129
  (.TedRR, []),
  -- line 130
  (.SeuRL, []),
  -- line 134
  (.egamma, [(415, 857), (416, 858), (417, 859), (418, 860), (419, 861), (420, 862), (421, 863), (422, 864), (423, 865), (424, 866),
    (425, 867), (426, 868), (427, 869), (428, 870), (429, 871), (430, 872)]),
  -- line 137
  (.uG, [(431, 873), (432, 874), (433, 875), (434, 876), (435, 877), (436, 878), (437, 879), (438, 880), (439, 881), (440, 882),
    (441, 883), (442, 884), (443, 885)]),
  -- line 141
  (.ugamma, [(431, 886), (433, 887), (434, 888), (444, 889), (445, 890), (435, 891), (446, 892), (438, 893), (447, 894), (448, 895),
    (449, 896), (450, 897), (439, 898), (440, 899), (441, 900), (451, 901), (442, 902), (443, 903)]),
  -- line 148
  (.dgamma, [(452, 904), (453, 905), (454, 906), (455, 907), (456, 908), (457, 909), (458, 910), (459, 911), (460, 867), (461, 868),
    (462, 912), (463, 913), (464, 914), (465, 915), (466, 916), (467, 917), (468, 918), (469, 919), (470, 920), (471, 921),
    (472, 922), (473, 923), (474, 924), (475, 925), (476, 926), (477, 927), (478, 928), (479, 929), (480, 930), (481, 928),
    (482, 931), (483, 932), (484, 933), (485, 934), (486, 935)]),
  -- line 149
  (.dG, [(452, 936), (455, 937), (487, 878), (488, 879), (457, 938), (462, 939), (463, 940), (489, 941), (464, 942), (490, 943),
    (466, 944), (467, 945), (468, 946), (474, 947), (475, 948), (491, 949), (478, 950), (492, 951), (480, 952), (481, 950),
    (493, 953), (483, 954), (484, 955), (485, 956)])]

/-- lines 152-153: the arrays multiplied by the CKM matrix from the left -/
def rotated : List WKey := [.dgamma, .dG]

/-- the coefficients read in lines 46-153 -/
def loopKeys : List Key := [.G, .Gtilde, .W, .Wtilde, .dB, .dG, .dW, .dd, .duql, .duue, .eB, .eW, .ed, .ee, .eu, .ld, .le, .ledq, .lequ1, .lequ3, .ll, .lq1, .lq3, .lu, .phi, .phiB, .phiBox, .phiBtilde, .phiD, .phiG, .phiGtilde, .phiW, .phiWB, .phiWtilde, .phiWtildeB, .phid, .phie, .phil1, .phil3, .phiq1, .phiq3, .phiu, .phiud, .qd1, .qd8, .qe, .qq1, .qq3, .qqql, .qque, .qu1, .qu8, .quqd1, .quqd8, .uB, .uG, .uW, .ud1, .ud8, .uphi, .uu]

end Verif.Loop
