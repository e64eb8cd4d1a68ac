import Mathlib.Data.Complex.Basic
import Mathlib.Logic.Function.Basic

/-!
# Straight-line programs on complex arrays

`EFTutil.symmetrize_2 … symmetrize_9`, `scale_8`, `unscale_8`
(`/repo/wilson/util/common.py:323-888`) all have the form

    a = np.array(b, copy=True, dtype=complex)
    a[..] = ...        # many assignments
    return a

The assignments are translated one by one (`Gen/Symmetrize.lean`); this file gives
them a meaning.  Array entries are exact complex numbers.  The 0-based numpy
index `[i, j, k, l]` of a 3x3x3x3 array is the tuple `(i,j,k,l)`.
-/

set_option autoImplicit false

namespace Verif

/-- index of a `3×3` array -/
abbrev I2 := Fin 3 × Fin 3
/-- index of a `3×3×3×3` array -/
abbrev I4 := Fin 3 × Fin 3 × Fin 3 × Fin 3

/-- One assignment statement (`util/common.py:323-888`).
* `cplx d t`  : `a[d] = Σ c * a[s]` (or `c * a[s].conj()` if the flag is set), all read from `a`;
* `cplxB d t` : the same, read from the untouched input `b` (`scale_8`, `unscale_8`);
* `real d t`  : `a.real[d] = Σ c * a.real[s]`;
* `imag d t`  : `a.imag[d] = Σ c * a.imag[s]` (`[]` for `a.imag[d] = 0`). -/
inductive Instr (ι : Type) where
  | cplx  (dst : ι) (rhs : List (ℚ × Bool × ι))
  | cplxB (dst : ι) (rhs : List (ℚ × Bool × ι))
  | real  (dst : ι) (rhs : List (ℚ × ι))
  | imag  (dst : ι) (rhs : List (ℚ × ι))

namespace Instr
variable {ι : Type} [DecidableEq ι]

/-- `Σ c * x[s]` / `Σ c * x[s].conj()` -/
noncomputable def combC (x : ι → ℂ) (rhs : List (ℚ × Bool × ι)) : ℂ :=
  (rhs.map fun t => (t.1 : ℂ) * (if t.2.1 then (starRingEnd ℂ) (x t.2.2) else x t.2.2)).sum

/-- `Σ c * f(x[s])` for `f` the real or imaginary part -/
noncomputable def combR (x : ι → ℂ) (f : ℂ → ℝ) (rhs : List (ℚ × ι)) : ℝ :=
  (rhs.map fun t => (t.1 : ℝ) * f (x t.2)).sum

/-- One assignment, with `b` the input array and `a` the current working array. -/
noncomputable def step (b a : ι → ℂ) : Instr ι → ι → ℂ
  | cplx d rhs  => Function.update a d (combC a rhs)
  | cplxB d rhs => Function.update a d (combC b rhs)
  | real d rhs  => Function.update a d ⟨combR a Complex.re rhs, (a d).im⟩
  | imag d rhs  => Function.update a d ⟨(a d).re, combR a Complex.im rhs⟩

end Instr

/-- The whole function body: start with a copy of `b`, perform the assignments in
order, return `a` (`util/common.py:323-888`). -/
noncomputable def runProg {ι : Type} [DecidableEq ι] (p : List (Instr ι)) (b : ι → ℂ) : ι → ℂ :=
  p.foldl (fun a s => s.step b a) b

end Verif
