import Verif.Model.WCxf
import Mathlib.Data.Real.Basic

/-!
# Model of `wilson/util/qcd.py`

The external package `rundec` is a parameter: the five methods used, as functions of all
arguments they receive.  The mutable threshold record `crd.nfMmu` is passed as the triple of
the values it holds at the time of the call.  `lru_cache` memoises a pure function and is not
modelled.  The flavour number `f` is a natural number.
-/

open Classical

set_option autoImplicit false

namespace Verif.Qcd

/-- The threshold record `crd.nfMmu`: `Mth`, `muth`, `nf`. -/
structure Thr where
  mth : ℝ
  muth : ℝ
  nf : ℕ

/-- The methods of `rundec.CRunDec` used in qcd.py. -/
structure RunDec where
  /-- `AlphasExact(as, mu1, mu2, nf, loop)` -/
  alphasExact : ℝ → ℝ → ℝ → ℕ → ℕ → ℝ
  /-- `AlL2AlH(as, mu1, nfMmu, mu2, loop)` -/
  alL2AlH : ℝ → ℝ → Thr → ℝ → ℕ → ℝ
  /-- `AlH2AlL(as, mu1, nfMmu, mu2, loop)` -/
  alH2AlL : ℝ → ℝ → Thr → ℝ → ℕ → ℝ
  /-- `mMS2mMS(m, as1, as2, nf, loop)` -/
  mMS2mMS : ℝ → ℝ → ℝ → ℕ → ℕ → ℝ
  /-- `mH2mL(m, as, mu1, nfMmu, mu2, loop)` -/
  mH2mL : ℝ → ℝ → ℝ → Thr → ℝ → ℕ → ℝ
  /-- `mL2mH(m, as, mu1, nfMmu, mu2, loop)` -/
  mL2mH : ℝ → ℝ → ℝ → Thr → ℝ → ℕ → ℝ

/-- qcd.py:17 -/
noncomputable def MZ : ℝ := 911876 / 10000

/-- qcd.py:8-14 `_sane`. -/
noncomputable def sane (scale : ℝ) (f : ℕ) : Except Exc Unit :=
  if scale ≤ 0 then .error .valueError
  else if ¬(3 ≤ f ∧ f ≤ 6) then .error .valueError
  else .ok ()

variable (R : RunDec)

/-- qcd.py:20-55 `alpha_s`. -/
noncomputable def alphaS (scale : ℝ) (f : ℕ) (alphasMZ : ℝ) (loop : ℕ) : Except Exc ℝ :=
  if scale = MZ ∧ f = 5 then .ok alphasMZ
  else do
    sane scale f
    let r ←
      if f = 5 then pure (R.alphasExact alphasMZ MZ scale f loop)
      else if f = 6 then pure (R.alL2AlH alphasMZ MZ ⟨170, 170, 6⟩ scale loop)
      else if f = 4 then pure (R.alH2AlL alphasMZ MZ ⟨4.8, 4.8, 5⟩ scale loop)
      else if f = 3 then
        let mc : ℝ := 1.3
        let asmc := R.alH2AlL alphasMZ MZ ⟨4.8, 4.8, 5⟩ mc loop
        pure (R.alH2AlL asmc mc ⟨mc, mc, 4⟩ scale loop)
      else .error .valueError
    if r = 0 then .error .valueError else .ok r

/-- qcd.py:58-94 `m_b`. -/
noncomputable def mB (mbmb scale : ℝ) (f : ℕ) (alphasMZ : ℝ) (loop : ℕ) : Except Exc ℝ :=
  if scale = mbmb ∧ f = 5 then .ok mbmb
  else do
    sane scale f
    let alphas_mb ← alphaS R mbmb 5 alphasMZ loop
    if f = 5 then
      let alphas_scale ← alphaS R scale f alphasMZ loop
      pure (R.mMS2mMS mbmb alphas_mb alphas_scale f loop)
    else if f = 4 then pure (R.mH2mL mbmb alphas_mb mbmb ⟨4.8, 4.8, 5⟩ scale loop)
    else if f = 3 then
      let mc : ℝ := 1.3
      let mbmc := R.mH2mL mbmb alphas_mb mbmb ⟨4.8, 4.8, 5⟩ mc loop
      let alphas_mc ← alphaS R mc 4 alphasMZ loop
      pure (R.mH2mL mbmc alphas_mc mc ⟨mc, mc, 4⟩ scale loop)
    else if f = 6 then pure (R.mL2mH mbmb alphas_mb mbmb ⟨170, 170, 6⟩ scale loop)
    else .error .valueError

/-- qcd.py:97-121 `m_c`. -/
noncomputable def mC (mcmc scale : ℝ) (f : ℕ) (alphasMZ : ℝ) (loop : ℕ) : Except Exc ℝ :=
  if scale = mcmc then .ok mcmc
  else do
    sane scale f
    let alphas_mc ← alphaS R mcmc 4 alphasMZ loop
    if f = 4 then
      let alphas_scale ← alphaS R scale f alphasMZ loop
      pure (R.mMS2mMS mcmc alphas_mc alphas_scale f loop)
    else if f = 3 then pure (R.mH2mL mcmc alphas_mc mcmc ⟨1.3, 1.3, 4⟩ scale loop)
    else if f = 5 then pure (R.mL2mH mcmc alphas_mc mcmc ⟨4.8, 4.8, 5⟩ scale loop)
    else .error .valueError

/-- qcd.py:124-154 `m_s` (also used for the up and down masses). -/
noncomputable def mS (ms2 scale : ℝ) (f : ℕ) (alphasMZ : ℝ) (loop : ℕ) : Except Exc ℝ :=
  if scale = 2 ∧ f = 3 then .ok ms2
  else do
    sane scale f
    let alphas_2 ← alphaS R 2 3 alphasMZ loop
    if f = 3 then
      let alphas_scale ← alphaS R scale f alphasMZ loop
      pure (R.mMS2mMS ms2 alphas_2 alphas_scale f loop)
    else if f = 4 then pure (R.mL2mH ms2 alphas_2 2 ⟨1.3, 1.3, 4⟩ scale loop)
    else if f = 5 then
      let mc : ℝ := 1.3
      let msmc := R.mL2mH ms2 alphas_2 2 ⟨mc, mc, 4⟩ mc loop
      let alphas_mc ← alphaS R mc 4 alphasMZ loop
      pure (R.mL2mH msmc alphas_mc mc ⟨4.8, 4.8, 5⟩ scale loop)
    else .error .valueError

end Verif.Qcd
