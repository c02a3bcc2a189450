import Verif.Model.Waves
import Mathlib.Analysis.SpecialFunctions.Trigonometric.Basic
import Mathlib.Algebra.Order.Archimedean.Real.Basic

/-!
# Model of `source/Waves/SpectrumKin.cpp`

Real arithmetic; `sin`, `cos`, `sinh`, `cosh` and `exp` are the mathematical functions.
-/

namespace MD.Waves

open Real

/-- One entry of the arrays of `SpectrumKin`, source/Waves/SpectrumKin.cpp:24-36. -/
structure WaveComp where
  amp : ℝ
  omega : ℝ
  beta : ℝ
  phase : ℝ
  k : ℝ

/-- The argument of the sine and cosine, source/Waves/SpectrumKin.cpp:53-59. -/
noncomputable def WaveComp.arg (c : WaveComp) (x y t : ℝ) : ℝ :=
  c.omega * t - c.k * (cos c.beta * x + sin c.beta * y) + c.phase

/-- `SINHNumOvrSIHNDen`, source/Waves/SpectrumKin.cpp:85-115, for the depth `h` (which is
`-avgDepth` in the code) and the stretched coordinate `s`. -/
noncomputable def sinhRatio (k h s : ℝ) : ℝ :=
  if k = 0 then 1
  else if 89.4 < k * h then exp (k * s)
  else if 89.4 < -k * h then -exp (-k * s)
  else sinh (k * (s + h)) / sinh (k * h)

/-- `COSHNumOvrSIHNDen`, same lines. -/
noncomputable def coshRatio (k h s : ℝ) : ℝ :=
  if k = 0 then 99999
  else if 89.4 < k * h then exp (k * s)
  else if 89.4 < -k * h then -exp (-k * s)
  else cosh (k * (s + h)) / sinh (k * h)

/-- A vector of the three components. -/
structure R3 where
  x : ℝ
  y : ℝ
  z : ℝ

/-- Elevation, source/Waves/SpectrumKin.cpp:56-61. -/
noncomputable def elevation (cs : List WaveComp) (x y t : ℝ) : ℝ :=
  (cs.map fun c => c.amp * sin (c.arg x y t)).sum

/-- Velocity at the stretched coordinate `s`, source/Waves/SpectrumKin.cpp:80-124. -/
noncomputable def spectrumVel (cs : List WaveComp) (h x y s t : ℝ) : R3 :=
  let u := fun c : WaveComp => c.omega * (c.amp * sin (c.arg x y t)) * coshRatio c.k h s
  ⟨(cs.map fun c => u c * cos c.beta).sum, (cs.map fun c => u c * sin c.beta).sum,
    (cs.map fun c => c.omega * (c.amp * cos (c.arg x y t)) * sinhRatio c.k h s).sum⟩

/-- Acceleration at the stretched coordinate `s`, source/Waves/SpectrumKin.cpp:125-130. -/
noncomputable def spectrumAcc (cs : List WaveComp) (h x y s t : ℝ) : R3 :=
  let a := fun c : WaveComp => c.omega * c.omega * (c.amp * cos (c.arg x y t)) * coshRatio c.k h s
  ⟨(cs.map fun c => a c * cos c.beta).sum, (cs.map fun c => a c * sin c.beta).sum,
    (cs.map fun c => -c.omega * c.omega * (c.amp * sin (c.arg x y t)) * sinhRatio c.k h s).sum⟩

/-- `SpectrumKin::getWaveKin`, source/Waves/SpectrumKin.cpp:39-138: elevation, velocity and
acceleration.  `avgDepth` is a level, negative; the stretching is `Waves.stretch`. -/
noncomputable def spectrumKin (cs : List WaveComp) (avgDepth bottom x y z t : ℝ) :
    Option (ℝ × R3 × R3) := do
  let zeta := elevation cs x y t
  let s ← stretch avgDepth bottom zeta z
  return (zeta, spectrumVel cs (-avgDepth) x y s t, spectrumAcc cs (-avgDepth) x y s t)

end MD.Waves
