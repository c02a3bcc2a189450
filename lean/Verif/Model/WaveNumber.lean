import Mathlib.Analysis.Real.Sqrt
import Mathlib.Analysis.SpecialFunctions.Log.Basic

/-!
# Model of `WaveNumber` (source/Waves.cpp)

Real arithmetic; the C++ functions `sqrt`, `exp` and `log` are the mathematical ones.
-/

namespace MD.Waves

open Real

/-- The first guess, source/Waves.cpp:953-959. -/
noncomputable def guess (C : ℝ) : ℝ :=
  if C ≤ 2 then sqrt C * (1 + C * (0.169 + 0.031 * C))
  else
    let E2 := exp (-2 * C)
    C * (1 + E2 * (2 - 12 * E2))

/-- The correction, source/Waves.cpp:963-971, times the depth. -/
noncomputable def refine (C X0 : ℝ) : ℝ :=
  if C ≤ 4.8 then
    let C2 := C * C - X0 * X0
    let A := 1 / (C - C2)
    let B := A * (0.5 * log ((X0 + C) / (X0 - C)) - X0)
    X0 - B * C2 * (1 + A * B * C * X0)
  else X0

/-- `WaveNumber(Omega, g, h)`, source/Waves.cpp:919-976. -/
noncomputable def waveNumber (omega g h : ℝ) : ℝ :=
  if omega = 0 then 0
  else
    let C := omega * omega * h / g
    let k := refine C (guess C) / h
    if omega < 0 then -k else k

end MD.Waves
