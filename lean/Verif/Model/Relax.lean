import Verif.Model.Time
import Mathlib.Analysis.Complex.Trigonometric

/-!
# The relaxation factor of the implicit schemes
-/

namespace MD.Time

/-- `ImplicitSchemeBase::Relax`, source/Time.cpp:503-511, given `c0()` and `c1()`. It is called inside the
loop over `_iters` iterations only, so never divides by zero. -/
noncomputable def relaxOf (c0 c1 : ℝ) (iters iter : ℕ) : ℝ :=
  let x := 4 * (((iter : ℝ) + 1) / iters - 1 / 2)
  let y0 := 1 / (iters : ℝ)
  let y1 := 1 / 2 * (Real.tanh x + 1)
  c0 * (1 - y0) + c1 * (1 - y1)

/-- Constants of `ImplicitSchemeBase`, source/Time.cpp:498-499 (`beuler`, `midpoint`, `anderson`) -/
noncomputable def relaxEuler : ℕ → ℕ → ℝ := relaxOf (9 / 10) 0

/-- Constants of `ImplicitNewmarkScheme`, source/Time.cpp:722-723 (`aca`) -/
noncomputable def relaxNewmark : ℕ → ℕ → ℝ := relaxOf (9 / 10) (15 / 100)

/-- Constants of `ImplicitWilsonScheme`, source/Time.cpp:770-771 (`wilson`) -/
noncomputable def relaxWilson : ℕ → ℕ → ℝ := relaxOf (15 / 1000) 0

end MD.Time
