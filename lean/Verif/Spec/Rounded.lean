import Mathlib.Algebra.Order.Group.Int
import Mathlib.Algebra.Order.Ring.Int
import Mathlib.Algebra.Order.Group.Abs

/-!
# Numbers with `p` binary digits

What a floating point number is, in units of the smallest positive one, and what
it is to do one step after another.
-/

namespace MD.Rounded

/-- `k` can be written with `p` binary digits and an exponent. -/
def Fits (p : ℕ) (k : ℤ) : Prop := ∃ (m : ℤ) (s : ℕ), |m| < 2 ^ p ∧ k = m * 2 ^ s

/-- The steps of a list, first to last, up to the first which fails. -/
def runs {σ ε : Type} (step : ℤ → σ → Except ε σ) : List ℤ → σ → Except ε σ
  | [], s => .ok s
  | h :: hs, s =>
    match step h s with
    | .error e => .error e
    | .ok s' => runs step hs s'

end MD.Rounded
