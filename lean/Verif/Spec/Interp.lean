import Mathlib.Algebra.Order.Field.Basic
import Mathlib.Algebra.Module.Defs
import Mathlib.Data.List.Basic

/-!
# Specification of one-dimensional interpolation

The piecewise linear interpolant of a table, extended by constants, described by its
defining equations only.
-/

namespace MD.Interp

variable {K V : Type} [Field K] [LinearOrder K] [AddCommGroup V] [Module K V]

/-- `y` is the value at `x` of the piecewise linear interpolant of the table: constant
beyond both ends, and on each interval on the chord. -/
structure IsInterp (xp : List K) (yp : List V) (x : K) (y : V) : Prop where
  below : ∀ a b, xp.head? = some a → yp.head? = some b → x ≤ a → y = b
  above : ∀ a b, xp.getLast? = some a → yp.getLast? = some b → a ≤ x → y = b
  chord : ∀ (i : ℕ) (a b : K) (c d : V), xp[i]? = some a → xp[i + 1]? = some b → yp[i]? = some c →
    yp[i + 1]? = some d → a ≤ x → x ≤ b → (b - a) • y = (b - x) • c + (x - a) • d

/-- `x` limited to `[a, b]` -/
def clamp (a b x : K) : K := max a (min x b)

end MD.Interp
