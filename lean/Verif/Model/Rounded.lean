import Verif.Model.Time
import Mathlib.Data.Nat.Size
import Mathlib.Data.Int.Order.Basic

/-!
# The time loop with rounded numbers

`real` is `double` (or `float`), source/Misc.hpp.  A finite number of either
format is a multiple of the smallest positive one (2^-1074 or 2^-149).  Here a
number is written as that multiple, an integer, so that all numbers of the
format are integers, and sums and differences of two of them are integers which
are then rounded: to the nearest number with `p` binary digits, and to an even
last digit when two are equally near (IEEE 754, the default of all machines
MoorDyn is built for).  `p` is 53 for `double` and 24 for `float`.

Not modelled: infinities and NaN, numbers beyond the largest one, and compilers
told to rearrange sums.
-/

namespace MD.Rounded
open MD.Time

/-- A positive integer rounded to `p` binary digits, ties to even: IEEE 754-2019,
4.3.1, as done by every `-` and `+` in source/MoorDyn2.cpp:707 and
source/Time.cpp:220. -/
def rndNat (p k : ℕ) : ℕ :=
  let s := Nat.size k - p
  let q := k / 2 ^ s
  let r := k % 2 ^ s
  if 2 * r < 2 ^ s then q * 2 ^ s
  else if 2 ^ s < 2 * r then (q + 1) * 2 ^ s
  else (q + q % 2) * 2 ^ s

/-- Any integer rounded to `p` binary digits; source as `rndNat`. -/
def rnd (p : ℕ) (k : ℤ) : ℤ :=
  if 0 ≤ k then (rndNat p k.toNat : ℤ) else -(rndNat p (-k).toNat : ℤ)

variable {σ ε : Type}

/-- The loop `while ((dt_step = t_target) > 0.0)` of `MoorDyn::Step`,
source/MoorDyn2.cpp:696-714 (and of the initialization, 228-239 and 358-372), as
`MD.Time.subLoop` but with `t_target -= dt_step` rounded.  The list of steps is
latest first. -/
def loop (p : ℕ) (dtM0 : ℤ) (step : ℤ → σ → Except ε σ) :
    ℕ → ℤ → σ → List ℤ → Option (Except ε σ × List ℤ)
  | fuel, target, s, hs =>
    if target > 0 then
      match fuel with
      | 0 => none
      | f + 1 =>
        let h := if dtM0 < target then dtM0 else target
        match step h s with
        | .error e => some (.error e, hs)
        | .ok s' => loop p dtM0 step f (rnd p (target - h)) s' (h :: hs)
    else some (.ok s, hs)

/-- The time stepping of `MoorDyn::Step`, source/MoorDyn2.cpp:620-626 and 692-714,
with rounded numbers. -/
def call (p : ℕ) (dtM0 : ℤ) (nxt : σ → σ) (step : ℤ → σ → Except ε σ) (fuel : ℕ) (dt : ℤ)
    (s : σ) : Option (Except ε σ × List ℤ) :=
  if dt ≤ 0 then some (.ok s, []) else loop p dtM0 step fuel dt (nxt s) []

/-- `t += dt`, source/Time.cpp:220 (also 237, 343, 366, 487, 733). -/
def tick (p : ℕ) (t h : ℤ) : ℤ := rnd p (t + h)

end MD.Rounded
