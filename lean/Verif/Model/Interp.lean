import Mathlib.Algebra.Order.Field.Basic
import Mathlib.Algebra.Module.Defs
import Mathlib.Data.List.Basic

/-!
# Model of `source/Util/Interp.hpp`

Reals are elements of an ordered field `K`; `none` is an access outside of a vector.
-/

namespace MD.Interp

variable {K : Type} [Field K] [LinearOrder K]

/-- The `for` loop of `interp_factor`, source/Util/Interp.hpp:39-44, from index `i` on,
with `fuel` iterations left (the caller passes `xp.size() - i`); then lines 46-49. -/
def factorLoop (xp : List K) (x : K) : ℕ → ℕ → Option (ℕ × K)
  | _, 0 => some (xp.length - 1, 1)
  | i, fuel + 1 => do
    let b ← xp[i]?
    if x ≤ b then
      let a ← xp[i - 1]?
      return (i, (x - a) / (b - a))
    else factorLoop xp x (i + 1) fuel

/-- `interp_factor(xp, i0, x, f)`, source/Util/Interp.hpp:17-51: upper bound index and
factor.  With an empty vector `xp.size() - 1` wraps and `xp[i0 - 1]` is out of range. -/
def interpFactor (xp : List K) (i0 : ℕ) (x : K) : Option (ℕ × K) :=
  if xp.length = 1 then some (0, 0)
  else if xp.length = 0 then none
  else
    let i0 := if i0 = 0 then 1 else i0
    let i0 := if i0 > xp.length - 1 then xp.length - 1 else i0
    do
      let a ← xp[i0 - 1]?
      if x ≤ a then return (i0, 0)
      let b ← xp.getLast?
      if b ≤ x then return (xp.length - 1, 1)
      factorLoop xp x i0 (xp.length - i0)

/-- The value `yp[j - 1] + f * (yp[j] - yp[j - 1])`, source/Util/Interp.hpp:111, 131; with
`j = 0` the index wraps and is out of range. -/
def valueAt {V : Type} [AddCommGroup V] [Module K V] (yp : List V) (j : ℕ) (f : K) : Option V := do
  if j = 0 then none
  let a ← yp[j - 1]?
  let b ← yp[j]?
  return a + f • (b - a)

/-- `interp(xp, yp, x)`, scalar evaluation point, source/Util/Interp.hpp:121-132. -/
def interp {V : Type} [AddCommGroup V] [Module K V] (xp : List K) (yp : List V) (x : K) :
    Option V :=
  if yp.length = 1 then yp[0]?
  else do
    let (j, f) ← interpFactor xp 1 x
    valueAt yp j f

/-- Loop of the vector `interp`, source/Util/Interp.hpp:107-112: the index found for one
point is where the search of the next one starts. -/
def interpLoop {V : Type} [AddCommGroup V] [Module K V] (xp : List K) (yp : List V) :
    ℕ → List K → Option (List V)
  | _, [] => some []
  | j, x :: xs => do
    let (j, f) ← interpFactor xp j x
    let y ← valueAt yp j f
    let ys ← interpLoop xp yp j xs
    return y :: ys

/-- `interp(xp, yp, x, y)`, vector of evaluation points, source/Util/Interp.hpp:95-113;
`y` holds the previous contents of the output.  With one datum only `y[0]` is written. -/
def interpVec {V : Type} [AddCommGroup V] [Module K V] (xp : List K) (yp : List V) (xs : List K)
    (y : List V) : Option (List V) :=
  if yp.length = 1 then do
    let a ← yp[0]?
    if y = [] then none else return y.set 0 a
  else do
    let ys ← interpLoop xp yp 1 xs
    if ys.length ≤ y.length then return ys ++ y.drop ys.length else none

/-- `lerp`, source/Util/Interp.hpp:65-70. -/
def lerp {V : Type} [AddCommGroup V] [Module K V] (a b : V) (f : K) : V := (1 - f) • a + f • b

/-- Lower bound index used by the multidimensional filters, `i > 0 ? i - 1 : 0`,
source/Util/Interp.hpp:150-151 etc. -/
def low (i : ℕ) : ℕ := if 0 < i then i - 1 else 0

/-- `interp2`, source/Util/Interp.hpp:143-163. -/
def interp2 (values : List (List K)) (i j : ℕ) (fx fy : K) : Option K := do
  let r0 ← values[low i]?
  let r1 ← values[i]?
  let c00 ← r0[low j]?
  let c01 ← r0[j]?
  let c10 ← r1[low j]?
  let c11 ← r1[j]?
  let c0 := c00 * (1 - fx) + c10 * fx
  let c1 := c01 * (1 - fx) + c11 * fx
  return c0 * (1 - fy) + c1 * fy

/-- element of a three-dimensional array -/
def get3 {V : Type} (v : List (List (List V))) (i j k : ℕ) : Option V := do
  let a ← v[i]?
  let b ← a[j]?
  b[k]?

/-- element of a four-dimensional array -/
def get4 {V : Type} (v : List (List (List (List V)))) (i j k w : ℕ) : Option V := do
  let a ← v[i]?
  get3 a j k w

/-- `interp3`, source/Util/Interp.hpp:176-208. -/
def interp3 {V : Type} [AddCommGroup V] [Module K V] (v : List (List (List V))) (i j k : ℕ)
    (fx fy fz : K) : Option V := do
  let c000 ← get3 v (low i) (low j) (low k)
  let c001 ← get3 v (low i) (low j) k
  let c010 ← get3 v (low i) j (low k)
  let c011 ← get3 v (low i) j k
  let c100 ← get3 v i (low j) (low k)
  let c101 ← get3 v i (low j) k
  let c110 ← get3 v i j (low k)
  let c111 ← get3 v i j k
  let c00 := lerp c000 c100 fx
  let c01 := lerp c001 c101 fx
  let c10 := lerp c010 c110 fx
  let c11 := lerp c011 c111 fx
  let c0 := lerp c00 c10 fy
  let c1 := lerp c01 c11 fy
  return lerp c0 c1 fz

/-- `interp4` and `interp4Vec`, source/Util/Interp.hpp:223-295 (same text); the arguments
are in the order x, y, z, time. -/
def interp4 {V : Type} [AddCommGroup V] [Module K V] (v : List (List (List (List V))))
    (i j k w : ℕ) (fx fy fz fw : K) : Option V := do
  let c000 := lerp (← get4 v (low i) (low j) (low k) (low w)) (← get4 v (low i) (low j) (low k) w) fw
  let c001 := lerp (← get4 v (low i) (low j) k (low w)) (← get4 v (low i) (low j) k w) fw
  let c010 := lerp (← get4 v (low i) j (low k) (low w)) (← get4 v (low i) j (low k) w) fw
  let c011 := lerp (← get4 v (low i) j k (low w)) (← get4 v (low i) j k w) fw
  let c100 := lerp (← get4 v i (low j) (low k) (low w)) (← get4 v i (low j) (low k) w) fw
  let c101 := lerp (← get4 v i (low j) k (low w)) (← get4 v i (low j) k w) fw
  let c110 := lerp (← get4 v i j (low k) (low w)) (← get4 v i j (low k) w) fw
  let c111 := lerp (← get4 v i j k (low w)) (← get4 v i j k w) fw
  let c00 := lerp c000 c100 fx
  let c01 := lerp c001 c101 fx
  let c10 := lerp c010 c110 fx
  let c11 := lerp c011 c111 fx
  let c0 := lerp c00 c10 fy
  let c1 := lerp c01 c11 fy
  return lerp c0 c1 fz

end MD.Interp
