import Mathlib.Data.Rat.Defs
import Mathlib.Algebra.Field.Rat
import Verif.Model.Text
import Verif.Model.Time

/-!
# Model of the choice of the time scheme

`create_time_scheme` (source/Time.cpp) and `MoorDyn_SetTimeScheme` (source/MoorDyn2.cpp).
-/

namespace MD.Scheme

open MD.Text MD.Time

/-- What `std::stoi` gives (32-bit `int`): a value, or one of its two exceptions. -/
inductive Stoi
  | ok (v : ℤ)
  | invalidArgument
  | outOfRange
  deriving DecidableEq

/-- `std::stoi`: blanks are skipped, an optional sign and the longest list of digits are read,
what follows is ignored. -/
def stoi (s : Str) : Stoi :=
  let (neg, r) := sign (s.dropWhile isSpace)
  let ds := r.takeWhile isDigit
  if ds.isEmpty then .invalidArgument
  else
    let v : ℤ := if neg then -(natOf ds : ℤ) else natOf ds
    if v < -2 ^ 31 ∨ 2 ^ 31 ≤ v then .outOfRange else .ok v

/-- Conversion of an `int` to `unsigned int`. -/
def toUnsigned (v : ℤ) : ℕ := (v % 2 ^ 32).toNat

/-- Result of creating a scheme: the scheme, `invalid_value_error`, or the exception
`std::out_of_range`, which is not caught. -/
inductive Created
  | ok (s : Scheme ℚ)
  | invalid
  | outOfRange

/-- The branches of the schemes with a number of iterations, e.g. source/Time.cpp:834-842. -/
def withIters (rest : Str) (f : ℕ → Scheme ℚ) : Created :=
  match stoi rest with
  | .ok v => .ok (f (toUnsigned v))
  | .invalidArgument => .invalid
  | .outOfRange => .outOfRange

/-- `create_time_scheme`, source/Time.cpp:805-888. The names `lab2`, `lab3`, `lab4` make
`ABScheme<n, false>` (lines 828-833). A failure of `new` is not modelled. -/
def create (name : Str) : Created :=
  let l := lower name
  if l = "euler".toList then .ok .euler
  else if l = "leuler".toList then .ok .leuler
  else if l = "heun".toList then .ok .heun
  else if l = "rk2".toList then .ok .rk2
  else if l = "rk4".toList then .ok .rk4
  else if l = "ab2".toList then .ok (.ab 2)
  else if l = "ab3".toList then .ok (.ab 3)
  else if l = "ab4".toList then .ok (.ab 4)
  else if l = "lab2".toList then .ok (.ab 2)
  else if l = "lab3".toList then .ok (.ab 3)
  else if l = "lab4".toList then .ok (.ab 4)
  else if startswith l "beuler".toList then withIters (name.drop 6) (.impEuler · 1)
  else if startswith l "midpoint".toList then withIters (name.drop 8) (.impEuler · (1 / 2))
  else if startswith l "anderson".toList then withIters (name.drop 8) (.anderson · (1 / 2))
  else if startswith l "aca".toList then withIters (name.drop 3) (.newmark · (1 / 2) (1 / 4))
  else if startswith l "wilson".toList then withIters (name.drop 6) (.wilson · (137 / 100))
  else .invalid

/-- What of a system matters for changing its scheme. `S` are the states of the integrator
(`MoorDynState`). -/
structure Sys (S : Type) where
  /-- the integrator in use -/
  scheme : Scheme ℚ
  /-- its address -/
  addr : ℕ
  /-- its clock, `TimeScheme::t` -/
  time : ℚ
  /-- its state `r[0]` -/
  state : S
  /-- the positions and velocities held by the objects, which the queries give -/
  shown : S
  /-- the integrator `Waves::_t_integrator` points to -/
  wavesClock : ℕ
  /-- whether there is a wave or current model (`waveKinematics`, `currentKinematics`) -/
  flow : Bool

/-- Outcome of a call. -/
inductive Outcome (S : Type)
  /-- `MOORDYN_SUCCESS` -/
  | ok (s : Sys S)
  /-- the code `MOORDYN_INVALID_VALUE` -/
  | error (s : Sys S)
  /-- an exception leaves the C function -/
  | escapes (s : Sys S)

/-- `MoorDyn_SetTimeScheme`, source/MoorDyn2.cpp:2681-2702, with `MoorDyn::SetTimeScheme`,
source/MoorDyn2.hpp:371-385. The new integrator (at the new address `a`) has its clock at zero
(source/Time.hpp, constructor); its `Init` (source/Time.hpp:532-562) puts all objects to their
initial states, `initial`, or throws (`none`: a free point is below the seabed,
source/Point.cpp:157-163, the file of a line cannot be written, source/Line.cpp:258-262); the
states of objects are not set again by `SetState` (source/Time.hpp:586-589). If `Init` throws
the states of the new integrator are undetermined: here those before (not used). -/
def setTimeScheme {S : Type} (a : ℕ) (initial : S → Option S) (name : Str) (s : Sys S) :
    Outcome S :=
  match create name with
  | .invalid => .error s
  | .outOfRange => .escapes s
  | .ok sc =>
    let saved := s.state
    let s := { s with scheme := sc, addr := a, time := 0 }
    match initial s.shown with
    | none => .escapes s
    | some i =>
      let s := { s with state := i, shown := i }
      .ok { s with state := saved }

/-- The time at which waves and currents are evaluated, `_t_integrator->GetTime()` in
source/Waves.cpp:596-866; `none` if the pointer is dangling (undefined behaviour). -/
def flowTime {S : Type} (s : Sys S) : Option ℚ :=
  if s.wavesClock = s.addr then some s.time else none

/-- One step: undefined if there is flow and its clock is not the integrator. Otherwise the
state advances by a function of the scheme, the time and the state, and the objects get the
states (source/Time.cpp, `Update`). -/
def step {S : Type} (adv : Scheme ℚ → ℚ → ℚ → S → S) (dt : ℚ) (s : Sys S) : Option (Sys S) :=
  if s.flow = true ∧ flowTime s = none then none
  else
    let x := adv s.scheme s.time dt s.state
    some { s with state := x, shown := x, time := s.time + dt }

end MD.Scheme
