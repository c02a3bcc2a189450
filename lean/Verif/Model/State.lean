import Mathlib.Algebra.Module.Basic
import Mathlib.Algebra.Module.Prod
import Mathlib.Algebra.Field.Defs

/-!
# Model of the arithmetic of states (`source/State.cpp`, `source/State.hpp`)

`MoorDynState` and `DMoorDynStateDt` hold one vector for each kind of object.  Numbers are in a field
`K`; `V` are the vectors of points and nodes, `X` the places with orientation (`XYZQuat`, whose
operations add, subtract and scale the seven numbers, source/Misc.cpp:172-198), `W` the vectors of six
numbers.  A state is a pair (position, velocity), a derivative a pair (velocity, acceleration); as the
types of the components are the same, both are the type `St`.
-/

namespace MD.State

/-- What can go wrong: `invalid_value_error("Invalid input size")`, or reading past the end of a
vector. -/
inductive Err
  | size | undef
deriving DecidableEq

/-- `MoorDynState`, source/State.hpp:256-310, and `DMoorDynStateDt`, source/State.hpp:312-440. -/
structure St (V X W : Type) where
  lines : List (List V × List V)
  points : List (V × V)
  rods : List (X × W)
  bodies : List (X × W)

section
variable {V X W : Type}

/-- The loop of an operation on two lines, over the elements of the first vector of the first one:
undefined if another vector is shorter. -/
def lineLoop (f : V × V → V × V → V × V) (a b : List V × List V) :
    Except Err (List V × List V) :=
  let n := a.1.length
  if a.2.length < n ∨ b.1.length < n ∨ b.2.length < n then .error .undef
  else
    let c := List.zipWith f (a.1.zip a.2) (b.1.zip b.2)
    .ok (c.map (·.1), c.map (·.2))

/-- Sums and differences of lines, source/State.cpp:123-139, 161-177, 335-352 and 384-401: the sizes are
compared first. -/
def lineChecked (f : V × V → V × V → V × V) (a b : List V × List V) :
    Except Err (List V × List V) :=
  if a.1.length ≠ b.1.length ∨ a.2.length ≠ b.2.length then .error .size else lineLoop f a b

/-- The loop over two vectors of objects after their sizes were compared, source/State.cpp:650-654 for
example. -/
def both {α β γ : Type} (f : α → β → Except Err γ) (as : List α) (bs : List β) :
    Except Err (List γ) :=
  if as.length ≠ bs.length then .error .size else (as.zip bs).mapM fun p => f p.1 p.2

/-- The operations of two states that compare the sizes: `+` (source/State.cpp:645-671 and 784-810),
`-` (source/State.cpp:674-700 and 813-839), `Newmark` (source/State.cpp:857-886) and `Wilson`
(source/State.cpp:889-917): lines, points, rods and bodies in this order. -/
def combine (fl : List V × List V → List V × List V → Except Err (List V × List V))
    (fp : V × V → V × V → V × V) (fr : X × W → X × W → X × W) (a b : St V X W) :
    Except Err (St V X W) := do
  let lines ← both fl a.lines b.lines
  let points ← both (fun x y => .ok (fp x y)) a.points b.points
  let rods ← both (fun x y => .ok (fr x y)) a.rods b.rods
  let bodies ← both (fun x y => .ok (fr x y)) a.bodies b.bodies
  return ⟨lines, points, rods, bodies⟩

end

section
variable {K V P Q W : Type} [Field K] [AddCommGroup V] [Module K V] [AddCommGroup P] [Module K P]
variable [AddCommGroup Q] [Module K Q] [AddCommGroup W] [Module K W]

/-- `MoorDynState::operator+`, source/State.cpp:83-111 and 645-671; `DMoorDynStateDt::operator+`,
source/State.cpp:305-333 and 784-810, is the same text. -/
def add (a b : St V (P × Q) W) : Except Err (St V (P × Q) W) :=
  combine (lineChecked fun x y => (x.1 + y.1, x.2 + y.2)) (fun x y => (x.1 + y.1, x.2 + y.2))
    (fun x y => ((x.1.1 + y.1.1, x.1.2 + y.1.2), x.2 + y.2)) a b

/-- `MoorDynState::operator-`, source/State.cpp:113-121 (rods and bodies: the operators are `+`),
141-159 and 674-700. -/
def sub (a b : St V (P × Q) W) : Except Err (St V (P × Q) W) :=
  combine (lineChecked fun x y => (x.1 - y.1, x.2 - y.2)) (fun x y => (x.1 - y.1, x.2 - y.2))
    (fun x y => ((x.1.1 + y.1.1, x.1.2 + y.1.2), x.2 + y.2)) a b

/-- `DMoorDynStateDt::operator-`, source/State.cpp:354-382 and 813-839. -/
def dsub (a b : St V (P × Q) W) : Except Err (St V (P × Q) W) :=
  combine (lineChecked fun x y => (x.1 - y.1, x.2 - y.2)) (fun x y => (x.1 - y.1, x.2 - y.2))
    (fun x y => ((x.1.1 - y.1.1, x.1.2 - y.1.2), x.2 - y.2)) a b

/-- `DMoorDynStateDt::operator*`, source/State.cpp:259-303 and 763-782: a derivative times a time is a
state. -/
def scale (dt : K) (a : St V (P × Q) W) : Except Err (St V (P × Q) W) := do
  let lines ← a.lines.mapM fun l =>
    if l.2.length < l.1.length then .error .undef
    else .ok (l.1.map (dt • ·), (l.2.take l.1.length).map (dt • ·))
  return ⟨lines, a.points.map fun x => (dt • x.1, dt • x.2),
    a.rods.map fun x => ((dt • x.1.1, dt • x.1.2), dt • x.2),
    a.bodies.map fun x => ((dt • x.1.1, dt • x.1.2), dt • x.2)⟩

/-- The loops of `Mix` over the objects, source/State.cpp:703-714: nothing is compared; what the second
vector has too much is ignored. -/
def each {α : Type} (f : α → α → Except Err α) (as bs : List α) : Except Err (List α) :=
  if bs.length < as.length then .error .undef else (as.zip bs).mapM fun p => f p.1 p.2

/-- `Mix` of a line, source/State.cpp:203-211 and 588-596: only the elements of the loop change. -/
def lineMix (f : K) (a b : List V × List V) : Except Err (List V × List V) := do
  let c ← lineLoop (fun x y => ((1 - f) • x.1 + f • y.1, (1 - f) • x.2 + f • y.2)) a b
  return (c.1, c.2 ++ a.2.drop a.1.length)

/-- `MoorDynState::Mix`, source/State.cpp:179-201 and 703-714, and `DMoorDynStateDt::Mix`,
source/State.cpp:564-586 and 920-931, which is the same text. -/
def mix (a b : St V (P × Q) W) (f : K) : Except Err (St V (P × Q) W) := do
  let lines ← each (lineMix f) a.lines b.lines
  let points ← each (fun x y => .ok ((1 - f) • x.1 + f • y.1, (1 - f) • x.2 + f • y.2))
    a.points b.points
  let rods ← each (fun x y => .ok (((1 - f) • x.1.1 + f • y.1.1, (1 - f) • x.1.2 + f • y.1.2),
    (1 - f) • x.2 + f • y.2)) a.rods b.rods
  let bodies ← each (fun x y => .ok (((1 - f) • x.1.1 + f • y.1.1, (1 - f) • x.1.2 + f • y.1.2),
    (1 - f) • x.2 + f • y.2)) a.bodies b.bodies
  return ⟨lines, points, rods, bodies⟩

/-- `DMoorDynStateDt::Newmark`, source/State.cpp:442-500 and 857-886; `pose` is `XYZQuat::fromVec6`,
source/Misc.hpp:294-297. -/
def newmark (pose : W → P × Q) (g be : K) (a b : St V (P × Q) W) (dt : K) :
    Except Err (St V (P × Q) W) :=
  combine
    (lineLoop fun x y => (x.1 + dt • ((1 / 2 - be) • x.2 + be • y.2), (1 - g) • x.2 + g • y.2))
    (fun x y => (x.1 + dt • ((1 / 2 - be) • x.2 + be • y.2), (1 - g) • x.2 + g • y.2))
    (fun x y => (x.1 + pose (dt • ((1 / 2 - be) • x.2 + be • y.2)), (1 - g) • x.2 + g • y.2)) a b

/-- `DMoorDynStateDt::Wilson`, source/State.cpp:502-562 and 889-917. -/
def wilson (pose : W → P × Q) (a b : St V (P × Q) W) (tau dt : K) : Except Err (St V (P × Q) W) :=
  let f := tau / dt
  combine
    (lineLoop fun x y =>
      (x.1 + (1 / 2 * dt) • ((1 - 1 / 3 * f) • x.2 + (1 / 3 * f) • y.2),
       (1 - 1 / 2 * f) • x.2 + (1 / 2 * f) • y.2))
    (fun x y =>
      (x.1 + (1 / 2 * dt) • ((1 - 1 / 3 * f) • x.2 + (1 / 3 * f) • y.2),
       (1 - 1 / 2 * f) • x.2 + (1 / 2 * f) • y.2))
    (fun x y =>
      (x.1 + pose ((1 / 2 * dt) • ((1 - 1 / 3 * f) • x.2 + (1 / 3 * f) • y.2)),
       (1 - 1 / 2 * f) • x.2 + (1 / 2 * f) • y.2)) a b

end

end MD.State
