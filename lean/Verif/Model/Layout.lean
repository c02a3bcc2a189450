import Mathlib.Data.List.Basic

/-!
# Model of the exchange arrays of coupled objects

`x`, `xd` (read) and `f` (written) by `MoorDyn::Init`, `MoorDyn::Step` and
`MoorDyn::GetForces` (`source/MoorDyn2.cpp`, `source/MoorDyn2.hpp`).  Arrays are
lists; an access out of them gives `none` (undefined behaviour in the code).
-/

namespace MD.Layout

/-- Coupled bodies and rods are `COUPLED` (6 degrees of freedom) or `CPLDPIN`
(source/Body.hpp:157-172, source/Rod.hpp:231-252). -/
inductive Kind
  | coupled
  | pinned
deriving DecidableEq

/-- `CpldBodyIs`, `CpldRodIs`, `CpldPointIs` with the types of the objects they
point to (source/MoorDyn2.hpp:600-620). -/
structure Coupled where
  bodies : List Kind
  rods : List Kind
  points : ℕ

/-- the degrees of freedom of a rod, source/MoorDyn2.hpp:147-152 -/
def rodDOF : Kind → ℕ
  | .coupled => 6
  | .pinned => 3

/-- `MoorDyn::NCoupledDOF`, source/MoorDyn2.hpp:144-154 (the conversion to
`unsigned int` is left out). -/
def nCoupledDOF (c : Coupled) : ℕ :=
  c.rods.foldl (fun n k => n + rodDOF k) (6 * c.bodies.length + 3 * c.points)

variable {K : Type}

/-- `array2vec(x + ix, v)`, source/Misc.hpp:338-345. -/
def array2vec (x : List K) (ix : ℕ) : Option (List K) :=
  match x[ix]?, x[ix + 1]?, x[ix + 2]? with
  | some a, some b, some c => some [a, b, c]
  | _, _, _ => none

/-- `array2vec6(x + ix, v)`, source/Misc.hpp:367-377. -/
def array2vec6 (x : List K) (ix : ℕ) : Option (List K) :=
  match array2vec x ix, array2vec x (ix + 3) with
  | some a, some b => some (a ++ b)
  | _, _ => none

/-- The `vec6` passed to a coupled body or rod (source/MoorDyn2.cpp:436-450, 641-662,
for bodies, 457-473 and 664-685 for rods): each entry is a number or not
initialised (`none`): only 3 of the 6 are set for the pinned ones. -/
def readOne (k : Kind) (x : List K) (ix : ℕ) : Option (List (Option K) × ℕ) :=
  match k with
  | .coupled => (array2vec6 x ix).map fun v => (v.map some, ix + 6)
  | .pinned => (array2vec x ix).map fun v => (v.map some ++ [none, none, none], ix + 3)

/-- The loops over `CpldBodyIs` (source/MoorDyn2.cpp:431-451, 639-662) and
`CpldRodIs` (source/MoorDyn2.cpp:453-475, 663-686). -/
def readKinds (x : List K) : List Kind → ℕ → Option (List (List (Option K)) × ℕ)
  | [], ix => some ([], ix)
  | k :: ks, ix =>
    match readOne k x ix with
    | none => none
    | some (v, ix) =>
      match readKinds x ks ix with
      | none => none
      | some (vs, ix) => some (v :: vs, ix)

/-- The loop over `CpldPointIs` (source/MoorDyn2.cpp:477-500, 687-693). -/
def readPoints (x : List K) : ℕ → ℕ → Option (List (List (Option K)) × ℕ)
  | 0, ix => some ([], ix)
  | n + 1, ix =>
    match array2vec x ix with
    | none => none
    | some v =>
      match readPoints x n (ix + 3) with
      | none => none
      | some (vs, ix) => some (v.map some :: vs, ix)

/-- The three loops; the result is what each object receives, bodies, rods, points,
and the final value of `ix`. -/
def readAll (c : Coupled) (x : List K) : Option (List (List (Option K)) × ℕ) :=
  match readKinds x c.bodies 0 with
  | none => none
  | some (b, ix) =>
    match readKinds x c.rods ix with
    | none => none
    | some (r, ix) =>
      match readPoints x c.points ix with
      | none => none
      | some (p, ix) => some (b ++ r ++ p, ix)

/-- `f[i] = v`; `none` out of the array. -/
def write1 (f : List K) (i : ℕ) (v : K) : Option (List K) :=
  if i < f.length then some (f.set i v) else none

/-- `vec2array` / `vec62array` (source/Misc.hpp:320-365): consecutive writes. -/
def writeVec : List K → List K → ℕ → Option (List K)
  | [], f, _ => some f
  | v :: vs, f, ix =>
    match write1 f ix v with
    | none => none
    | some f => writeVec vs f (ix + 1)

/-- The loops over bodies and rods of `MoorDyn::GetForces`,
source/MoorDyn2.hpp:503-524; each object comes with its `getFnet()`, 6 numbers. -/
def writeKinds : List (Kind × List K) → List K → ℕ → Option (List K × ℕ)
  | [], f, ix => some (f, ix)
  | (.coupled, v) :: l, f, ix =>
    match writeVec v f ix with
    | none => none
    | some f => writeKinds l f (ix + 6)
  | (.pinned, v) :: l, f, ix =>
    match writeVec (v.take 3) f ix with
    | none => none
    | some f => writeKinds l f (ix + 3)

/-- The loop over points, source/MoorDyn2.hpp:525-530. -/
def writePoints : List (List K) → List K → ℕ → Option (List K × ℕ)
  | [], f, ix => some (f, ix)
  | v :: l, f, ix =>
    match writeVec v f ix with
    | none => none
    | some f => writePoints l f (ix + 3)

/-- `MoorDyn::GetForces`, source/MoorDyn2.hpp:486-532, with a non-null `f`. -/
def getForces (bodies rods : List (Kind × List K)) (points : List (List K)) (f : List K) :
    Option (List K × ℕ) :=
  match writeKinds bodies f 0 with
  | none => none
  | some (f, ix) =>
    match writeKinds rods f ix with
    | none => none
    | some (f, ix) => writePoints points f ix

end MD.Layout
