import Verif.Model.Layout
import Mathlib.Order.Defs.LinearOrder
import Mathlib.Data.Int.Basic

/-!
# Model of the pointers given to `MoorDyn_Init` and `MoorDyn_Step`

A pointer is `none` (null) or an array.  What the library does with the motions it has read is a parameter.
-/

namespace MD.Layout

variable {K σ : Type}

/-- What a call does: it returns a code, and leaves the system, the time and the array of forces of the caller as given here; or its behaviour
is undefined (a null pointer or an entry out of an array is read or written). -/
inductive Effect (K σ : Type)
  | returns (code : ℤ) (s : σ) (t : K) (f : Option (List K))
  | undefined
deriving DecidableEq

/-- A system: its coupled objects; the rest of `MoorDyn::Init` (source/MoorDyn2.cpp:417-604) and of `MoorDyn::Step` up to the forces
(source/MoorDyn2.cpp:695-740), given what has been read from `x` and `xd`, the step and the time of the caller, with the code they return, the time
the caller then finds, and the system they leave; and the forces on the coupled bodies, rods and points (`getFnet`, source/Body.hpp:338,
source/Rod.hpp:536, source/Point.hpp:279). -/
structure Library (K σ : Type) where
  c : Coupled
  start : List (List (Option K)) → List (List (Option K)) → σ → ℤ × σ
  go : List (List (Option K)) → List (List (Option K)) → K → K → σ → ℤ × K × σ
  bodies : σ → List (Kind × List K)
  rods : σ → List (Kind × List K)
  points : σ → List (List K)

variable (L : Library K σ)

/-- The loops that read through a pointer, source/MoorDyn2.cpp:429-500 and 638-693: nothing can be read through a null pointer.  `none`: undefined. -/
def readPtr (c : Coupled) (x : Option (List K)) : Option (List (List (Option K))) := (readAll c (x.getD [])).map (·.1)

/-- `MoorDyn::GetForces`, source/MoorDyn2.hpp:486-532: the code and the array; `none`: undefined. -/
def forcesPtr (s : σ) (f : Option (List K)) : Option (ℤ × Option (List K)) :=
  if nCoupledDOF L.c = 0 then some (0, f)
  else match f with
    | none => some (-6, none)
    | some f => (getForces (L.bodies s) (L.rods s) (L.points s) f).map fun p => (0, some p.1)

/-- `MoorDyn_Init` and `MoorDyn_Init_NoIC`, source/MoorDyn2.cpp:2400-2412 and 406-604: a null `x` where there are coupled objects is reported in the
log (408-412), and the function goes on. -/
def initCall (x xd : Option (List K)) (t : K) (s : σ) : Effect K σ :=
  match readPtr L.c x, readPtr L.c xd with
  | some a, some b => .returns (L.start a b s).1 (L.start a b s).2 t none
  | _, _ => .undefined

/-- The last lines of `MoorDyn::Step`, source/MoorDyn2.cpp:742-747, and those for a step that is not positive, 621-627. -/
def recover (t : K) (s : σ) (f : Option (List K)) : Effect K σ :=
  if nCoupledDOF L.c = 0 then .returns 0 s t f
  else match forcesPtr L s f with
    | some (code, f) => .returns code s t f
    | none => .undefined

/-- `MoorDyn_Step`, source/MoorDyn2.cpp:2414-2424 and 606-747.  The pointers to the time and to the step are followed without a check; a null `x`, `xd` or
`f` where there are coupled objects is reported in the log (629-632), and the function goes on. -/
def stepCall [LinearOrder K] [Zero K] (x xd f : Option (List K)) (t dt : Option K) (s : σ) : Effect K σ :=
  match t, dt with
  | some t, some dt =>
    if dt ≤ 0 then recover L t s f
    else match readPtr L.c x, readPtr L.c xd with
      | some a, some b =>
        let r := L.go a b dt t s
        if r.1 ≠ 0 then .returns r.1 r.2.2 r.2.1 f else recover L r.2.1 r.2.2 f
      | _, _ => .undefined
  | _, _ => .undefined

end MD.Layout
