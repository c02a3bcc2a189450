import Mathlib.Data.List.Basic
import Mathlib.Logic.Function.Basic
import Mathlib.Order.Defs.LinearOrder

/-!
# Model of line attachments and failures

`Point::addLine/removeLine`, `Rod::addLine/removeLine`, the reading of lines in
`MoorDyn::ReadInFile`, `MoorDyn::detachLines` and the failure check of
`MoorDyn::Step`.
-/

namespace MD.Attach

/-- `EndPoints`, source/Misc.hpp:513-530. -/
inductive End
  | A
  | B
deriving DecidableEq

/-- What a line end can be attached to: a point or one end of a rod. -/
inductive Support
  | point (i : ℕ)
  | rod (i : ℕ) (e : End)
deriving DecidableEq

/-- One entry of an attachment list: line and line end (`attachment`,
source/Point.hpp:83-90, source/Rod.hpp:88-101).  Pointers to lines are indices. -/
abbrev Att := ℕ × End

/-- The part of the system that matters here.  `np`, `nr`, `nl`: sizes of
`PointList`, `RodList`, `LineList`; `att`: `attached` of each point, `attachedA`,
`attachedB` of each rod; `kin`: position and velocity of each support;
`integ`, `waves`: the points registered in the integrator and in the wave
kinematics (source/MoorDyn2.cpp:1632-1633, 1664-1667). -/
structure Sys (V : Type) where
  np : ℕ
  nr : ℕ
  nl : ℕ
  att : Support → List Att
  kin : Support → V
  integ : List ℕ
  waves : List ℕ

variable {V : Type}

/-- checks of the index in source/MoorDyn2.cpp:1206, 1226 (ids are 1-based there) -/
def Sys.valid (s : Sys V) : Support → Bool
  | .point i => decide (i < s.np)
  | .rod i _ => decide (i < s.nr)

/-- `Point::addLine` (source/Point.cpp:101-111) and `Rod::addLine`
(source/Rod.cpp:184-202): `push_back`. -/
def Sys.addAt (s : Sys V) (x : Support) (a : Att) : Sys V :=
  { s with att := Function.update s.att x (s.att x ++ [a]) }

/-- A row of the LINES section (source/MoorDyn2.cpp:1180-1245): a new line is made
and its ends A and B attached, in this order; an unknown support is an error and
the whole reading fails. -/
def Sys.newLine (s : Sys V) (a b : Support) : Option (Sys V) :=
  let l := s.nl
  let s := { s with nl := s.nl + 1 }
  if s.valid a then
    let s := s.addAt a (l, .A)
    if s.valid b then some (s.addAt b (l, .B)) else none
  else none

/-- The search of `Point::removeLine` (source/Point.cpp:113-136) and
`Rod::removeLine` (source/Rod.cpp:204-231): the first entry of the line is erased and
its end returned. -/
def removeLine (l : ℕ) : List Att → Option (End × List Att)
  | [] => none
  | a :: as =>
    if a.1 = l then some (a.2, as)
    else
      match removeLine l as with
      | none => none
      | some (e, as) => some (e, a :: as)

/-- The loop of `MoorDyn::detachLines`, source/MoorDyn2.cpp:2262-2271, from `x` to the
new point; `false` if a line is not found (exception). -/
def detachLoop (x new : Support) : List ℕ → Sys V → Sys V × Bool
  | [], s => (s, true)
  | l :: ls, s =>
    match removeLine l (s.att x) with
    | none => (s, false)
    | some (e, as) =>
      detachLoop x new ls ({ s with att := Function.update s.att x as }.addAt new (l, e))

/-- `MoorDyn::detachLines`, source/MoorDyn2.cpp:2204-2276: a new free point is appended
to `PointList` (and to nothing else), the lines are moved to it and it gets the
kinematics of the old support.  The checks of lines 2208-2217 cannot fail for
failures read from the input file, which name either a point or a rod. `zero` is the
initial state of the new point. -/
def detach (zero : V) (x : Support) (lines : List ℕ) (s : Sys V) : Sys V × Bool :=
  let new := Support.point s.np
  let k := s.kin x
  let s := { s with np := s.np + 1, att := Function.update s.att new [],
                    kin := Function.update s.kin new zero }
  match detachLoop x new lines s with
  | (s, false) => (s, false)
  | (s, true) => ({ s with kin := Function.update s.kin new k }, true)

/-- `FailProps`, source/Misc.hpp:1013-1032 (the failure tension is never used). -/
structure Fail (T : Type) where
  target : Support
  lines : List ℕ
  time : T
  status : Bool

/-- The failure check at the end of `MoorDyn::Step`, source/MoorDyn2.cpp:718-732, over
the failures from index `i` on.  The result has the failures with their new status,
the indices of those triggered, and whether there was no error (an error leaves
the loop). -/
def checkFails {T : Type} [LT T] [DecidableLT T] (zero : V) (t : T) :
    ℕ → List (Fail T) → Sys V → Sys V × List (Fail T) × List ℕ × Bool
  | _, [], s => (s, [], [], true)
  | i, f :: fs, s =>
    if f.status || decide (f.time < t) then
      let (s, fs, tr, ok) := checkFails zero t (i + 1) fs s
      (s, f :: fs, tr, ok)
    else
      match detach zero f.target f.lines s with
      | (s, false) => (s, { f with status := true } :: fs, [i], false)
      | (s, true) =>
        let (s, fs, tr, ok) := checkFails zero t (i + 1) fs s
        (s, { f with status := true } :: fs, i :: tr, ok)

end MD.Attach
