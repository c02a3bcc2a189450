import Mathlib.Data.List.Basic
import Verif.Model.Text
import Verif.Model.Channel
import Verif.Model.Reader

/-!
# The attachment words of bodies, points, rods, lines and failures

source/MoorDyn2.cpp:961-1247, 1249-1345, 1900-1929, 1965-2092. Only the words, the numbers of
the rows and the names of types are modelled here: the other columns are those of
`Verif/Model/Reader.lean`, `LineType.lean` and `RodType.lean`. The `int` in the first column is
given as an integer.
-/

namespace MD.Words

open MD.Text
open MD.Channel (atoi)
open MD.Reader (findType)

/-- What reading a word leads to. -/
inductive Res (α : Type)
  | ok (a : α)
  /-- an error: `MOORDYN_INVALID_INPUT`, or a null pointer from `readRod` -/
  | refused
  /-- undefined behaviour: a number that is too large for `atoi`, a null pointer used -/
  | undefined
deriving DecidableEq

/-- `Res` as a monad, the early `return` of the code -/
def Res.bind {α β : Type} : Res α → (α → Res β) → Res β
  | .ok a, f => f a
  | .refused, _ => .refused
  | .undefined, _ => .undefined

/-- `Body::types`, source/Body.hpp:159-172 -/
inductive BodyType
  | fixed | coupled | coupledPinned | free
deriving DecidableEq

/-- `Point::types`, source/Point.hpp:156-169 -/
inductive PointType
  | fixed | coupled | free
deriving DecidableEq

/-- `Rod::types`, source/Rod.hpp:233-253 -/
inductive RodType
  | fixed | pinned | coupled | coupledPinned | free
deriving DecidableEq

/-- What an object is attached to: nothing (free, or moved by the caller), the ground, a body
(its position in the list) -/
inductive Parent
  | nothing | ground | body (i : ℕ)
deriving DecidableEq

/-- `str::isOneOf`, source/Misc.cpp:134-144 -/
def oneOf (s : Str) (l : List String) : Bool := l.any fun w => w.toList == s

/-- source/MoorDyn2.cpp:1900-1929: the type of a body -/
def bodyWord (w : Str) : BodyType :=
  let p := decompose w
  if oneOf p.let1 ["ANCHOR", "FIXED", "FIX"] then .fixed
  else if oneOf p.let1 ["VESSEL", "VES", "COUPLED", "CPLD"] then .coupled
  else if oneOf p.let1 ["VESSELPINNED", "VESPIN", "CPLDPIN", "COUPLEDPINNED"] then .coupledPinned
  else .free

/-- A number in a word that refers to one of the first `n` objects of a list:
source/MoorDyn2.cpp:1032-1047 and 1983-1996 (bodies), 1196-1208, 1223-1229 (lines), 1274-1290,
1305-1311 (failures); the position in the list. -/
def reference (n : ℕ) (num : Str) : Res ℕ :=
  if num = [] then .refused
  else match atoi num with
    | none => .undefined
    | some id => if id = 0 ∨ n < id then .refused else .ok (id - 1)

/-- source/MoorDyn2.cpp:1025-1071 and 1088-1097: the type of a point and its parent; `n` bodies
have been read -/
def pointWord (n : ℕ) (w : Str) : Res (PointType × Parent) :=
  let p := decompose w
  if oneOf p.let1 ["ANCHOR", "FIXED", "FIX"] then .ok (.fixed, .ground)
  else if p.let1 = "BODY".toList then
    (reference n p.num1).bind fun i => .ok (.fixed, .body i)
  else if oneOf p.let1 ["FAIRLEAD", "VESSEL", "VES", "COUPLED", "CPLD"] then
    .ok (.coupled, .nothing)
  else if oneOf p.let1 ["POINT", "CONNECT", "CON", "FREE"] then .ok (.free, .nothing)
  else .refused

/-- source/MoorDyn2.cpp:1967-2035 and 2079-2090: the type of a rod and its parent -/
def rodWord (n : ℕ) (w : Str) : Res (RodType × Parent) :=
  let p := decompose w
  if oneOf p.let1 ["ANCHOR", "FIXED", "FIX"] then .ok (.fixed, .ground)
  else if oneOf p.let1 ["PINNED", "PIN"] then .ok (.pinned, .ground)
  else if p.let1 = "BODY".toList then
    (reference n p.num1).bind fun i =>
      .ok (if oneOf p.let2 ["PINNED", "PIN"] then .pinned else .fixed, .body i)
  else if oneOf p.let1 ["VESSEL", "VES", "COUPLED", "CPLD"] then .ok (.coupled, .nothing)
  else if oneOf p.let1 ["VESSELPINNED", "VESPIN", "CPLDPIN", "COUPLEDPINNED"] then
    .ok (.coupledPinned, .nothing)
  else if oneOf p.let1 ["POINT", "CON", "FREE"] then .ok (.free, .nothing)
  else .refused

/-- What the end of a line is attached to: a point, or end A (`true`) or B of a rod; positions
in the lists -/
inductive End
  | point (i : ℕ) | rod (i : ℕ) (endA : Bool)
deriving DecidableEq

/-- source/MoorDyn2.cpp:1189-1241 (the ends of a line) and 1270-1318 (a failure) -/
def endWord (nPoints nRods : ℕ) (w : Str) : Res End :=
  let p := decompose w
  if p.num1 = [] then .refused
  else if oneOf p.let1 ["R", "ROD"] then
    (reference nRods p.num1).bind fun i =>
      if p.let2 = "A".toList then .ok (.rod i true)
      else if p.let2 = "B".toList then .ok (.rod i false)
      else .refused
  else if p.let1 = [] ∨ oneOf p.let1 ["C", "CON", "P", "POINT"] then
    (reference nPoints p.num1).bind fun i => .ok (.point i)
  else .refused

/-- An object of a list: the number of its row, its type and its parent -/
structure Obj (T : Type) where
  number : ℤ
  type : T
  parent : Parent
deriving DecidableEq

/-- A line: the number of its row, the position of its type, its ends -/
structure LineObj where
  number : ℤ
  type : ℕ
  endA : End
  endB : End
deriving DecidableEq

/-- The lists filled while reading: `BodyList`, `PointList`, `RodList` (with the null pointers
of rods that could not be read), `LineList` and the lists of positions `CpldBodyIs`,
`FreeBodyIs`, `CpldPointIs`, `FreePointIs`, `CpldRodIs`, `FreeRodIs`, source/MoorDyn2.hpp:560-625 -/
structure Sys where
  bodies : List (Obj BodyType) := []
  points : List (Obj PointType) := []
  rods : List (Option (Obj RodType)) := []
  lines : List LineObj := []
  cpldBodies : List ℕ := []
  freeBodies : List ℕ := []
  cpldPoints : List ℕ := []
  freePoints : List ℕ := []
  cpldRods : List ℕ := []
  freeRods : List ℕ := []
deriving DecidableEq

/-- Append `x` where `c` holds. -/
def pushIf {α : Type} (c : Bool) (l : List α) (x : α) : List α := if c then l ++ [x] else l

/-- A row of the section of bodies, source/MoorDyn2.cpp:964-974 and 1900-1927 -/
def addBody (s : Sys) (row : ℤ × Str) : Sys :=
  let t := bodyWord row.2
  let k := s.bodies.length
  { s with
    bodies := s.bodies ++ [⟨row.1, t, .nothing⟩]
    cpldBodies := pushIf (t == .coupled || t == .coupledPinned) s.cpldBodies k
    freeBodies := pushIf (t == .free || t == .coupledPinned) s.freeBodies k }

/-- A row of the section of points, source/MoorDyn2.cpp:1025-1097 -/
def addPoint (s : Sys) (row : ℤ × Str) : Res Sys :=
  (pointWord s.bodies.length row.2).bind fun tp =>
    let k := s.points.length
    .ok { s with
      points := s.points ++ [⟨row.1, tp.1, tp.2⟩]
      cpldPoints := pushIf (tp.1 == .coupled) s.cpldPoints k
      freePoints := pushIf (tp.1 == .free) s.freePoints k }

/-- A row of the section of rods (number, type, word), source/MoorDyn2.cpp:1108-1109 and
1967-2093: the null pointer of a row that cannot be read is put into the list. -/
def addRod (types : List Str) (s : Sys) (row : ℤ × Str × Str) : Res Sys :=
  match (rodWord s.bodies.length row.2.2 : Res (RodType × Parent)) with
  | .undefined => .undefined
  | .refused => .ok { s with rods := s.rods ++ [none] }
  | .ok tp =>
    let k := s.rods.length
    let s' : Sys := { s with
      cpldRods := pushIf (tp.1 == .coupled || tp.1 == .coupledPinned) s.cpldRods k
      freeRods := pushIf (tp.1 == .free || tp.1 == .pinned || tp.1 == .coupledPinned) s.freeRods k }
    match findType types row.2.1 with
    | none => .ok { s' with rods := s.rods ++ [none] }
    | some _ => .ok { s' with rods := s.rods ++ [some ⟨row.1, tp.1, tp.2⟩] }

/-- `RodList[id - 1]->addLine(..)` of a null pointer is undefined, source/MoorDyn2.cpp:1214-1217 -/
def usable (s : Sys) : End → Res End
  | .point i => .ok (.point i)
  | .rod i a => match s.rods[i]? with
    | some (some _) => .ok (.rod i a)
    | _ => .undefined

/-- A row of the section of lines (number, type, ends), source/MoorDyn2.cpp:1137-1243 -/
def addLine (types : List Str) (s : Sys) (row : ℤ × Str × Str × Str) : Res Sys :=
  match findType types row.2.1 with
  | none => .refused
  | some t =>
    ((endWord s.points.length s.rods.length row.2.2.1).bind (usable s)).bind fun a =>
    ((endWord s.points.length s.rods.length row.2.2.2).bind (usable s)).bind fun b =>
    .ok { s with lines := s.lines ++ [⟨row.1, t, a, b⟩] }

/-- One row after the other, stopping at the first error. -/
def rows {ρ : Type} (f : Sys → ρ → Res Sys) : List ρ → Sys → Res Sys
  | [], s => .ok s
  | r :: rs, s => (f s r).bind (rows f rs)

/-- The sections of the objects in the order in which they are read whatever their order in the
file: source/MoorDyn2.cpp:961-1247; the null pointers of rods are used at the latest in lines
1630 and 1660. -/
def readObjects (rodTypes lineTypes : List Str) (bodies points : List (ℤ × Str))
    (rods : List (ℤ × Str × Str)) (lines : List (ℤ × Str × Str × Str)) : Res Sys :=
  (rows addPoint points (bodies.foldl addBody {})).bind fun s =>
  (rows (addRod rodTypes) rods s).bind fun s =>
  (rows (addLine lineTypes) lines s).bind fun s =>
  if none ∈ s.rods then .undefined else .ok s

end MD.Words
