import Mathlib.Data.List.Basic
import Mathlib.Algebra.Field.Defs
import Mathlib.Data.Fin.VecNotation
import Mathlib.Data.Rat.Defs
import Verif.Model.Text

/-!
# Model of the output channels

The section OUTPUTS of the input file (source/MoorDyn2.cpp:1349-1584) and the values of the
channels (source/MoorDyn2.hpp:804-819 and the functions `Get*Output` of the objects). The
splitting into words and into letters and digits is that of `Verif/Model/Text.lean`.
-/

namespace MD.Channel

open MD.Text (Str)

/-- `OutChanProps::OType`, source/Misc.hpp:1219-1231: 1 line, 2 point, 3 rod, 4 body. -/
inductive Obj
  | line | point | rod | body
deriving DecidableEq

/-- `QTypeEnum`, source/Misc.hpp:1165-1197. -/
inductive Q
  | time | posX | posY | posZ | rX | rY | rZ | velX | velY | velZ | rVelX | rVelY | rVelZ
  | accX | accY | accZ | rAccX | rAccY | rAccZ | ten | fX | fY | fZ | mX | mY | mZ | sub
  | tenA | tenB
deriving DecidableEq

/-- The numbers of the enumeration, source/Misc.hpp:1165-1197. -/
def Q.num : Q → ℕ
  | .time => 0 | .posX => 1 | .posY => 2 | .posZ => 3 | .rX => 4 | .rY => 5 | .rZ => 6
  | .velX => 7 | .velY => 8 | .velZ => 9 | .rVelX => 10 | .rVelY => 11 | .rVelZ => 12
  | .accX => 13 | .accY => 14 | .accZ => 15 | .rAccX => 16 | .rAccY => 17 | .rAccZ => 18
  | .ten => 19 | .fX => 20 | .fY => 21 | .fZ => 22 | .mX => 23 | .mY => 24 | .mZ => 25
  | .sub => 26 | .tenA => 27 | .tenB => 28

/-- `UnitList`, source/MoorDyn2.cpp:70-77. -/
def unitList : List Str :=
  ["(s)       ".toList, "(m)       ".toList, "(m)       ".toList, "(m)       ".toList,
   "(deg)     ".toList, "(deg)     ".toList, "(deg)     ".toList, "(m/s)     ".toList,
   "(m/s)     ".toList, "(m/s)     ".toList, "(deg/s)   ".toList, "(deg/s)   ".toList,
   "(deg/s)   ".toList, "(m/s2)    ".toList, "(m/s2)    ".toList, "(m/s2)    ".toList,
   "(deg/s2)  ".toList, "(deg/s2)  ".toList, "(deg/s2)  ".toList, "(N)       ".toList,
   "(N)       ".toList, "(N)       ".toList, "(N)       ".toList, "(Nm)      ".toList,
   "(Nm)      ".toList, "(Nm)      ".toList, "(frac)    ".toList]

/-- `moordyn::UnitList[q]`; `none` is a reading past its end. -/
def units (q : Q) : Option Str := unitList[q.num]?

/-- The chain of comparisons of source/MoorDyn2.cpp:1470-1565: the quantity and the entry of
the list of units. -/
def quantity (s : Str) : Option (Q × Q) :=
  if s = "PX".toList then some (.posX, .posX)
  else if s = "PY".toList then some (.posY, .posY)
  else if s = "PZ".toList then some (.posZ, .posZ)
  else if s = "RX".toList then some (.rX, .rX)
  else if s = "RY".toList then some (.rY, .rY)
  else if s = "RZ".toList then some (.rZ, .rZ)
  else if s = "VX".toList then some (.velX, .velX)
  else if s = "VY".toList then some (.velY, .velY)
  else if s = "VZ".toList then some (.velZ, .velZ)
  else if s = "RVX".toList then some (.rVelX, .rVelX)
  else if s = "RVY".toList then some (.rVelY, .rVelY)
  else if s = "RVZ".toList then some (.rVelZ, .rVelZ)
  else if s = "AX".toList then some (.accX, .accX)
  else if s = "AY".toList then some (.accY, .accY)
  else if s = "AZ".toList then some (.accZ, .accZ)
  else if s = "RAX".toList then some (.rAccX, .rAccX)
  else if s = "RAY".toList then some (.rAccY, .rAccY)
  else if s = "RAZ".toList then some (.rAccZ, .rAccZ)
  else if s = "T".toList ∨ s = "TEN".toList then some (.ten, .ten)
  else if s = "TA".toList ∨ s = "TENA".toList then some (.tenA, .ten)
  else if s = "TB".toList ∨ s = "TENB".toList then some (.tenB, .ten)
  else if s = "FX".toList then some (.fX, .fX)
  else if s = "FY".toList then some (.fY, .fY)
  else if s = "FZ".toList then some (.fZ, .fZ)
  else if s = "MX".toList then some (.mX, .mX)
  else if s = "MY".toList then some (.mY, .mY)
  else if s = "MZ".toList then some (.mZ, .mZ)
  else if s = "SUB".toList then some (.sub, .sub)
  else none

/-- An output channel, `OutChanProps`, source/Misc.hpp:1219-1231. -/
structure Chan where
  name : Str
  units : Str
  qtype : Q
  otype : Obj
  node : ℤ
  id : ℕ
deriving DecidableEq

/-- `atoi` of a run of digits (possibly followed by other characters, or empty); `none` where
the number does not fit into an `int`, which is undefined. -/
def atoi (s : Str) : Option ℕ :=
  let n := MD.Text.natOf (s.takeWhile MD.Text.isDigit)
  if n < 2 ^ 31 then some n else none

/-- `List[id - 1]` of one of the lists of objects: no check of the bounds. -/
def nth {α : Type} (l : List α) (id : ℕ) : Option α :=
  if id = 0 then none else l[id - 1]?

/-- What becomes of a word: a channel, nothing (with a warning), undefined behaviour. -/
inductive Parsed
  | chan (c : Chan)
  | skipped
  | ub
deriving DecidableEq

/-- Node and rest of the letters, or nothing, or undefined behaviour. -/
inductive NodeRes
  | node (n : ℤ) (let2 : Str)
  | bad
  | ub

/-- Node of a line, source/MoorDyn2.cpp:1401-1421. `ns` are the numbers of segments of the
lines. -/
def lineNode (ns : List ℕ) (id : ℕ) (let2 num2 let3 : Str) : NodeRes :=
  if let3 = [] then
    if let2.take 2 = "NA".toList then .node 0 (let2.drop 2)
    else if let2.take 2 = "NB".toList then
      match nth ns id with
      | none => .ub
      | some n => .node n (let2.drop 2)
    else if num2 = [] then .node 0 let2
    else .bad
  else match atoi num2 with
    | none => .ub
    | some n => .node n let2

/-- Node of a rod, source/MoorDyn2.cpp:1431-1449. -/
def rodNode (ns : List ℕ) (id : ℕ) (let2 num2 let3 : Str) : NodeRes :=
  if let3 = [] then
    if let2.take 2 = "NA".toList then .node 0 (let2.drop 2)
    else if let2.take 2 = "NB".toList then
      match nth ns id with
      | none => .ub
      | some n => .node n (let2.drop 2)
    else .node (-1) let2
  else if num2 ≠ [] then
    match atoi num2 with
    | none => .ub
    | some n => .node n let2
  else .bad

/-- Type of the object, source/MoorDyn2.cpp:1399, 1424, 1429, 1452 (`isOneOf`). -/
def objType (let1 : Str) : Option Obj :=
  if let1 = "L".toList ∨ let1 = "LINE".toList then some .line
  else if let1 = "P".toList ∨ let1 = "POINT".toList then some .point
  else if let1 = "R".toList ∨ let1 = "ROD".toList then some .rod
  else if let1 = "B".toList ∨ let1 = "BODY".toList then some .body
  else none

/-- Node of an object of any type. -/
def nodeOf (o : Obj) (lineNs rodNs : List ℕ) (id : ℕ) (let2 num2 let3 : Str) : NodeRes :=
  match o with
  | .line => lineNode lineNs id let2 num2 let3
  | .rod => rodNode rodNs id let2 num2 let3
  | _ => .node (-1) let2

/-- Quantity, units and name, source/MoorDyn2.cpp:1470-1579. -/
def finish (word : Str) (o : Obj) (id : ℕ) (node : ℤ) (let2 let3 : Str) : Parsed :=
  match quantity (if let3 = [] then let2 else let3) with
  | none => .skipped
  | some (q, u) =>
    match units u with
    | none => .ub
    | some us =>
      let name := if o = .rod ∧ q = .ten then
          (if node > 0 then "TenEndB".toList else "TenEndA".toList) else word
      .chan ⟨name, us, q, o, node, id⟩

/-- One word of the section, source/MoorDyn2.cpp:1358-1580. `lineNs`, `rodNs`: the numbers of
segments of the lines and of the rods. -/
def parse (lineNs rodNs : List ℕ) (word : Str) : Parsed :=
  let p := MD.Text.decompose word
  match atoi p.num1 with
  | none => .ub
  | some id =>
    if p.let1 = "FAIRTEN".toList then
      match units .ten, nth lineNs id with
      | some us, some n => .chan ⟨word, us, .ten, .line, n, id⟩
      | _, _ => .ub
    else if p.let1 = "ANCHTEN".toList then
      match units .ten with
      | some us => .chan ⟨word, us, .ten, .line, 0, id⟩
      | none => .ub
    else match objType p.let1 with
      | none => .skipped
      | some o =>
        match nodeOf o lineNs rodNs id p.let2 p.num2 p.let3 with
        | .ub => .ub
        | .bad => .skipped
        | .node node let2 => finish word o id node let2 p.let3

/-! ## Values -/

variable {K : Type}

/-- What the channels read from a line: `r`, `rd`, `Fnet`, and the tensions of `getNodeTen`
at the nodes. -/
structure LineObj (K : Type) where
  N : ℕ
  r : List (Fin 3 → K)
  rd : List (Fin 3 → K)
  force : List (Fin 3 → K)
  ten : List (Fin 3 → K)

/-- What the channels read from a point. -/
structure PointObj (K : Type) where
  r : Fin 3 → K
  rd : Fin 3 → K
  acc : Fin 3 → K
  force : Fin 3 → K

/-- What the channels read from a rod: `r7.pos`, `roll`, `pitch`, `v6`, `acc6`, `FextA`,
`FextB`, `getFnet()`, and the nodes. -/
structure RodObj (K : Type) where
  N : ℕ
  pos : Fin 3 → K
  roll : K
  pitch : K
  v6 : Fin 6 → K
  acc6 : Fin 6 → K
  extA : Fin 3 → K
  extB : Fin 3 → K
  net : Fin 6 → K
  r : List (Fin 3 → K)
  rd : List (Fin 3 → K)
  force : List (Fin 3 → K)
  vof : List K

/-- What the channels read from a body: `r7.pos`, `Quat2Euler(r7.quat)`, `v6`, `a6`, `F6net`,
`getFnet()`. -/
structure BodyObj (K : Type) where
  pos : Fin 3 → K
  euler : Fin 3 → K
  v6 : Fin 6 → K
  a6 : Fin 6 → K
  f6 : Fin 6 → K
  net : Fin 6 → K

/-- A system as far as the channels see it. -/
structure Sys (K : Type) where
  lines : List (LineObj K)
  points : List (PointObj K)
  rods : List (RodObj K)
  bodies : List (BodyObj K)
  /-- the Euclidean norm -/
  norm : (Fin 3 → K) → K
  /-- `180.0 / pi` -/
  deg : K

/-- Value of a channel: a number, zero with or without a warning, an exception, undefined
behaviour. -/
inductive Out (K : Type)
  | val (x : K)
  | warned
  | zero
  | throws
  | ub
deriving DecidableEq

/-- `v[i][a]` with an `int` index, not checked. -/
def comp (l : List (Fin 3 → K)) (i : ℤ) (a : Fin 3) : Out K :=
  if i < 0 then .ub
  else match l[i.toNat]? with
    | none => .ub
    | some v => .val (v a)

/-- `getNodeForce(i)`, `getNodeTen(i)`, source/Line.hpp:499-507, 519-532: `i > N` throws; a
negative index is a huge one. -/
def checked (N : ℕ) (l : List (Fin 3 → K)) (i : ℤ) (f : (Fin 3 → K) → K) : Out K :=
  if i < 0 ∨ i > N then .throws
  else match l[i.toNat]? with
    | none => .ub
    | some v => .val (f v)

/-- `Line::GetLineOutput`, source/Line.cpp:540-571. -/
def lineOutput (s : Sys K) (l : LineObj K) (q : Q) (node : ℤ) : Out K :=
  match q with
  | .posX => comp l.r node 0
  | .posY => comp l.r node 1
  | .posZ => comp l.r node 2
  | .velX => comp l.rd node 0
  | .velY => comp l.rd node 1
  | .velZ => comp l.rd node 2
  | .ten => if node = 0 ∨ node = l.N then checked l.N l.force node s.norm
      else checked l.N l.ten node s.norm
  | .tenA => checked l.N l.force 0 s.norm
  | .tenB => checked l.N l.force l.N s.norm
  | .fX => checked l.N l.force node (· 0)
  | .fY => checked l.N l.force node (· 1)
  | .fZ => checked l.N l.force node (· 2)
  | _ => .warned

/-- `Point::GetPointOutput`, source/Point.cpp:172-203. -/
def pointOutput (s : Sys K) (p : PointObj K) (q : Q) : Out K :=
  match q with
  | .posX => .val (p.r 0)
  | .posY => .val (p.r 1)
  | .posZ => .val (p.r 2)
  | .velX => .val (p.rd 0)
  | .velY => .val (p.rd 1)
  | .velZ => .val (p.rd 2)
  | .accX => .val (p.acc 0)
  | .accY => .val (p.acc 1)
  | .accZ => .val (p.acc 2)
  | .ten => .val (s.norm p.force)
  | .fX => .val (p.force 0)
  | .fY => .val (p.force 1)
  | .fZ => .val (p.force 2)
  | _ => .zero

variable [Field K]

/-- `Rod::GetRodOutput` for the whole rod, source/Rod.cpp:351-403. -/
def rodWhole (s : Sys K) (d : RodObj K) (q : Q) : Out K :=
  match q with
  | .posX => .val (d.pos 0)
  | .posY => .val (d.pos 1)
  | .posZ => .val (d.pos 2)
  | .rX => .val (d.roll * s.deg)
  | .rY => .val (d.pitch * s.deg)
  | .velX => .val (d.v6 0)
  | .velY => .val (d.v6 1)
  | .velZ => .val (d.v6 2)
  | .rVelX => .val (d.v6 3 * s.deg)
  | .rVelY => .val (d.v6 4 * s.deg)
  | .accX => .val (d.acc6 0)
  | .accY => .val (d.acc6 1)
  | .accZ => .val (d.acc6 2)
  | .rAccX => .val (d.acc6 3 * s.deg)
  | .rAccY => .val (d.acc6 4 * s.deg)
  | .tenA => .val (s.norm d.extA)
  | .tenB => .val (s.norm d.extB)
  | .fX => .val (d.net 0)
  | .fY => .val (d.net 1)
  | .fZ => .val (d.net 2)
  | .mX => .val (d.net 3)
  | .mY => .val (d.net 4)
  | .mZ => .val (d.net 5)
  | .sub => .val (d.vof.sum / (d.vof.length : K))
  | _ => .warned

/-- `Rod::GetRodOutput` for a node, source/Rod.cpp:404-423. -/
def rodAt (d : RodObj K) (q : Q) (node : ℤ) : Out K :=
  match q with
  | .posX => comp d.r node 0
  | .posY => comp d.r node 1
  | .posZ => comp d.r node 2
  | .velX => comp d.rd node 0
  | .velY => comp d.rd node 1
  | .velZ => comp d.rd node 2
  | .fX => comp d.force node 0
  | .fY => comp d.force node 1
  | .fZ => comp d.force node 2
  | _ => .warned

/-- `Rod::GetRodOutput`, source/Rod.cpp:343-426. -/
def rodOutput (s : Sys K) (d : RodObj K) (q : Q) (node : ℤ) : Out K :=
  if node = -1 then rodWhole s d q else rodAt d q node

/-- `Body::GetBodyOutput`, source/Body.cpp:324-390. -/
def bodyOutput (s : Sys K) (b : BodyObj K) (q : Q) : Out K :=
  match q with
  | .posX => .val (b.pos 0)
  | .posY => .val (b.pos 1)
  | .posZ => .val (b.pos 2)
  | .rX => .val (s.deg * b.euler 0)
  | .rY => .val (s.deg * b.euler 1)
  | .rZ => .val (s.deg * b.euler 2)
  | .velX => .val (b.v6 0)
  | .velY => .val (b.v6 1)
  | .velZ => .val (b.v6 2)
  | .rVelX => .val (b.v6 3 * s.deg)
  | .rVelY => .val (b.v6 4 * s.deg)
  | .rVelZ => .val (b.v6 5 * s.deg)
  | .accX => .val (b.a6 0)
  | .accY => .val (b.a6 1)
  | .accZ => .val (b.a6 2)
  | .rAccX => .val (b.a6 3 * s.deg)
  | .rAccY => .val (b.a6 4 * s.deg)
  | .rAccZ => .val (b.a6 5 * s.deg)
  | .ten => .val (s.norm ![b.f6 0, b.f6 1, b.f6 2])
  | .fX => .val (b.net 0)
  | .fY => .val (b.net 1)
  | .fZ => .val (b.net 2)
  | .mX => .val (b.net 3)
  | .mY => .val (b.net 4)
  | .mZ => .val (b.net 5)
  | _ => .warned

/-- `MoorDyn::GetOutput`, source/MoorDyn2.hpp:804-819. -/
def getOutput (s : Sys K) (c : Chan) : Out K :=
  match c.otype with
  | .line => match nth s.lines c.id with
    | none => .ub
    | some l => lineOutput s l c.qtype c.node
  | .point => match nth s.points c.id with
    | none => .ub
    | some p => pointOutput s p c.qtype
  | .rod => match nth s.rods c.id with
    | none => .ub
    | some d => rodOutput s d c.qtype c.node
  | .body => match nth s.bodies c.id with
    | none => .ub
    | some b => bodyOutput s b c.qtype

end MD.Channel
