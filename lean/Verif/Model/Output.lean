import Mathlib.Algebra.Order.Floor.Ring
import Mathlib.Algebra.Order.Field.Basic
import Mathlib.Data.Rat.Floor
import Mathlib.Data.List.Basic

/-!
# Model of the output files

When rows are written (`AllOutput`), and the columns of the files of lines, rods and
bodies: titles, units and values, as the lists of the tab-separated entries.
-/

namespace MD.Output

variable {K : Type}

/-! ## When a row is written -/

/-- The test at the beginning of `AllOutput`, source/MoorDyn2.cpp:2284-2286: whether a row
is written at the end `t` of a step of length `dt`. -/
def writes [Field K] [LinearOrder K] [FloorRing K] (dtOut t dt : K) : Bool :=
  if 0 < dtOut then
    if t < ((⌊(t - dt) / dtOut⌋ : K) + 1) * dtOut then false else true
  else true

/-- The rows written (their times) by a sequence of calls of `MoorDyn_Step` with the
lengths `ds` beginning at time `t`: `AllOutput(t, dt)`, source/MoorDyn2.cpp:737-746, with the
time of the integrator.  Calls with a length that is not positive return before,
source/MoorDyn2.cpp:621-627. -/
def rows [Field K] [LinearOrder K] [FloorRing K] (dtOut : K) : K → List K → List K
  | _, [] => []
  | t, d :: ds =>
    if d ≤ 0 then rows dtOut t ds
    else if writes dtOut (t + d) d then (t + d) :: rows dtOut (t + d) ds
    else rows dtOut (t + d) ds

/-- The row written by `MoorDyn_Init`, source/MoorDyn2.cpp:603. -/
def initRows [Field K] [LinearOrder K] [FloorRing K] (dtOut : K) : List K :=
  if writes dtOut 0 0 then [0] else []

/-! ## Files of lines -/

/-- `strcspn(outchannels, "pvUDctsd") < strlen(outchannels)`: whether an output file is
made for a line (source/MoorDyn2.cpp:1154-1170) or a rod (2050-2062). -/
def fileMade (flags : List Char) : Bool :=
  flags.any (· ∈ "pvUDctsd".toList)

/-- What `Line::Output` reads: vectors and numbers at nodes or segments. -/
structure LineData (K : Type) where
  N : ℕ
  time : K
  /-- node positions, velocities, water velocities, hydrodynamic forces -/
  r : ℕ → Fin 3 → K
  rd : ℕ → Fin 3 → K
  U : ℕ → Fin 3 → K
  D : ℕ → Fin 3 → K
  /-- curvatures -/
  Kurv : ℕ → K
  /-- norms of the segment tensions -/
  T : ℕ → K
  /-- segment damping forces -/
  Td : ℕ → Fin 3 → K
  /-- segment strains and rates of strain -/
  strain : ℕ → K
  rate : ℕ → K
  /-- seabed contact forces -/
  B : ℕ → Fin 3 → K

/-- `if (channels.find("p") != string::npos) { .. }` -/
def flagged {α : Type} (flags : List Char) (c : Char) (l : List α) : List α :=
  if c ∈ flags then l else []

/-- `*outfile << "Node" << i << "px \t Node" << i << "py \t Node" << i << "pz \t "`. -/
def title3 (what : String) (i : ℕ) (q : String) : List String :=
  [what ++ toString i ++ q ++ "x", what ++ toString i ++ q ++ "y", what ++ toString i ++ q ++ "z"]

/-- `for (i = 0; i <= N; i++)` with three titles. -/
def nodeTitles3 (N : ℕ) (q : String) : List String :=
  (List.range (N + 1)).flatMap fun i => title3 "Node" i q

/-- `for (i = 1; i <= N; i++)` with three titles. -/
def segTitles3 (N : ℕ) (q : String) : List String :=
  (List.range' 1 N).flatMap fun i => title3 "Seg" i q

/-- `for (i = 0; i <= N; i++)` with one title. -/
def nodeTitles (N : ℕ) (q : String) : List String :=
  (List.range (N + 1)).map fun i => "Node" ++ toString i ++ q

/-- `for (i = 1; i <= N; i++)` with one title. -/
def segTitles (N : ℕ) (q : String) : List String :=
  (List.range' 1 N).map fun i => "Seg" ++ toString i ++ q

/-- The titles written by `Line::initialize`, source/Line.cpp:268-338. -/
def lineHeader (flags : List Char) (N : ℕ) : List String :=
  ["Time"] ++ flagged flags 'p' (nodeTitles3 N "p") ++ flagged flags 'K' (nodeTitles N "Ku") ++
  flagged flags 'v' (nodeTitles3 N "v") ++ flagged flags 'U' (nodeTitles3 N "U") ++
  flagged flags 'D' (nodeTitles3 N "D") ++ flagged flags 't' (segTitles N "Te") ++
  flagged flags 'c' (segTitles3 N "c") ++ flagged flags 's' (segTitles N "St") ++
  flagged flags 'd' (segTitles N "dSt") ++ flagged flags 'b' (nodeTitles3 N "b")

/-- The units written by `Line::initialize`, source/Line.cpp:344-398: the loops
`for (i = 0; i <= 3 * N + 2; i++)`, `for (i = 0; i <= N; i++)`, `for (i = 0; i < N; i++)`
and `for (i = 0; i < 3 * N; i++)`. -/
def lineUnits (flags : List Char) (N : ℕ) : List String :=
  ["(s)"] ++ flagged flags 'p' (List.replicate (3 * N + 3) "(m)") ++
  flagged flags 'K' (List.replicate (N + 1) "(1/m)") ++
  flagged flags 'v' (List.replicate (3 * N + 3) "(m/s)") ++
  flagged flags 'U' (List.replicate (3 * N + 3) "(m/s)") ++
  flagged flags 'D' (List.replicate (3 * N + 3) "(N)") ++
  flagged flags 't' (List.replicate N "(N)") ++
  flagged flags 'c' (List.replicate (3 * N) "(N)") ++
  flagged flags 's' (List.replicate N "(-)") ++
  flagged flags 'd' (List.replicate N "(-/s)") ++
  flagged flags 'b' (List.replicate (3 * N + 3) "(N)")

/-- `for (J = 0; J < 3; J++) *outfile << v[J]`. -/
def values3 (v : Fin 3 → K) : List K := [v 0, v 1, v 2]

/-- The values written by `Line::Output`, source/Line.cpp:1283-1364. -/
def lineRow (flags : List Char) (l : LineData K) : List K :=
  [l.time] ++ flagged flags 'p' ((List.range (l.N + 1)).flatMap fun i => values3 (l.r i)) ++
  flagged flags 'K' ((List.range (l.N + 1)).map l.Kurv) ++
  flagged flags 'v' ((List.range (l.N + 1)).flatMap fun i => values3 (l.rd i)) ++
  flagged flags 'U' ((List.range (l.N + 1)).flatMap fun i => values3 (l.U i)) ++
  flagged flags 'D' ((List.range (l.N + 1)).flatMap fun i => values3 (l.D i)) ++
  flagged flags 't' ((List.range l.N).map l.T) ++
  flagged flags 'c' ((List.range l.N).flatMap fun i => values3 (l.Td i)) ++
  flagged flags 's' ((List.range l.N).map l.strain) ++
  flagged flags 'd' ((List.range l.N).map l.rate) ++
  flagged flags 'b' ((List.range (l.N + 1)).flatMap fun i => values3 (l.B i))

/-! ## Files of rods -/

/-- What `Rod::Output` reads. -/
structure RodData (K : Type) where
  N : ℕ
  time : K
  r : ℕ → Fin 3 → K
  rd : ℕ → Fin 3 → K
  Fnet : ℕ → Fin 3 → K

/-- The titles written by `Rod::openoutput`, source/Rod.cpp:245-270. -/
def rodHeader (flags : List Char) (N : ℕ) : List String :=
  ["Time"] ++ flagged flags 'p' (nodeTitles3 N "p") ++ flagged flags 'v' (nodeTitles3 N "v") ++
  flagged flags 'f' (nodeTitles3 N "F")

/-- The units written by `Rod::openoutput`, source/Rod.cpp:276-295. -/
def rodUnits (flags : List Char) (N : ℕ) : List String :=
  ["(s)"] ++ flagged flags 'p' (List.replicate (3 * N + 3) "(m)") ++
  flagged flags 'v' (List.replicate (3 * N + 3) "(m/s)") ++
  flagged flags 'f' (List.replicate (3 * N + 3) "(N)")

/-- The values written by `Rod::Output`, source/Rod.cpp:1383-1408. -/
def rodRow (flags : List Char) (l : RodData K) : List K :=
  [l.time] ++ flagged flags 'p' ((List.range (l.N + 1)).flatMap fun i => values3 (l.r i)) ++
  flagged flags 'v' ((List.range (l.N + 1)).flatMap fun i => values3 (l.rd i)) ++
  flagged flags 'f' ((List.range (l.N + 1)).flatMap fun i => values3 (l.Fnet i))

/-! ## Files of bodies -/

/-- The types of bodies, source/Body.hpp:95-115. -/
inductive BodyType
  | free | fixed | coupled | cpldpin
deriving DecidableEq

/-- What `MoorDyn_Init` writes in the file of a body: `Body::initialize`,
source/Body.cpp:227-244, which is called for free and pinned coupled bodies only
(source/Time.hpp:538-543); `initializeUnfreeBody`, source/Body.cpp:168-187, writes
nothing.  `units`: the option `WriteUnits`. -/
def bodyStart (t : BodyType) (units : Bool) : List (List String) :=
  match t with
  | .free | .cpldpin =>
    ["Time", "x", "y", "z", "roll", "pitch", "yaw"] ::
      (if units then [["(s)", "(m)", "(m)", "(m)", "(deg)", "(deg)", "(deg)"]] else [])
  | .fixed | .coupled => []

/-- A row of `Body::Output`, source/Body.cpp:645-652: time, position and angles. -/
def bodyRow (time : K) (pos angles : Fin 3 → K) : List K :=
  [time] ++ values3 pos ++ [angles 0, angles 1, angles 2]

end MD.Output
